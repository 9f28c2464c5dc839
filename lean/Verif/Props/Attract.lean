import Verif.Model.Attract
import Verif.Props.Escape
import Verif.Props.Hist2D
/-! Properties C155 and C156: attractors. -/

namespace Verif.Props.Attract
open Verif Spec Model Props Props.Param Props.Hist2D Props.Escape

/-! ### C155: the points of attractors -/

/-- The list has `n` elements. The first comes from `s` and every other one from the element before it, where
`R i p q` says that `q` comes from `p` in step `i`. -/
structure Steps {α : Type} (R : Nat → α → α → Prop) (s : α) (n : Nat) (l : List α) : Prop where
  length : l.length = n
  first : ∀ q, l[0]? = some q → R 0 s q
  next : ∀ i p q, l[i]? = some p → l[i + 1]? = some q → R (i + 1) p q

theorem trail_length {α : Type} (step : α → α) (n : Nat) (s : α) : (trail step n s).length = n := by
  induction n generalizing s with
  | zero => rfl
  | succ n ih => simp [trail, ih]

theorem trail_get {α : Type} (step : α → α) (n : Nat) (s : α) (i : Nat) : (trail step n s)[i]? = if i < n then some (step^[i + 1] s) else none := by
  induction n generalizing s i with
  | zero => simp [trail]
  | succ n ih =>
    rcases i with _ | i
    · simp [trail]
    · simp only [trail, List.getElem?_cons_succ, ih, Nat.add_lt_add_iff_right]
      rfl

/-- A list of the images under `f` of the states of a loop. -/
theorem trail_steps {σ α : Type} (step : σ → σ) (f : σ → α) (R : Nat → α → α → Prop) (inv : Nat → σ → Prop) {s : σ}
    (h0 : inv 0 s) (hs : ∀ i s, inv i s → inv (i + 1) (step s) ∧ R i (f s) (f (step s))) (n : Nat) :
    Steps R (f s) n ((trail step n s).map f) := by
  have hinv : ∀ i, inv i (step^[i] s) := by
    intro i
    induction i with
    | zero => exact h0
    | succ i ih => rw [Function.iterate_succ_apply']; exact (hs i _ ih).1
  have hget : ∀ i q, ((trail step n s).map f)[i]? = some q → q = f (step^[i + 1] s) := by
    intro i q h
    rw [List.getElem?_map, trail_get] at h
    split_ifs at h with hi
    · simpa using h.symm
    · simp at h
  refine ⟨by simp [trail_length], ?_, ?_⟩
  · intro q h
    rw [hget 0 q h]
    exact (hs 0 s h0).2
  · intro i p q hp hq
    rw [hget i p hp, hget (i + 1) q hq, Function.iterate_succ_apply' _ (i + 1)]
    exact (hs (i + 1) _ (hinv (i + 1))).2

theorem trail_simple {α : Type} (step : α → α) (R : α → α → Prop) (s : α) (hs : ∀ s, R s (step s)) (n : Nat) :
    Steps (fun _ => R) s n (trail step n s) := by
  have := trail_steps step id (fun _ => R) (fun _ _ => True) (s := s) trivial (fun i s _ => ⟨trivial, hs s⟩) n
  simpa using this

/-- Something true for the start and kept by the steps is true for the whole list. -/
theorem Steps.all {α : Type} {R : Nat → α → α → Prop} {s : α} {n : Nat} {l : List α} (h : Steps R s n l) (P : α → Prop)
    (hs : P s) (hR : ∀ i p q, P p → R i p q → P q) : ∀ q ∈ l, P q := by
  have : ∀ (i : Nat) (q : α), l[i]? = some q → P q := by
    intro i
    induction i with
    | zero => intro q hq; exact hR 0 s q hs (h.first q hq)
    | succ i ih =>
      intro q hq
      obtain ⟨hl, _⟩ := List.getElem?_eq_some_iff.mp hq
      have hp : l[i]? = some l[i] := List.getElem?_eq_getElem (by omega)
      exact hR (i + 1) _ q (ih _ hp) (h.next i _ q hp hq)
  intro q hq
  obtain ⟨i, hi, rfl⟩ := List.getElem_of_mem hq
  exact this i _ (List.getElem?_eq_getElem hi)

/-- Two lists of steps from the same start that are determined by their steps: the shorter is the beginning of the longer. -/
theorem Steps.prefix {α : Type} {R : Nat → α → α → Prop} (hR : ∀ i p q q', R i p q → R i p q' → q = q') {s : α} {n m : Nat} {l l' : List α}
    (h : Steps R s n l) (h' : Steps R s m l') (hnm : n ≤ m) : l'.take n = l := by
  have hl := h.length
  have hl' := h'.length
  have key : ∀ i : Nat, i < n → l'[i]? = l[i]? := by
    intro i
    induction i with
    | zero =>
      intro hi
      have h1 : l[0]? = some (l[0]'(by omega)) := List.getElem?_eq_getElem (by omega)
      have h2 : l'[0]? = some (l'[0]'(by omega)) := List.getElem?_eq_getElem (by omega)
      rw [h1, h2, hR 0 s _ _ (h'.first _ h2) (h.first _ h1)]
    | succ i ih =>
      intro hi
      have h0 : l[i]? = some (l[i]'(by omega)) := List.getElem?_eq_getElem (by omega)
      have h1 : l[i + 1]? = some (l[i + 1]'(by omega)) := List.getElem?_eq_getElem (by omega)
      have h2 : l'[i + 1]? = some (l'[i + 1]'(by omega)) := List.getElem?_eq_getElem (by omega)
      have h3 := (ih (by omega)).trans h0
      rw [h1, h2, hR (i + 1) _ _ _ (h'.next i _ _ h3 h2) (h.next i _ _ h0 h1)]
  apply List.ext_getElem?
  intro i
  rw [List.getElem?_take]
  split_ifs with hi
  · exact key i hi
  · rw [List.getElem?_eq_none (by omega)]

/-- Ikeda map: scaling by `b`, rotation by an angle that depends on the distance from the origin, and a shift. -/
def Ikeda (a b k p : ℝ) (z w : ℂ) : Prop :=
  let θ := k - p / (1 + (z.re ^ 2 + z.im ^ 2))
  w.re = a + b * (z.re * Real.cos θ - z.im * Real.sin θ) ∧ w.im = b * (z.re * Real.sin θ + z.im * Real.cos θ)

/-- The Gumowski-Mira map with its function. -/
def GM (a b : ℝ) (p q : ℝ × ℝ) : Prop :=
  let f := fun x : ℝ => a * x + 2 * (1 - a) * x ^ 2 / (1 + x ^ 2) ^ 2
  q.1 = b * p.2 + f p.1 ∧ q.2 = -p.1 + f q.1

/-- C155: the list for the Ikeda map. -/
theorem C155_ikeda (a b k p : ℝ) (n : Nat) : Steps (fun _ => Ikeda a b k p) 0 n (ikedaattractorlist a b k p n) := by
  apply trail_simple
  intro z
  unfold Ikeda
  dsimp only
  have hn : ‖z * z‖ = z.re ^ 2 + z.im ^ 2 := by
    rw [norm_mul, ← sq, ← Complex.normSq_eq_norm_sq, Complex.normSq_apply]; ring
  have he : Complex.I * (k : ℂ) - Complex.I * p / ((1 + ‖z * z‖ : ℝ) : ℂ) = ((k - p / (1 + (z.re ^ 2 + z.im ^ 2)) : ℝ) : ℂ) * Complex.I := by
    rw [hn]; push_cast; ring
  rw [he]
  generalize (k - p / (1 + (z.re ^ 2 + z.im ^ 2)) : ℝ) = θ
  have h1 : (Complex.exp ((θ : ℂ) * Complex.I)).re = Real.cos θ := Complex.exp_ofReal_mul_I_re θ
  have h2 : (Complex.exp ((θ : ℂ) * Complex.I)).im = Real.sin θ := Complex.exp_ofReal_mul_I_im θ
  constructor <;> simp [Complex.add_re, Complex.add_im, Complex.mul_re, Complex.mul_im, h1, h2] <;> ring

/-- C155: the list of the attractor with sines and cosines where the new `x` is used for `y`. -/
theorem C155_nattractor (a b c d : ℝ) (n : Nat) :
    Steps (fun _ p q => q.1 = a * Real.sin (a * p.2) + b * Real.cos (b * p.1) ∧ q.2 = c * Real.sin (c * q.1) + d * Real.cos (d * p.2))
      (0, 0) n (nattractorlist a b c d n) :=
  trail_simple _ _ _ (fun _ => ⟨rfl, rfl⟩) n

/-- C155: the list for the Gumowski-Mira map. -/
theorem C155_gumowskimira (x y a b : ℝ) (n : Nat) : Steps (fun _ => GM a b) (x, y) n (gumowskimiraattractorlist x y a b n) := by
  have hf : ∀ x, gumowskimira a x = a * x + 2 * (1 - a) * x ^ 2 / (1 + x ^ 2) ^ 2 := by
    intro x; unfold gumowskimira; dsimp only; rw [div_eq_mul_inv]; ring
  refine trail_steps (s := (x, y, gumowskimira a x)) _ (fun s : ℝ × ℝ × ℝ => (s.1, s.2.1)) (fun _ => GM a b)
    (fun _ s => s.2.2 = gumowskimira a s.1) ?_ ?_ n
  · rfl
  · intro i s hs
    refine ⟨rfl, ?_, ?_⟩
    · dsimp only; rw [hs, hf]
    · dsimp only; rw [hs, hf (b * s.2.1 + gumowskimira a s.1)]; ring

/-- C155: the list of Peter de Jong's map. -/
theorem C155_dejong (a b c d : ℝ) (n : Nat) :
    Steps (fun _ p q => q.1 = Real.sin (a * p.2) - Real.cos (b * p.1) ∧ q.2 = Real.sin (c * p.1) - Real.cos (d * p.2))
      (0, 0) n (peterdejongattractorlist a b c d n) :=
  trail_simple _ _ _ (fun _ => ⟨rfl, rfl⟩) n

/-- C155: the list of Clifford's map. -/
theorem C155_clifford (a b c d : ℝ) (n : Nat) :
    Steps (fun _ p q => q.1 = Real.sin (a * p.2) + c * Real.cos (a * p.1) ∧ q.2 = Real.sin (b * p.1) + d * Real.cos (b * p.2))
      (0, 0) n (cliffordattractorlist a b c d n) :=
  trail_simple _ _ _ (fun _ => ⟨rfl, rfl⟩) n

/-- C155: the list of the fractal dream. -/
theorem C155_dream (a b c d : ℝ) (n : Nat) :
    Steps (fun _ p q => q.1 = Real.sin (b * p.2) + c * Real.sin (b * p.1) ∧ q.2 = Real.sin (a * p.1) + d * Real.sin (a * p.2))
      (1 / 10, 1 / 10) n (fractaldreamattractorlist a b c d n) :=
  trail_simple _ _ _ (fun _ => ⟨rfl, rfl⟩) n

/-- The step of Barry Martin's map. -/
def Hop (a b c : ℝ) (p q : ℝ × ℝ) : Prop :=
  (0 < p.1 → q.1 = p.2 - √|b * p.1 - c|) ∧ (p.1 < 0 → q.1 = p.2 + √|b * p.1 - c|) ∧ (p.1 = 0 → q.1 = p.2) ∧ q.2 = a - p.1

/-- C155: the list of Barry Martin's map. -/
theorem C155_hopalong (a b c : ℝ) (n : Nat) : Steps (fun _ => Hop a b c) (0, 0) n (hopalongattractorlist a b c n) := by
  apply trail_simple
  intro s
  refine ⟨fun h => ?_, fun h => ?_, fun h => ?_, rfl⟩
  · dsimp only; unfold signR; rw [if_pos h]; ring
  · dsimp only; unfold signR; rw [if_neg (by linarith), if_neg h.ne]; ring
  · dsimp only; unfold signR; rw [if_neg (by linarith), if_pos h]; ring

/-- C155: the list of the Duffing oscillator: Euler steps at the times `t`, `t + dt`, .. of
`x'' = x - x³ - a x' + b cos (w t)`. -/
theorem C155_duffing (x y t dt a b w : ℝ) (n : Nat) :
    Steps (fun i p q => q.1 = p.1 + dt * p.2 ∧ q.2 = p.2 + dt * (p.1 - p.1 ^ 3 - a * p.2 + b * Real.cos (w * (t + i * dt))))
      (x, y) n (duffingattractorlist x y t dt a b w n) := by
  refine trail_steps (s := (x, y, t)) _ (fun s : ℝ × ℝ × ℝ => (s.1, s.2.1)) _ (fun i s => s.2.2 = t + i * dt) ?_ ?_ n
  · simp
  · intro i s hs
    refine ⟨?_, ?_, ?_⟩
    · dsimp only; rw [hs]; push_cast; ring
    · dsimp only; ring
    · dsimp only; rw [hs]; ring

/-- Two steps of length 1 without damping and force from (2, 0). -/
example : duffingattractorlist 2 0 0 1 0 0 0 2 = [(2, -6), (-4, -12)] := by
  norm_num [duffingattractorlist, trail]

/-- C155: a longer list of an attractor begins with the shorter one (here for three of them). -/
theorem C155_prefix (a b c d : ℝ) {n m : Nat} (h : n ≤ m) :
    (peterdejongattractorlist a b c d m).take n = peterdejongattractorlist a b c d n ∧
    (cliffordattractorlist a b c d m).take n = cliffordattractorlist a b c d n ∧
    (nattractorlist a b c d m).take n = nattractorlist a b c d n := by
  refine ⟨(C155_dejong a b c d n).prefix ?_ (C155_dejong a b c d m) h, (C155_clifford a b c d n).prefix ?_ (C155_clifford a b c d m) h,
    (C155_nattractor a b c d n).prefix ?_ (C155_nattractor a b c d m) h⟩
  · rintro i p q q' ⟨h1, h2⟩ ⟨h3, h4⟩
    exact Prod.ext (h1.trans h3.symm) (h2.trans h4.symm)
  · rintro i p q q' ⟨h1, h2⟩ ⟨h3, h4⟩
    exact Prod.ext (h1.trans h3.symm) (h2.trans h4.symm)
  · rintro i p q q' ⟨h1, h2⟩ ⟨h3, h4⟩
    have := h1.trans h3.symm
    exact Prod.ext this (by rw [h2, h4, this])

theorem osc_add {u v p q r : ℝ} (hu : |u| ≤ 1) (hv : |v| ≤ 1) (h : r = p * u + q * v) : |r| ≤ |p| + |q| := by
  rw [h]
  refine (abs_add_le _ _).trans ?_
  rw [abs_mul, abs_mul]
  have h1 := mul_le_mul_of_nonneg_left hu (abs_nonneg p)
  have h2 := mul_le_mul_of_nonneg_left hv (abs_nonneg q)
  linarith

/-- C155: the points lie in a rectangle around the origin that depends on the parameters only. -/
theorem C155_bounded (a b c d : ℝ) (n : Nat) :
    (∀ p ∈ peterdejongattractorlist a b c d n, |p.1| ≤ 2 ∧ |p.2| ≤ 2) ∧
    (∀ p ∈ cliffordattractorlist a b c d n, |p.1| ≤ 1 + |c| ∧ |p.2| ≤ 1 + |d|) ∧
    (∀ p ∈ fractaldreamattractorlist a b c d n, |p.1| ≤ 1 + |c| ∧ |p.2| ≤ 1 + |d|) ∧
    (∀ p ∈ nattractorlist a b c d n, |p.1| ≤ |a| + |b| ∧ |p.2| ≤ |c| + |d|) := by
  have hs := Real.abs_sin_le_one
  have hc := Real.abs_cos_le_one
  refine ⟨?_, ?_, ?_, ?_⟩
  · refine (C155_dejong a b c d n).all _ ⟨by norm_num, by norm_num⟩ ?_
    rintro i p q - ⟨h1, h2⟩
    have e1 := osc_add (p := 1) (q := -1) (hs (a * p.2)) (hc (b * p.1)) (r := q.1) (by rw [h1]; ring)
    have e2 := osc_add (p := 1) (q := -1) (hs (c * p.1)) (hc (d * p.2)) (r := q.2) (by rw [h2]; ring)
    norm_num at e1 e2
    exact ⟨e1, e2⟩
  · refine (C155_clifford a b c d n).all _ ⟨by simp; positivity, by simp; positivity⟩ ?_
    rintro i p q - ⟨h1, h2⟩
    have e1 := osc_add (p := 1) (q := c) (hs (a * p.2)) (hc (a * p.1)) (r := q.1) (by rw [h1]; ring)
    have e2 := osc_add (p := 1) (q := d) (hs (b * p.1)) (hc (b * p.2)) (r := q.2) (by rw [h2]; ring)
    rw [abs_one] at e1 e2
    exact ⟨e1, e2⟩
  · refine (C155_dream a b c d n).all _ ⟨?_, ?_⟩ ?_
    · have := abs_nonneg c
      rw [abs_of_pos (by norm_num)]; linarith
    · have := abs_nonneg d
      rw [abs_of_pos (by norm_num)]; linarith
    rintro i p q - ⟨h1, h2⟩
    have e1 := osc_add (p := 1) (q := c) (hs (b * p.2)) (hs (b * p.1)) (r := q.1) (by rw [h1]; ring)
    have e2 := osc_add (p := 1) (q := d) (hs (a * p.1)) (hs (a * p.2)) (r := q.2) (by rw [h2]; ring)
    rw [abs_one] at e1 e2
    exact ⟨e1, e2⟩
  · refine (C155_nattractor a b c d n).all _ ⟨by simp; positivity, by simp; positivity⟩ ?_
    rintro i p q - ⟨h1, h2⟩
    exact ⟨osc_add (hs _) (hc _) h1, osc_add (hs _) (hc _) h2⟩

/-- The first point of Peter de Jong's list is (-1, -1), inside the bound. -/
example : peterdejongattractorlist 1 2 3 4 1 = [(-1, -1)] := by
  norm_num [peterdejongattractorlist, trail]

/-- C155: for `|b| < 1` the points of the Ikeda map lie in a disc. -/
theorem C155_ikeda_bounded (a k p : ℝ) {b : ℝ} (hb : |b| < 1) (n : Nat) : ∀ z ∈ ikedaattractorlist a b k p n, ‖z‖ ≤ |a| / (1 - |b|) := by
  have h1 : 0 < 1 - |b| := by linarith
  refine (C155_ikeda a b k p n).all (fun z => ‖z‖ ≤ |a| / (1 - |b|)) (by simp only [norm_zero]; positivity) ?_
  rintro i z w hz ⟨hre, him⟩
  generalize k - p / (1 + (z.re ^ 2 + z.im ^ 2)) = θ at hre him
  have hw : w = a + b * (z * Complex.exp (θ * Complex.I)) := by
    apply Complex.ext
    · rw [hre]
      simp [Complex.mul_re, Complex.exp_ofReal_mul_I_re, Complex.exp_ofReal_mul_I_im]
    · rw [him]
      simp [Complex.mul_im, Complex.exp_ofReal_mul_I_re, Complex.exp_ofReal_mul_I_im]
  rw [hw]
  refine (norm_add_le _ _).trans ?_
  rw [norm_mul, norm_mul, Complex.norm_exp_ofReal_mul_I, Complex.norm_real, Complex.norm_real, mul_one, Real.norm_eq_abs, Real.norm_eq_abs]
  have h2 := mul_le_mul_of_nonneg_left hz (abs_nonneg b)
  have h3 : |a| + |b| * (|a| / (1 - |b|)) = |a| / (1 - |b|) := by field_simp; ring
  linarith

example : ikedaattractorlist 3 (1 / 2) 0 0 2 = [3, 9 / 2] := by
  norm_num [ikedaattractorlist, trail]

/-- C155: for nonzero `b`, the Gumowski-Mira map can be undone, and Barry Martin's always: no two states have the same successor. -/
theorem C155_undo (a b c : ℝ) (p p' q : ℝ × ℝ) : (b ≠ 0 → GM a b p q → GM a b p' q → p = p') ∧ (Hop a b c p q → Hop a b c p' q → p = p') := by
  constructor
  · rintro hb ⟨h1, h2⟩ ⟨h3, h4⟩
    have hx : p.1 = p'.1 := by linarith
    rw [hx] at h1
    have : b * p.2 = b * p'.2 := by linarith
    exact Prod.ext hx (mul_left_cancel₀ hb this)
  · rintro ⟨h1, h2, h3, h4⟩ ⟨g1, g2, g3, g4⟩
    have hx : p.1 = p'.1 := by linarith
    rw [hx] at h1 h2 h3
    refine Prod.ext hx ?_
    rcases lt_trichotomy p'.1 0 with h | h | h
    · linarith [h2 h, g2 h]
    · linarith [h3 h, g3 h]
    · linarith [h1 h, g1 h]

/-- From (4, 10) one step of Barry Martin's map with `a = 1`, `b = 1`, `c = 0` leads to (8, -3). -/
example : Hop 1 1 0 (4, 10) (8, -3) := by
  refine ⟨fun _ => ?_, fun h => ?_, fun h => ?_, ?_⟩ <;> norm_num at *
  rw [show (4 : ℝ) = 2 ^ 2 by norm_num, Real.sqrt_sq (by norm_num)]; norm_num

/-- The map of Field and Golubitsky: `(λ + α z z* + β Re (z ^ d) + ω i) z + γ (z*) ^ (d - 1)`. -/
noncomputable def icon (a b g o l : ℝ) (d : Nat) (z : ℂ) : ℂ :=
  (l + a * (z * starRingEnd ℂ z) + b * (z ^ d).re + o * Complex.I) * z + g * (starRingEnd ℂ z) ^ (d - 1)

/-- C155: without `o` the points of a symmetric icon are those of the map of Field and Golubitsky. -/
theorem C155_icon_partial (x y a b g l : ℝ) {d : Nat} (hd : 0 < d) (n : Nat) :
    Steps (fun _ z w => w = icon a b g 0 l d z) ⟨x, y⟩ n (symmetriciconattractorlist x y a b g 0 l d n) := by
  apply trail_simple
  intro z
  unfold iconStep icon
  dsimp only
  have h1 : ((‖z * starRingEnd ℂ z‖ : ℝ) : ℂ) = z * starRingEnd ℂ z := by
    rw [Complex.mul_conj, Complex.norm_real, Real.norm_of_nonneg (Complex.normSq_nonneg z)]
  have h2 : (z ^ d).re = z.re * (z ^ (d - 1)).re - z.im * (z ^ (d - 1)).im := by
    obtain ⟨e, rfl⟩ : ∃ e, d = e + 1 := ⟨d - 1, by omega⟩
    rw [Nat.add_sub_cancel, pow_succ', Complex.mul_re]
  rw [h2]
  push_cast
  rw [h1, map_mul, map_pow, Complex.conj_ofReal]
  ring

/-- C155 is false for symmetric icons with `o`: the term `- o c i` has the conjugate `c` of `z` where `o i z` is meant. -/
theorem C155_icon_wrong : iconStep 0 0 0 1 0 4 1 = -Complex.I ∧ icon 0 0 0 1 0 4 1 = Complex.I := by
  constructor
  · simp [iconStep]
  · simp [icon]

/-- C155: symmetry of the icon: a start rotated by a `d`-th part of the circle, or reflected, gives the rotated or reflected
points. `w` is a root of unity. -/
theorem C155_symmetric_partial (x y a b g l : ℝ) {d : Nat} (hd : 0 < d) {w : ℂ} (hw : w ^ d = 1) (n : Nat) :
    symmetriciconattractorlist (w * ⟨x, y⟩).re (w * ⟨x, y⟩).im a b g 0 l d n = (symmetriciconattractorlist x y a b g 0 l d n).map (w * ·) ∧
    symmetriciconattractorlist x (-y) a b g 0 l d n = (symmetriciconattractorlist x y a b g 0 l d n).map (starRingEnd ℂ) := by
  have hmap : ∀ (σ step : ℂ → ℂ), (∀ z, step (σ z) = σ (step z)) → ∀ n z, trail step n (σ z) = (trail step n z).map σ := by
    intro σ step h n
    induction n with
    | zero => intro z; rfl
    | succ n ih => intro z; simp only [trail, List.map_cons, h]; rw [ih]
  have he : ∀ z, iconStep a b g 0 l d z = icon a b g 0 l d z := by
    intro z
    have h := C155_icon_partial z.re z.im a b g l hd 1
    exact h.first (iconStep a b g 0 l d z) rfl
  have hn : starRingEnd ℂ w * w = 1 := by
    have h1 : ‖w‖ = 1 := by
      have : ‖w‖ ^ d = 1 := by rw [← norm_pow, hw, norm_one]
      exact (pow_eq_one_iff_of_nonneg (norm_nonneg w) (by omega)).mp this
    rw [mul_comm, Complex.mul_conj, Complex.normSq_eq_norm_sq, h1]; norm_num
  constructor
  · refine Eq.trans ?_ (hmap (w * ·) _ ?_ n ⟨x, y⟩)
    · rfl
    · intro z
      rw [he, he]
      unfold icon
      have h2 : (starRingEnd ℂ w) ^ (d - 1) = w := by
        have h3 : (starRingEnd ℂ w) ^ d = 1 := by rw [← map_pow, hw, map_one]
        obtain ⟨e, rfl⟩ : ∃ e, d = e + 1 := ⟨d - 1, by omega⟩
        rw [Nat.add_sub_cancel]
        rw [pow_succ] at h3
        calc (starRingEnd ℂ w) ^ e = (starRingEnd ℂ w) ^ e * (starRingEnd ℂ w * w) := by rw [hn, mul_one]
          _ = w := by rw [← mul_assoc, h3, one_mul]
      rw [mul_pow, hw, one_mul, map_mul, mul_pow, h2]
      have h4 : w * z * (starRingEnd ℂ w * starRingEnd ℂ z) = z * starRingEnd ℂ z := by
        calc _ = (starRingEnd ℂ w * w) * (z * starRingEnd ℂ z) := by ring
          _ = _ := by rw [hn, one_mul]
      rw [h4]
      ring
  · refine Eq.trans ?_ (hmap (starRingEnd ℂ) _ ?_ n ⟨x, y⟩)
    · rfl
    · intro z
      rw [he, he]
      unfold icon
      have h5 : ((starRingEnd ℂ z) ^ d).re = (z ^ d).re := by rw [← map_pow, Complex.conj_re]
      rw [h5]
      simp only [map_add, map_mul, map_pow, Complex.conj_conj, Complex.conj_ofReal, Complex.ofReal_zero, zero_mul, map_zero]

/-- C155: with `o` the icon is not symmetric: a rotation by a quarter of the circle of the start does not rotate the next point,
but the map of Field and Golubitsky does. -/
theorem C155_symmetric_wrong : iconStep 0 0 0 1 0 4 (Complex.I * 1) ≠ Complex.I * iconStep 0 0 0 1 0 4 1 ∧
    icon 0 0 0 1 0 4 (Complex.I * 1) = Complex.I * icon 0 0 0 1 0 4 1 := by
  constructor
  · simp only [iconStep]
    intro h
    have := congrArg Complex.re h
    norm_num at this
  · simp [icon]

/-! ### C156: pictures of attractors -/

/-- The colour for a count between the least and the greatest one. -/
theorem attractColor_spec {lo hi : Nat} (h : lo < hi) {N : Int} (hN : 2 ≤ N) (hN2 : N ≤ 2 ^ 24) :
    (∀ c, lo ≤ c → c ≤ hi → 0 ≤ attractColor N lo hi c ∧ attractColor N lo hi c < N ∧
      NearBin lo hi N c (attractColor N lo hi c).toNat) ∧
    ∀ c c', lo ≤ c → c ≤ c' → attractColor N lo hi c ≤ attractColor N lo hi c' := by
  have hm : (0 : ℚ) < ((N - 1 : Int) : ℚ) := by exact_mod_cast (by omega : 0 < N - 1)
  have hm2 : ((N - 1 : Int) : ℚ) ≤ 2 ^ 24 := by exact_mod_cast (by omega : N - 1 ≤ 2 ^ 24)
  have hR : (0 : ℚ) < ((hi - lo : Int) : ℚ) := by exact_mod_cast (by omega : (0 : Int) < hi - lo)
  have hf0 : (0 : ℚ) ≤ ((N - 1 : Int) : ℚ) / ((hi - lo : Int) : ℚ) := by positivity
  obtain ⟨f1, f2⟩ := fl_rel hf0
  have hF := fl_nonneg hf0
  constructor
  · intro c hc1 hc2
    have hz0 : (0 : ℚ) ≤ ((c - lo : Int) : ℚ) := by exact_mod_cast (by omega : (0 : Int) ≤ c - lo)
    have hz1 : ((c - lo : Int) : ℚ) ≤ ((hi - lo : Int) : ℚ) := by exact_mod_cast (by omega : (c - lo : Int) ≤ hi - lo)
    have hq0 : (0 : ℚ) ≤ ((c - lo : Int) : ℚ) * fl (((N - 1 : Int) : ℚ) / ((hi - lo : Int) : ℚ)) := by positivity
    obtain ⟨q1, q2⟩ := fl_rel hq0
    have hQ0 := fl_nonneg hq0
    unfold attractColor
    rw [trunc_nonneg hQ0]
    have hfl := Int.floor_le (fl (((c - lo : Int) : ℚ) * fl (((N - 1 : Int) : ℚ) / ((hi - lo : Int) : ℚ))))
    have hfl2 := Int.lt_floor_add_one (fl (((c - lo : Int) : ℚ) * fl (((N - 1 : Int) : ℚ) / ((hi - lo : Int) : ℚ))))
    have hi0 := Int.floor_nonneg.mpr hQ0
    have hcast : ∀ k : Int, 0 ≤ k → ((k.toNat : Nat) : ℚ) = (k : ℚ) := by
      intro k hk; exact_mod_cast Int.toNat_of_nonneg hk
    have e1 : ((c : ℚ) - lo) / ((hi : ℚ) - lo) * ((N : ℚ) - 1) = ((c - lo : Int) : ℚ) * (((N - 1 : Int) : ℚ) / ((hi - lo : Int) : ℚ)) := by
      push_cast; ring
    have hN1 : ((N : Int) : ℚ) = ((N - 1 : Int) : ℚ) + 1 := by push_cast; ring
    unfold NearBin
    rw [hcast _ hi0, e1]
    dsimp only
    have ht1 : ((c - lo : Int) : ℚ) * (((N - 1 : Int) : ℚ) / ((hi - lo : Int) : ℚ)) ≤ ((N - 1 : Int) : ℚ) := by
      rw [← mul_div_assoc, div_le_iff₀ hR]
      nlinarith
    generalize ((c - lo : Int) : ℚ) = Z at *
    generalize ((hi - lo : Int) : ℚ) = R at *
    generalize ((N - 1 : Int) : ℚ) = m at *
    generalize hFe : fl (m / R) = F at *
    generalize fl (Z * F) = Q at *
    have ht0 : 0 ≤ Z * (m / R) := by positivity
    have g1 : Q ≤ Z * (m / R) * ((1 + 1 / 2 ^ 53) * (1 + 1 / 2 ^ 53)) := by
      have := mul_le_mul_of_nonneg_left f2 hz0
      have := mul_le_mul_of_nonneg_right this (by norm_num : (0 : ℚ) ≤ 1 + 1 / 2 ^ 53)
      linarith
    have g2 : Z * (m / R) * ((1 - 1 / 2 ^ 53) * (1 - 1 / 2 ^ 53)) ≤ Q := by
      have := mul_le_mul_of_nonneg_left f1 hz0
      have := mul_le_mul_of_nonneg_right this (by norm_num : (0 : ℚ) ≤ 1 - 1 / 2 ^ 53)
      linarith
    have k1 : ((1 : ℚ) + 1 / 2 ^ 53) * (1 + 1 / 2 ^ 53) ≤ 1 + 1 / 2 ^ 50 := by norm_num
    have k2 : (1 : ℚ) - 1 / 2 ^ 50 ≤ (1 - 1 / 2 ^ 53) * (1 - 1 / 2 ^ 53) := by norm_num
    have g3 := mul_le_mul_of_nonneg_left k1 ht0
    have g4 := mul_le_mul_of_nonneg_left k2 ht0
    refine ⟨hi0, ?_, by linarith, by linarith⟩
    have h3 : (⌊Q⌋ : ℚ) < ((N : Int) : ℚ) := by
      rw [hN1]
      have : Z * (m / R) * (1 + 1 / 2 ^ 50) < m + 1 := by nlinarith
      linarith
    exact_mod_cast h3
  · intro c c' hc1 hcc
    have hz0 : (0 : ℚ) ≤ ((c - lo : Int) : ℚ) := by exact_mod_cast (by omega : (0 : Int) ≤ c - lo)
    have hz1 : ((c - lo : Int) : ℚ) ≤ ((c' - lo : Int) : ℚ) := by exact_mod_cast (by omega : (c - lo : Int) ≤ c' - lo)
    have h1 := mul_le_mul_of_nonneg_right hz1 hF
    have h0 := mul_nonneg hz0 hF
    unfold attractColor
    rw [trunc_nonneg (fl_nonneg h0), trunc_nonneg (fl_nonneg (h0.trans h1))]
    exact Int.floor_le_floor (fl_mono h0 h1)

/-- The points of `v` are sorted into `n` times `m` bins: `bx` and `by'` give the column and the row. Bins are near the
exact ones and in the order of the coordinates. -/
structure Binned (v : List (ℚ × ℚ)) (x1 x2 y1 y2 : ℚ) (n m : Nat) (bx by' : ℚ → Nat) : Prop where
  cols : ∀ z ∈ v, bx z.1 < n ∧ NearBin x1 x2 n z.1 (bx z.1)
  rows : ∀ z ∈ v, by' z.2 < m ∧ NearBin y1 y2 m z.2 (by' z.2)
  monoX : ∀ z w, x1 ≤ z → z ≤ w → bx z ≤ bx w
  monoY : ∀ z w, y1 ≤ z → z ≤ w → by' z ≤ by' w

/-- The number of points in the bin of column `x` and row `y`. -/
def hits (v : List (ℚ × ℚ)) (bx by' : ℚ → Nat) (x y : Nat) : Nat := v.countP fun z => by' z.2 = y ∧ bx z.1 = x

/-- The image `b` shows how often the bins are hit, with `N` colours: the least hit ones (`lo`) are black, more hits never
give a smaller colour number, and the colour number is the scaled number of hits up to rounding down. The most hit bins
(`hi`) get one of the last two colours. -/
structure Density (b : Bytes) (W H bits : Nat) (count : Nat → Nat → Nat) (lo hi : Nat) : Prop where
  low : ∃ x < W, ∃ y < H, count x y = lo
  high : ∃ x < W, ∃ y < H, count x y = hi
  range : ∀ x < W, ∀ y < H, lo ≤ count x y ∧ count x y ≤ hi
  near : ∀ x < W, ∀ y < H, NearBin lo hi (2 ^ bits) (count x y) (pix b W H bits x y)
  black : ∀ x < W, ∀ y < H, count x y = lo → pix b W H bits x y = 0
  bright : ∀ x < W, ∀ y < H, count x y = hi → 2 ^ bits ≤ pix b W H bits x y + 2
  mono : ∀ x < W, ∀ y < H, ∀ x' < W, ∀ y' < H, count x y ≤ count x' y' → pix b W H bits x y ≤ pix b W H bits x' y'

theorem fold_minmax (l : List Nat) (a : Nat) : (l.foldl min a ∈ a :: l ∧ ∀ x ∈ a :: l, l.foldl min a ≤ x) ∧
    (l.foldl max a ∈ a :: l ∧ ∀ x ∈ a :: l, x ≤ l.foldl max a) := by
  induction l generalizing a with
  | nil => simp
  | cons c l ih =>
    obtain ⟨⟨h1, h2⟩, -⟩ := ih (min a c)
    obtain ⟨-, h3, h4⟩ := ih (max a c)
    simp only [List.foldl_cons]
    refine ⟨⟨?_, ?_⟩, ?_, ?_⟩
    · rcases List.mem_cons.mp h1 with h | h
      · rw [h]
        rcases min_choice a c with e | e <;> rw [e] <;> simp
      · exact List.mem_cons_of_mem _ (List.mem_cons_of_mem _ h)
    · intro x hx
      have hm := h2 (min a c) (by simp)
      rcases List.mem_cons.mp hx with rfl | hx
      · exact hm.trans (min_le_left _ _)
      · rcases List.mem_cons.mp hx with rfl | hx
        · exact hm.trans (min_le_right _ _)
        · exact h2 x (List.mem_cons_of_mem _ hx)
    · rcases List.mem_cons.mp h3 with h | h
      · rw [h]
        rcases max_choice a c with e | e <;> rw [e] <;> simp
      · exact List.mem_cons_of_mem _ (List.mem_cons_of_mem _ h)
    · intro x hx
      have hm := h4 (max a c) (by simp)
      rcases List.mem_cons.mp hx with rfl | hx
      · exact (le_max_left _ _).trans hm
      · rcases List.mem_cons.mp hx with rfl | hx
        · exact (le_max_right _ _).trans hm
        · exact h4 x (List.mem_cons_of_mem _ hx)

theorem mem_entries {h : List (List Nat)} {m n : Nat} (hl : h.length = m) (hr : ∀ row ∈ h, row.length = n) (k : Nat) :
    k ∈ h.flatten ↔ ∃ x < n, ∃ y < m, entry h y x = k := by
  rw [List.mem_flatten]
  constructor
  · rintro ⟨row, h1, h2⟩
    obtain ⟨y, hy, rfl⟩ := List.getElem_of_mem h1
    obtain ⟨x, hx, rfl⟩ := List.getElem_of_mem h2
    refine ⟨x, by rw [← hr _ h1]; exact hx, y, by omega, ?_⟩
    unfold entry
    rw [List.getD_eq_getElem _ _ hy, List.getD_eq_getElem _ _ hx]
  · rintro ⟨x, hx, y, hy, rfl⟩
    have hy' : y < h.length := by omega
    have hm := List.getElem_mem hy'
    have hx' : x < h[y].length := by rw [hr _ hm]; exact hx
    refine ⟨h[y], hm, ?_⟩
    unfold entry
    rw [List.getD_eq_getElem _ _ hy', List.getD_eq_getElem _ _ hx']
    exact List.getElem_mem hx'

/-- C156: the picture of a list of points, not all in one row or column, shows how often the bins are hit. It has the header
and palette of a new image. If all bins are hit equally often, there is a division by zero. -/
theorem C156_picture {v : List (ℚ × ℚ)} {W H bits : Nat} (hd : Depth bits) (hW : 2 ≤ W ∧ W < 2 ^ 24) (hH : 2 ≤ H ∧ H < 2 ^ 24) {x1 x2 y1 y2 : ℚ}
    (hx1 : Least x1 (v.map Prod.fst)) (hx2 : Greatest x2 (v.map Prod.fst)) (hy1 : Least y1 (v.map Prod.snd))
    (hy2 : Greatest y2 (v.map Prod.snd)) (hx : x1 < x2) (hy : y1 < y2) :
    ∃ bx by', Binned v x1 x2 y1 y2 W H bx by' ∧
      ((∃ k, ∀ x < W, ∀ y < H, hits v bx by' x y = k) → plotattractor v W H bits = .error .zeroDivision) ∧
      ((¬ ∃ k, ∀ x < W, ∀ y < H, hits v bx by' x y = k) → ∃ b0 b lo hi, newBMP W H bits = .ok b0 ∧ plotattractor v W H bits = .ok b ∧
        Valid b W H bits ∧ SameHeader b0 b bits ∧ Density b W H bits (hits v bx by') lo hi) := by
  obtain ⟨h, eh, hl, hr, bx, by', hb, m1, m2, he⟩ := C123_histogram (v := v) (n := W) (m := H) ⟨by omega, by omega⟩ ⟨by omega, by omega⟩
    hx1 hx2 hy1 hy2 hx hy
  simp only [Int.toNat_natCast] at hl hr
  have hb' : Binned v x1 x2 y1 y2 W H bx by' := ⟨fun z hz => by obtain ⟨a, b, _⟩ := hb z hz; exact ⟨by omega, b⟩,
    fun z hz => by obtain ⟨_, _, a, b⟩ := hb z hz; exact ⟨by omega, b⟩, m1, m2⟩
  have hent : ∀ x y, entry h y x = hits v bx by' x y := fun x y => he y x
  have hmem : ∀ k, k ∈ h.flatten ↔ ∃ x < W, ∃ y < H, hits v bx by' x y = k := by
    intro k; rw [mem_entries hl hr]; simp only [hent]
  obtain ⟨b0, e0, v0, -, -, -, ec, hz, -⟩ := C01_newBMP_valid W H bits hd hW.2 hH.2
  refine ⟨bx, by', hb', ?_⟩
  have h00 : hits v bx by' 0 0 ∈ h.flatten := (hmem _).mpr ⟨0, by omega, 0, by omega, rfl⟩
  cases hfl : h.flatten with
  | nil => rw [hfl] at h00; simp at h00
  | cons c fh =>
    obtain ⟨⟨l1, l2⟩, u1, u2⟩ := fold_minmax fh c
    have hstart : plotattractor v W H bits = (if ((fh.foldl max c : Nat) - (fh.foldl min c : Nat) : Int) = 0 then .error .zeroDivision
        else ((pyRange 0 H).flatMap fun q => (pyRange 0 W).map fun p => (p, q)).foldlM (fun (bmp : Bytes) (p : Int × Int) =>
          plotxybit bmp p.1 p.2 (attractColor ((2 ^ bits : Nat) : Int) (fh.foldl min c) (fh.foldl max c)
            ((h.getD p.2.toNat []).getD p.1.toNat 0))) b0) := by
      unfold plotattractor
      rw [eh, ok_bind]
      dsimp only
      rw [hfl]
      dsimp only
      rw [e0, ok_bind, ec, ok_bind]
    rw [← hfl] at l1 l2 u1 u2
    generalize fh.foldl max c = hi at *
    generalize fh.foldl min c = lo at *
    have hrange : ∀ x < W, ∀ y < H, lo ≤ hits v bx by' x y ∧ hits v bx by' x y ≤ hi := fun x hx y hy =>
      ⟨l2 _ ((hmem _).mpr ⟨x, hx, y, hy, rfl⟩), u2 _ ((hmem _).mpr ⟨x, hx, y, hy, rfl⟩)⟩
    obtain ⟨xl, hxl, yl, hyl, el⟩ := (hmem _).mp l1
    obtain ⟨xh, hxh, yh, hyh, eh'⟩ := (hmem _).mp u1
    constructor
    · rintro ⟨k, hk⟩
      rw [hstart, if_pos]
      rw [← el, ← eh', hk _ hxl _ hyl, hk _ hxh _ hyh]; simp
    · intro hne
      have hlt : lo < hi := by
        refine lt_of_le_of_ne (by have := hrange xl hxl yl hyl; omega) ?_
        intro e
        exact hne ⟨lo, fun x hx y hy => by have := hrange x hx y hy; omega⟩
      have hN : 2 ≤ ((2 ^ bits : Nat) : Int) ∧ ((2 ^ bits : Nat) : Int) ≤ 2 ^ 24 := by
        rcases hd with rfl | rfl | rfl | rfl <;> norm_num
      obtain ⟨hA, hB⟩ := attractColor_spec hlt hN.1 hN.2
      generalize hcol : attractColor ((2 ^ bits : Nat) : Int) lo hi = col at *
      have hpr := plots_redraw (W := W) (H := H) (bits := bits)
        (fun (bmp : Bytes) (p : Int × Int × Int) => plotxybit bmp p.1 p.2.1 p.2.2) (fun p => reduce bits p.2.2)
        (fun x y => (col (hits v bx by' x y)).toNat)
        (((pyRange 0 H).flatMap fun q => (pyRange 0 W).map fun p => (p, q)).map fun p => (p.1, p.2, col ((h.getD p.2.toNat []).getD p.1.toNat 0)))
        ?_ ?_ v0
      · obtain ⟨b', e, hv, hh, px⟩ := hpr
        rw [List.foldlM_map] at e
        have hpix : ∀ x < W, ∀ y < H, pix b' W H bits x y = (col (hits v bx by' x y)).toNat := by
          intro x hx y hy
          refine (px x y hx hy).1 ?_
          simp only [List.mem_map, List.mem_flatMap, mem_pyRange]
          exact ⟨_, ⟨((x : Int), (y : Int)), ⟨(y : Int), by omega, (x : Int), by omega, rfl⟩, rfl⟩, rfl, rfl⟩
        refine ⟨b0, b', lo, hi, e0, ?_, hv, hh, ⟨xl, hxl, yl, hyl, el⟩, ⟨xh, hxh, yh, hyh, eh'⟩, hrange, ?_, ?_, ?_, ?_⟩
        · rw [hstart, if_neg (by omega)]
          exact e
        · intro x hx y hy
          rw [hpix x hx y hy]
          have := (hA _ (hrange x hx y hy).1 (hrange x hx y hy).2).2.2
          push_cast at this
          exact this
        · intro x hx y hy hc
          rw [hpix x hx y hy]
          obtain ⟨k0, k1, k2⟩ := hA _ (hrange x hx y hy).1 (hrange x hx y hy).2
          rw [hc] at k2 ⊢
          unfold NearBin at k2
          have := k2.1
          rw [sub_self, zero_div, zero_mul, zero_mul] at this
          exact_mod_cast le_antisymm (by exact_mod_cast this) (Nat.zero_le _)
        · intro x hx y hy hc
          rw [hpix x hx y hy]
          obtain ⟨k0, k1, k2⟩ := hA _ (hrange x hx y hy).1 (hrange x hx y hy).2
          rw [hc] at k2 ⊢
          unfold NearBin at k2
          have k3 := k2.2
          have hne : ((hi : ℚ) - lo) ≠ 0 := by
            have : (lo : ℚ) < hi := by exact_mod_cast hlt
            linarith
          rw [div_self hne, one_mul] at k3
          have hN' : (((2 ^ bits : Nat) : Int) : ℚ) ≤ 2 ^ 24 := by exact_mod_cast hN.2
          have : ((2 ^ bits : Nat) : ℚ) < (((col hi).toNat + 3 : Nat) : ℚ) := by
            push_cast at k3 hN' ⊢
            linarith
          have : 2 ^ bits < (col hi).toNat + 3 := by exact_mod_cast this
          omega
        · intro x hx y hy x' hx' y' hy' hc
          rw [hpix x hx y hy, hpix x' hx' y' hy']
          exact Int.toNat_le_toNat (hB _ _ (hrange x hx y hy).1 hc)
      · intro b hb p hp
        simp only [List.mem_map, List.mem_flatMap, mem_pyRange] at hp
        obtain ⟨a, ⟨q, hq, p', hp', rfl⟩, rfl⟩ := hp
        dsimp only
        have hc := hA (hits v bx by' p'.toNat q.toNat) (hrange _ (by omega) _ (by omega)).1 (hrange _ (by omega) _ (by omega)).2
        rw [← hent] at hc
        unfold entry at hc
        refine plot_paints hb p' q ?_
        rintro rfl
        exact ⟨hc.1, by have := hc.2.1; norm_num at this ⊢; exact this⟩
      · intro p hp x y hx hy
        simp only [List.mem_map, List.mem_flatMap, mem_pyRange] at hp
        obtain ⟨a, ⟨q, hq, p', hp', rfl⟩, rfl⟩ := hp
        dsimp only at hx hy ⊢
        subst hx hy
        rw [Int.toNat_natCast, Int.toNat_natCast]
        have hc := hA (hits v bx by' x y) (hrange _ (by omega) _ (by omega)).1 (hrange _ (by omega) _ (by omega)).2
        rw [show (h.getD y []).getD x 0 = hits v bx by' x y from hent x y]
        exact reduce_of_colour hd ⟨hc.1, by have := hc.2.1; push_cast at this; exact this⟩

/-- C156: the file of an attractor holds its picture, and other files stay as they are. -/
theorem C156_file (fs : Files) (file : String) {v : List (ℚ × ℚ)} {x y bits : Int} {b : Bytes} (h : plotattractor v x y bits = .ok b) :
    ∃ fs', saveattractor2file fs file v x y bits = .ok fs' ∧ Saved fs fs' file (· = b) := by
  refine ⟨writeFile fs file b, ?_, write_saved fs file rfl⟩
  unfold saveattractor2file
  rw [h, ok_bind, pure_eq_ok]

/-- C156: points in one column, and images with one column, lead to a division by zero. -/
theorem C156_flat_wrong {v : List (ℚ × ℚ)} (hv : v ≠ []) (n m bits : Int) :
    (∀ x : ℚ, (∀ z ∈ v, z.1 = x) → plotattractor v n m bits = .error .zeroDivision) ∧ plotattractor v 1 m bits = .error .zeroDivision := by
  constructor
  · intro x hx
    unfold plotattractor
    rw [C123_flat_wrong hv hx]; rfl
  · unfold plotattractor
    rw [C123_one_wrong v hv]; rfl

/-- C156 is false for the brightest colour: with rounding, the most hit bin can miss it. In an image with two colours this
makes everything black: here one bin is hit 49 times, one once and the others never. -/
theorem C156_bright_wrong : (do
    let b ← plotattractor ((1, 1) :: List.replicate 49 (0, 0)) 2 2 1
    pure ((pix b 2 2 1 0 0, pix b 2 2 1 1 0), pix b 2 2 1 0 1, pix b 2 2 1 1 1)).toOption = some ((0, 0), 0, 0) ∧
    attractColor 16 0 11 11 = 14 ∧ attractColor 256 0 25 25 = 254 ∧ attractColor (2 ^ 24) 0 11 11 = 2 ^ 24 - 2 := by
  decide +kernel

/-- Three points in one corner, one in the opposite one: white, dark and black. -/
example : (do
    let b ← plotattractor [(0, 0), (0, 0), (0, 0), (1, 1)] 2 2 24
    pure ((pix b 2 2 24 0 0, pix b 2 2 24 1 0), pix b 2 2 24 0 1, pix b 2 2 24 1 1)).toOption = some ((0xffffff, 0), 0, 0x555555) := by
  decide +kernel

/-- All four bins are hit once. -/
example : plotattractor [(0, 0), (0, 1), (1, 0), (1, 1)] 2 2 1 = .error .zeroDivision := by
  decide +kernel

end Verif.Props.Attract
