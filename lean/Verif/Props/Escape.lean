import Verif.Model.Escape
import Verif.Props.Param
import Verif.Props.Pals
import Verif.Props.Guards
import Verif.Props.Files
import Mathlib.Algebra.BigOperators.Intervals
/-! Properties C151 to C154: fractals of points of the plane, their files, iterated function systems and Newton's
method. -/

namespace Verif.Props.Escape
open Verif Spec Model Props Props.Param

variable {b : Bytes} {W H bits : Nat}

/-! ### C151: values of points -/

/-- The sum after `n` steps. -/
noncomputable def partSum (step : ℂ → ℂ) (add : ℂ → ℝ) (z : ℂ) (n : Nat) : ℝ := ∑ j ∈ Finset.range n, add (step^[j + 1] z)

theorem sum_iterate (step : ℂ → ℂ) (add : ℂ → ℝ) (z : ℂ) (n : Nat) :
    (fun (s : ℂ × ℝ) => (step s.1, s.2 + add (step s.1)))^[n] (z, 0) = (step^[n] z, partSum step add z n) := by
  induction n with
  | zero => simp [partSum]
  | succ n ih =>
    rw [Function.iterate_succ_apply', ih]
    unfold partSum
    rw [Finset.sum_range_succ, Function.iterate_succ_apply']

/-- C151: the value of a sum fractal is the number of the first step after which the sum is beyond the limit,
modulo the number of colours, or this number if there is none. -/
theorem C151_sum (step : ℂ → ℂ) (add : ℂ → ℝ) (lim : Nat) (z : ℂ) (m : Nat) :
    (∀ i < lim, (lim : ℝ) < |partSum step add z (i + 1)| → (∀ j < i, |partSum step add z (j + 1)| ≤ lim) → sumEscape step add lim z m = i % m) ∧
    ((∀ j < lim, |partSum step add z (j + 1)| ≤ lim) → sumEscape step add lim z m = m) := by
  classical
  unfold sumEscape
  dsimp only
  constructor
  · intro i hi h1 h2
    have : escape (fun (s : ℂ × ℝ) => (step s.1, s.2 + add (step s.1))) (fun s => decide ((lim : ℝ) < |s.2|)) (z, 0) lim = i := by
      rw [C109_escape _ _ _ _ _ hi]
      refine ⟨?_, fun j hj => ?_⟩
      · rw [sum_iterate]; exact decide_eq_true h1
      · rw [sum_iterate]; exact decide_eq_false (not_lt.mpr (h2 j hj))
    rw [this, if_neg (by omega)]
  · intro h
    have : escape (fun (s : ℂ × ℝ) => (step s.1, s.2 + add (step s.1))) (fun s => decide ((lim : ℝ) < |s.2|)) (z, 0) lim = lim := by
      rw [C109_inside]
      intro j hj
      rw [sum_iterate]; exact decide_eq_false (not_lt.mpr (h j hj))
    rw [this, if_pos rfl]

/-- 30, 60, ..: the second sum is beyond 50. -/
example : sumEscape id (fun _ => 30) 50 0 255 = 1 :=
  (C151_sum id (fun _ => 30) 50 0 255).1 1 (by norm_num) (by norm_num [partSum]) (by
    intro j hj
    obtain rfl : j = 0 := by omega
    norm_num [partSum])

theorem sum_le (step : ℂ → ℂ) (add : ℂ → ℝ) (lim : Nat) (z : ℂ) {m : Nat} (hm : 0 < m) : sumEscape step add lim z m ≤ m := by
  unfold sumEscape
  dsimp only
  split_ifs
  · exact le_rfl
  · exact (Nat.mod_lt _ hm).le

theorem sum_congr {step step' : ℂ → ℂ} {add add' : ℂ → ℝ} {z z' : ℂ}
    (h : ∀ n, |partSum step add z n| = |partSum step' add' z' n|) (lim m : Nat) : sumEscape step add lim z m = sumEscape step' add' lim z' m := by
  by_cases hx : ∃ i, i < lim ∧ (lim : ℝ) < |partSum step add z (i + 1)|
  · classical
    obtain ⟨h1, h2⟩ := Nat.find_spec hx
    have hmin : ∀ j < Nat.find hx, |partSum step add z (j + 1)| ≤ lim := by
      intro j hj
      by_contra hc
      exact Nat.find_min hx hj ⟨by omega, not_le.mp hc⟩
    rw [(C151_sum step add lim z m).1 _ h1 h2 hmin, (C151_sum step' add' lim z' m).1 _ h1 (by rw [← h]; exact h2) (fun j hj => by rw [← h]; exact hmin j hj)]
  · push Not at hx
    rw [(C151_sum step add lim z m).2 hx, (C151_sum step' add' lim z' m).2 (fun j hj => by rw [← h]; exact hx j hj)]

theorem iterate_odd {α : Type} {f g : α → α} {σ : α → α} (hf : ∀ z, g (σ z) = σ (f z)) (z : α) (n : Nat) : g^[n] (σ z) = σ (f^[n] z) := by
  induction n with
  | zero => rfl
  | succ n ih => rw [Function.iterate_succ_apply', ih, hf, Function.iterate_succ_apply']

theorem escape_first {α : Type} {step : α → α} (out : α → Bool) {z z' : α} (h : step z = step z') (m : Nat) : escape step out z m = escape step out z' m := by
  unfold escape
  rcases m with _ | m
  · rfl
  · unfold escapeFrom
    rw [h]

theorem sum_first {step : ℂ → ℂ} (add : ℂ → ℝ) {z z' : ℂ} (h : step z = step z') (lim m : Nat) : sumEscape step add lim z m = sumEscape step add lim z' m := by
  apply sum_congr
  intro n
  unfold partSum
  congr 1
  apply Finset.sum_congr rfl
  intro j _
  rw [Function.iterate_succ_apply, Function.iterate_succ_apply, h]

/-- C151: the pictures have centres of symmetry: 0 for the sine, cosine, spiral and tree, 1/2 for the logistic
map and `- d / 2` for the dragon. -/
theorem C151_centre (z c : ℂ) (m : Nat) :
    sinjulia (-z) c m = sinjulia z c m ∧ cosjulia (-z) c m = cosjulia z c m ∧ spiraljulia (-z) c m = spiraljulia z c m ∧
    barnsleytree (-z) c m = barnsleytree z c m ∧ lambdafn (1 - z) c m = lambdafn z c m ∧ marekdragon (-c - z) c m = marekdragon z c m := by
  refine ⟨?_, ?_, ?_, ?_, ?_, ?_⟩
  · unfold sinjulia
    apply sum_congr
    intro n
    have : partSum (fun z => c * Complex.sin z) Complex.im (-z) n = - partSum (fun z => c * Complex.sin z) Complex.im z n := by
      unfold partSum
      rw [← Finset.sum_neg_distrib]
      apply Finset.sum_congr rfl
      intro j _
      rw [iterate_odd (σ := fun z => -z) (f := fun z => c * Complex.sin z) (by intro z; simp [Complex.sin_neg])]
      simp
    rw [this, abs_neg]
  · exact sum_first _ (by simp [Complex.cos_neg]) _ _
  · exact escape_first _ (by simp) _
  · have := escapeFrom_mirror (step := fun z => c * (z - (signR z.re : ℂ))) (step' := fun z => c * (z - (signR z.re : ℂ)))
      (out := beyond2) (σ := fun z => -z) (by
        intro z
        have : signR (-z).re = -signR z.re := by
          unfold signR
          simp only [Complex.neg_re]
          rcases lt_trichotomy z.re 0 with h | h | h
          · rw [if_pos (by linarith), if_neg (by linarith), if_neg h.ne]; norm_num
          · simp [h]
          · rw [if_neg (by linarith), if_neg (by linarith), if_pos h]
        rw [this]; push_cast; ring) (by intro z; simp [beyond2]) m m 0 z
    exact this
  · exact escape_first _ (by ring) _
  · exact sum_first _ (by ring) _ _

example : lambdafn (-2) 3 10 = lambdafn 3 3 10 := by
  rw [show (-2 : ℂ) = 1 - 3 by norm_num]; exact (C151_centre 3 3 10).2.2.2.2.1

/-- C151: the mirror image of the plane with the conjugate parameter gives the same values. -/
theorem C151_mirror (z c : ℂ) (m : Nat) :
    sinjulia (starRingEnd ℂ z) (starRingEnd ℂ c) m = sinjulia z c m ∧ cosjulia (starRingEnd ℂ z) (starRingEnd ℂ c) m = cosjulia z c m ∧
    marekdragon (starRingEnd ℂ z) (starRingEnd ℂ c) m = marekdragon z c m ∧
    spiraljulia (starRingEnd ℂ z) (starRingEnd ℂ c) m = spiraljulia z c m ∧ lambdafn (starRingEnd ℂ z) (starRingEnd ℂ c) m = lambdafn z c m ∧
    barnsleytree (starRingEnd ℂ z) (starRingEnd ℂ c) m = barnsleytree z c m := by
  have key : ∀ (f g : ℂ → ℂ), (∀ z, g (starRingEnd ℂ z) = starRingEnd ℂ (f z)) → ∀ n,
      |partSum g Complex.im (starRingEnd ℂ z) n| = |partSum f Complex.im z n| := by
    intro f g hf n
    have : partSum g Complex.im (starRingEnd ℂ z) n = - partSum f Complex.im z n := by
      unfold partSum
      rw [← Finset.sum_neg_distrib]
      apply Finset.sum_congr rfl
      intro j _
      rw [iterate_odd (σ := starRingEnd ℂ) hf]
      simp
    rw [this, abs_neg]
  have esc : ∀ (f g : ℂ → ℂ), (∀ z, g (starRingEnd ℂ z) = starRingEnd ℂ (f z)) → escape g beyond2 (starRingEnd ℂ z) m = escape f beyond2 z m := by
    intro f g hf
    exact escapeFrom_mirror (step := f) (step' := g) (out := beyond2) (σ := starRingEnd ℂ) hf (by intro z; simp [beyond2]) m m 0 z
  refine ⟨sum_congr (key _ _ ?_) _ _, sum_congr (key _ _ ?_) _ _, sum_congr (fun n => ?_) _ _, esc _ _ ?_, esc _ _ ?_, esc _ _ ?_⟩
  · intro z; simp [Complex.sin_conj]
  · intro z; simp [Complex.cos_conj]
  · congr 1
    unfold partSum
    apply Finset.sum_congr rfl
    intro j _
    rw [iterate_odd (σ := starRingEnd ℂ) (f := fun z => z * (c + z)) (by intro z; simp)]
    simp
  · intro z
    rw [← Complex.tan_conj]; simp
  · intro z; simp
  · intro z; simp

example : spiraljulia (starRingEnd ℂ Complex.I) (starRingEnd ℂ (1 + Complex.I)) 9 = spiraljulia Complex.I (1 + Complex.I) 9 :=
  (C151_mirror Complex.I (1 + Complex.I) 9).2.2.2.1

theorem bounded_le (z c : ℂ) {m : Nat} (hm : 0 < m) (d : Nat) :
    sinjulia z c m ≤ m ∧ cosjulia z c m ≤ m ∧ tetrationfn z d m ≤ m ∧ marekdragon z c m ≤ m ∧ spiraljulia z c m ≤ m ∧ lambdafn z c m ≤ m ∧
    barnsleytree z c m ≤ m :=
  ⟨sum_le _ _ _ _ hm, sum_le _ _ _ _ hm, sum_le _ _ _ _ hm, sum_le _ _ _ _ hm, C109_le _ _ _ _, C109_le _ _ _ _, C109_le _ _ _ _⟩

/-- C151: a point outside of the picture of the logistic map goes away without bound if the parameter is at least
1. -/
theorem C151_lambda_partial (z c : ℂ) (hc : 1 ≤ ‖c‖) {m : Nat} (h : lambdafn z c m < m) :
    ∀ M : ℝ, ∃ n, M < ‖(fun z : ℂ => c * z * (1 - z))^[n] z‖ := by
  obtain ⟨he, _⟩ := (C109_escape (fun z : ℂ => c * z * (1 - z)) beyond2 z m _ h).mp rfl
  have he : 2 < ‖(fun z : ℂ => c * z * (1 - z))^[lambdafn z c m + 1] z‖ := of_decide_eq_true he
  set k := lambdafn z c m + 1
  set w := (fun z : ℂ => c * z * (1 - z))^[k] z
  have grow : ∀ n, ‖w‖ * (‖w‖ - 1) ^ n ≤ ‖(fun z : ℂ => c * z * (1 - z))^[n] w‖ := by
    intro n
    induction n with
    | zero => simp
    | succ n ih =>
      rw [Function.iterate_succ_apply']
      set v := (fun z : ℂ => c * z * (1 - z))^[n] w
      have h1 : 1 ≤ (‖w‖ - 1) ^ n := one_le_pow₀ (by linarith)
      have h2 : ‖w‖ ≤ ‖v‖ := by nlinarith
      have h3 : ‖v‖ - 1 ≤ ‖1 - v‖ := by
        have := norm_sub_norm_le v 1
        rw [norm_one] at this
        rwa [norm_sub_rev] at this
      rw [norm_mul, norm_mul]
      have h4 : ‖v‖ ≤ ‖c‖ * ‖v‖ := by nlinarith [norm_nonneg v]
      calc ‖w‖ * (‖w‖ - 1) ^ (n + 1) = ‖w‖ * (‖w‖ - 1) ^ n * (‖w‖ - 1) := by ring
        _ ≤ ‖v‖ * (‖w‖ - 1) := by apply mul_le_mul_of_nonneg_right ih; linarith
        _ ≤ ‖v‖ * ‖1 - v‖ := by apply mul_le_mul_of_nonneg_left _ (norm_nonneg _); linarith
        _ ≤ ‖c‖ * ‖v‖ * ‖1 - v‖ := by apply mul_le_mul_of_nonneg_right h4 (norm_nonneg _)
  intro M
  obtain ⟨n, hn⟩ := pow_unbounded_of_one_lt M (show 1 < ‖w‖ - 1 by linarith)
  refine ⟨n + k, ?_⟩
  rw [Function.iterate_add_apply]
  have h1 : 0 < (‖w‖ - 1) ^ n := pow_pos (by linarith) n
  have := grow n
  nlinarith

/-- 3, -6, -42, .. -/
example : ∀ M : ℝ, ∃ n, M < ‖(fun z : ℂ => 1 * z * (1 - z))^[n] 3‖ := by
  apply C151_lambda_partial 3 1 (by simp) (m := 5)
  have : lambdafn 3 1 5 = 0 := by
    unfold lambdafn
    rw [C109_escape _ _ _ _ _ (by norm_num)]
    refine ⟨?_, fun j hj => by omega⟩
    rw [Function.iterate_one]
    apply decide_eq_true
    norm_num
  omega

/-- C151 is false for small parameters: this point counts as outside, but stays near 0. -/
theorem C151_lambda_false {m : Nat} (hm : 0 < m) : lambdafn ⟨1 / 2, 7 / 2⟩ (1 / 5) m = 0 ∧
    ∀ n, ‖(fun z : ℂ => 1 / 5 * z * (1 - z))^[n + 1] ⟨1 / 2, 7 / 2⟩‖ ≤ 5 / 2 := by
  have h1 : (fun z : ℂ => 1 / 5 * z * (1 - z)) ⟨1 / 2, 7 / 2⟩ = 5 / 2 := by
    apply Complex.ext <;> norm_num
  constructor
  · unfold lambdafn
    rw [C109_escape _ _ _ _ _ hm]
    refine ⟨?_, fun j hj => by omega⟩
    rw [Function.iterate_one, show (1 / 5 : ℂ) * ⟨1 / 2, 7 / 2⟩ * (1 - ⟨1 / 2, 7 / 2⟩) = 5 / 2 from h1]
    unfold beyond2
    apply decide_eq_true
    norm_num
  · have small : ∀ n, ‖(fun z : ℂ => 1 / 5 * z * (1 - z))^[n] (-3 / 4)‖ ≤ 1 := by
      intro n
      induction n with
      | zero => norm_num
      | succ n ih =>
        rw [Function.iterate_succ_apply']
        set v := (fun z : ℂ => 1 / 5 * z * (1 - z))^[n] (-3 / 4)
        rw [norm_mul, norm_mul]
        have := norm_sub_le 1 v
        rw [norm_one] at this
        rw [show ‖(1 / 5 : ℂ)‖ = 1 / 5 by norm_num]
        nlinarith [norm_nonneg v, norm_nonneg (1 - v)]
    intro n
    rw [Function.iterate_succ_apply, show (1 / 5 : ℂ) * ⟨1 / 2, 7 / 2⟩ * (1 - ⟨1 / 2, 7 / 2⟩) = 5 / 2 from h1]
    rcases n with _ | n
    · norm_num
    · rw [Function.iterate_succ_apply, show (1 : ℂ) / 5 * (5 / 2) * (1 - 5 / 2) = -3 / 4 by norm_num]
      exact (small n).trans (by norm_num)

/-- C151: a point outside of the picture of the tree goes away without bound if the parameter is at least 2. -/
theorem C151_tree_partial (z d : ℂ) (hd : 2 ≤ ‖d‖) {m : Nat} (h : barnsleytree z d m < m) :
    ∀ M : ℝ, ∃ n, M < ‖(fun z : ℂ => d * (z - (signR z.re : ℂ)))^[n] z‖ := by
  obtain ⟨he, _⟩ := (C109_escape (fun z : ℂ => d * (z - (signR z.re : ℂ))) beyond2 z m _ h).mp rfl
  have he : 2 < ‖(fun z : ℂ => d * (z - (signR z.re : ℂ)))^[barnsleytree z d m + 1] z‖ := of_decide_eq_true he
  set k := barnsleytree z d m + 1
  set w := (fun z : ℂ => d * (z - (signR z.re : ℂ)))^[k] z
  have grow : ∀ n : Nat, 2 ^ n * (‖w‖ - 2) ≤ ‖(fun z : ℂ => d * (z - (signR z.re : ℂ)))^[n] w‖ - 2 := by
    intro n
    induction n with
    | zero => simp
    | succ n ih =>
      rw [Function.iterate_succ_apply']
      set v := (fun z : ℂ => d * (z - (signR z.re : ℂ)))^[n] w
      have hs : ‖(signR v.re : ℂ)‖ ≤ 1 := by
        unfold signR; split_ifs <;> simp
      have h3 : ‖v‖ - 1 ≤ ‖v - (signR v.re : ℂ)‖ := by
        have := norm_sub_norm_le v (signR v.re : ℂ)
        linarith
      rw [norm_mul, pow_succ]
      have h0 : 0 ≤ (2 : ℝ) ^ n * (‖w‖ - 2) := by
        apply mul_nonneg (by positivity); linarith
      have : 2 * (‖v‖ - 1) ≤ ‖d‖ * ‖v - (signR v.re : ℂ)‖ := by
        apply mul_le_mul hd h3 (by linarith) (norm_nonneg _)
      linarith
  intro M
  obtain ⟨n, hn⟩ := pow_unbounded_of_one_lt (M / (‖w‖ - 2)) (show (1 : ℝ) < 2 by norm_num)
  refine ⟨n + k, ?_⟩
  rw [Function.iterate_add_apply]
  rw [div_lt_iff₀ (by linarith)] at hn
  have := grow n
  linarith

/-- 4, 6, 10, 18, .. -/
example : ∀ M : ℝ, ∃ n, M < ‖(fun z : ℂ => 2 * (z - (signR z.re : ℂ)))^[n] 4‖ := by
  apply C151_tree_partial 4 2 (by simp) (m := 5)
  have : barnsleytree 4 2 5 = 0 := by
    unfold barnsleytree
    rw [C109_escape _ _ _ _ _ (by norm_num)]
    refine ⟨?_, fun j hj => by omega⟩
    rw [Function.iterate_one]
    unfold beyond2 signR
    apply decide_eq_true
    norm_num
  omega

/-- C151 is false for smaller parameters: with the parameter 1 the point 4 counts as outside, but goes to 0. -/
theorem C151_tree_false {m : Nat} (hm : 0 < m) : barnsleytree 4 1 m = 0 ∧ (fun z : ℂ => 1 * (z - (signR z.re : ℂ)))^[4] 4 = 0 ∧
    ∀ n, (fun z : ℂ => 1 * (z - (signR z.re : ℂ)))^[n] 0 = 0 := by
  refine ⟨?_, ?_, ?_⟩
  · unfold barnsleytree
    rw [C109_escape _ _ _ _ _ hm]
    refine ⟨?_, fun j hj => by omega⟩
    rw [Function.iterate_one]
    unfold beyond2 signR
    apply decide_eq_true
    norm_num
  · simp only [Function.iterate_succ_apply, Function.iterate_zero, id_eq]
    unfold signR
    norm_num
  · intro n
    induction n with
    | zero => rfl
    | succ n ih =>
      rw [Function.iterate_succ_apply', ih]
      unfold signR
      norm_num

/-! Curves -/

/-- C151: `multicircle` depends on the distance from the origin only. -/
theorem C151_circle (p q d : ℝ) (m : Int) : multicircle p q d m = rndR (Real.sqrt (p ^ 2 + q ^ 2) ^ d) % m := by
  unfold multicircle
  rw [Complex.norm_cpow_real]
  congr 3
  rw [Complex.norm_def, Complex.normSq_mk]
  congr 1; ring

example : multicircle 3 4 1 100 = 5 := by
  rw [C151_circle, show ((3 : ℝ) ^ 2 + 4 ^ 2) = 5 ^ 2 by norm_num, Real.sqrt_sq (by norm_num), Real.rpow_one,
    show (5 : ℝ) = ((5 : Int) : ℝ) by norm_num, Plane.rndR_int]
  norm_num

/-- C151: the points of the hyperbola `p ^ d - q ^ d = k` have the value `|k|`; the axes can be exchanged. -/
theorem C151_hyperbola (p q : ℝ) (d : Nat) (m : Int) :
    (∀ k : Int, p ^ d - q ^ d = k → multihyperbola p q d m = |k| % m) ∧ multihyperbola q p d m = multihyperbola p q d m := by
  unfold multihyperbola
  refine ⟨fun k hk => ?_, by rw [abs_sub_comm]⟩
  rw [hk, show |(k : ℝ)| = ((|k| : Int) : ℝ) by push_cast; rfl, Plane.rndR_int]

example : multihyperbola 2 3 2 100 = 5 := by
  rw [(C151_hyperbola 2 3 2 100).1 (-5) (by norm_num)]; rfl

/-- C151: the points of the astroid with the radius `r` have the value 0, and the picture has its symmetries. -/
theorem C151_astroid (p q r t : ℝ) (m : Int) : astroid (r * Real.cos t ^ 3) (r * Real.sin t ^ 3) r m = 0 ∧
    astroid q p r m = astroid p q r m ∧ astroid (-p) q r m = astroid p q r m ∧ astroid p (-q) r m = astroid p q r m := by
  refine ⟨?_, ?_, ?_, ?_⟩
  · unfold astroid
    dsimp only
    have e : (r * Real.cos t ^ 3 * (r * Real.cos t ^ 3) + r * Real.sin t ^ 3 * (r * Real.sin t ^ 3) - r * r) ^ 3 +
        27 * (r * Real.cos t ^ 3 * (r * Real.cos t ^ 3)) * (r * Real.sin t ^ 3 * (r * Real.sin t ^ 3)) * (r * r) = ((0 : Int) : ℝ) := by
      have hs : Real.sin t ^ 2 = 1 - Real.cos t ^ 2 := by have := Real.sin_sq_add_cos_sq t; linarith
      have e1 : r * Real.sin t ^ 3 * (r * Real.sin t ^ 3) = r ^ 2 * (Real.sin t ^ 2) ^ 3 := by ring
      rw [e1, hs]; push_cast; ring
    rw [e, Int.cast_zero, abs_zero, ← Int.cast_zero, Plane.rndR_int]; simp
  · unfold astroid; dsimp only; congr 3; ring
  · unfold astroid; dsimp only; congr 3; ring
  · unfold astroid; dsimp only; congr 3; ring

/-- C151: `lemniscate` compares the product of the distances from the points `(r, 0)` and `(- r, 0)` with
`r ^ 2`. -/
theorem C151_lemniscate (p q r : ℝ) (m : Int) :
    lemniscate p q r m = truncR |(‖(⟨p - r, q⟩ : ℂ)‖ * ‖(⟨p + r, q⟩ : ℂ)‖) ^ 2 - r ^ 4| % m := by
  unfold lemniscate
  dsimp only
  congr 3
  rw [mul_pow, ← Complex.normSq_eq_norm_sq, ← Complex.normSq_eq_norm_sq, Complex.normSq_mk, Complex.normSq_mk]
  ring

example : lemniscate 1 0 1 100 = 1 := by
  rw [C151_lemniscate]
  have : ((1 : ℝ) - 1) = 0 := by norm_num
  rw [this, show (⟨0, 0⟩ : ℂ) = 0 from rfl, norm_zero, zero_mul, show |(0 : ℝ) ^ 2 - 1 ^ 4| = ((1 : Int) : ℝ) by norm_num, truncR_int]
  norm_num

/-- C151: the values of `xorfn` at whole numbers. -/
theorem C151_xor (p q d m : Nat) : xorfn p q d m = (p ^^^ q) % d % m ∧ xordivfn p q d m = (p ^^^ q) / d % m ∧
    xorfn p p d m = 0 ∧ xorfn q p d m = xorfn p q d m := by
  have h : ∀ n : Nat, (truncR (n : ℝ)).toNat = n := by
    intro n
    have := truncR_int (n : Int)
    rw [Int.cast_natCast] at this
    rw [this]; rfl
  unfold xorfn xordivfn
  rw [h, h]
  refine ⟨rfl, rfl, by simp, by rw [Nat.xor_comm]⟩

example : xorfn ((6 : Nat) : ℝ) ((3 : Nat) : ℝ) 4 100 = 1 := (C151_xor 6 3 4 100).1

/-- C151 is false for `multisuperellipse`: the value need not be a whole number. -/
theorem C151_superellipse_false {m : Int} (hm : 0 < m) : multisuperellipse (1 / 2) (1 / 2) 2 m = 1 / 2 := by
  unfold multisuperellipse modR
  have hm' : (1 : ℝ) ≤ m := by exact_mod_cast hm
  have e : |((1 : ℝ) / 2) ^ 2 + (1 / 2) ^ 2| = 1 / 2 := by norm_num
  have : ⌊((1 : ℝ) / 2) / (m : ℝ)⌋ = 0 := by
    rw [Int.floor_eq_zero_iff]
    constructor
    · positivity
    · rw [div_lt_one (by linarith)]; linarith
  rw [e, this]
  norm_num

/-! Biomorphs -/

theorem biomorphFrom_mirror {α : Type} {f g : α → α} {re im : α → Bool} {σ : α → α} (hf : ∀ z, g (σ z) = σ (f z))
    (hr : ∀ z, re (σ z) = re z) (hi : ∀ z, im (σ z) = im z) (m : Nat) : ∀ (fuel i : Nat) (z : α),
    biomorphFrom g re im m fuel i (σ z) = biomorphFrom f re im m fuel i z
  | 0, _, _ => rfl
  | fuel + 1, i, z => by
    unfold biomorphFrom
    dsimp only
    rw [hf, hr, hi, biomorphFrom_mirror hf hr hi m fuel (i + 1) (f z)]

/-- C151: a biomorph is symmetric to the real axis if its map is. -/
theorem C151_biomorph (f : ℂ → ℂ) (hf : ∀ z, f (starRingEnd ℂ z) = starRingEnd ℂ (f z)) (a : ℝ) (z : ℂ) (m : Nat) :
    biomorph f a (starRingEnd ℂ z) m = biomorph f a z m := by
  classical
  exact biomorphFrom_mirror (σ := starRingEnd ℂ) hf (by intro z; simp) (by intro z; simp) m m 0 z

/-- C151: the biomorphs of all functions are symmetric to the real axis for a real parameter. -/
theorem C151_biomorphs (z : ℂ) (c a : ℝ) (d m : Nat) :
    multibiomorph (starRingEnd ℂ z) c d m a = multibiomorph z c d m a ∧
    multizconjugatebiomorph (starRingEnd ℂ z) c d m a = multizconjugatebiomorph z c d m a ∧
    ∀ g ∈ [Complex.sin, Complex.cos, Complex.sinh, Complex.cosh, Complex.tan, Complex.tanh, Complex.exp],
      multigbiomorph g (starRingEnd ℂ z) c d m a = multigbiomorph g z c d m a := by
  refine ⟨C151_biomorph _ (by intro z; simp) _ _ _, C151_biomorph _ (by intro z; simp) _ _ _, ?_⟩
  intro g hg
  have hgc : ∀ z, g (starRingEnd ℂ z) = starRingEnd ℂ (g z) := by
    intro z
    simp only [List.mem_cons, List.not_mem_nil, or_false] at hg
    rcases hg with rfl | rfl | rfl | rfl | rfl | rfl | rfl
    · exact Complex.sin_conj z
    · exact Complex.cos_conj z
    · exact Complex.sinh_conj z
    · exact Complex.cosh_conj z
    · exact Complex.tan_conj z
    · exact Complex.tanh_conj z
    · exact Complex.exp_conj z
  exact C151_biomorph _ (by intro z; simp [hgc]) _ _ _

example : multigbiomorph Complex.sin (starRingEnd ℂ Complex.I) (1 / 2 : ℝ) 3 9 10 = multigbiomorph Complex.sin Complex.I (1 / 2 : ℝ) 3 9 10 :=
  (C151_biomorphs Complex.I (1 / 2) 10 3 9).2.2 _ (by simp)

/-- C151: `ngonfunc` has the rotations of order `n` as symmetries. -/
theorem C151_ngon (z c w : ℂ) {n : Nat} (hn : n ≠ 0) (hw : w ^ n = 1) (m : Nat) : ngonfunc (w * z) c n m = ngonfunc z c n m ∧ ngonfunc z c n m ≤ m := by
  have key : ∀ (fuel i : Nat) (z w : ℂ), w ^ n = 1 → ngonfunc.loop c n m fuel i (w * z) = ngonfunc.loop c n m fuel i z := by
    intro fuel
    induction fuel with
    | zero => intro i z w _; rfl
    | succ fuel ih =>
      intro i z w hw
      have hw0 : w ≠ 0 := by rintro rfl; rw [zero_pow hn] at hw; exact zero_ne_one hw
      unfold ngonfunc.loop
      by_cases hz : z = 0
      · rw [if_pos hz, if_pos (by rw [hz, mul_zero])]
      · rw [if_neg hz, if_neg (mul_ne_zero hw0 hz)]
        dsimp only
        have hstep : ((w * z) ^ n + c) / (w * z) = w⁻¹ * ((z ^ n + c) / z) := by
          rw [mul_pow, hw]; field_simp
        have hnorm : ‖w⁻¹‖ = 1 := by
          rw [norm_inv, (pow_eq_one_iff_of_nonneg (norm_nonneg w) hn).mp (by rw [← norm_pow, hw, norm_one]), inv_one]
        have hb : beyond2 (w⁻¹ * ((z ^ n + c) / z)) = beyond2 ((z ^ n + c) / z) := by
          unfold beyond2
          rw [norm_mul, hnorm, one_mul]
        rw [hstep, hb, ih _ _ _ (by rw [inv_pow, hw, inv_one])]
  have le : ∀ (fuel i : Nat) (z : ℂ), i + fuel = m → ngonfunc.loop c n m fuel i z ≤ m := by
    intro fuel
    induction fuel with
    | zero => intro i z _; exact le_rfl
    | succ fuel ih =>
      intro i z hi
      unfold ngonfunc.loop
      dsimp only
      split_ifs
      · omega
      · omega
      · exact ih _ _ (by omega)
  exact ⟨key _ _ _ _ hw, le _ _ _ (by omega)⟩

example : ngonfunc (Complex.I * 2) 1 4 9 = ngonfunc 2 1 4 9 := (C151_ngon 2 1 Complex.I (by norm_num) Complex.I_pow_four 9).1

/-! ### C152: pictures of fractals as files -/

theorem write_saved (fs : Files) (nw : String) {n : Bytes} {P : Bytes → Prop} (h : P n) : Saved fs (writeFile fs nw n) nw P := by
  refine ⟨⟨n, by simp [writeFile, saveBMP], h⟩, fun m hm => by simp [writeFile, hm]⟩

/-- The value at a pixel of a picture of the whole domain. -/
def valueAt (W H : Nat) (func : ℚ → ℚ → Int) (dom : ℚ × ℚ × ℚ × ℚ) (x y : Nat) : Int :=
  func (domainAt dom.1 dom.2.1 0 W x) (domainAt dom.2.2.1 dom.2.2.2 0 H y)

/-- The luminosity for the value `c`. -/
def lumOf (c : Int) : Nat := ((255 - c) * 20 % 256).toNat

/-- C152: the picture of a fractal is a file with an image of the given size and depth. Each pixel has the colour
number of its value. The palette has the shades for the values, and other files stay as they are. -/
theorem C152_file (fs : Files) (file : String) {W H bits : Nat} (hd : Depth bits) (hW : 0 < W ∧ W < 2 ^ 24) (hH : 0 < H ∧ H < 2 ^ 24)
    (func : ℚ → ℚ → Int) (hv : ∀ p q, 0 ≤ func p q ∧ func p q < 256) (dom : ℚ × ℚ × ℚ × ℚ) {f : ℚ × ℚ × ℚ} (hf : Pals.Unit f) :
    ∃ fs', savefractal2file fs file W H func dom (.mono f) bits = .ok fs' ∧
      Saved fs fs' file (fun n => Valid n W H bits ∧
        (∀ x y, x < W → y < H → pix n W H bits x y = shade bits f.1 f.2.1 f.2.2 (valueAt W H func dom x y)) ∧
        (bits ≠ 24 → ∀ k < 2 ^ bits, rgbI (palRGB n k) = shadeRGB f (lumOf (Pals.grey bits k)))) := by
  obtain ⟨n0, e0, v0, hpal⟩ : ∃ b, newBMPwithPAL W H bits (.mono f) = .ok b ∧ Valid b W H bits ∧
      (bits ≠ 24 → ∀ k < 2 ^ bits, rgbI (palRGB b k) = shadeRGB f (lumOf (Pals.grey bits k))) := by
    by_cases h24 : bits = 24
    · subst h24
      obtain ⟨b, e, v, -⟩ := C01_newBMP_valid W H 24 hd hW.2 hH.2
      refine ⟨b, ?_, v, fun h => absurd rfl h⟩
      unfold newBMPwithPAL
      rw [e, ok_bind, if_neg (by norm_num)]; rfl
    · have hb : bits = 1 ∨ bits = 4 ∨ bits = 8 := by unfold Depth at hd; omega
      obtain ⟨b, pal, e, v, -, hg, hp⟩ := Pals.C127_new hb hW.2 hH.2 hf
      refine ⟨b, e, v, fun _ k hk => ?_⟩
      rw [v.getallRGBpal_eq h24] at hg
      unfold monoinverseshiftablepal at hp
      rw [Pals.lums hb, ok_bind, pure_eq_ok, List.map_map, ← Except.ok.inj hg] at hp
      have := congrArg (fun l : List RGB => l[k]?) (Except.ok.inj hp)
      simp only [List.getElem?_map, List.getElem?_range hk, Option.map_some, Function.comp_apply, Option.some.injEq] at this
      rw [← this]
      unfold lumOf
      rw [Int.toNat_of_nonneg (by omega), add_zero]
  obtain ⟨n, e, v, hh, px⟩ := C108_plot v0 (x1 := 0) (y1 := 0) (x2 := W) (y2 := H) (by omega) (by omega) (by omega) (by omega) func hv
    dom.1 dom.2.1 dom.2.2.1 dom.2.2.2 hf.1 hf.2.1 hf.2.2
  refine ⟨writeFile fs file n, ?_, write_saved fs file ⟨v, ?_, ?_⟩⟩
  · unfold savefractal2file
    rw [e0, ok_bind]
    rw [show factorList (.mono f) = [f.1, f.2.1, f.2.2] from rfl]
    cases hi : itermultifractal 0 0 W H func dom with
    | error er => rw [show (dom.1, dom.2.1, dom.2.2.1, dom.2.2.2) = dom from rfl, hi] at e; exact absurd e (by simp [bind, Except.bind])
    | ok pts =>
      rw [show (dom.1, dom.2.1, dom.2.2.1, dom.2.2.2) = dom from rfl, hi, ok_bind] at e
      rw [ok_bind, e, ok_bind, pure_eq_ok]
  · intro x y hx hy
    rw [px x y hx hy, if_pos (by omega), min_eq_left (by omega), max_eq_right (by omega), min_eq_left (by omega), max_eq_right (by omega)]
    rfl
  · intro h24 k hk
    rw [samePal hh h24 hk]
    exact hpal h24 k hk

/-- Two pixels with the values 0 and 255: the luminosities 236 and 0. -/
example : (do
    let fs ← savefractal2file (fun _ => none) "a" 2 1 (fun p _ => if p < 1 then 0 else 255) (2, 0, 1, 0) (.mono (1, 1 / 2, 0)) 24
    pure ((fs "a").map fun n => (pix n 2 1 24 0 0, pix n 2 1 24 1 0))) = .ok (some (236 * 65536 + 118 * 256, 0)) := by decide +kernel

theorem part_trunc {q : ℚ} (h0 : 0 ≤ q) (j : Nat) : rnd (fl (q * j)) - 1 ≤ trunc (fl (q * j)) ∧ trunc (fl (q * j)) ≤ rnd (fl (q * j)) := by
  have hp : 0 ≤ fl (q * j) := fl_nonneg (by positivity)
  have n := rnd_near (fl (q * j))
  have t : trunc (fl (q * j)) = ⌊fl (q * j)⌋ := by
    unfold trunc; rw [if_pos hp]
  rw [t]
  have f1 := Int.floor_le (fl (q * j))
  have f2 := Int.lt_floor_add_one (fl (q * j))
  rw [abs_le] at n
  constructor
  · have : (rnd (fl (q * j)) : ℚ) < ⌊fl (q * j)⌋ + 2 := by linarith
    have : rnd (fl (q * j)) < ⌊fl (q * j)⌋ + 2 := by exact_mod_cast this
    omega
  · have : (⌊fl (q * j)⌋ : ℚ) < rnd (fl (q * j)) + 1 := by linarith
    have : ⌊fl (q * j)⌋ < rnd (fl (q * j)) + 1 := by exact_mod_cast this
    omega

/-- C152: the pictures with 256 and with 2 ^ 24 colours look the same: no part of a colour differs by more than
1. -/
theorem C152_depths (fs : Files) (file : String) {W H : Nat} (hW : 0 < W ∧ W < 2 ^ 24) (hH : 0 < H ∧ H < 2 ^ 24)
    (func : ℚ → ℚ → Int) (hv : ∀ p q, 0 ≤ func p q ∧ func p q < 256) (dom : ℚ × ℚ × ℚ × ℚ) {f : ℚ × ℚ × ℚ} (hf : Pals.Unit f) :
    ∃ fs8 fs24 n8 n24, savefractal2file fs file W H func dom (.mono f) 8 = .ok fs8 ∧ savefractal2file fs file W H func dom (.mono f) 24 = .ok fs24 ∧
      fs8 file = some n8 ∧ fs24 file = some n24 ∧ ∀ x y, x < W → y < H →
        let p := rgbI (pixRGB n8 W H 8 x y)
        let q := rgbI (pixRGB n24 W H 24 x y)
        (p.1 - 1 ≤ q.1 ∧ q.1 ≤ p.1) ∧ (p.2.1 - 1 ≤ q.2.1 ∧ q.2.1 ≤ p.2.1) ∧ (p.2.2 - 1 ≤ q.2.2 ∧ q.2.2 ≤ p.2.2) := by
  obtain ⟨fs8, e8, ⟨n8, g8, v8, px8, pal8⟩, -⟩ := C152_file fs file (bits := 8) (by unfold Depth; omega) hW hH func hv dom hf
  obtain ⟨fs24, e24, ⟨n24, g24, v24, px24, -⟩, -⟩ := C152_file fs file (bits := 24) (by unfold Depth; omega) hW hH func hv dom hf
  refine ⟨fs8, fs24, n8, n24, e8, e24, g8, g24, ?_⟩
  intro x y hx hy
  have hvv : 0 ≤ valueAt W H func dom x y ∧ valueAt W H func dom x y < 256 := hv _ _
  dsimp only
  unfold pixRGB
  dsimp only
  rw [if_neg (by norm_num), if_pos rfl, px8 x y hx hy, px24 x y hx hy]
  generalize valueAt W H func dom x y = c at hvv
  have s8 : shade 8 f.1 f.2.1 f.2.2 c = c.toNat := by
    unfold shade; rw [if_neg (by norm_num)]; congr 1; omega
  have hk : c.toNat < 2 ^ 8 := by omega
  rw [s8, pal8 (by norm_num) _ hk]
  have hgrey : (Pals.grey 8 c.toNat : Int) = c := by unfold Pals.grey; omega
  rw [hgrey]
  have hl : ((lumOf c : Nat) : Int) = (255 - c) * 20 % 256 := by unfold lumOf; omega
  unfold shade shadeRGB
  rw [if_pos rfl]
  dsimp only
  rw [← hl]
  have b1 := mixByte hf.1.1 hf.1.2 (lum := lumOf c) (by omega) (by omega)
  have b2 := mixByte hf.2.1.1 hf.2.1.2 (lum := lumOf c) (by omega) (by omega)
  have b3 := mixByte hf.2.2.1 hf.2.2.2 (lum := lumOf c) (by omega) (by omega)
  have t1 := part_trunc hf.1.1 (lumOf c)
  have t2 := part_trunc hf.2.1.1 (lumOf c)
  have t3 := part_trunc hf.2.2.1 (lumOf c)
  rw [Int.cast_natCast] at b1 b2 b3 ⊢
  unfold rgbI
  dsimp only
  have : lumOf c < 256 := by omega
  refine ⟨?_, ?_, ?_⟩ <;> omega

/-- C152 is not exact: the palette has rounded shades and the picture with 2 ^ 24 colours cut ones. -/
theorem C152_depths_false : (shadeRGB (1 / 8, 0, 0) (lumOf 216)).1 = 2 ∧ shade 24 (1 / 8) 0 0 216 = 1 * 65536 := by
  decide +kernel

/-- C152: a picture with two colours has the palette between them, and its colour numbers run against the values
in palettes of 16 and 256 colours. -/
theorem C152_two (fs : Files) (file : String) {W H bits : Nat} (hb : bits = 1 ∨ bits = 4 ∨ bits = 8) (hW : 0 < W ∧ W < 2 ^ 24) (hH : 0 < H ∧ H < 2 ^ 24)
    (func : ℚ → ℚ → Int) (hv : ∀ p q, 0 ≤ func p q ∧ func p q < 256) (dom : ℚ × ℚ × ℚ × ℚ) {c1 c2 : Int}
    (h1 : 0 ≤ c1 ∧ c1 < 2 ^ 24) (h2 : 0 ≤ c2 ∧ c2 < 2 ^ 24) :
    ∃ fs', savefractal2file fs file W H func dom (.two c1 c2) bits = .ok fs' ∧
      Saved fs fs' file (fun n => Valid n W H bits ∧ getallRGBpal n = .ok (dichromaticpal c1 c2 (2 ^ bits) 3 0) ∧
        ∀ x y, x < W → y < H → (pix n W H bits x y : Int) =
          if bits = 1 then valueAt W H func dom x y % 2 else (2 ^ bits - 1 - valueAt W H func dom x y) % 2 ^ bits) := by
  obtain ⟨n0, e0, v0, -, hpal⟩ := Pals.C128_new hb hW.2 hH.2 h1 h2
  have hpts := C108_points (x1 := 0) (y1 := 0) (x2 := W) (y2 := H) (by omega) (by omega) func dom.1 dom.2.1 dom.2.2.1 dom.2.2.2
  have hmain : ∃ n, (itermultifractal 0 0 W H func dom >>= fun pts => plotmultifractal n0 pts [(c1 : ℚ), (c2 : ℚ)]) = .ok n ∧ Valid n W H bits ∧
      SameHeader n0 n bits ∧ ∀ x y, x < W → y < H → (pix n W H bits x y : Int) =
          if bits = 1 then valueAt W H func dom x y % 2 else (2 ^ bits - 1 - valueAt W H func dom x y) % 2 ^ bits := by
    by_cases hb1 : bits = 1
    · subst hb1
      obtain ⟨n, e, v, hh, px⟩ := C108_plot v0 (x1 := 0) (y1 := 0) (x2 := W) (y2 := H) (by omega) (by omega) (by omega) (by omega) func hv
        dom.1 dom.2.1 dom.2.2.1 dom.2.2.2 (r := 0) (g := 0) (d := 0) (by norm_num) (by norm_num) (by norm_num)
      refine ⟨n, ?_, v, hh, ?_⟩
      · rw [← e]
        have : (fun pts => plotmultifractal n0 pts [(c1 : ℚ), (c2 : ℚ)]) = fun pts => plotmultifractal n0 pts [0, 0, 0] := by
          funext pts
          unfold plotmultifractal
          rw [v0.getmaxcolors_eq, v0.bits_eq]
          simp
        rw [this]
      · intro x y hx hy
        rw [px x y hx hy, if_pos (by omega), min_eq_left (by omega), max_eq_right (by omega), min_eq_left (by omega), max_eq_right (by omega), if_pos rfl]
        unfold shade valueAt
        rw [if_neg (by norm_num)]
        omega
    · rw [show dom = (dom.1, dom.2.1, dom.2.2.1, dom.2.2.2) from rfl, hpts, ok_bind]
      rw [min_eq_left (by omega), max_eq_right (by omega), min_eq_left (by omega), max_eq_right (by omega)]
      obtain ⟨n, e, v, hh, px⟩ := C108_reversed v0 (by omega) (f := [(c1 : ℚ), (c2 : ℚ)]) (by simp)
        (pts := (pyRange 0 H).flatMap fun y => (pyRange 0 W).map fun x => (x, y, func (domainAt dom.1 dom.2.1 0 W x) (domainAt dom.2.2.1 dom.2.2.2 0 H y)))
        (fun x y => func (domainAt dom.1 dom.2.1 0 W x) (domainAt dom.2.2.1 dom.2.2.2 0 H y)) (by
          intro p hp
          simp only [List.mem_flatMap, List.mem_map] at hp
          obtain ⟨y, -, x, -, rfl⟩ := hp
          rfl)
      refine ⟨n, e, v, hh, ?_⟩
      intro x y hx hy
      rw [if_neg hb1]
      apply (px x y hx hy).1
      refine ⟨((x : Int), (y : Int), func (domainAt dom.1 dom.2.1 0 W x) (domainAt dom.2.2.1 dom.2.2.2 0 H y)), ?_, rfl, rfl⟩
      simp only [List.mem_flatMap, List.mem_map, mem_pyRange]
      exact ⟨y, by omega, x, by omega, rfl⟩
  obtain ⟨n, e, v, hh, px⟩ := hmain
  refine ⟨writeFile fs file n, ?_, write_saved fs file ⟨v, ?_, px⟩⟩
  · unfold savefractal2file
    rw [e0, ok_bind, show factorList (.two c1 c2) = [(c1 : ℚ), (c2 : ℚ)] from rfl]
    cases hi : itermultifractal 0 0 W H func dom with
    | error er => rw [hi] at e; exact absurd e (by simp [bind, Except.bind])
    | ok pts =>
      rw [hi, ok_bind] at e
      rw [ok_bind, e, ok_bind, pure_eq_ok]
  · rw [Pals.pal_header v0 v hh (by omega), hpal]

example : (do
    let fs ← savefractal2file (fun _ => none) "a" 2 1 (fun p _ => if p < 1 then 0 else 3) (2, 0, 1, 0) (.two 255 0) 1
    pure ((fs "a").map fun n => (pix n 2 1 1 0 0, pix n 2 1 1 1 0, palRGB n 0))) = .ok (some (0, 1, (0, 0, 255))) := by decide +kernel

/-- C152: two colours for a picture with 2 ^ 24 colours raise `ValueError`, and a picture without width or height
raises `ZeroDivisionError`: no file is written. -/
theorem C152_errors (fs : Files) (file : String) {W H : Nat} (hW : W < 2 ^ 24) (hH : H < 2 ^ 24) (func : ℚ → ℚ → Int) (dom : ℚ × ℚ × ℚ × ℚ) :
    (0 < W → 0 < H → ∀ c1 c2, savefractal2file fs file W H func dom (.two c1 c2) 24 = .error .valueError) ∧
    (W = 0 ∨ H = 0 → ∀ f, savefractal2file fs file W H func dom f 24 = .error .zeroDivision) := by
  obtain ⟨b, e, v, -⟩ := C01_newBMP_valid W H 24 (by unfold Depth; omega) hW hH
  have e0 : ∀ f, newBMPwithPAL W H 24 f = .ok b := by
    intro f
    unfold newBMPwithPAL
    rw [show ((24 : Int)) = ((24 : Nat) : Int) from rfl, e, ok_bind, if_neg (by norm_num)]; rfl
  constructor
  · intro h1 h2 c1 c2
    unfold savefractal2file
    rw [e0, ok_bind, show dom = (dom.1, dom.2.1, dom.2.2.1, dom.2.2.2) from rfl, C108_points (by omega) (by omega), ok_bind]
    rw [min_eq_left (by omega), max_eq_right (by omega), min_eq_left (by omega), max_eq_right (by omega)]
    obtain ⟨W, rfl⟩ := Nat.exists_eq_succ_of_ne_zero h1.ne'
    obtain ⟨H, rfl⟩ := Nat.exists_eq_succ_of_ne_zero h2.ne'
    unfold plotmultifractal
    rw [v.getmaxcolors_eq, v.bits_eq]
    simp only [ok_bind]
    rw [if_pos (by norm_num), pyRange_zero, pyRange_zero, List.range_succ_eq_map, List.range_succ_eq_map]
    rfl
  · intro h f
    unfold savefractal2file
    rw [e0, ok_bind, C108_empty (by omega)]
    rfl

/-! ### C153: iterated function systems -/

/-- C153: the map for a random number is the first one whose threshold is above it, or the last. -/
theorem C153_pick (p : ℚ × ℚ × ℚ) (hp : p.1 ≤ p.2.1 ∧ p.2.1 ≤ p.2.2) (j : ℚ) :
    (ifsPick p j = 0 ↔ j < p.1) ∧ (ifsPick p j = 1 ↔ p.1 ≤ j ∧ j < p.2.1) ∧ (ifsPick p j = 2 ↔ p.2.1 ≤ j ∧ j < p.2.2) ∧ (ifsPick p j = 3 ↔ p.2.2 ≤ j) := by
  unfold ifsPick
  split_ifs with a b c <;> simp <;> grind

example : ifsPick IFSfern.2 (1 / 10) = 2 := ((C153_pick IFSfern.2 (by norm_num [IFSfern]) (1 / 10)).2.2.1).mpr (by norm_num [IFSfern])

/-- The point of the plane after the first numbers of the list. -/
def orbit (maps : List Affine) (p : ℚ × ℚ × ℚ) (rd : ℚ → ℚ) (v : ℚ × ℚ) (js : List ℚ) : ℚ × ℚ :=
  js.foldl (fun v j => ifsStep rd (maps.getD (ifsPick p j) (0, 0, 0, 0, 0, 0)) v) v

/-- The pixel for a point of the plane. -/
def ifsPixel (rd : ℚ → ℚ) (x1 y1 y2 xs ys xo yo : Int) (v : ℚ × ℚ) : Int × Int :=
  (trunc (rd (rd (rd (v.1 * xs) + xo) + x1)), trunc (rd (rd (rd ((y2 - y1 : Int) - rd (v.2 * ys)) + yo) + y1)))

/-- C153: the pixels are those of the orbit that lie strictly inside the rectangle, in order, one for a round at
most. -/
theorem C153_points (rd : ℚ → ℚ) {maps : List Affine} (p : ℚ × ℚ × ℚ) (hm : maps.length = 4) (x1 y1 x2 y2 xs ys xo yo : Int) (js : List ℚ) :
    ∃ l, iterIFS rd (maps, p) x1 y1 x2 y2 xs ys xo yo js = .ok l ∧ l.length ≤ js.length ∧
      ∀ q, q ∈ l ↔ (∃ n < js.length, q = ifsPixel rd (min x1 x2) (min y1 y2) (max y1 y2) xs ys xo yo
          (orbit maps p rd ((min x1 x2 : Int), (min y1 y2 : Int)) (js.take (n + 1)))) ∧
        (min x1 x2 < q.1 ∧ q.1 < max x1 x2) ∧ (min y1 y2 < q.2 ∧ q.2 < max y1 y2) := by
  have key : ∀ (X1 Y1 X2 Y2 : Int) (js : List ℚ) (v : ℚ × ℚ), ∃ l, iterIFS.loop rd (maps, p) xs ys xo yo X1 Y1 X2 Y2 (Y2 - Y1) js v = .ok l ∧ l.length ≤ js.length ∧
      ∀ q, q ∈ l ↔ (∃ n < js.length, q = ifsPixel rd X1 Y1 Y2 xs ys xo yo (orbit maps p rd v (js.take (n + 1)))) ∧
        (X1 < q.1 ∧ q.1 < X2) ∧ (Y1 < q.2 ∧ q.2 < Y2) := by
    intro X1 Y1 X2 Y2 js
    induction js with
    | nil => intro v; exact ⟨[], rfl, le_rfl, by simp⟩
    | cons j js ih =>
      intro v
      have hlt : ifsPick p j < maps.length := by rw [hm]; unfold ifsPick; split_ifs <;> norm_num
      set m := maps[ifsPick p j] with hmdef
      have hgd : maps.getD (ifsPick p j) (0, 0, 0, 0, 0, 0) = m := by rw [List.getD_eq_getElem?_getD, List.getElem?_eq_getElem hlt]; rfl
      obtain ⟨l, e, hl, hq⟩ := ih (ifsStep rd m v)
      set w := ifsPixel rd X1 Y1 Y2 xs ys xo yo (ifsStep rd m v) with hw
      refine ⟨if isinrectbnd w.1 w.2 X1 Y1 X2 Y2 = true then w :: l else l, ?_, ?_, ?_⟩
      · unfold iterIFS.loop
        dsimp only
        rw [List.getElem?_eq_getElem hlt]
        dsimp only
        rw [← hmdef, e, ok_bind, pure_eq_ok]
        rfl
      · split_ifs <;> simp <;> omega
      · intro q
        have hin : isinrectbnd w.1 w.2 X1 Y1 X2 Y2 = true ↔ (X1 < w.1 ∧ w.1 < X2) ∧ (Y1 < w.2 ∧ w.2 < Y2) := by
          unfold isinrectbnd; simp; omega
        have horb : ∀ n, orbit maps p rd v ((j :: js).take (n + 1)) = orbit maps p rd (ifsStep rd m v) (js.take n) := by
          intro n
          rw [List.take_succ_cons]
          unfold orbit
          rw [List.foldl_cons, hgd]
        have hex : (∃ n < (j :: js).length, q = ifsPixel rd X1 Y1 Y2 xs ys xo yo (orbit maps p rd v ((j :: js).take (n + 1)))) ↔
            q = w ∨ ∃ n < js.length, q = ifsPixel rd X1 Y1 Y2 xs ys xo yo (orbit maps p rd (ifsStep rd m v) (js.take (n + 1))) := by
          constructor
          · rintro ⟨n, hn, e⟩
            rw [horb] at e
            rcases n with _ | n
            · left; exact e
            · right; exact ⟨n, by simpa using hn, e⟩
          · rintro (e | ⟨n, hn, e⟩)
            · exact ⟨0, by simp, by rw [horb]; exact e⟩
            · exact ⟨n + 1, by simpa using hn, by rw [horb]; exact e⟩
        rw [hex]
        split_ifs with hc
        · rw [List.mem_cons, hq]
          have := hin.mp hc
          constructor
          · rintro (rfl | ⟨h1, h2⟩)
            · exact ⟨Or.inl rfl, this⟩
            · exact ⟨Or.inr h1, h2⟩
          · rintro ⟨h1 | h1, h2⟩
            · exact Or.inl h1
            · exact Or.inr ⟨h1, h2⟩
        · rw [hq]
          constructor
          · rintro ⟨h1, h2⟩; exact ⟨Or.inr h1, h2⟩
          · rintro ⟨h1 | h1, h2⟩
            · subst h1; exact absurd (hin.mpr h2) hc
            · exact ⟨h1, h2⟩
  unfold iterIFS
  rw [sortrec_eq]
  dsimp only
  exact key _ _ _ _ _ _

/-- Four rounds in a square; the pixels of the first two are on or outside of its border. -/
example : iterIFS id IFSsierpinski 0 0 10 10 4 8 1 0 [0, 2 / 5, 9 / 10, 1 / 2] = .ok [(5, 6), (7, 8)] := by decide +kernel

/-- C153: `IFS` paints the pixels of the orbit strictly inside the rectangle and no others. -/
theorem C153_IFS (h : Valid b W H bits) (rd : ℚ → ℚ) {maps : List Affine} (p : ℚ × ℚ × ℚ) (hm : maps.length = 4) (x1 y1 x2 y2 xs ys xo yo : Int)
    (js : List ℚ) {c : Int} (hc : IsColour bits c) :
    ∃ b', IFS rd b (maps, p) x1 y1 x2 y2 xs ys xo yo c js = .ok b' ∧
      Paints b b' W H bits (fun x y => (∃ n < js.length, ((x : Int), (y : Int)) = ifsPixel rd (min x1 x2) (min y1 y2) (max y1 y2) xs ys xo yo
          (orbit maps p rd ((min x1 x2 : Int), (min y1 y2 : Int)) (js.take (n + 1)))) ∧
        (min x1 x2 < x ∧ (x : Int) < max x1 x2) ∧ (min y1 y2 < y ∧ (y : Int) < max y1 y2)) c.toNat := by
  obtain ⟨l, e, -, hq⟩ := C153_points rd p hm x1 y1 x2 y2 xs ys xo yo js
  obtain ⟨b', e', pt⟩ := plots_paints h l (c := c) (fun h24 => by unfold IsColour at hc; subst h24; exact hc)
  refine ⟨b', ?_, ?_⟩
  · unfold IFS; rw [e, ok_bind]; exact e'
  · rw [reduce_of_colour h.depth hc] at pt
    exact pt.congr (fun x y _ _ => (hq ((x : Int), (y : Int))).symm)

/-- C153: `fern` changes pixels strictly inside its rectangle only, and a rectangle that is not in the image
changes nothing. -/
theorem C153_fern (h : Valid b W H bits) (rd : ℚ → ℚ) (x1 y1 x2 y2 : Int) (js : List ℚ) {c : Int} (hc : IsColour bits c) :
    (InImage W H x1 y1 x2 y2 → ∃ b', fern rd b x1 y1 x2 y2 c js = .ok b' ∧
      Paints b b' W H bits (fun x y => (∃ n < js.length, ((x : Int), (y : Int)) =
          ifsPixel rd (min x1 x2) (min y1 y2) (max y1 y2) (|y2 - y1| / 10) (|y2 - y1| / 10) (|x2 - x1| / 2) 0
            (orbit IFSfern.1 IFSfern.2 rd ((min x1 x2 : Int), (min y1 y2 : Int)) (js.take (n + 1)))) ∧
        (min x1 x2 < x ∧ (x : Int) < max x1 x2) ∧ (min y1 y2 < y ∧ (y : Int) < max y1 y2)) c.toNat) ∧
    (¬ InImage W H x1 y1 x2 y2 → fern rd b x1 y1 x2 y2 c js = .ok b) := by
  constructor
  · intro hin
    unfold fern
    rw [(C44_unchanged h _ x1 y1 x2 y2).1 hin]
    exact C153_IFS h rd IFSfern.2 rfl _ _ _ _ _ _ _ _ _ hc
  · intro hin
    exact (C44_unchanged h _ x1 y1 x2 y2).2 hin

/-- C153: `fern2file` does this to the image of a file. -/
theorem C153_fern2file {fs : Files} {ex nw : String} (h : Stored fs ex b W H bits) (rd : ℚ → ℚ) {x1 y1 x2 y2 : Int} (hin : InImage W H x1 y1 x2 y2)
    (js : List ℚ) {c : Int} (hc : IsColour bits c) :
    ∃ fs', fern2file rd fs ex nw x1 y1 x2 y2 c js = .ok fs' ∧ Saved fs fs' nw (fun b' =>
      Paints b b' W H bits (fun x y => (∃ n < js.length, ((x : Int), (y : Int)) =
          ifsPixel rd (min x1 x2) (min y1 y2) (max y1 y2) (|y2 - y1| / 10) (|y2 - y1| / 10) (|x2 - x1| / 2) 0
            (orbit IFSfern.1 IFSfern.2 rd ((min x1 x2 : Int), (min y1 y2 : Int)) (js.take (n + 1)))) ∧
        (min x1 x2 < x ∧ (x : Int) < max x1 x2) ∧ (min y1 y2 < y ∧ (y : Int) < max y1 y2)) c.toNat) :=
  applysave_saved h ((C153_fern h.valid rd x1 y1 x2 y2 js hc).1 hin)

/-- The triangle with the corners (0, 0), (2, 0) and (1, 1). -/
def Triangle (v : ℚ × ℚ) : Prop := 0 ≤ v.2 ∧ v.2 ≤ v.1 ∧ v.1 ≤ 2 - v.2

/-- The open triangle between the middles of its sides. -/
def Middle (v : ℚ × ℚ) : Prop := v.2 < 1 / 2 ∧ 1 < v.1 + v.2 ∧ v.1 - v.2 < 1

/-- C153: in exact arithmetic the orbit of the Sierpinski triangle stays in the triangle and never comes into its
middle, and so for the parts at each scale. -/
theorem C153_sierpinski {v : ℚ × ℚ} (hv : Triangle v) {js : List ℚ} (hj : ∀ j ∈ js, j < 1) (hne : js ≠ []) :
    Triangle (orbit IFSsierpinski.1 IFSsierpinski.2 id v js) ∧ ¬ Middle (orbit IFSsierpinski.1 IFSsierpinski.2 id v js) := by
  have step : ∀ v, Triangle v → ∀ j < 1, Triangle (ifsStep id (IFSsierpinski.1.getD (ifsPick IFSsierpinski.2 j) (0, 0, 0, 0, 0, 0)) v) ∧
      ¬ Middle (ifsStep id (IFSsierpinski.1.getD (ifsPick IFSsierpinski.2 j) (0, 0, 0, 0, 0, 0)) v) := by
    rintro ⟨x, y⟩ ⟨h1, h2, h3⟩ j hj
    have hpick : ifsPick IFSsierpinski.2 j = 0 ∨ ifsPick IFSsierpinski.2 j = 1 ∨ ifsPick IFSsierpinski.2 j = 2 := by
      unfold ifsPick IFSsierpinski
      dsimp only
      split_ifs <;> simp
    dsimp only at h1 h2 h3
    rcases hpick with e | e | e <;> rw [e] <;>
      simp only [IFSsierpinski, ifsStep, List.getD_cons_zero, List.getD_cons_succ, id, Triangle, Middle] <;>
      refine ⟨⟨by linarith, by linarith, by linarith⟩, ?_⟩ <;> rintro ⟨m1, m2, m3⟩ <;> linarith
  induction js using List.reverseRecOn with
  | nil => exact absurd rfl hne
  | append_singleton js j ih =>
    unfold orbit
    rw [List.foldl_append, List.foldl_cons, List.foldl_nil]
    have hv' : Triangle (js.foldl (fun v j => ifsStep id (IFSsierpinski.1.getD (ifsPick IFSsierpinski.2 j) (0, 0, 0, 0, 0, 0)) v) v) := by
      by_cases he : js = []
      · subst he; exact hv
      · exact (ih (fun j hj' => hj j (by simp [hj'])) he).1
    exact step _ hv' j (hj j (by simp))

example : orbit IFSsierpinski.1 IFSsierpinski.2 id (0, 0) [2 / 5, 9 / 10] = (1, 1 / 2) := by decide +kernel

/-! ### C154: Newton's method -/

/-- The number of the first root near `z`. -/
noncomputable def rootNumber (roots : List ℂ) (z : ℂ) : Nat := open Classical in roots.findIdx (fun t => decide (‖t - z‖ < 1 / 100))

/-- The roots are apart from each other. -/
def Apart (roots : List ℂ) : Prop := roots.Pairwise fun s t => 1 / 100 ≤ ‖s - t‖

theorem findRoot_spec {roots : List ℂ} (ha : Apart roots) (z : ℂ) :
    Apart (findRoot roots z).2 ∧ roots <+: (findRoot roots z).2 ∧ (∃ t ∈ (findRoot roots z).2, ‖t - z‖ < 1 / 100) ∧
      open Classical in (findRoot roots z).2.idxOf (findRoot roots z).1 = rootNumber (findRoot roots z).2 z ∧
      ∀ t ∈ (findRoot roots z).2, t ∈ roots ∨ t = z := by
  classical
  have nodup : ∀ l : List ℂ, Apart l → l.Nodup := by
    intro l hl
    refine List.Pairwise.imp ?_ hl
    rintro s t hst rfl
    rw [sub_self, norm_zero] at hst
    norm_num at hst
  unfold findRoot
  split
  · rename_i t ht
    have hmem := List.mem_of_find?_eq_some ht
    have hnear : ‖t - z‖ < 1 / 100 := by have := List.find?_some ht; simpa using this
    refine ⟨ha, List.prefix_rfl, ⟨t, hmem, hnear⟩, ?_, fun t h => Or.inl h⟩
    unfold rootNumber
    dsimp only
    have hlt : roots.findIdx (fun t => decide (‖t - z‖ < 1 / 100)) < roots.length := by
      rw [List.findIdx_lt_length]
      exact ⟨t, hmem, by simpa using hnear⟩
    have hget : roots[roots.findIdx (fun t => decide (‖t - z‖ < 1 / 100))] = t := by
      have := ht
      rw [List.find?_eq_getElem?_findIdx, List.getElem?_eq_getElem hlt] at this
      exact Option.some.inj this
    rw [← hget, (nodup _ ha).idxOf_getElem]
  · rename_i hnone
    have hfar : ∀ s ∈ roots, 1 / 100 ≤ ‖s - z‖ := by
      intro s hs
      have := List.find?_eq_none.mp hnone s hs
      simpa using this
    have ha' : Apart (roots ++ [z]) := by
      unfold Apart
      rw [List.pairwise_append]
      exact ⟨ha, by simp, by simpa using hfar⟩
    refine ⟨ha', List.prefix_append _ _, ⟨z, by simp, by simp⟩, ?_, by simp⟩
    have hz : z ∉ roots := by
      intro hz
      have := hfar z hz
      rw [sub_self, norm_zero] at this
      norm_num at this
    unfold rootNumber
    dsimp only
    rw [List.idxOf_append_of_notMem hz, List.findIdx_append, if_neg (by
      rw [List.findIdx_lt_length]
      push Not
      intro s hs
      simpa using hfar s hs)]
    simp [List.idxOf, List.findIdx_cons]

theorem rootNumber_prefix {l l' : List ℂ} (h : l <+: l') {z : ℂ} (hz : ∃ t ∈ l, ‖t - z‖ < 1 / 100) : rootNumber l' z = rootNumber l z := by
  classical
  obtain ⟨m, rfl⟩ := h
  unfold rootNumber
  rw [List.findIdx_append, if_pos]
  rw [List.findIdx_lt_length]
  obtain ⟨t, ht, hn⟩ := hz
  exact ⟨t, ht, by simpa using hn⟩

theorem rootNumber_lt {l : List ℂ} {z : ℂ} (hz : ∃ t ∈ l, ‖t - z‖ < 1 / 100) : rootNumber l z < l.length := by
  classical
  unfold rootNumber
  rw [List.findIdx_lt_length]
  obtain ⟨t, ht, hn⟩ := hz
  exact ⟨t, ht, by simpa using hn⟩

/-- Lists of three factors. -/
def Triples (factors : List (List ℚ)) : Prop :=
  ∀ f ∈ factors, ∃ r g d : ℚ, f = [r, g, d] ∧ (0 ≤ r ∧ r ≤ 1) ∧ (0 ≤ g ∧ g ≤ 1) ∧ (0 ≤ d ∧ d ≤ 1)

/-- The colour number for the root with the number `k` reached in `c` steps: a shade of the factors of the root, or
with a palette the colour number `c` from the end. -/
def newtonColour (bits : Nat) (factors : List (List ℚ)) (k c : Nat) : Nat :=
  if bits = 24 then
    match factors[k]? with
    | some [r, g, d] => shade 24 r g d c
    | _ => 0
  else 2 ^ bits - 1 - c % 2 ^ bits

theorem mix_shade {r g d : ℚ} (hr : 0 ≤ r ∧ r ≤ 1) (hg : 0 ≤ g ∧ g ≤ 1) (hd : 0 ≤ d ∧ d ≤ 1) (c : Int) :
    ∃ k : Int, colormix (((255 - c) * 20).fmod 256) [r, g, d] = .ok k ∧ 0 ≤ k ∧ k < 2 ^ 24 ∧ k.toNat = shade 24 r g d c := by
  have hlum : ((255 - c) * 20).fmod 256 = ((255 - c) * 20) % 256 := Int.fmod_eq_emod_of_nonneg _ (by norm_num)
  rw [hlum]
  obtain ⟨k, ek, k0, k1, k2⟩ := C108_colormix hr hg hd (lum := ((255 - c) * 20) % 256) (by omega) (by omega)
  refine ⟨k, ek, k0, k1, ?_⟩
  rw [shade, if_pos rfl]
  have hpk := (C41_pack_unpack k).1
  rw [k2] at hpk
  have br := mixByte hr.1 hr.2 (lum := ((255 - c) * 20) % 256) (by omega) (by omega)
  have bg := mixByte hg.1 hg.2 (lum := ((255 - c) * 20) % 256) (by omega) (by omega)
  have bd := mixByte hd.1 hd.2 (lum := ((255 - c) * 20) % 256) (by omega) (by omega)
  rw [RGB2int_eq, rgbValue] at hpk
  dsimp only at hpk ⊢
  generalize trunc (fl (r * (((255 - c) * 20 % 256 : Int) : ℚ))) = t1 at *
  generalize trunc (fl (g * (((255 - c) * 20 % 256 : Int) : ℚ))) = t2 at *
  generalize trunc (fl (d * (((255 - c) * 20 % 256 : Int) : ℚ))) = t3 at *
  omega

theorem newton_loop {factors : List (List ℚ)} (hF : Triples factors) (val : Int → Int → Option (ℂ × Nat)) {S : ℂ → Prop}
    (hS : bits = 24 → ∀ l, Apart l → (∀ t ∈ l, S t) → l.length ≤ factors.length) :
    ∀ (l : List (Int × Int × Option (ℂ × Nat))), (∀ p ∈ l, p.2.2 = val p.1 p.2.1) → (∀ p ∈ l, ∀ t c, p.2.2 = some (t, c) → S t) →
    ∀ (b : Bytes) (roots : List ℂ), Valid b W H bits → Apart roots → (∀ t ∈ roots, S t) →
    ∃ b' roots', newtonLoop ((2 ^ bits : Nat) : Int) factors l (b, roots) = .ok (b', roots') ∧ Valid b' W H bits ∧ SameHeader b b' bits ∧
      Apart roots' ∧ roots <+: roots' ∧ (∀ t ∈ roots', t ∈ roots ∨ ∃ p ∈ l, ∃ c, p.2.2 = some (t, c)) ∧
      (∀ p ∈ l, ∀ z c, p.2.2 = some (z, c) → ∃ t ∈ roots', ‖t - z‖ < 1 / 100) ∧
      ∀ x y : Nat, x < W → y < H →
        (∀ z c, (∃ p ∈ l, (x : Int) = p.1 ∧ (y : Int) = p.2.1) → val x y = some (z, c) →
          pix b' W H bits x y = newtonColour bits factors (rootNumber roots' z) c) ∧
        ((¬ ∃ p ∈ l, (x : Int) = p.1 ∧ (y : Int) = p.2.1) ∨ val x y = none → pix b' W H bits x y = pix b W H bits x y) := by
  intro l
  induction l with
  | nil =>
    intro _ _ b roots hb ha _
    exact ⟨b, roots, rfl, hb, ⟨rfl, fun _ _ => rfl⟩, ha, List.prefix_rfl, fun t h => Or.inl h, by simp, fun x y _ _ => ⟨by simp, fun _ => rfl⟩⟩
  | cons p l ih =>
    intro hval hl b roots hb ha hr
    obtain ⟨px, py, r⟩ := p
    have hv0 : r = val px py := hval _ (List.mem_cons_self)
    have hval' : ∀ p ∈ l, p.2.2 = val p.1 p.2.1 := fun p hp => hval p (List.mem_cons_of_mem _ hp)
    have hl' : ∀ p ∈ l, ∀ t c, p.2.2 = some (t, c) → S t := fun p hp => hl p (List.mem_cons_of_mem _ hp)
    rcases r with _ | ⟨z, c⟩
    · obtain ⟨b', roots', e, v, hh, ha', hp, ho, hn, hpx⟩ := ih hval' hl' b roots hb ha hr
      refine ⟨b', roots', by unfold newtonLoop; exact e, v, hh, ha', hp, ?_, ?_, ?_⟩
      · intro t ht
        rcases ho t ht with h | ⟨p, hp, c, e⟩
        · exact Or.inl h
        · exact Or.inr ⟨p, List.mem_cons_of_mem _ hp, c, e⟩
      · intro p hp z c e
        rcases List.mem_cons.mp hp with rfl | hp
        · simp at e
        · exact hn p hp z c e
      · intro x y hx hy
        refine ⟨fun z c hex e => ?_, fun hno => ?_⟩
        · obtain ⟨p, hp, e1, e2⟩ := hex
          rcases List.mem_cons.mp hp with rfl | hp
          · dsimp only at e1 e2; rw [e1, e2, ← hv0] at e; simp at e
          · exact (hpx x y hx hy).1 z c ⟨p, hp, e1, e2⟩ e
        · apply (hpx x y hx hy).2
          rcases hno with hno | hno
          · left
            rintro ⟨p, hp, h⟩
            exact hno ⟨p, List.mem_cons_of_mem _ hp, h⟩
          · exact Or.inr hno
    · obtain ⟨f1, f2, f3, f4, f5⟩ := findRoot_spec ha z
      have hr' : ∀ t ∈ (findRoot roots z).2, S t := by
        intro t ht
        rcases f5 t ht with h | rfl
        · exact hr t h
        · exact hl _ (List.mem_cons_self) t c rfl
      obtain ⟨k, ek, hkc, hk⟩ : ∃ k : Int, (open Classical in (if bits = 24 then
            match factors[(findRoot roots z).2.idxOf (findRoot roots z).1]? with
            | none => .error .indexError
            | some f => colormix (((255 - (c : Int)) * 20).fmod 256) f
          else pure (((2 ^ bits : Nat) : Int) - 1 - (c : Int).fmod ((2 ^ bits : Nat) : Int)) : Py Int)) = .ok k ∧ IsColour bits k ∧
          k.toNat = newtonColour bits factors (rootNumber (findRoot roots z).2 z) c := by
        by_cases h24 : bits = 24
        · have hlt : rootNumber (findRoot roots z).2 z < factors.length := lt_of_lt_of_le (rootNumber_lt f3) (hS h24 _ f1 hr')
          obtain ⟨r, g, d, ef, c1, c2, c3⟩ := hF _ (List.getElem_mem hlt)
          obtain ⟨k, ek, k0, k1, k2⟩ := mix_shade c1 c2 c3 (c : Int)
          refine ⟨k, ?_, ?_, ?_⟩
          · rw [if_pos h24, f4, List.getElem?_eq_getElem hlt, ef]
            exact ek
          · subst h24; exact ⟨k0, k1⟩
          · unfold newtonColour
            rw [if_pos h24, List.getElem?_eq_getElem hlt, ef]
            exact k2
        · have hpos : 0 < 2 ^ bits := by positivity
          have hmod := Nat.mod_lt c hpos
          have hfm : (c : Int).fmod ((2 ^ bits : Nat) : Int) = ((c % 2 ^ bits : Nat) : Int) := by
            rw [Int.fmod_eq_emod_of_nonneg _ (by positivity)]; push_cast; rfl
          refine ⟨((2 ^ bits : Nat) : Int) - 1 - (c : Int).fmod ((2 ^ bits : Nat) : Int), by rw [if_neg h24]; rfl, ?_, ?_⟩
          · rw [hfm]
            have : ((2 : Int) ^ bits) = ((2 ^ bits : Nat) : Int) := by push_cast; rfl
            unfold IsColour
            rw [this]
            omega
          · unfold newtonColour
            rw [if_neg h24, hfm]
            omega
      obtain ⟨b1, e1, pt⟩ := plot_paints hb px py (c := k) (fun h => by subst h; exact hkc)
      rw [reduce_of_colour hb.depth hkc, hk] at pt
      obtain ⟨b', roots', e, v, hh, ha', hp, ho, hn, hpx⟩ := ih hval' hl' b1 (findRoot roots z).2 pt.valid f1 hr'
      have hnear : ∃ t ∈ roots', ‖t - z‖ < 1 / 100 := by
        obtain ⟨t, ht, hd⟩ := f3
        exact ⟨t, hp.subset ht, hd⟩
      refine ⟨b', roots', ?_, v, ⟨hh.1.trans pt.header.1, fun i hi => (hh.2 i hi).trans (pt.header.2 i hi)⟩, ha', f2.trans hp, ?_, ?_, ?_⟩
      · unfold newtonLoop
        dsimp only
        rw [hb.bits_eq, ok_bind]
        refine (congrArg (fun r : Py Int => r >>= fun color => plotxybit b px py color >>= fun bmp =>
          newtonLoop ((2 ^ bits : Nat) : Int) factors l (bmp, (findRoot roots z).2)) ek).trans ?_
        rw [ok_bind, e1, ok_bind]
        exact e
      · intro t ht
        rcases ho t ht with h | ⟨p, hp, c, e⟩
        · rcases f5 t h with h | rfl
          · exact Or.inl h
          · exact Or.inr ⟨_, List.mem_cons_self, c, rfl⟩
        · exact Or.inr ⟨p, List.mem_cons_of_mem _ hp, c, e⟩
      · intro p hp z' c' e
        rcases List.mem_cons.mp hp with rfl | hp
        · simp only [Option.some.injEq, Prod.mk.injEq] at e
          rw [← e.1]; exact hnear
        · exact hn p hp z' c' e
      · intro x y hx hy
        by_cases hin : ∃ p ∈ l, (x : Int) = p.1 ∧ (y : Int) = p.2.1
        · refine ⟨fun z' c' _ e => (hpx x y hx hy).1 z' c' hin e, fun hno => ?_⟩
          have hnone : val x y = none := by
            rcases hno with hno | hno
            · obtain ⟨p, hp, h⟩ := hin
              exact absurd ⟨p, List.mem_cons_of_mem _ hp, h⟩ hno
            · exact hno
          rw [(hpx x y hx hy).2 (Or.inr hnone)]
          apply pt.outside x y hx hy
          rintro ⟨q1, q2⟩
          rw [q1, q2, ← hv0] at hnone
          simp at hnone
        · rw [(hpx x y hx hy).2 (Or.inl hin)]
          refine ⟨fun z' c' hex e => ?_, fun hno => ?_⟩
          · obtain ⟨p, hpl, q1, q2⟩ := hex
            rcases List.mem_cons.mp hpl with rfl | hpl
            · dsimp only at q1 q2
              rw [pt.inside x y hx hy ⟨q1, q2⟩]
              rw [q1, q2, ← hv0] at e
              simp only [Option.some.injEq, Prod.mk.injEq] at e
              rw [← e.1, ← e.2, rootNumber_prefix hp f3]
            · exact absurd ⟨p, hpl, q1, q2⟩ hin
          · apply pt.outside x y hx hy
            rintro ⟨q1, q2⟩
            rcases hno with hno | hno
            · exact hno ⟨_, List.mem_cons_self, q1, q2⟩
            · rw [q1, q2, ← hv0] at hno; simp at hno

/-- C154: `newtonsfractal` returns a list of roots that are at least 1/100 apart. Each point that converges is
within 1/100 of one of them, and its pixel has a colour of the first such root and of the number of steps. The
other pixels stay as they are. The factors must suffice for all roots. -/
theorem C154_newton (h : Valid b W H bits) {x1 y1 x2 y2 : Int} (hx : x1 ≠ x2) (hy : y1 ≠ y2) (func : ℚ → ℚ → Option (ℂ × Nat)) (pmax pmin qmax qmin : ℚ)
    {factors : List (List ℚ)} (hF : Triples factors)
    (hS : bits = 24 → ∀ l, Apart l → (∀ t ∈ l, ∃ p q c, func p q = some (t, c)) → l.length ≤ factors.length) :
    ∃ b' roots, newtonsfractal b x1 y1 x2 y2 func (pmax, pmin, qmax, qmin) factors = .ok (b', roots) ∧ Valid b' W H bits ∧ SameHeader b b' bits ∧
      Apart roots ∧ (∀ t ∈ roots, ∃ p q c, func p q = some (t, c)) ∧
      ∀ x y : Nat, x < W → y < H →
        let inside := (min x1 x2 ≤ x ∧ (x : Int) < max x1 x2) ∧ (min y1 y2 ≤ y ∧ (y : Int) < max y1 y2)
        let v := func (domainAt pmax pmin (min x1 x2) (max x1 x2) x) (domainAt qmax qmin (min y1 y2) (max y1 y2) y)
        (∀ z c, inside → v = some (z, c) → (∃ t ∈ roots, ‖t - z‖ < 1 / 100) ∧ pix b' W H bits x y = newtonColour bits factors (rootNumber roots z) c) ∧
        (¬ inside ∨ v = none → pix b' W H bits x y = pix b W H bits x y) := by
  set l : List (Int × Int × Option (ℂ × Nat)) := (pyRange (min y1 y2) (max y1 y2)).flatMap fun y => (pyRange (min x1 x2) (max x1 x2)).map fun x =>
        (x, y, func (domainAt pmax pmin (min x1 x2) (max x1 x2) x) (domainAt qmax qmin (min y1 y2) (max y1 y2) y)) with hl
  have hpts : iternewtonsfractal x1 y1 x2 y2 func (pmax, pmin, qmax, qmin) = .ok l := by
    unfold iternewtonsfractal mapfractaldomain
    rw [sortrec_eq]
    dsimp only
    rw [if_neg (by omega)]
    simp only [bind, Except.bind, pure, Except.pure, List.flatMap_map, List.map_map, Function.comp_def, hl]
  have hmem : ∀ p, p ∈ l ↔ (min x1 x2 ≤ p.1 ∧ p.1 < max x1 x2) ∧ (min y1 y2 ≤ p.2.1 ∧ p.2.1 < max y1 y2) ∧
      p.2.2 = func (domainAt pmax pmin (min x1 x2) (max x1 x2) p.1) (domainAt qmax qmin (min y1 y2) (max y1 y2) p.2.1) := by
    rintro ⟨x, y, c⟩
    rw [hl]
    simp only [List.mem_flatMap, List.mem_map, mem_pyRange, Prod.mk.injEq]
    constructor
    · rintro ⟨y', hy', x', hx', rfl, rfl, rfl⟩; exact ⟨hx', hy', rfl⟩
    · rintro ⟨h1, h2, h3⟩; exact ⟨y, h2, x, h1, rfl, rfl, h3.symm⟩
  obtain ⟨b', roots, e, v, hh, ha, -, ho, hn, hpx⟩ := newton_loop hF
    (fun x y => func (domainAt pmax pmin (min x1 x2) (max x1 x2) x) (domainAt qmax qmin (min y1 y2) (max y1 y2) y))
    (S := fun t => ∃ p q c, func p q = some (t, c)) hS l (fun p hp => ((hmem p).mp hp).2.2)
    (fun p hp t c ht => ⟨_, _, c, ((hmem p).mp hp).2.2.symm.trans ht⟩) b [] h List.Pairwise.nil (by simp)
  refine ⟨b', roots, ?_, v, hh, ha, ?_, ?_⟩
  · unfold newtonsfractal
    rw [h.getmaxcolors_eq, ok_bind, hpts, ok_bind]
    exact e
  · intro t ht
    rcases ho t ht with h | ⟨p, hp, c, ep⟩
    · simp at h
    · exact ⟨_, _, c, ((hmem p).mp hp).2.2.symm.trans ep⟩
  · intro x y hx hy
    dsimp only
    have hiff : (∃ p ∈ l, (x : Int) = p.1 ∧ (y : Int) = p.2.1) ↔ (min x1 x2 ≤ (x : Int) ∧ (x : Int) < max x1 x2) ∧ (min y1 y2 ≤ (y : Int) ∧ (y : Int) < max y1 y2) := by
      constructor
      · rintro ⟨p, hp, e1, e2⟩
        have := (hmem p).mp hp
        rw [e1, e2]
        exact ⟨this.1, this.2.1⟩
      · intro hin
        exact ⟨(x, y, func (domainAt pmax pmin (min x1 x2) (max x1 x2) x) (domainAt qmax qmin (min y1 y2) (max y1 y2) y)),
          (hmem _).mpr ⟨hin.1, hin.2, rfl⟩, rfl, rfl⟩
    rw [← hiff]
    refine ⟨fun z c hex hv => ⟨?_, (hpx x y hx hy).1 z c hex hv⟩, fun hno => (hpx x y hx hy).2 hno⟩
    obtain ⟨p, hp, e1, e2⟩ := hex
    apply hn p hp z c
    rw [((hmem p).mp hp).2.2, ← e1, ← e2]
    exact hv

/-- All points reach the root 1 in two steps. -/
example (h : Valid b W H 24) : ∃ b' roots, newtonsfractal b 0 0 2 2 (fun _ _ => some (1, 2)) (1, 0, 1, 0) [[1, 0, 0]] = .ok (b', roots) ∧ Apart roots ∧
    (0 < W → 0 < H → pix b' W H 24 0 0 = shade 24 1 0 0 2) := by
  obtain ⟨b', roots, e, -, -, ha, hr, hp⟩ := C154_newton h (x1 := 0) (y1 := 0) (x2 := 2) (y2 := 2) (by norm_num) (by norm_num) (fun _ _ => some ((1 : ℂ), 2)) 1 0 1 0
    (factors := [[1, 0, 0]]) (by
      intro f hf
      obtain rfl : f = [1, 0, 0] := by simpa using hf
      exact ⟨1, 0, 0, rfl, by norm_num, by norm_num, by norm_num⟩) (by
      intro _ l hl hs
      by_contra hc
      have h0 := hs _ (List.getElem_mem (l := l) (n := 0) (by simp at hc; omega))
      have h1 := hs _ (List.getElem_mem (l := l) (n := 1) (by simp at hc; omega))
      have := List.pairwise_iff_getElem.mp hl 0 1 (by simp at hc; omega) (by simp at hc; omega) (by norm_num)
      simp only [Option.some.injEq, Prod.mk.injEq, exists_const] at h0 h1
      obtain ⟨_, h0, _⟩ := h0
      obtain ⟨_, h1, _⟩ := h1
      rw [← h0, ← h1, sub_self, norm_zero] at this
      norm_num at this)
  refine ⟨b', roots, e, ha, fun hW hH => ?_⟩
  obtain ⟨⟨t, ht, -⟩, hq⟩ := (hp 0 0 hW hH).1 1 2 (by norm_num) rfl
  rw [hq]
  have hrn : rootNumber roots 1 = 0 := by
    classical
    unfold rootNumber
    cases roots with
    | nil => simp at ht
    | cons s l =>
      obtain ⟨_, _, _, hs⟩ := hr s (List.mem_cons_self)
      simp only [Option.some.injEq, Prod.mk.injEq] at hs
      rw [← hs.1]
      simp [List.findIdx_cons]
  rw [hrn]
  unfold newtonColour
  rw [if_pos rfl]
  simp only [List.getElem?_cons_zero]
  exact congrArg (shade 24 1 0 0) (show ((2 : Nat) : Int) = 2 from rfl)

/-- C154: `savenewtonsfractal2file` writes no file for a palette and two or three lists of factors, which are
right for polynomials with two or three roots: `TypeError`. -/
theorem C154_file_false (fs : Files) (file : String) {W H bits : Nat} (hb : bits = 1 ∨ bits = 4 ∨ bits = 8) (hW : W < 2 ^ 24) (hH : H < 2 ^ 24)
    (func : ℚ → ℚ → Option (ℂ × Nat)) (dom : ℚ × ℚ × ℚ × ℚ) {factors : List (List ℚ)} (hF : factors.length = 2 ∨ factors.length = 3) :
    savenewtonsfractal2file fs file W H func dom factors bits = .error .typeError := by
  obtain ⟨n, e, -⟩ := C01_newBMP_valid W H bits (by unfold Depth; omega) hW hH
  unfold savenewtonsfractal2file
  rw [e, ok_bind, if_pos (by omega)]

/-- C154: in all other cases the file has the picture of `newtonsfractal`. -/
theorem C154_file (fs : Files) (file : String) {W H bits : Nat} (hd : Depth bits) (hW : 0 < W ∧ W < 2 ^ 24) (hH : 0 < H ∧ H < 2 ^ 24)
    (func : ℚ → ℚ → Option (ℂ × Nat)) (pmax pmin qmax qmin : ℚ) {factors : List (List ℚ)} (hF : Triples factors)
    (hn : bits = 24 ∨ (factors.length ≠ 2 ∧ factors.length ≠ 3))
    (hS : bits = 24 → ∀ l, Apart l → (∀ t ∈ l, ∃ p q c, func p q = some (t, c)) → l.length ≤ factors.length) :
    ∃ fs' roots, savenewtonsfractal2file fs file W H func (pmax, pmin, qmax, qmin) factors bits = .ok (fs', roots) ∧ Apart roots ∧
      Saved fs fs' file (fun n => Valid n W H bits ∧ ∀ x y : Nat, x < W → y < H →
        pix n W H bits x y = match func (domainAt pmax pmin 0 W x) (domainAt qmax qmin 0 H y) with
          | some (z, c) => newtonColour bits factors (rootNumber roots z) c
          | none => 0) := by
  obtain ⟨n0, e0, v0, -, -, -, -, hz, -⟩ := C01_newBMP_valid W H bits hd hW.2 hH.2
  obtain ⟨n, roots, e, v, -, ha, -, hpx⟩ := C154_newton v0 (x1 := 0) (y1 := 0) (x2 := W) (y2 := H) (by omega) (by omega) func pmax pmin qmax qmin hF hS
  refine ⟨writeFile fs file n, roots, ?_, ha, write_saved fs file ⟨v, ?_⟩⟩
  · unfold savenewtonsfractal2file
    rw [e0, ok_bind, if_neg (by omega), e, ok_bind]
    rfl
  · intro x y hx hy
    have := hpx x y hx hy
    dsimp only at this
    rw [min_eq_left (by omega), max_eq_right (by omega), min_eq_left (by omega), max_eq_right (by omega)] at this
    cases hv : func (domainAt pmax pmin 0 W x) (domainAt qmax qmin 0 H y) with
    | none => rw [this.2 (Or.inr hv), hz x y hx hy]
    | some zc =>
      obtain ⟨z, c⟩ := zc
      exact (this.1 z c (by omega) hv).2

/-- C154: without a list of factors for a root there is an `IndexError`. -/
theorem C154_toofew {b : Bytes} {W H : Nat} (h : Valid b W H 24) (x y : Int) (z : ℂ) (c : Nat) (l : List (Int × Int × Option (ℂ × Nat))) (m : Int) :
    newtonLoop m [] ((x, y, some (z, c)) :: l) (b, []) = .error .indexError := by
  unfold newtonLoop
  dsimp only
  rw [h.bits_eq, ok_bind, if_pos rfl]
  rfl

end Verif.Props.Escape
