import Verif.Props.Vectors
/-! Statistics of mathlib.py with exact numbers (C111). -/

namespace Verif.Props
open Verif Model

/-- The rows `[x, y]` of a table of points. -/
def rows {K : Type} (pts : List (K × K)) : List (List K) := pts.map fun p => [p.1, p.2]

theorem pivot_rows {K : Type} {pts : List (K × K)} (h : pts ≠ []) :
    pivotlist (rows pts) = .ok [pts.map (·.1), pts.map (·.2)] := by
  have col0 : ∀ l : List (K × K), ((rows l).mapM fun v => nth v 0)
      = .ok (l.map (·.1)) := by
    intro l
    induction l with
    | nil => rfl
    | cons p l ih =>
      unfold rows at ih ⊢
      rw [List.map_cons, List.mapM_cons, ih]
      rfl
  have col1 : ∀ l : List (K × K), ((rows l).mapM fun v => nth v 1)
      = .ok (l.map (·.2)) := by
    intro l
    induction l with
    | nil => rfl
    | cons p l ih =>
      unfold rows at ih ⊢
      rw [List.map_cons, List.mapM_cons, ih]
      rfl
  obtain ⟨p, l, rfl⟩ := List.exists_cons_of_ne_nil h
  have h0 := col0 (p :: l)
  have h1 := col1 (p :: l)
  unfold pivotlist
  rw [show nth (rows (p :: l)) 0 = .ok [p.1, p.2] from rfl]
  simp only [bind, Except.bind, List.length_cons, List.length_nil]
  rw [show List.range (0 + 1 + 1) = [0, 1] from rfl, List.mapM_cons, List.mapM_cons, List.mapM_nil]
  simp only [bind, Except.bind, pure, Except.pure, h0, h1]

section
variable {K : Type} [Field K]

/-- The sums of a table of points. -/
def Sx (pts : List (K × K)) : K := (pts.map (·.1)).sum
def Sy (pts : List (K × K)) : K := (pts.map (·.2)).sum
def Sxx (pts : List (K × K)) : K := (pts.map fun p => p.1 * p.1).sum
def Sxy (pts : List (K × K)) : K := (pts.map fun p => p.1 * p.2).sum
def Syy (pts : List (K × K)) : K := (pts.map fun p => p.2 * p.2).sum

theorem mulvect_map {β : Type} (f g : β → K) (l : List β) : mulvect (l.map f) (l.map g) = l.map fun p => f p * g p := by
  induction l with
  | nil => rfl
  | cons a l ih =>
    unfold mulvect at ih ⊢
    simp only [List.map_cons, List.zipWith_cons_cons, ih]

theorem LSMslope_eq [DecidableEq K] {pts : List (K × K)} (h : pts ≠ []) (hd : (pts.length : K) * Sxx pts - Sx pts ^ 2 ≠ 0) :
    LSMslope (rows pts) = .ok ((pts.length * Sxy pts - Sx pts * Sy pts) / (pts.length * Sxx pts - Sx pts ^ 2)) := by
  unfold LSMslope
  rw [pivot_rows h]
  simp only [bind, Except.bind, nth, List.getElem?_cons_zero, List.getElem?_cons_succ, mulvect_map]
  rw [show (rows pts).length = pts.length by simp [rows]]
  exact if_neg hd

theorem LSMYint_eq [DecidableEq K] {pts : List (K × K)} (h : pts ≠ []) (hd : (pts.length : K) * Sxx pts - Sx pts ^ 2 ≠ 0) :
    LSMYint (rows pts) = .ok (Sy pts / pts.length -
      (pts.length * Sxy pts - Sx pts * Sy pts) / (pts.length * Sxx pts - Sx pts ^ 2) * (Sx pts / pts.length)) := by
  have h0 : pts.length ≠ 0 := by simpa using h
  unfold LSMYint
  rw [pivot_rows h, LSMslope_eq h hd]
  simp only [bind, Except.bind, nth, List.getElem?_cons_zero, List.getElem?_cons_succ, meanvec, List.length_map, if_neg h0, pure,
    Except.pure]
  rfl

/-- The sum of the squared distances of the points from the line `y = a + b x`. -/
def residue (pts : List (K × K)) (a b : K) : K := (pts.map fun p => (p.2 - (a + b * p.1)) ^ 2).sum

theorem residue_eq (pts : List (K × K)) (a b : K) : residue pts a b =
    Syy pts - 2 * a * Sy pts - 2 * b * Sxy pts + pts.length * a ^ 2 + 2 * a * b * Sx pts + b ^ 2 * Sxx pts := by
  induction pts with
  | nil => simp [residue, Syy, Sy, Sxy, Sx, Sxx]
  | cons p pts ih =>
    simp only [residue, Syy, Sy, Sxy, Sx, Sxx, List.map_cons, List.sum_cons, List.length_cons, Nat.cast_add, Nat.cast_one] at ih ⊢
    rw [ih]
    ring
end

theorem line_sq {K : Type} [Field K] (pts : List (K × K)) (a b : K) :
    (pts.map fun p => (a + b * p.1) ^ 2).sum = pts.length * a ^ 2 + 2 * a * b * Sx pts + b ^ 2 * Sxx pts := by
  induction pts with
  | nil => simp [Sx, Sxx]
  | cons p pts ih =>
    simp only [Sx, Sxx, List.map_cons, List.sum_cons, List.length_cons, Nat.cast_add, Nat.cast_one] at ih ⊢
    rw [ih]
    ring

/-- C111: slope and intercept are those of the line with the least sum of squared distances. -/
theorem C111_least_squares {pts : List (ℝ × ℝ)} (h : pts ≠ []) (hd : (pts.length : ℝ) * Sxx pts - Sx pts ^ 2 ≠ 0) :
    open Classical in
    ∃ m c, LSMslope (rows pts) = .ok m ∧ LSMYint (rows pts) = .ok c ∧ ∀ a b, residue pts c m ≤ residue pts a b := by
  classical
  refine ⟨_, _, LSMslope_eq h hd, LSMYint_eq h hd, ?_⟩
  intro a b
  have h0 : (pts.length : ℝ) ≠ 0 := by simpa using h
  have nn : 0 ≤ (pts.map fun p => ((a - (Sy pts / pts.length -
      (pts.length * Sxy pts - Sx pts * Sy pts) / (pts.length * Sxx pts - Sx pts ^ 2) * (Sx pts / pts.length))) +
      (b - (pts.length * Sxy pts - Sx pts * Sy pts) / (pts.length * Sxx pts - Sx pts ^ 2)) * p.1) ^ 2).sum := by
    apply List.sum_nonneg
    intro x hx
    obtain ⟨p, _, rfl⟩ := List.mem_map.mp hx
    exact sq_nonneg _
  rw [line_sq] at nn
  rw [residue_eq, residue_eq]
  have n1 : (pts.length : ℝ) * (Sy pts / pts.length -
      (pts.length * Sxy pts - Sx pts * Sy pts) / (pts.length * Sxx pts - Sx pts ^ 2) * (Sx pts / pts.length)) +
      (pts.length * Sxy pts - Sx pts * Sy pts) / (pts.length * Sxx pts - Sx pts ^ 2) * Sx pts = Sy pts := by
    field_simp
    ring
  have n2 : (Sy pts / pts.length -
      (pts.length * Sxy pts - Sx pts * Sy pts) / (pts.length * Sxx pts - Sx pts ^ 2) * (Sx pts / pts.length)) * Sx pts +
      (pts.length * Sxy pts - Sx pts * Sy pts) / (pts.length * Sxx pts - Sx pts ^ 2) * Sxx pts = Sxy pts := by
    field_simp
    ring
  generalize (Sy pts / pts.length -
      (pts.length * Sxy pts - Sx pts * Sy pts) / (pts.length * Sxx pts - Sx pts ^ 2) * (Sx pts / pts.length)) = c at *
  generalize (pts.length * Sxy pts - Sx pts * Sy pts) / (pts.length * Sxx pts - Sx pts ^ 2) = m at *
  generalize (pts.length : ℝ) = n at *
  generalize Syy pts = yy at *
  generalize Sxx pts = xx at *
  generalize Sx pts = x at *
  rw [← n1, ← n2]
  nlinarith

/-- The spread `n Σz² - (Σz)²` is not negative, and zero only for a constant list. -/
theorem spread_nonneg (z : List ℝ) : 0 ≤ (z.length : ℝ) * (z.map fun a => a * a).sum - z.sum ^ 2 := by
  induction z with
  | nil => simp
  | cons a z ih =>
    have h : ∀ l : List ℝ, (l.map fun b => (b - a) ^ 2).sum = (l.map fun b => b * b).sum - 2 * a * l.sum + l.length * a ^ 2 := by
      intro l
      induction l with
      | nil => simp
      | cons b l ih => simp only [List.map_cons, List.sum_cons, List.length_cons, Nat.cast_add, Nat.cast_one, ih]; ring
    have nn : 0 ≤ (z.map fun b => (b - a) ^ 2).sum := by
      apply List.sum_nonneg
      intro x hx
      obtain ⟨p, _, rfl⟩ := List.mem_map.mp hx
      exact sq_nonneg _
    rw [h z] at nn
    simp only [List.map_cons, List.sum_cons, List.length_cons, Nat.cast_add, Nat.cast_one]
    nlinarith

theorem spread_zero (z : List ℝ) (h : (z.length : ℝ) * (z.map fun a => a * a).sum - z.sum ^ 2 = 0) : ∀ a ∈ z, ∀ b ∈ z, a = b := by
  induction z with
  | nil => simp
  | cons a z ih =>
    have hh : ∀ l : List ℝ, (l.map fun b => (b - a) ^ 2).sum = (l.map fun b => b * b).sum - 2 * a * l.sum + l.length * a ^ 2 := by
      intro l
      induction l with
      | nil => simp
      | cons b l ih => simp only [List.map_cons, List.sum_cons, List.length_cons, Nat.cast_add, Nat.cast_one, ih]; ring
    have nn : ∀ x ∈ z.map fun b => (b - a) ^ 2, 0 ≤ x := by
      intro x hx
      obtain ⟨p, _, rfl⟩ := List.mem_map.mp hx
      exact sq_nonneg _
    have s := spread_nonneg z
    simp only [List.map_cons, List.sum_cons, List.length_cons, Nat.cast_add, Nat.cast_one] at h
    have z0 : (z.map fun b => (b - a) ^ 2).sum = 0 := by
      have := List.sum_nonneg nn
      have e := hh z
      nlinarith
    have all : ∀ b ∈ z, b = a := by
      intro b hb
      have h1 : (b - a) ^ 2 ≤ (z.map fun b => (b - a) ^ 2).sum := List.single_le_sum nn _ (List.mem_map.mpr ⟨b, hb, rfl⟩)
      have h2 : (b - a) ^ 2 = 0 := le_antisymm (by rw [z0] at h1; exact h1) (sq_nonneg _)
      have := pow_eq_zero_iff (two_ne_zero) |>.mp h2
      linarith
    intro x hx y hy
    have ex : x = a := by rcases List.mem_cons.mp hx with rfl | hx; · rfl
                          · exact all x hx
    have ey : y = a := by rcases List.mem_cons.mp hy with rfl | hy; · rfl
                          · exact all y hy
    rw [ex, ey]

theorem mix_sum (pts : List (ℝ × ℝ)) (s t : ℝ) : (pts.map fun p => s * p.1 + t * p.2).sum = s * Sx pts + t * Sy pts ∧
    ((pts.map fun p => s * p.1 + t * p.2).map fun a => a * a).sum = s ^ 2 * Sxx pts + 2 * s * t * Sxy pts + t ^ 2 * Syy pts := by
  induction pts with
  | nil => simp [Sx, Sy, Sxx, Sxy, Syy]
  | cons p pts ih =>
    simp only [Sx, Sy, Sxx, Sxy, Syy, List.map_cons, List.sum_cons] at ih ⊢
    rw [ih.1, ih.2]
    exact ⟨by ring, by ring⟩

/-- The spread of a mixture of the coordinates. -/
theorem mix_spread (pts : List (ℝ × ℝ)) (s t : ℝ) :
    (((pts.map fun p => s * p.1 + t * p.2).length : ℝ) * ((pts.map fun p => s * p.1 + t * p.2).map fun a => a * a).sum -
      (pts.map fun p => s * p.1 + t * p.2).sum ^ 2) =
    s ^ 2 * (pts.length * Sxx pts - Sx pts ^ 2) + 2 * s * t * (pts.length * Sxy pts - Sx pts * Sy pts) +
      t ^ 2 * (pts.length * Syy pts - Sy pts ^ 2) := by
  rw [(mix_sum pts s t).1, (mix_sum pts s t).2, List.length_map]
  ring

theorem spreads (pts : List (ℝ × ℝ)) :
    0 ≤ pts.length * Sxx pts - Sx pts ^ 2 ∧ 0 ≤ pts.length * Syy pts - Sy pts ^ 2 ∧
    (pts.length * Sxy pts - Sx pts * Sy pts) ^ 2 ≤ (pts.length * Sxx pts - Sx pts ^ 2) * (pts.length * Syy pts - Sy pts ^ 2) := by
  have key : ∀ s t : ℝ, 0 ≤ s ^ 2 * (pts.length * Sxx pts - Sx pts ^ 2) + 2 * s * t * (pts.length * Sxy pts - Sx pts * Sy pts) +
      t ^ 2 * (pts.length * Syy pts - Sy pts ^ 2) := by
    intro s t
    rw [← mix_spread]
    exact spread_nonneg _
  generalize (pts.length * Sxx pts - Sx pts ^ 2 : ℝ) = A at *
  generalize (pts.length * Sxy pts - Sx pts * Sy pts : ℝ) = B at *
  generalize (pts.length * Syy pts - Sy pts ^ 2 : ℝ) = C at *
  have a0 : 0 ≤ A := by have := key 1 0; linarith
  have c0 : 0 ≤ C := by have := key 0 1; linarith
  refine ⟨a0, c0, ?_⟩
  rcases a0.eq_or_lt with h | h
  · -- A = 0
    have b0 : B = 0 := by
      by_contra hb
      have k1 := key (-(C + 1) / (2 * B)) 1
      rw [← h] at k1
      have e : 2 * (-(C + 1) / (2 * B)) * 1 * B = -(C + 1) := by field_simp
      rw [e] at k1
      linarith
    rw [← h, b0]
    norm_num
  · have k := key (-B) A
    have : 0 ≤ A * (A * C - B ^ 2) := by nlinarith
    have := nonneg_of_mul_nonneg_right this h
    linarith

theorem PearsonsR_eq {pts : List (ℝ × ℝ)} (h : pts ≠ []) (hx : (pts.length : ℝ) * Sxx pts - Sx pts ^ 2 ≠ 0)
    (hy : (pts.length : ℝ) * Syy pts - Sy pts ^ 2 ≠ 0) :
    PearsonsR (rows pts) = .ok ((pts.length * Sxy pts - Sx pts * Sy pts) /
      Real.sqrt ((pts.length * Sxx pts - Sx pts ^ 2) * (pts.length * Syy pts - Sy pts ^ 2))) := by
  obtain ⟨h1, h2, _⟩ := spreads pts
  unfold PearsonsR
  rw [pivot_rows h]
  simp only [bind, Except.bind, nth, List.getElem?_cons_zero, List.getElem?_cons_succ, mulvect_map]
  rw [show (rows pts).length = pts.length by simp [rows]]
  have e1 : |(pts.length : ℝ) * (pts.map fun p => p.1 * p.1).sum - (pts.map (·.1)).sum ^ 2| = pts.length * Sxx pts - Sx pts ^ 2 :=
    abs_of_nonneg h1
  have e2 : |(pts.length : ℝ) * (pts.map fun p => p.2 * p.2).sum - (pts.map (·.2)).sum ^ 2| = pts.length * Syy pts - Sy pts ^ 2 :=
    abs_of_nonneg h2
  rw [e1, e2, if_neg]
  · rfl
  · rw [Real.sqrt_eq_zero (mul_nonneg h1 h2)]
    exact mul_ne_zero hx hy

/-- C111: the coefficient of correlation is between -1 and 1, as documented, and has an absolute value of 1
only for points on a line. -/
theorem C111_correlation {pts : List (ℝ × ℝ)} (h : pts ≠ []) (hx : (pts.length : ℝ) * Sxx pts - Sx pts ^ 2 ≠ 0)
    (hy : (pts.length : ℝ) * Syy pts - Sy pts ^ 2 ≠ 0) :
    ∃ r, PearsonsR (rows pts) = .ok r ∧ -1 ≤ r ∧ r ≤ 1 ∧
      (r ^ 2 = 1 → ∃ a b, ∀ p ∈ pts, p.2 = a + b * p.1) := by
  obtain ⟨h1, h2, h3⟩ := spreads pts
  have hp : 0 < (pts.length * Sxx pts - Sx pts ^ 2) * (pts.length * Syy pts - Sy pts ^ 2) :=
    mul_pos (lt_of_le_of_ne h1 (Ne.symm hx)) (lt_of_le_of_ne h2 (Ne.symm hy))
  have hs := Real.sqrt_pos.mpr hp
  have hb := abs_le_of_sq_le_sq' (h3.trans_eq (Real.sq_sqrt hp.le).symm) hs.le
  refine ⟨_, PearsonsR_eq h hx hy, ?_, ?_, ?_⟩
  · rw [le_div_iff₀ hs]; linarith [hb.1]
  · rw [div_le_iff₀ hs]; linarith [hb.2]
  · intro h4
    rw [div_pow, Real.sq_sqrt hp.le, div_eq_one_iff_eq hp.ne'] at h4
    have hm := mix_spread pts (-(pts.length * Sxy pts - Sx pts * Sy pts)) (pts.length * Sxx pts - Sx pts ^ 2)
    have hz := spread_zero _ (hm.trans (by
      generalize (pts.length * Sxx pts - Sx pts ^ 2 : ℝ) = A at *
      generalize (pts.length * Sxy pts - Sx pts * Sy pts : ℝ) = B at *
      generalize (pts.length * Syy pts - Sy pts ^ 2 : ℝ) = C at *
      linear_combination (-A) * h4))
    obtain ⟨p0, l, rfl⟩ := List.exists_cons_of_ne_nil h
    generalize hA : ((((p0 :: l).length : ℕ) : ℝ) * Sxx (p0 :: l) - Sx (p0 :: l) ^ 2 : ℝ) = A at *
    generalize hB : ((((p0 :: l).length : ℕ) : ℝ) * Sxy (p0 :: l) - Sx (p0 :: l) * Sy (p0 :: l) : ℝ) = B at *
    refine ⟨p0.2 - B / A * p0.1, B / A, ?_⟩
    intro p hp'
    have := hz _ (List.mem_map.mpr ⟨p, hp', rfl⟩) _ (List.mem_map.mpr ⟨p0, List.mem_cons_self .., rfl⟩)
    field_simp
    linarith

/-- C111: points on a line that rises have a correlation of 1, on one that falls of -1. -/
theorem C111_line {xs : List ℝ} (hx : (xs.length : ℝ) * (xs.map fun a => a * a).sum - xs.sum ^ 2 ≠ 0) {a b : ℝ} (hb : b ≠ 0) :
    PearsonsR (rows (xs.map fun x => (x, a + b * x))) = .ok (if 0 < b then 1 else -1) ∧
    open Classical in LSMslope (rows (xs.map fun x => (x, a + b * x))) = .ok b := by
  classical
  have hne : xs ≠ [] := by rintro rfl; simp at hx
  have sums : ∀ l : List ℝ, Sx (l.map fun x => (x, a + b * x)) = l.sum ∧ Sxx (l.map fun x => (x, a + b * x)) = (l.map fun a => a * a).sum ∧
      Sy (l.map fun x => (x, a + b * x)) = l.length * a + b * l.sum ∧
      Sxy (l.map fun x => (x, a + b * x)) = a * l.sum + b * (l.map fun a => a * a).sum ∧
      Syy (l.map fun x => (x, a + b * x)) = l.length * a ^ 2 + 2 * a * b * l.sum + b ^ 2 * (l.map fun a => a * a).sum := by
    intro l
    induction l with
    | nil => simp [Sx, Sy, Sxx, Sxy, Syy]
    | cons x l ih =>
      simp only [Sx, Sy, Sxx, Sxy, Syy, List.map_cons, List.sum_cons, List.length_cons, Nat.cast_add, Nat.cast_one] at ih ⊢
      obtain ⟨i1, i2, i3, i4, i5⟩ := ih
      rw [i1, i2, i3, i4, i5]
      refine ⟨rfl, rfl, by ring, by ring, by ring⟩
  obtain ⟨s1, s2, s3, s4, s5⟩ := sums xs
  have sp := spread_nonneg xs
  have hx' : ((xs.map fun x => (x, a + b * x)).length : ℝ) * Sxx (xs.map fun x => (x, a + b * x)) - Sx (xs.map fun x => (x, a + b * x)) ^ 2 =
      (xs.length : ℝ) * (xs.map fun a => a * a).sum - xs.sum ^ 2 := by rw [s1, s2, List.length_map]
  have hy' : ((xs.map fun x => (x, a + b * x)).length : ℝ) * Syy (xs.map fun x => (x, a + b * x)) - Sy (xs.map fun x => (x, a + b * x)) ^ 2 =
      b ^ 2 * ((xs.length : ℝ) * (xs.map fun a => a * a).sum - xs.sum ^ 2) := by rw [s3, s5, List.length_map]; ring
  have hxy : ((xs.map fun x => (x, a + b * x)).length : ℝ) * Sxy (xs.map fun x => (x, a + b * x)) -
      Sx (xs.map fun x => (x, a + b * x)) * Sy (xs.map fun x => (x, a + b * x)) =
      b * ((xs.length : ℝ) * (xs.map fun a => a * a).sum - xs.sum ^ 2) := by rw [s1, s3, s4, List.length_map]; ring
  constructor
  · rw [PearsonsR_eq (by simpa using hne) (by rw [hx']; exact hx) (by rw [hy']; exact mul_ne_zero (pow_ne_zero 2 hb) hx), hx', hy', hxy]
    generalize (xs.length : ℝ) * (xs.map fun a => a * a).sum - xs.sum ^ 2 = A at *
    rw [show A * (b ^ 2 * A) = (b * A) ^ 2 by ring, Real.sqrt_sq_eq_abs, abs_mul, abs_of_nonneg sp]
    split_ifs with h
    · rw [abs_of_pos h, div_self (mul_ne_zero hb hx)]
    · rw [abs_of_nonpos (not_lt.mp h), neg_mul, div_neg, div_self (mul_ne_zero hb hx)]
  · rw [LSMslope_eq (by simpa using hne) (by rw [hx']; exact hx), hx', hxy, mul_div_assoc, div_self hx, mul_one]

/-- C111: equal values of x in all points raise an error. -/
theorem C111_vertical {pts : List (ℝ × ℝ)} (h : pts ≠ []) {c : ℝ} (hc : ∀ p ∈ pts, p.1 = c) :
    PearsonsR (rows pts) = .error .zeroDivision ∧ open Classical in LSMslope (rows pts) = .error .zeroDivision := by
  classical
  have s : ∀ l : List (ℝ × ℝ), (∀ p ∈ l, p.1 = c) → (l.map (·.1)).sum = l.length * c ∧ (l.map fun p => p.1 * p.1).sum = l.length * c ^ 2 := by
    intro l
    induction l with
    | nil => simp
    | cons p l ih =>
      intro hl
      obtain ⟨i1, i2⟩ := ih (fun p hp => hl p (List.mem_cons_of_mem _ hp))
      have := hl p (List.mem_cons_self ..)
      simp only [List.map_cons, List.sum_cons, List.length_cons, Nat.cast_add, Nat.cast_one, i1, i2, this]
      exact ⟨by ring, by ring⟩
  obtain ⟨s1, s2⟩ := s pts hc
  have z : (pts.length : ℝ) * (pts.map fun p => p.1 * p.1).sum - (pts.map (·.1)).sum ^ 2 = 0 := by rw [s1, s2]; ring
  unfold PearsonsR LSMslope
  rw [pivot_rows h]
  simp only [bind, Except.bind, nth, List.getElem?_cons_zero, List.getElem?_cons_succ, mulvect_map]
  rw [show (rows pts).length = pts.length by simp [rows]]
  constructor
  · rw [z, abs_zero, zero_mul, Real.sqrt_zero, if_pos rfl]
  · rw [if_pos z]

/-- C111: the deviations from the mean add up to zero, and the standard deviation is zero only for a
constant list. -/
theorem C111_deviation {v : List ℝ} (h : v ≠ []) : open Classical in
    ∃ d s, variance v = .ok d ∧ StdDev v = .ok s ∧ d.sum = 0 ∧ d.length = v.length ∧
      s ^ 2 * v.length = (d.map fun a => a ^ 2).sum ∧ (s = 0 ↔ ∀ a ∈ v, ∀ b ∈ v, a = b) := by
  classical
  have hl : v.length ≠ 0 := by simpa using h
  have hl' : (v.length : ℝ) ≠ 0 := by exact_mod_cast hl
  have hlp : (0 : ℝ) < v.length := by exact_mod_cast Nat.pos_of_ne_zero hl
  have hv : variance v = .ok (v.map (· - v.sum / v.length)) := by
    simp only [variance, meanvec, if_neg hl, bind, Except.bind]
    rfl
  have shift : ∀ (m : ℝ) (l : List ℝ), (l.map (· - m)).sum = l.sum - l.length * m ∧
      ((l.map (· - m)).map fun a => a ^ 2).sum = (l.map fun a => a * a).sum - 2 * m * l.sum + l.length * m ^ 2 := by
    intro m l
    induction l with
    | nil => simp
    | cons a l ih =>
      simp only [List.map_cons, List.sum_cons, List.length_cons, Nat.cast_add, Nat.cast_one] at ih ⊢
      rw [ih.1, ih.2]
      exact ⟨by ring, by ring⟩
  obtain ⟨e1, e2⟩ := shift (v.sum / v.length) v
  have emul : (mulvect (v.map (· - v.sum / v.length)) (v.map (· - v.sum / v.length))).sum =
      ((v.map (· - v.sum / v.length)).map fun a => a ^ 2).sum := by
    rw [mulvect_map, List.map_map]
    congr 1
    apply List.map_congr_left
    intro a _
    simp only [Function.comp_apply]
    ring
  have nn : 0 ≤ ((v.map (· - v.sum / v.length)).map fun a => a ^ 2).sum := by
    apply List.sum_nonneg
    intro x hx
    obtain ⟨p, _, rfl⟩ := List.mem_map.mp hx
    exact sq_nonneg _
  refine ⟨_, _, hv, by simp only [StdDev, hv, bind, Except.bind]; rfl, ?_, by simp, ?_, ?_⟩
  · rw [e1]; field_simp; ring
  · rw [emul, Real.sq_sqrt (div_nonneg nn hlp.le), div_mul_cancel₀ _ hl']
  · rw [emul, Real.sqrt_eq_zero (div_nonneg nn hlp.le), div_eq_zero_iff, or_iff_left hl', e2]
    constructor
    · intro hz
      apply spread_zero
      generalize (v.map fun a => a * a).sum = q at hz ⊢
      field_simp at hz
      linarith
    · intro hall
      obtain ⟨a, l, rfl⟩ := List.exists_cons_of_ne_nil h
      have hc : ∀ b ∈ a :: l, b = a := fun b hb => hall b hb a (List.mem_cons_self ..)
      have s : ∀ l : List ℝ, (∀ b ∈ l, b = a) → l.sum = l.length * a ∧ (l.map fun b => b * b).sum = l.length * a ^ 2 := by
        intro l
        induction l with
        | nil => simp
        | cons p l ih =>
          intro hl
          obtain ⟨i1, i2⟩ := ih (fun p hp => hl p (List.mem_cons_of_mem _ hp))
          have := hl p (List.mem_cons_self ..)
          simp only [List.map_cons, List.sum_cons, List.length_cons, Nat.cast_add, Nat.cast_one, i1, i2, this]
          exact ⟨by ring, by ring⟩
      obtain ⟨s1, s2⟩ := s _ hc
      rw [s1, s2]
      field_simp
      ring

example : LSMslope ([[0, 1], [1, 3], [2, 5]] : List (List ℚ)) = .ok 2 := by decide +kernel
example : LSMYint ([[0, 1], [1, 3], [2, 5]] : List (List ℚ)) = .ok 1 := by decide +kernel
example : LSMslope ([[0, 0], [1, 2], [2, 1]] : List (List ℚ)) = .ok (1 / 2) := by decide +kernel
example : variance ([1, 2, 6] : List ℚ) = .ok [-2, -1, 3] := by decide +kernel

end Verif.Props
