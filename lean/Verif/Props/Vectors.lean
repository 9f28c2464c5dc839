import Verif.Model.MathLib
import Mathlib.Tactic.Ring
import Mathlib.Tactic.Linarith
import Mathlib.Tactic.FieldSimp
import Mathlib.LinearAlgebra.Matrix.Determinant.Basic
/-! Vector algebra of mathlib.py with exact numbers (C110). -/

namespace Verif.Props
open Verif Model

variable {K : Type} [Field K]

/-- C110: subtracting what was added gives the vector back, for vectors of the same length. -/
theorem C110_add_sub {u v : List K} (h : u.length = v.length) : subvect (addvect u v) v = u ∧ addvect (subvect u v) v = u := by
  induction u generalizing v with
  | nil => simp [subvect, addvect]
  | cons a u ih =>
    cases v with
    | nil => simp at h
    | cons b v =>
      obtain ⟨h1, h2⟩ := ih (v := v) (by simpa using h)
      unfold subvect addvect at *
      simp only [List.zipWith_cons_cons, List.cons.injEq]
      exact ⟨⟨by ring, h1⟩, ⟨by ring, h2⟩⟩

/-- C110: vectors of different lengths are cut to the shorter one without a warning. -/
theorem C110_cut (u v : List K) : (addvect u v).length = min u.length v.length ∧ (subvect u v).length = min u.length v.length := by
  simp [addvect, subvect]

theorem dotprod_cons (a b : K) (u v : List K) : dotprod (a :: u) (b :: v) = a * b + dotprod u v := by
  simp [dotprod, mulvect]

theorem dotprod_nil_left (v : List K) : dotprod [] v = 0 := by simp [dotprod, mulvect]
theorem dotprod_nil_right (v : List K) : dotprod v [] = 0 := by simp [dotprod, mulvect]

/-- C110: the inner product is symmetric and linear. -/
theorem C110_dot_comm (u v : List K) : dotprod u v = dotprod v u := by
  induction u generalizing v with
  | nil => rw [dotprod_nil_left, dotprod_nil_right]
  | cons a u ih =>
    cases v with
    | nil => rw [dotprod_nil_left, dotprod_nil_right]
    | cons b v => rw [dotprod_cons, dotprod_cons, ih]; ring

theorem C110_dot_linear {u v w : List K} (s : K) (h1 : u.length = v.length) :
    dotprod (addvect u v) w = dotprod u w + dotprod v w ∧ dotprod (scalarmulvect u s) w = s * dotprod u w := by
  induction u generalizing v w with
  | nil =>
    cases v with
    | nil => simp [addvect, scalarmulvect, dotprod_nil_left]
    | cons b v => simp at h1
  | cons a u ih =>
    cases v with
    | nil => simp at h1
    | cons b v =>
      cases w with
      | nil => simp [dotprod_nil_right]
      | cons c w =>
        obtain ⟨i1, i2⟩ := ih (v := v) (w := w) (by simpa using h1)
        simp only [addvect, scalarmulvect, List.zipWith_cons_cons, List.map_cons, dotprod_cons] at *
        rw [i1, i2]
        exact ⟨by ring, by ring⟩

/-- C110: the cross product is orthogonal to both vectors, changes its sign with the order and has the
square length of the parallelogram (Lagrange's identity). -/
theorem C110_cross (u v : List K) :
    dotprod u (crossprod3d u v) = 0 ∧ dotprod v (crossprod3d u v) = 0 ∧
    crossprod3d v u = scalarmulvect (crossprod3d u v) (-1) := by
  unfold crossprod3d
  split
  · simp only [dotprod_cons, dotprod_nil_left, scalarmulvect, List.map_cons, List.map_nil, List.cons.injEq, and_true]
    refine ⟨by ring, by ring, by ring, by ring, by ring⟩
  · rename_i hn
    have zero : ∀ w : List K, dotprod w [0, 0, 0] = 0 := by
      intro w
      rcases w with _ | ⟨a, _ | ⟨b, _ | ⟨c, w⟩⟩⟩ <;> simp [dotprod_cons, dotprod_nil_left, dotprod_nil_right]
    refine ⟨zero u, zero v, ?_⟩
    split
    · exact absurd rfl (fun e => hn _ _ _ _ _ _ e rfl)
    · simp [scalarmulvect]

theorem C110_lagrange (u v : K × K × K) :
    let c := crossprod3d [u.1, u.2.1, u.2.2] [v.1, v.2.1, v.2.2]
    dotprod c c = dotprod [u.1, u.2.1, u.2.2] [u.1, u.2.1, u.2.2] * dotprod [v.1, v.2.1, v.2.2] [v.1, v.2.1, v.2.2] -
      dotprod [u.1, u.2.1, u.2.2] [v.1, v.2.1, v.2.2] ^ 2 := by
  simp only [crossprod3d, dotprod_cons, dotprod_nil_left]
  ring

/-- C110: the normal vector of three points is orthogonal to the sides of the triangle. -/
theorem C110_normal (p1 p2 p3 : List K) :
    dotprod (subvect p2 p1) (getnormvec p1 p2 p3) = 0 ∧ dotprod (subvect p3 p1) (getnormvec p1 p2 p3) = 0 :=
  ⟨(C110_cross _ _).1, (C110_cross _ _).2.1⟩

/-- C110: `isorthogonal` answers yes only for vectors with inner product zero ... -/
theorem C110_isorthogonal [DecidableEq K] {u v : List K} (h : isorthogonal u v = true) : dotprod u v = 0 := by
  unfold isorthogonal vectiszero at h
  rw [List.all_eq_true] at h
  unfold dotprod
  apply List.sum_eq_zero
  intro x hx
  simpa using h x hx

/-- ... but no for the orthogonal vectors (1, 1) and (1, -1). -/
theorem C110_isorthogonal_false : isorthogonal ([1, 1] : List ℚ) [1, -1] = false ∧ dotprod ([1, 1] : List ℚ) [1, -1] = 0 := by
  decide +kernel

/-- It tests whether the vectors have no component in common that is not zero. -/
theorem C110_isorthogonal_exact [DecidableEq K] (u v : List K) :
    isorthogonal u v = true ↔ ∀ i : Nat, ∀ a b, u[i]? = some a → v[i]? = some b → a = 0 ∨ b = 0 := by
  unfold isorthogonal vectiszero mulvect
  rw [List.all_eq_true]
  constructor
  · intro h i a b ha hb
    have := h (a * b) (List.mem_of_getElem? (i := i) (by rw [List.getElem?_zipWith, ha, hb]))
    simpa using this
  · intro h x hx
    obtain ⟨i, hi⟩ := List.mem_iff_getElem?.mp hx
    rw [List.getElem?_zipWith] at hi
    cases ha : u[i]? with
    | none => simp [ha] at hi
    | some a =>
      cases hb : v[i]? with
      | none => simp [ha, hb] at hi
      | some b =>
        simp only [ha, hb, Option.some.injEq] at hi
        subst hi
        have := h i a b ha hb
        simpa using this

/-- C110: `det3D` is not the determinant: for these rows it is 0 in place of -1. -/
theorem C110_det_false : det3D ((0, 0, 1) : ℚ × ℚ × ℚ) (0, 1, 0) (1, 0, 0) = 0 ∧
    Matrix.det !![(0 : ℚ), 0, 1; 0, 1, 0; 1, 0, 0] = -1 := by
  constructor
  · decide +kernel
  · simp [Matrix.det_fin_three]

/-- What it is: the last term has an element of the second row in place of the third. -/
theorem C110_det_exact (a b c d e f g h i : K) :
    det3D (a, b, c) (d, e, f) (g, h, i) = Matrix.det !![a, b, c; d, e, f; g, h, i] + c * e * (g - d) := by
  simp [Matrix.det_fin_three, det3D]
  ring

/-- C110: a rotation by a unit vector keeps inner products, and rotations add up. -/
theorem C110_rotation (v w r : K × K) (h : r.1 ^ 2 + r.2 ^ 2 = 1) :
    (rotvec2D v r).1 * (rotvec2D w r).1 + (rotvec2D v r).2 * (rotvec2D w r).2 = v.1 * w.1 + v.2 * w.2 := by
  simp only [rotvec2D]
  linear_combination (v.1 * w.1 + v.2 * w.2) * h

theorem C110_rotations (v : ℝ × ℝ) (a b : ℝ) :
    rotvec2D (rotvec2D v (computerotvec a)) (computerotvec b) = rotvec2D v (computerotvec (a + b)) := by
  simp only [rotvec2D, computerotvec, Prod.mk.injEq, add_mul, Real.sin_add, Real.cos_add]
  exact ⟨by ring, by ring⟩

/-- C110: two mirror images of a vector about a centre have the centre as their middle. -/
theorem C110_mirror {c v : List K} (h : c.length = v.length) : addvect (mirrorvec c v).1 (mirrorvec c v).2 = addvect c c := by
  induction c generalizing v with
  | nil => simp [mirrorvec, addvect, subvect]
  | cons a c ih =>
    cases v with
    | nil => simp at h
    | cons b v =>
      have := ih (v := v) (by simpa using h)
      simp only [mirrorvec, addvect, subvect, List.zipWith_cons_cons, List.cons.injEq] at *
      exact ⟨by ring, this⟩

/-- C110: the centre is within half a unit of the middle, in whatever order the corners come. -/
theorem C110_center (x1 y1 x2 y2 : Int) :
    (centerpoint x1 y1 x2 y2).1 = (x1 + x2) / 2 ∧ (centerpoint x1 y1 x2 y2).2 = (y1 + y2) / 2 := by
  simp only [centerpoint]
  omega

/-- C110: `pivotlist` transposes a rectangular table ... -/
theorem C110_pivot {α : Type} (t : List (List α)) (n : Nat) (hr : t ≠ []) (hn : ∀ r ∈ t, r.length = n) :
    ∃ p, pivotlist t = .ok p ∧ p.length = n ∧ (∀ c ∈ p, c.length = t.length) ∧
      ∀ i j : Nat, i < t.length → j < n → (p[j]?.bind (·[i]?)) = t[i]?.bind (·[j]?) := by
  have col : ∀ j, j < n → ∀ l : List (List α), (∀ r ∈ l, r.length = n) →
      ∃ c, (l.mapM fun v => nth v j) = .ok c ∧
        c.length = l.length ∧ ∀ i : Nat, c[i]? = l[i]?.bind (·[j]?) := by
    intro j hj l
    induction l with
    | nil => intro _; exact ⟨[], rfl, rfl, by simp⟩
    | cons r l ih =>
      intro hl
      obtain ⟨c, e, el, ec⟩ := ih (fun r hr => hl r (List.mem_cons_of_mem _ hr))
      have hj' : j < r.length := by rw [hl r (List.mem_cons_self ..)]; exact hj
      refine ⟨r[j] :: c, ?_, by simp [el], ?_⟩
      · rw [List.mapM_cons, nth, List.getElem?_eq_getElem hj']
        simp only [bind, Except.bind, pure, Except.pure, e]
      · intro i
        cases i with
        | zero => simp [hj']
        | succ i => simpa using ec i
  have rows : ∀ m, m ≤ n → ∀ s, s + m ≤ n → ∃ p, ((List.range' s m).mapM fun i => t.mapM fun v => nth v i) = .ok p ∧ p.length = m ∧
      (∀ c ∈ p, c.length = t.length) ∧ ∀ i j : Nat, i < t.length → j < m → (p[j]?.bind (·[i]?)) = t[i]?.bind (·[s + j]?) := by
    intro m
    induction m with
    | zero => intro _ s _; exact ⟨[], rfl, rfl, by simp, by omega⟩
    | succ m ih =>
      intro hm s hs
      obtain ⟨c, e, el, ec⟩ := col s (by omega) t hn
      obtain ⟨p, e', pl, pc, pp⟩ := ih (by omega) (s + 1) (by omega)
      refine ⟨c :: p, ?_, by simp [pl], ?_, ?_⟩
      · rw [List.range'_succ, List.mapM_cons, e]
        simp only [bind, Except.bind, pure, Except.pure] at e' ⊢
        rw [e']
      · intro x hx
        rcases List.mem_cons.mp hx with rfl | hx
        · exact el
        · exact pc x hx
      · intro i j hi hj
        cases j with
        | zero => simpa using ec i
        | succ j =>
          have := pp i j hi (by omega)
          simp only [List.getElem?_cons_succ]
          rw [this, show s + 1 + j = s + (j + 1) by omega]
  obtain ⟨r, t', rfl⟩ := List.exists_cons_of_ne_nil hr
  obtain ⟨p, e, pl, pc, pp⟩ := rows n (le_refl n) 0 (by omega)
  refine ⟨p, ?_, pl, pc, ?_⟩
  · unfold pivotlist
    simp only [nth, List.getElem?_cons_zero, bind, Except.bind]
    rw [hn r (List.mem_cons_self ..), List.range_eq_range']
    simpa only [nth] using e
  · intro i j hi hj
    have := pp i j hi hj
    rwa [Nat.zero_add] at this

/-- ... and raises `IndexError` on an empty one, or on one with a row shorter than the first. -/
example : pivotlist ([] : List (List Int)) = .error .indexError := by decide +kernel
example : pivotlist [[1, 2], [3]] = .error .indexError := by decide +kernel
example : pivotlist [[1, 2], [3, 4], [5, 6]] = .ok [[1, 3, 5], [2, 4, 6]] := by decide +kernel
example : crossprod3d ([1, 2, 3] : List ℚ) [4, 5, 6] = [-3, 6, -3] := by decide +kernel
example : getnormvec ([0, 0, 0] : List ℚ) [1, 0, 0] [0, 1, 0] = [0, 0, 1] := by decide +kernel
example : det3D ((2, 0, 0) : ℚ × ℚ × ℚ) (0, 3, 0) (0, 0, 4) = 24 := by decide +kernel
example : rotvec2D ((3, 4) : ℚ × ℚ) (3 / 5, 4 / 5) = (0, 5) := by decide +kernel
example : centerpoint 7 1 2 4 = (4, 2) := by decide +kernel

theorem sq_sum_nonneg (v : List ℝ) : 0 ≤ (v.map fun i => i * i).sum := by
  apply List.sum_nonneg
  intro x hx
  obtain ⟨a, _, rfl⟩ := List.mem_map.mp hx
  exact mul_self_nonneg a

theorem dotprod_self (v : List ℝ) : dotprod v v = (v.map fun i => i * i).sum := by
  induction v with
  | nil => simp [dotprod_nil_left]
  | cons a v ih => rw [dotprod_cons, ih, List.map_cons, List.sum_cons]

theorem vmag_sq (v : List ℝ) : vmag v ^ 2 = dotprod v v := by
  rw [vmag, Real.sq_sqrt (sq_sum_nonneg v), dotprod_self]

/-- The inequality of Cauchy and Schwarz. -/
theorem cauchy (u v : List ℝ) : dotprod u v ^ 2 ≤ dotprod u u * dotprod v v := by
  have nn : ∀ w : List ℝ, 0 ≤ dotprod w w := fun w => by rw [dotprod_self]; exact sq_sum_nonneg w
  induction u generalizing v with
  | nil => simp [dotprod_nil_left]
  | cons a u ih =>
    cases v with
    | nil => simp [dotprod_nil_right]
    | cons b v =>
      have h := ih v
      have h1 := nn u
      have h2 := nn v
      simp only [dotprod_cons]
      generalize dotprod u v = p at *
      generalize dotprod u u = q at *
      generalize dotprod v v = r at *
      -- 2 a b p ≤ a² r + b² q
      have key : 2 * (a * b * p) ≤ a ^ 2 * r + b ^ 2 * q := by
        have e : (2 * (a * b * p)) ^ 2 ≤ (a ^ 2 * r + b ^ 2 * q) ^ 2 := by
          have : (a * b) ^ 2 * p ^ 2 ≤ (a * b) ^ 2 * (q * r) := mul_le_mul_of_nonneg_left h (sq_nonneg _)
          nlinarith [sq_nonneg (a ^ 2 * r - b ^ 2 * q)]
        exact abs_le_of_sq_le_sq' e (by positivity) |>.2
      nlinarith

/-- C110: the cosine between two vectors is between -1 and 1, and a normed vector has length 1. -/
theorem C110_cosine {u v : List ℝ} (hu : vmag u ≠ 0) (hv : vmag v ≠ 0) :
    ∃ c, cosaffin u v = .ok c ∧ -1 ≤ c ∧ c ≤ 1 ∧ c * (vmag u * vmag v) = dotprod u v := by
  have h0 : vmag u * vmag v ≠ 0 := mul_ne_zero hu hv
  have hp : 0 < vmag u * vmag v := by
    have h1 : 0 ≤ vmag u := Real.sqrt_nonneg _
    have h2 : 0 ≤ vmag v := Real.sqrt_nonneg _
    exact lt_of_le_of_ne (mul_nonneg h1 h2) (Ne.symm h0)
  have hc := cauchy u v
  rw [← vmag_sq, ← vmag_sq, ← mul_pow] at hc
  have := abs_le_of_sq_le_sq' hc hp.le
  refine ⟨_, by unfold cosaffin; rw [if_neg h0], ?_, ?_, by field_simp⟩
  · rw [le_div_iff₀ hp]; linarith [this.1]
  · rw [div_le_iff₀ hp]; linarith [this.2]

theorem C110_normvec {v : List ℝ} (hv : vmag v ≠ 0) : ∃ n, normvec v = .ok n ∧ vmag n = 1 ∧ n.length = v.length := by
  refine ⟨v.map (· / vmag v), ?_, ?_, by simp⟩
  · unfold normvec scalardivvect
    rw [if_neg (by rintro ⟨h, _⟩; exact hv h)]
  · have h1 : ((v.map (· / vmag v)).map fun i => i * i).sum = (v.map fun i => i * i).sum / vmag v ^ 2 := by
      have : ∀ (m : ℝ) (v : List ℝ), ((v.map (· / m)).map fun i => i * i).sum = (v.map fun i => i * i).sum / m ^ 2 := by
        intro m v
        induction v with
        | nil => simp
        | cons a v ih =>
          simp only [List.map_cons, List.sum_cons] at ih ⊢
          rw [ih]
          ring
      exact this _ _
    rw [vmag, h1, ← dotprod_self, ← vmag_sq, div_self (pow_ne_zero 2 hv), Real.sqrt_one]

/-- C110: `dist` is symmetric, obeys the triangle inequality and is zero only between equal points. -/
theorem C110_dist_comm (u v : List ℝ) : vdist u v = vdist v u := by
  unfold vdist vmag
  congr 1
  induction u generalizing v with
  | nil => simp [subvect]
  | cons a u ih =>
    cases v with
    | nil => simp [subvect]
    | cons b v =>
      have := ih v
      simp only [subvect, List.zipWith_cons_cons, List.map_cons, List.sum_cons] at *
      rw [this]; ring

theorem C110_dist_zero {u v : List ℝ} (h : u.length = v.length) : vdist u v = 0 ↔ u = v := by
  unfold vdist vmag
  rw [Real.sqrt_eq_zero (sq_sum_nonneg _)]
  induction u generalizing v with
  | nil =>
    cases v with
    | nil => simp [subvect]
    | cons b v => simp at h
  | cons a u ih =>
    cases v with
    | nil => simp at h
    | cons b v =>
      have i := ih (v := v) (by simpa using h)
      simp only [subvect, List.zipWith_cons_cons, List.map_cons, List.sum_cons, List.cons.injEq] at *
      have h1 := sq_sum_nonneg (List.zipWith (· - ·) u v)
      have h2 := mul_self_nonneg (a - b)
      constructor
      · intro e
        have e1 : (a - b) * (a - b) = 0 := by linarith
        exact ⟨by have := mul_self_eq_zero.mp e1; linarith, i.mp (by linarith)⟩
      · rintro ⟨rfl, e⟩
        rw [i.mpr e]; ring

theorem vmag_add {u v : List ℝ} (h : u.length = v.length) : vmag (addvect u v) ≤ vmag u + vmag v := by
  have h1 : 0 ≤ vmag u := Real.sqrt_nonneg _
  have h2 : 0 ≤ vmag v := Real.sqrt_nonneg _
  apply abs_le_of_sq_le_sq' _ (by linarith) |>.2
  have hc := cauchy u v
  rw [← vmag_sq, ← vmag_sq, ← mul_pow] at hc
  have hc := (abs_le_of_sq_le_sq' hc (mul_nonneg h1 h2)).2
  rw [vmag_sq, (C110_dot_linear 1 h).1, C110_dot_comm u, C110_dot_comm v, (C110_dot_linear 1 h).1, (C110_dot_linear 1 h).1,
    C110_dot_comm v u]
  nlinarith [vmag_sq u, vmag_sq v]

theorem C110_triangle {u v w : List ℝ} (h1 : u.length = v.length) (h2 : v.length = w.length) : vdist u w ≤ vdist u v + vdist v w := by
  unfold vdist
  have : subvect u w = addvect (subvect u v) (subvect v w) := by
    induction u generalizing v w with
    | nil =>
      cases v with
      | nil => simp [subvect, addvect]
      | cons b v => simp at h1
    | cons a u ih =>
      cases v with
      | nil => simp at h1
      | cons b v =>
        cases w with
        | nil => simp at h2
        | cons c w =>
          have := ih (v := v) (w := w) (by simpa using h1) (by simpa using h2)
          simp only [subvect, addvect, List.zipWith_cons_cons, List.cons.injEq] at *
          exact ⟨by ring, this⟩
  rw [this]
  apply vmag_add
  rw [(C110_cut u v).2, (C110_cut v w).2]
  omega

end Verif.Props
