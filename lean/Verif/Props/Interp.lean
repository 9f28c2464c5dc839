import Verif.Model.MathLib
import Mathlib.Tactic.Ring
import Mathlib.Tactic.Linarith
import Mathlib.Tactic.FieldSimp
import Mathlib.Analysis.Calculus.Deriv.MeanValue
import Mathlib.Analysis.Calculus.Deriv.Pow
/-! Interpolation and coordinates of mathlib.py with exact numbers (C113, C114). -/

namespace Verif.Props
open Verif Model

section
variable {K : Type} [Field K] [DecidableEq K]

/-- C113: `invlerp` is the inverse of `lerp` and gives the position between the ends. -/
theorem C113_inverse {a b : K} (h : a ≠ b) (f v : K) : invlerp a b (lerp a b f) = f ∧ lerp a b (invlerp a b v) = v := by
  have hd : b - a ≠ 0 := sub_ne_zero.mpr (Ne.symm h)
  simp only [invlerp, lerp, ne_eq, hd, not_false_eq_true, if_true]
  constructor
  · field_simp; ring
  · field_simp; ring

/-- C113: the ends; without a range the position is 1. -/
theorem C113_ends (a b v : K) : lerp a b 0 = a ∧ lerp a b 1 = b ∧ invlerp a a v = 1 ∧ smoothstep a a v = 1 ∧
    smootherstep a a v = 1 ∧ smootheststep a a v = 1 := by
  simp [lerp, invlerp, smoothstep, smootherstep, smootheststep]
  norm_num

/-- The three curves as functions of the position. -/
def curve2 (t : K) : K := t * t * (3 - 2 * t)
def curve3 (t : K) : K := t * t * t * (t * (t * 6 - 15) + 10)
def curve4 (t : K) : K := t * t * t * t * (t * (t * (-20 * t + 70) - 84) + 35)

theorem C113_curves (a b v : K) : smoothstep a b v = curve2 (invlerp a b v) ∧ smootherstep a b v = curve3 (invlerp a b v) ∧
    smootheststep a b v = curve4 (invlerp a b v) := ⟨rfl, rfl, rfl⟩

/-- C113: between different ends the smooth interpolations are linear ones at the position that the curve
gives, and the curves are symmetric about the middle. -/
theorem C113_smooth {a b : K} (h : a ≠ b) (f : K) : smoothsteplerp a b f = lerp a b (curve2 f) ∧
    smoothersteplerp a b f = lerp a b (curve3 f) ∧ smootheststeplerp a b f = lerp a b (curve4 f) := by
  have e := (C113_inverse h f f).1
  refine ⟨?_, ?_, ?_⟩
  · rw [smoothsteplerp, (C113_curves _ _ _).1, e]
  · rw [smoothersteplerp, (C113_curves _ _ _).2.1, e]
  · rw [smootheststeplerp, (C113_curves _ _ _).2.2, e]

theorem C113_symmetric (t : K) : curve2 (1 - t) = 1 - curve2 t ∧ curve3 (1 - t) = 1 - curve3 t ∧ curve4 (1 - t) = 1 - curve4 t := by
  simp only [curve2, curve3, curve4]
  refine ⟨by ring, by ring, by ring⟩

end

theorem rises {f f' : ℝ → ℝ} (hf : ∀ t, HasDerivAt f (f' t) t) (h0 : ∀ t, 0 ≤ t → t ≤ 1 → 0 ≤ f' t) : MonotoneOn f (Set.Icc 0 1) := by
  apply monotoneOn_of_deriv_nonneg (convex_Icc 0 1)
  · exact fun t _ => (hf t).continuousAt.continuousWithinAt
  · exact fun t _ => (hf t).differentiableAt.differentiableWithinAt
  · intro t ht
    rw [interior_Icc] at ht
    rw [(hf t).deriv]
    exact h0 t ht.1.le ht.2.le

theorem deriv2 (t : ℝ) : HasDerivAt curve2 (6 * t * (1 - t)) t := by
  have h : HasDerivAt (fun t : ℝ => 3 * t ^ 2 - 2 * t ^ 3) (3 * (2 * t ^ 1) - 2 * (3 * t ^ 2)) t :=
    ((hasDerivAt_pow 2 t).const_mul 3).sub ((hasDerivAt_pow 3 t).const_mul 2)
  have e : (fun t : ℝ => 3 * t ^ 2 - 2 * t ^ 3) = curve2 := by funext t; simp only [curve2]; ring
  rw [e] at h
  convert h using 1
  ring

theorem deriv3 (t : ℝ) : HasDerivAt curve3 (30 * t ^ 2 * (1 - t) ^ 2) t := by
  have h : HasDerivAt (fun t : ℝ => 6 * t ^ 5 - 15 * t ^ 4 + 10 * t ^ 3) (6 * (5 * t ^ 4) - 15 * (4 * t ^ 3) + 10 * (3 * t ^ 2)) t :=
    (((hasDerivAt_pow 5 t).const_mul 6).sub ((hasDerivAt_pow 4 t).const_mul 15)).add ((hasDerivAt_pow 3 t).const_mul 10)
  have e : (fun t : ℝ => 6 * t ^ 5 - 15 * t ^ 4 + 10 * t ^ 3) = curve3 := by funext t; simp only [curve3]; ring
  rw [e] at h
  convert h using 1
  ring

theorem deriv4 (t : ℝ) : HasDerivAt curve4 (140 * t ^ 3 * (1 - t) ^ 3) t := by
  have h : HasDerivAt (fun t : ℝ => -20 * t ^ 7 + 70 * t ^ 6 - 84 * t ^ 5 + 35 * t ^ 4)
      (-20 * (7 * t ^ 6) + 70 * (6 * t ^ 5) - 84 * (5 * t ^ 4) + 35 * (4 * t ^ 3)) t :=
    ((((hasDerivAt_pow 7 t).const_mul (-20)).add ((hasDerivAt_pow 6 t).const_mul 70)).sub ((hasDerivAt_pow 5 t).const_mul 84)).add
      ((hasDerivAt_pow 4 t).const_mul 35)
  have e : (fun t : ℝ => -20 * t ^ 7 + 70 * t ^ 6 - 84 * t ^ 5 + 35 * t ^ 4) = curve4 := by funext t; simp only [curve4]; ring
  rw [e] at h
  convert h using 1
  ring

/-- C113: the curves rise from 0 to 1, with slope 0 at both ends. -/
theorem C113_rise : MonotoneOn (curve2 : ℝ → ℝ) (Set.Icc 0 1) ∧ MonotoneOn (curve3 : ℝ → ℝ) (Set.Icc 0 1) ∧
    MonotoneOn (curve4 : ℝ → ℝ) (Set.Icc 0 1) ∧
    deriv (curve2 : ℝ → ℝ) 0 = 0 ∧ deriv (curve2 : ℝ → ℝ) 1 = 0 ∧ deriv (curve3 : ℝ → ℝ) 0 = 0 ∧ deriv (curve3 : ℝ → ℝ) 1 = 0 ∧
    deriv (curve4 : ℝ → ℝ) 0 = 0 ∧ deriv (curve4 : ℝ → ℝ) 1 = 0 := by
  refine ⟨rises deriv2 ?_, rises deriv3 ?_, rises deriv4 ?_, ?_, ?_, ?_, ?_, ?_, ?_⟩
  · intro t h0 h1
    have : 0 ≤ 1 - t := by linarith
    positivity
  · intro t h0 h1
    positivity
  · intro t h0 h1
    have : 0 ≤ 1 - t := by linarith
    positivity
  · rw [(deriv2 0).deriv]; norm_num
  · rw [(deriv2 1).deriv]; norm_num
  · rw [(deriv3 0).deriv]; norm_num
  · rw [(deriv3 1).deriv]; norm_num
  · rw [(deriv4 0).deriv]; norm_num
  · rw [(deriv4 1).deriv]; norm_num

/-- C113: the documented range: for a value between the ends the result is between 0 and 1. -/
theorem C113_range [DecidableEq ℝ] {a b v : ℝ} (h1 : a ≤ v) (h2 : v ≤ b) :
    (0 ≤ invlerp a b v ∧ invlerp a b v ≤ 1) ∧ (0 ≤ smoothstep a b v ∧ smoothstep a b v ≤ 1) ∧
    (0 ≤ smootherstep a b v ∧ smootherstep a b v ≤ 1) ∧ (0 ≤ smootheststep a b v ∧ smootheststep a b v ≤ 1) := by
  have h : 0 ≤ invlerp a b v ∧ invlerp a b v ≤ 1 := by
    unfold invlerp
    dsimp only
    split_ifs with hd
    · have hp : 0 < b - a := lt_of_le_of_ne (by linarith) (Ne.symm hd)
      exact ⟨div_nonneg (by linarith) hp.le, by rw [div_le_one hp]; linarith⟩
    · norm_num
  obtain ⟨c1, c2, c3⟩ := C113_curves a b v
  rw [c1, c2, c3]
  obtain ⟨m2, m3, m4, _⟩ := C113_rise
  have z : (0 : ℝ) ∈ Set.Icc (0 : ℝ) 1 := ⟨le_refl _, zero_le_one⟩
  have o : (1 : ℝ) ∈ Set.Icc (0 : ℝ) 1 := ⟨zero_le_one, le_refl _⟩
  have a2 := m2 z h h.1
  have b2 := m2 h o h.2
  have a3 := m3 z h h.1
  have b3 := m3 h o h.2
  have a4 := m4 z h h.1
  have b4 := m4 h o h.2
  refine ⟨h, ⟨?_, ?_⟩, ⟨?_, ?_⟩, ⟨?_, ?_⟩⟩
  · refine le_trans (le_of_eq ?_) a2; norm_num [curve2]
  · refine le_trans b2 (le_of_eq ?_); norm_num [curve2]
  · refine le_trans (le_of_eq ?_) a3; norm_num [curve3]
  · refine le_trans b3 (le_of_eq ?_); norm_num [curve3]
  · refine le_trans (le_of_eq ?_) a4; norm_num [curve4]
  · refine le_trans b4 (le_of_eq ?_); norm_num [curve4]

/-- C113: `invsmoothstep` undoes `smoothstep` from both sides. -/
theorem C113_invsmoothstep {x : ℝ} (h0 : 0 ≤ x) (h1 : x ≤ 1) : curve2 (invsmoothstep x) = x ∧ invsmoothstep (curve2 x) = x := by
  have cube : ∀ s : ℝ, curve2 (1 / 2 - s) = 1 / 2 - (3 * s - 4 * s ^ 3) / 2 := by intro s; simp only [curve2]; ring
  constructor
  · have h3 := Real.sin_three_mul (Real.arcsin (1 - 2 * x) / 3)
    rw [show 3 * (Real.arcsin (1 - 2 * x) / 3) = Real.arcsin (1 - 2 * x) by ring, Real.sin_arcsin (by linarith) (by linarith)] at h3
    rw [invsmoothstep, show (0.5 : ℝ) = 1 / 2 by norm_num, cube, ← h3]
    ring
  · have hs : Real.sin (Real.arcsin (1 / 2 - x)) = 1 / 2 - x := Real.sin_arcsin (by linarith) (by linarith)
    have h3 := Real.sin_three_mul (Real.arcsin (1 / 2 - x))
    have h6 : Real.arcsin (1 / 2) = Real.pi / 6 := by
      rw [← Real.sin_pi_div_six]
      exact Real.arcsin_sin (by linarith [Real.pi_pos]) (by linarith [Real.pi_pos])
    have lo : -(Real.pi / 6) ≤ Real.arcsin (1 / 2 - x) := by
      rw [← h6, ← Real.arcsin_neg]
      exact Real.monotone_arcsin (by linarith)
    have hi : Real.arcsin (1 / 2 - x) ≤ Real.pi / 6 := by
      rw [← h6]
      exact Real.monotone_arcsin (by linarith)
    have e : 1 - 2 * curve2 x = Real.sin (3 * Real.arcsin (1 / 2 - x)) := by
      rw [h3, hs]
      simp only [curve2]
      ring
    rw [invsmoothstep, e, Real.arcsin_sin (by linarith) (by linarith),
      show 3 * Real.arcsin (1 / 2 - x) / 3 = Real.arcsin (1 / 2 - x) by ring, hs]
    norm_num

example : lerp (10 : ℚ) 20 (1 / 4) = 25 / 2 := by decide +kernel
example : smoothstep (10 : ℚ) 20 (25 / 2) = 5 / 32 := by decide +kernel
example : smootherstep (10 : ℚ) 20 15 = 1 / 2 := by decide +kernel
example : smoothsteplerp (10 : ℚ) 20 (1 / 4) = 185 / 16 := by decide +kernel

theorem vmag2 (x y : ℝ) : vmag [x, y] = Real.sqrt (x ^ 2 + y ^ 2) := by
  simp [vmag, ← pow_two]

theorem vmag3 (x y z : ℝ) : vmag [x, y, z] = Real.sqrt (x ^ 2 + y ^ 2 + z ^ 2) := by
  simp [vmag, ← pow_two, add_assoc]

theorem slope_parts {x : ℝ} (y : ℝ) (hx : x ≠ 0) : Real.sqrt (x ^ 2 + y ^ 2) * Real.cos (Real.arctan (y / x)) = |x| ∧
    Real.sqrt (x ^ 2 + y ^ 2) * Real.sin (Real.arctan (y / x)) = |x| / x * y := by
  have hr : Real.sqrt (x ^ 2 + y ^ 2) = |x| * Real.sqrt (1 + (y / x) ^ 2) := by
    rw [← Real.sqrt_sq_eq_abs, ← Real.sqrt_mul (sq_nonneg x)]
    congr 1
    field_simp
  have hp : 0 < Real.sqrt (1 + (y / x) ^ 2) := Real.sqrt_pos.mpr (by positivity)
  rw [Real.cos_arctan, Real.sin_arctan, hr]
  constructor
  · field_simp
  · field_simp

/-- C114: converting to polar coordinates and back gives the point, if it is right of the origin ... -/
theorem C114_polar {x : ℝ} (y : ℝ) (hx : 0 < x) : ∃ p, rect2polar (x, y) = .ok p ∧ polar2rect p = (x, y) := by
  refine ⟨_, by unfold rect2polar; dsimp only; rw [if_neg hx.ne'], ?_⟩
  obtain ⟨h1, h2⟩ := slope_parts y hx.ne'
  simp only [polar2rect, vmag2, h1, h2, abs_of_pos hx, div_self hx.ne', one_mul]

/-- ... but the opposite point if it is left of it; above and below it an error is raised. -/
theorem C114_polar_false {x : ℝ} (y : ℝ) (hx : x < 0) : ∃ p, rect2polar (x, y) = .ok p ∧ polar2rect p = (-x, -y) := by
  refine ⟨_, by unfold rect2polar; dsimp only; rw [if_neg hx.ne], ?_⟩
  obtain ⟨h1, h2⟩ := slope_parts y hx.ne
  simp only [polar2rect, vmag2, h1, h2, abs_of_neg hx, neg_div, div_self hx.ne, neg_mul, one_mul]

theorem C114_polar_error (y : ℝ) : rect2polar (0, y) = .error .zeroDivision := by
  unfold rect2polar; dsimp only; rw [if_pos rfl]

/-- C114: the other way round the coordinates return for a positive distance and angles between minus and plus
a quarter turn. -/
theorem C114_polar_back {r t : ℝ} (hr : 0 < r) (h1 : -(Real.pi / 2) < t) (h2 : t < Real.pi / 2) :
    rect2polar (polar2rect (r, t)) = .ok (r, t) := by
  have hc := Real.cos_pos_of_mem_Ioo ⟨h1, h2⟩
  unfold rect2polar polar2rect
  dsimp only
  rw [if_neg (mul_pos hr hc).ne', vmag2]
  congr 2
  · rw [show (r * Real.cos t) ^ 2 + (r * Real.sin t) ^ 2 = r ^ 2 * (Real.sin t ^ 2 + Real.cos t ^ 2) by ring, Real.sin_sq_add_cos_sq, mul_one,
      Real.sqrt_sq hr.le]
  · rw [mul_div_mul_left _ _ hr.ne', ← Real.tan_eq_sin_div_cos, Real.arctan_tan h1 h2]

/-- C114: spherical coordinates and back, right of the origin. -/
theorem C114_spherical {x : ℝ} (y z : ℝ) (hx : 0 < x) : ∃ p, rect2spherical (x, y, z) = .ok p ∧ spherical2rect p = (x, y, z) := by
  have hq : 0 < x ^ 2 + y ^ 2 + z ^ 2 := by positivity
  have hp : 0 < Real.sqrt (x ^ 2 + y ^ 2 + z ^ 2) := Real.sqrt_pos.mpr hq
  have hsq := Real.sq_sqrt hq.le
  refine ⟨_, by unfold rect2spherical; dsimp only; rw [vmag3, if_neg (by rintro (h | h); exacts [hx.ne' h, hp.ne' h])], ?_⟩
  obtain ⟨h1, h2⟩ := slope_parts y hx.ne'
  have hz : -1 ≤ z / Real.sqrt (x ^ 2 + y ^ 2 + z ^ 2) ∧ z / Real.sqrt (x ^ 2 + y ^ 2 + z ^ 2) ≤ 1 := by
    have := abs_le_of_sq_le_sq' (show z ^ 2 ≤ Real.sqrt (x ^ 2 + y ^ 2 + z ^ 2) ^ 2 by rw [hsq]; nlinarith) hp.le
    constructor
    · rw [le_div_iff₀ hp]; linarith [this.1]
    · rw [div_le_iff₀ hp]; linarith [this.2]
  have hsin : Real.sqrt (x ^ 2 + y ^ 2 + z ^ 2) * Real.sin (Real.arccos (z / Real.sqrt (x ^ 2 + y ^ 2 + z ^ 2))) = Real.sqrt (x ^ 2 + y ^ 2) := by
    rw [Real.sin_arccos]
    nth_rw 1 [← Real.sqrt_sq hp.le]
    rw [← Real.sqrt_mul (sq_nonneg _), div_pow, mul_sub, mul_div_cancel₀ _ (pow_ne_zero 2 hp.ne'), hsq]
    congr 1
    ring
  simp only [spherical2rect, hsin, h1, h2, abs_of_pos hx, div_self hx.ne', one_mul, Real.cos_arccos hz.1 hz.2, mul_div_cancel₀ _ hp.ne']

/-- C114: cylindrical coordinates are wrong off the plane z = 0: the distance from the origin is used in
place of the distance from the axis. -/
theorem C114_cylindrical_exact {x : ℝ} (y z : ℝ) (hx : 0 < x) :
    ∃ p, rect2cylindrical (x, y, z) = .ok p ∧ p.1 ^ 2 = x ^ 2 + y ^ 2 + z ^ 2 ∧ (cylindrical2rect p = (x, y, z) ↔ z = 0) := by
  have hq : 0 < x ^ 2 + y ^ 2 + z ^ 2 := by positivity
  have hq2 : 0 < x ^ 2 + y ^ 2 := by positivity
  refine ⟨_, by unfold rect2cylindrical; dsimp only; rw [if_neg hx.ne'], ?_, ?_⟩
  · dsimp only; rw [vmag3, Real.sq_sqrt hq.le]
  · obtain ⟨h1, h2⟩ := slope_parts y hx.ne'
    rw [abs_of_pos hx] at h1
    rw [abs_of_pos hx, div_self hx.ne', one_mul] at h2
    simp only [cylindrical2rect, vmag3, Prod.mk.injEq, and_true]
    constructor
    · rintro ⟨e, _⟩
      have hc : Real.cos (Real.arctan (y / x)) ≠ 0 := (Real.cos_arctan_pos _).ne'
      have := mul_right_cancel₀ hc (e.trans h1.symm)
      have := congrArg (· ^ 2) this
      simp only [Real.sq_sqrt hq.le, Real.sq_sqrt hq2.le] at this
      have : z ^ 2 = 0 := by linarith
      exact pow_eq_zero_iff two_ne_zero |>.mp this
    · rintro rfl
      rw [show x ^ 2 + y ^ 2 + (0 : ℝ) ^ 2 = x ^ 2 + y ^ 2 by ring]
      exact ⟨h1, h2⟩

theorem C114_cylindrical_false : ∃ p, rect2cylindrical (1, 0, 1) = .ok p ∧ cylindrical2rect p ≠ (1, 0, 1) := by
  obtain ⟨p, e, _, h⟩ := C114_cylindrical_exact (x := 1) 0 1 (by norm_num)
  exact ⟨p, e, fun hh => one_ne_zero (h.mp hh)⟩

/-- C114: `polarcoordangle2D` is the angle from straight up, in the sense of a clock on a screen, from 0 to
below a full turn. -/
theorem C114_angle {x y : ℝ} (h : x ≠ 0 ∨ y ≠ 0) : ∃ a, polarcoordangle2D (x, y) = .ok a ∧ 0 ≤ a ∧ a < 2 * Real.pi ∧
    x = vmag [x, y] * Real.sin a ∧ y = -(vmag [x, y] * Real.cos a) := by
  have hq : 0 < x ^ 2 + y ^ 2 := by
    rcases h with h | h
    · have := pow_pos (abs_pos.mpr h) 2; rw [sq_abs] at this; nlinarith [sq_nonneg y]
    · have := pow_pos (abs_pos.mpr h) 2; rw [sq_abs] at this; nlinarith [sq_nonneg x]
  have hp : 0 < Real.sqrt (x ^ 2 + y ^ 2) := Real.sqrt_pos.mpr hq
  have hsq := Real.sq_sqrt hq.le
  have hone : vmag [0, -1] = 1 := by rw [vmag2]; norm_num
  have hdot : dotprod [x, y] [0, -1] = -y := by simp [dotprod, mulvect]
  have hcos : cosaffin [x, y] [0, -1] = .ok (-y / Real.sqrt (x ^ 2 + y ^ 2)) := by
    unfold cosaffin
    rw [hone, mul_one, vmag2, if_neg hp.ne', hdot]
  have hz : -1 ≤ -y / Real.sqrt (x ^ 2 + y ^ 2) ∧ -y / Real.sqrt (x ^ 2 + y ^ 2) ≤ 1 := by
    have := abs_le_of_sq_le_sq' (show (-y) ^ 2 ≤ Real.sqrt (x ^ 2 + y ^ 2) ^ 2 by rw [hsq]; nlinarith) hp.le
    constructor
    · rw [le_div_iff₀ hp]; linarith [this.1]
    · rw [div_le_iff₀ hp]; linarith [this.2]
  have hsin : Real.sqrt (x ^ 2 + y ^ 2) * Real.sin (Real.arccos (-y / Real.sqrt (x ^ 2 + y ^ 2))) = |x| := by
    rw [Real.sin_arccos]
    nth_rw 1 [← Real.sqrt_sq hp.le]
    rw [← Real.sqrt_mul (sq_nonneg _), div_pow, mul_sub, mul_div_cancel₀ _ (pow_ne_zero 2 hp.ne'), hsq, ← Real.sqrt_sq_eq_abs]
    congr 1
    ring
  have hc : Real.sqrt (x ^ 2 + y ^ 2) * Real.cos (Real.arccos (-y / Real.sqrt (x ^ 2 + y ^ 2))) = -y := by
    rw [Real.cos_arccos hz.1 hz.2, mul_div_cancel₀ _ hp.ne']
  have a0 := Real.arccos_nonneg (-y / Real.sqrt (x ^ 2 + y ^ 2))
  have a1 := Real.arccos_le_pi (-y / Real.sqrt (x ^ 2 + y ^ 2))
  refine ⟨_, by unfold polarcoordangle2D; simp only [hcos, bind, Except.bind]; rfl, ?_⟩
  rw [vmag2]
  generalize Real.arccos (-y / Real.sqrt (x ^ 2 + y ^ 2)) = t at *
  split_ifs with hx
  · have ht : t ≠ 0 := by
      rintro rfl
      rw [Real.sin_zero, mul_zero] at hsin
      exact hx.ne (abs_eq_zero.mp hsin.symm)
    have : 0 < t := lt_of_le_of_ne a0 (Ne.symm ht)
    refine ⟨by linarith [Real.pi_pos], by linarith, ?_, ?_⟩
    · rw [Real.sin_two_pi_sub, mul_neg, hsin, abs_of_neg hx, neg_neg]
    · rw [Real.cos_two_pi_sub, hc, neg_neg]
  · refine ⟨a0, by linarith [Real.pi_pos], ?_, ?_⟩
    · rw [hsin, abs_of_nonneg (not_lt.mp hx)]
    · rw [hc, neg_neg]

/-- C114: `anglebetween2Dlines` is the same for both directions of a line; the branch for a quarter turn is
never taken: every vertical line has three quarters of a turn. -/
theorem C114_line_angle (u v : ℝ × ℝ) : anglebetween2Dlines u v = anglebetween2Dlines v u ∧
    (u.1 = v.1 → anglebetween2Dlines u v = 3 * Real.pi / 2) ∧
    (u.1 ≠ v.1 → Real.tan (anglebetween2Dlines u v) = (v.2 - u.2) / (v.1 - u.1)) := by
  unfold anglebetween2Dlines
  refine ⟨?_, ?_, ?_⟩
  · by_cases h : u.1 = v.1
    · rw [if_neg (not_not.mpr h), if_neg (not_not.mpr h.symm), h]
    · rw [if_pos h, if_pos (Ne.symm h)]
      congr 1
      unfold Model.slope
      rw [← neg_sub v.2 u.2, ← neg_sub v.1 u.1, neg_div_neg_eq]
  · intro h
    rw [if_neg (by simpa using h), if_neg (by rw [h]; exact lt_irrefl _)]
  · intro h
    rw [if_pos h, Real.tan_arctan, Model.slope]

end Verif.Props
