import Verif.Props.RegPoly
/-! C121: the polygons that result for every number of sides. -/

namespace Verif.Props.RegPoly
open Verif Spec Model Verif.Props

/-- The point of the circle at `d` degrees from the top. -/
noncomputable def atDegrees (cx cy r : Int) (angle d : ℝ) : ℝ × ℝ :=
  let t := (angle + d) * Real.pi / 180
  (cx - r * Real.sin t, cy - r * Real.cos t)

/-- C121: for every number of sides up to 360 the corners are whole numbers of degrees apart, `360 / n` rounded
down, as many as fit in a full turn. -/
theorem C121_exact (cx cy r : Int) {n : Nat} (h0 : 0 < n) (h1 : n ≤ 360) (angle : ℝ) :
    floatregpolygonvert cx cy r n angle = .ok ((List.range ((360 + 360 / n - 1) / (360 / n))).map fun k =>
      atDegrees cx cy r angle (((360 / n * k : Nat) : ℝ))) := by
  have e : Int.fdiv 360 (n : Int) = ((360 / n : Nat) : Int) := by
    rw [Int.fdiv_eq_ediv_of_nonneg _ (by omega)]
    rfl
  have hq : 0 < 360 / n := Nat.div_pos h1 h0
  unfold floatregpolygonvert
  dsimp only
  rw [if_neg (by omega), e]
  generalize 360 / n = q at *
  unfold pyRange3
  rw [if_neg (by omega), if_pos (by omega), ok_bind, pure_eq_ok, List.map_map]
  have e2 : ((360 - 0 + (q : Int) - 1) / q).toNat = (360 + q - 1) / q := by
    rw [show (360 - 0 + (q : Int) - 1) = ((360 + q - 1 : Nat) : Int) by omega]
    rw [← Int.natCast_ediv, Int.toNat_natCast]
  rw [e2]
  congr 1
  apply List.map_congr_left
  intro k _
  unfold atDegrees
  dsimp only [Function.comp]
  have ht : angle * (Real.pi / 180) + ((0 + (q : Int) * (k : Int) : Int) : ℝ) * (Real.pi / 180) =
      (angle + ((q * k : Nat) : ℝ)) * Real.pi / 180 := by
    push_cast
    ring
  rw [ht]

/-- The squared length of a chord. -/
theorem chord (cx cy r : Int) (angle d e : ℝ) :
    ((atDegrees cx cy r angle d).1 - (atDegrees cx cy r angle e).1) ^ 2 +
      ((atDegrees cx cy r angle d).2 - (atDegrees cx cy r angle e).2) ^ 2 =
    (2 * r * Real.sin ((e - d) / 2 * Real.pi / 180)) ^ 2 := by
  unfold atDegrees
  dsimp only
  have e1 : (angle + e) * Real.pi / 180 = (angle + d) * Real.pi / 180 + 2 * ((e - d) / 2 * Real.pi / 180) := by ring
  rw [e1]
  generalize (angle + d) * Real.pi / 180 = t
  generalize (e - d) / 2 * Real.pi / 180 = w
  have h1 := Real.sin_sq_add_cos_sq t
  have h2 := Real.cos_sq' w
  rw [Real.sin_add, Real.cos_add, Real.sin_two_mul, Real.cos_two_mul]
  generalize Real.sin t = s at *
  generalize Real.cos t = c at *
  generalize Real.sin w = u at *
  generalize Real.cos w = v at *
  have : (r * (s * (2 * v ^ 2 - 1) + c * (2 * u * v)) - r * s) ^ 2 + (r * (c * (2 * v ^ 2 - 1) - s * (2 * u * v)) - r * c) ^ 2
      = 4 * (r : ℝ) ^ 2 * (s ^ 2 + c ^ 2) * ((v ^ 2 - 1) ^ 2 + u ^ 2 * v ^ 2) := by ring
  have h3 : (v ^ 2 - 1) ^ 2 + u ^ 2 * v ^ 2 = u ^ 2 := by rw [h2]; ring
  rw [h3, h1] at this
  linear_combination this

/-- C121: if the whole number of degrees does not divide 360, all sides have the same length except the one that
closes the polygon, which is shorter. -/
theorem C121_last_side_wrong (cx cy : Int) {r : Int} (hr : r ≠ 0) {n : Nat} (h0 : 0 < n) (h1 : n ≤ 360)
    (hn : ¬ 360 / n ∣ 360) (angle : ℝ) :
    ∃ v m, floatregpolygonvert cx cy r n angle = .ok v ∧ v.length = m + 1 ∧ n ≤ m ∧ ∃ side last : ℝ, last < side ∧
      (∀ k < m, ((v.getD k 0).1 - (v.getD (k + 1) 0).1) ^ 2 + ((v.getD k 0).2 - (v.getD (k + 1) 0).2) ^ 2 = side) ∧
      ((v.getD m 0).1 - (v.getD 0 0).1) ^ 2 + ((v.getD m 0).2 - (v.getD 0 0).2) ^ 2 = last := by
  have hq : 0 < 360 / n := Nat.div_pos h1 h0
  have hle : 360 / n * n ≤ 360 := Nat.div_mul_le_self 360 n
  have hn1 : n ≠ 1 := by rintro rfl; exact hn (by decide)
  have hn2 : n ≠ 2 := by rintro rfl; exact hn (by decide)
  have hq2 : 360 / n ≤ 120 := by
    calc 360 / n ≤ 360 / 3 := Nat.div_le_div_left (by omega) (by norm_num)
      _ = 120 := by norm_num
  have e := C121_exact cx cy r h0 h1 angle
  generalize 360 / n = q at *
  obtain ⟨m, hm, hm1, hm2⟩ : ∃ m, (360 + q - 1) / q = m + 1 ∧ q * m < 360 ∧ 360 ≤ q * m + q := by
    have d1 := Nat.div_add_mod (360 + q - 1) q
    have d2 := Nat.mod_lt (360 + q - 1) hq
    have d3 : 0 < (360 + q - 1) / q := Nat.div_pos (by omega) hq
    refine ⟨(360 + q - 1) / q - 1, by omega, ?_⟩
    obtain ⟨c, hc⟩ : ∃ c, (360 + q - 1) / q = c + 1 := ⟨_, (Nat.succ_pred_eq_of_pos d3).symm⟩
    rw [hc] at d1 ⊢
    rw [Nat.mul_add, Nat.mul_one] at d1
    rw [Nat.add_sub_cancel]
    omega
  have hm3 : 360 < q * m + q := by
    rcases Nat.lt_or_ge 360 (q * m + q) with h | h
    · exact h
    · exact absurd ⟨m + 1, by rw [Nat.mul_add]; omega⟩ hn
  have hnm : n ≤ m := by
    by_contra h
    have : m + 1 ≤ n := by omega
    have := Nat.mul_le_mul_left q this
    rw [Nat.mul_add] at this
    omega
  rw [hm] at e
  refine ⟨_, m, e, by simp, hnm, (2 * (r : ℝ) * Real.sin ((q : ℝ) / 2 * Real.pi / 180)) ^ 2,
    (2 * (r : ℝ) * Real.sin ((360 - (q * m : Nat) : ℝ) / 2 * Real.pi / 180)) ^ 2, ?_, ?_, ?_⟩
  · have hp := Real.pi_pos
    have a1 : ((q * m : Nat) : ℝ) < 360 := by exact_mod_cast hm1
    have a2 : (360 : ℝ) < ((q * m : Nat) : ℝ) + q := by exact_mod_cast hm3
    have a3 : (q : ℝ) ≤ 120 := by exact_mod_cast hq2
    have b0 : 0 < Real.sin ((360 - (q * m : Nat) : ℝ) / 2 * Real.pi / 180) := by
      apply Real.sin_pos_of_pos_of_lt_pi
      · have : 0 < (360 - (q * m : Nat) : ℝ) := by linarith
        positivity
      · nlinarith
    have b1 : Real.sin ((360 - (q * m : Nat) : ℝ) / 2 * Real.pi / 180) < Real.sin ((q : ℝ) / 2 * Real.pi / 180) := by
      apply Real.sin_lt_sin_of_lt_of_le_pi_div_two
      · nlinarith
      · nlinarith
      · have : (360 - (q * m : Nat) : ℝ) < q := by linarith
        nlinarith
    rw [mul_pow, mul_pow (2 * (r : ℝ))]
    have hr2 : 0 < (2 * (r : ℝ)) ^ 2 := by
      have : (r : ℝ) ≠ 0 := by exact_mod_cast hr
      positivity
    exact mul_lt_mul_of_pos_left (pow_lt_pow_left₀ b1 b0.le (by norm_num)) hr2
  · intro k hk
    have g : ∀ j ≤ m, ((List.range (m + 1)).map fun k => atDegrees cx cy r angle (((q * k : Nat) : ℝ))).getD j 0 =
        atDegrees cx cy r angle (((q * j : Nat) : ℝ)) := by
      intro j hj
      rw [List.getD_eq_getElem?_getD, List.getElem?_map, List.getElem?_range (by omega)]
      rfl
    rw [g k hk.le, g (k + 1) hk, chord]
    congr 5
    push_cast
    ring
  · have g : ∀ j ≤ m, ((List.range (m + 1)).map fun k => atDegrees cx cy r angle (((q * k : Nat) : ℝ))).getD j 0 =
        atDegrees cx cy r angle (((q * j : Nat) : ℝ)) := by
      intro j hj
      rw [List.getD_eq_getElem?_getD, List.getElem?_map, List.getElem?_range (by omega)]
      rfl
    rw [g m le_rfl, g 0 (Nat.zero_le _), chord]
    have e1 : ((((q * 0 : Nat) : ℝ) - ((q * m : Nat) : ℝ)) / 2 * Real.pi / 180) =
        (360 - (q * m : Nat) : ℝ) / 2 * Real.pi / 180 - Real.pi := by push_cast; ring
    rw [e1, Real.sin_sub_pi]
    ring

/-- C121: if the whole number of degrees divides 360, the result is a regular polygon with another number of
sides. -/
theorem C121_other_exact (cx cy r : Int) {n : Nat} (h0 : 0 < n) (h1 : n ≤ 360) (hn : 360 / n ∣ 360) (angle : ℝ) :
    floatregpolygonvert cx cy r n angle = floatregpolygonvert cx cy r ((360 / (360 / n) : Nat) : Int) angle := by
  have hq : 0 < 360 / n := Nat.div_pos h1 h0
  have hq1 : 360 / n ≤ 360 := Nat.div_le_self _ _
  have hq2 : 0 < 360 / (360 / n) := Nat.div_pos hq1 hq
  rw [C121_exact cx cy r h0 h1, C121_exact cx cy r hq2 (Nat.div_le_self _ _)]
  have : 360 / (360 / (360 / n)) = 360 / n := Nat.div_div_self hn (by norm_num)
  rw [this]

/-- C121: a negative number of sides gives no corners, zero is an error. -/
theorem C121_negative (cx cy r : Int) {n : Int} (h : n < 0) (angle : ℝ) :
    floatregpolygonvert cx cy r n angle = .ok [] ∧ floatregpolygonvert cx cy r 0 angle = .error .zeroDivision := by
  constructor
  · have e : Int.fdiv 360 n < 0 := by
      obtain ⟨k, rfl⟩ : ∃ k : Nat, n = -((k + 1 : Nat) : Int) := ⟨(-n - 1).toNat, by omega⟩
      show Int.fdiv (Int.ofNat 360) (Int.negSucc k) < 0
      exact Int.negSucc_lt_zero _
    unfold floatregpolygonvert
    dsimp only
    rw [if_neg (by omega)]
    generalize Int.fdiv 360 n = d at *
    unfold pyRange3
    rw [if_neg (by omega), if_neg (by omega)]
    have : ((0 - 360 - d - 1) / -d).toNat = 0 := by
      have : (0 - 360 - d - 1) / -d ≤ 0 := by
        rw [← Int.lt_add_one_iff, Int.ediv_lt_iff_lt_mul (by omega)]
        omega
      omega
    rw [this]
    rfl
  · rfl

example : ∃ v, floatregpolygonvert 0 0 10 7 0 = .ok v ∧ v.length = 8 :=
  ⟨_, C121_exact 0 0 10 (n := 7) (by norm_num) (by norm_num) 0, by simp⟩
/-- Seven sides: eight corners. A hundred sides: a hundred and twenty corners. -/
example : (360 + 360 / 7 - 1) / (360 / 7) = 8 ∧ ¬ 360 / 7 ∣ 360 ∧ 360 / 100 ∣ 360 ∧ 360 / (360 / 100) = 120 := by decide

end Verif.Props.RegPoly
