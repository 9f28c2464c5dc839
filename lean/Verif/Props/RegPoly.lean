import Verif.Model.Curves
import Verif.Props.Thick
import Mathlib.Analysis.SpecialFunctions.Trigonometric.Basic
import Mathlib.Tactic.Linarith
import Mathlib.Tactic.FieldSimp
import Mathlib.Tactic.IntervalCases
/-! C121: regular polygons. -/

namespace Verif.Props.RegPoly
open Verif Spec Model Verif.Props

/-- The corner `k` of the regular polygon with `n` corners, turned by `angle` degrees; corner 0 of the one that
is not turned is the topmost. -/
noncomputable def corner (cx cy r : Int) (n : Nat) (angle : ℝ) (k : Nat) : ℝ × ℝ :=
  let t := (angle + 360 * k / n) * Real.pi / 180
  (cx - r * Real.sin t, cy - r * Real.cos t)

/-- C121: if the number of sides divides 360 the result is the list of the corners. -/
theorem C121_regular (cx cy r : Int) {n : Nat} (hn : n ∣ 360) (angle : ℝ) :
    floatregpolygonvert cx cy r n angle = .ok ((List.range n).map (corner cx cy r n angle)) := by
  obtain ⟨q, hq⟩ := hn
  have hn0 : 0 < n := by rcases Nat.eq_zero_or_pos n with h | h; · subst h; omega
                         · exact h
  have hq0 : 0 < q := by rcases Nat.eq_zero_or_pos q with h | h; · subst h; omega
                         · exact h
  have e : Int.fdiv 360 (n : Int) = q := by
    rw [Int.fdiv_eq_ediv_of_nonneg _ (by omega)]
    exact Int.ediv_eq_of_eq_mul_right (by omega) (by exact_mod_cast hq)
  have e2 : ((360 - 0 + (q : Int) - 1) / q).toNat = n := by
    have : (360 - 0 + (q : Int) - 1) / q = n := by
      have h1 : (360 : Int) = n * q := by exact_mod_cast hq
      rw [Int.sub_zero, h1, Int.add_sub_assoc, Int.add_comm, Int.add_mul_ediv_right _ _ (by omega),
        Int.ediv_eq_zero_of_lt (by omega) (by omega), zero_add]
    rw [this, Int.toNat_natCast]
  unfold floatregpolygonvert
  dsimp only
  rw [if_neg (by omega), e]
  unfold pyRange3
  rw [if_neg (by omega), if_pos (by omega), e2, ok_bind, pure_eq_ok, List.map_map]
  congr 1
  apply List.map_congr_left
  intro k _
  have hnq : (n : ℝ) * q = 360 := by exact_mod_cast hq.symm
  have hnr : (n : ℝ) ≠ 0 := by exact_mod_cast hn0.ne'
  have ht : angle * (Real.pi / 180) + ((0 + (q : Int) * (k : Int) : Int) : ℝ) * (Real.pi / 180) =
      (angle + 360 * k / n) * Real.pi / 180 := by
    push_cast
    rw [← hnq]
    field_simp
    ring
  unfold corner
  dsimp only [Function.comp]
  rw [ht]

/-- C121: every corner has the distance `r` from the centre. -/
theorem C121_radius (cx cy r : Int) (n : Nat) (angle : ℝ) (k : Nat) :
    ((corner cx cy r n angle k).1 - cx) ^ 2 + ((corner cx cy r n angle k).2 - cy) ^ 2 = (r : ℝ) ^ 2 := by
  unfold corner
  dsimp only
  generalize (angle + 360 * k / n) * Real.pi / 180 = t
  linear_combination (r : ℝ) ^ 2 * Real.sin_sq_add_cos_sq t

/-- C121: all sides have the same length, with the one that closes the polygon. -/
theorem C121_sides (cx cy r : Int) {n : Nat} (hn : 0 < n) (angle : ℝ) {k : Nat} (hk : k < n) :
    let p := corner cx cy r n angle k
    let q := corner cx cy r n angle ((k + 1) % n)
    (p.1 - q.1) ^ 2 + (p.2 - q.2) ^ 2 = (2 * r * Real.sin (Real.pi / n)) ^ 2 := by
  have hnr : (n : ℝ) ≠ 0 := by exact_mod_cast hn.ne'
  have hc : corner cx cy r n angle ((k + 1) % n) = corner cx cy r n angle (k + 1) := by
    rcases Nat.lt_or_ge (k + 1) n with h | h
    · rw [Nat.mod_eq_of_lt h]
    · have : k + 1 = n := by omega
      rw [this, Nat.mod_self]
      unfold corner
      dsimp only
      have e : (angle + 360 * (n : ℝ) / n) * Real.pi / 180 = (angle + 360 * ((0 : Nat) : ℝ) / n) * Real.pi / 180 + 2 * Real.pi := by
        field_simp
        push_cast
        ring
      rw [e, Real.sin_add_two_pi, Real.cos_add_two_pi]
  dsimp only
  rw [hc]
  unfold corner
  dsimp only
  have e : (angle + 360 * ((k + 1 : Nat) : ℝ) / n) * Real.pi / 180 = (angle + 360 * (k : ℝ) / n) * Real.pi / 180 + 2 * (Real.pi / n) := by
    push_cast
    field_simp
    ring
  rw [e]
  generalize (angle + 360 * (k : ℝ) / n) * Real.pi / 180 = t
  generalize Real.pi / (n : ℝ) = d
  have h1 := Real.sin_sq_add_cos_sq t
  have h2 := Real.sin_sq_add_cos_sq d
  rw [Real.sin_add, Real.cos_add, Real.sin_two_mul, Real.cos_two_mul]
  have h3 : Real.cos d ^ 2 = 1 - Real.sin d ^ 2 := by linarith
  have h4 : Real.cos t ^ 2 = 1 - Real.sin t ^ 2 := by linarith
  generalize Real.sin t = s at *
  generalize Real.cos t = c at *
  generalize Real.sin d = u at *
  generalize Real.cos d = w at *
  have : (r * (s * (2 * w ^ 2 - 1) + c * (2 * u * w)) - r * s) ^ 2 + (r * (c * (2 * w ^ 2 - 1) - s * (2 * u * w)) - r * c) ^ 2
      = (2 * (r : ℝ) * u) ^ 2 := by
    have : (r * (s * (2 * w ^ 2 - 1) + c * (2 * u * w)) - r * s) ^ 2 + (r * (c * (2 * w ^ 2 - 1) - s * (2 * u * w)) - r * c) ^ 2
      = 4 * (r : ℝ) ^ 2 * (s ^ 2 + c ^ 2) * ((w ^ 2 - 1) ^ 2 + u ^ 2 * w ^ 2) := by ring
    rw [this, h1, h3]
    ring
  linear_combination this

/-- For every other number of sides up to 360 the polygon has too many corners. -/
theorem C121_count_false (cx cy r : Int) {n : Nat} (h1 : n ≤ 360) (hn : ¬ n ∣ 360) (h0 : 0 < n) (angle : ℝ) :
    ∃ v, floatregpolygonvert cx cy r n angle = .ok v ∧ n < v.length := by
  have e : Int.fdiv 360 (n : Int) = ((360 / n : Nat) : Int) := by
    rw [Int.fdiv_eq_ediv_of_nonneg _ (by omega)]
    rfl
  have hq : 0 < 360 / n := Nat.div_pos h1 h0
  have hlt : n * (360 / n) < 360 := by
    have := Nat.mul_div_le 360 n
    rcases Nat.lt_or_ge (n * (360 / n)) 360 with h | h
    · exact h
    · exact absurd ⟨360 / n, by omega⟩ hn
  unfold floatregpolygonvert
  dsimp only
  rw [if_neg (by omega), e]
  generalize 360 / n = q at *
  unfold pyRange3
  rw [if_neg (by omega), if_pos (by omega), ok_bind]
  refine ⟨_, rfl, ?_⟩
  rw [List.length_map, List.length_map, List.length_range]
  have : ((n : Int) + 1) ≤ (360 - 0 + (q : Int) - 1) / q := by
    rw [Int.le_ediv_iff_mul_le (by omega)]
    have : ((n * q : Nat) : Int) < 360 := by exact_mod_cast hlt
    push_cast at this
    nlinarith
  omega

/-- More than 360 sides are an error. -/
theorem C121_many_wrong (cx cy r : Int) {n : Int} (h : 360 < n) (angle : ℝ) :
    floatregpolygonvert cx cy r n angle = .error .valueError := by
  have e : Int.fdiv 360 n = 0 := by
    rw [Int.fdiv_eq_ediv_of_nonneg _ (by omega)]
    exact Int.ediv_eq_zero_of_lt (by omega) h
  unfold floatregpolygonvert
  dsimp only
  rw [if_neg (by omega), e]
  rfl

example : ∃ v, floatregpolygonvert 0 0 10 7 0 = .ok v ∧ 7 < v.length := C121_count_false 0 0 10 (n := 7) (by norm_num) (by norm_num) (by norm_num) 0
/-- The upper and the lower corner of a square. -/
example : ∃ v, floatregpolygonvert 50 60 10 4 0 = .ok v ∧ v.length = 4 ∧ v[0]? = some (50, 50) ∧ v[2]? = some (50, 70) := by
  refine ⟨_, C121_regular 50 60 10 (n := 4) (by norm_num) 0, by simp, ?_, ?_⟩
  · simp [corner]; norm_num
  · have : (0 + 360 * ((2 : Nat) : ℝ) / ((4 : Nat) : ℝ)) * Real.pi / 180 = Real.pi := by push_cast; ring
    rw [List.getElem?_map]
    simp only [List.getElem?_range (show 2 < 4 by norm_num), Option.map_some, corner, this, Real.sin_pi, Real.cos_pi]
    norm_num

end Verif.Props.RegPoly
