import Verif.Model.FloatEscape
import Verif.Props.FloatAttract
import Verif.Props.Escape
/-! Property C177: escape times computed with floats. -/

namespace Verif.Props.FloatEscape
open Verif Spec Model Props Props.FloatAttract

/-! ### The specification -/

/-- A bound of the distance between the computed and the exact point after `k` steps. `G r e` is the bound after one step from a
point with the absolute value `r` and the bound `e`. -/
noncomputable def dev (S : ℂ → ℂ) (G : ℝ → ℝ → ℝ) (Z : ℂ) : ℕ → ℝ
  | 0 => 0
  | k + 1 => G ‖S^[k] Z‖ (dev S G Z k)

/-- Up to the step where it leaves the disc with the radius 2 the exact orbit is farther from the circle than the error. -/
def Clear (S : ℂ → ℂ) (G : ℝ → ℝ → ℝ) (Z : ℂ) (m : ℕ) : Prop :=
  ∀ k < m, (∀ j < k, ‖S^[j + 1] Z‖ ≤ 2) → dev S G Z (k + 1) + 1 / 2 ^ 50 < |‖S^[k + 1] Z‖ - 2|

/-- The bound for `z ** d + c`: the error before is multiplied by the slope, and rounding adds 2 ^ -42 of the terms. -/
noncomputable def powDev (d : ℕ) (c : ℂ) (r e : ℝ) : ℝ := d * (r + e) ^ (d - 1) * e + ((r + e) ^ d + ‖c‖) / 2 ^ 42

/-- The bound for `c * z * (1 - z)` -/
noncomputable def lamDev (c : ℂ) (r e : ℝ) : ℝ := ‖c‖ * ((1 + 2 * r + e) * e + (r + e) * (1 + r + e) / 2 ^ 49)

/-- The bound for `d * (z - sign z.real)` -/
noncomputable def treeDev (d : ℂ) (r e : ℝ) : ℝ := ‖d‖ * (e + (1 + r + e) / 2 ^ 50)

/-! ### Following the exact orbit -/

theorem follow {S : ℂ → ℂ} {F : ℚ × ℚ → ℚ × ℚ} {G : ℝ → ℝ → ℝ} {out : ℚ × ℚ → Bool} {exact : ℂ → Bool} {P : ℂ → ℝ → Prop}
    (step : ∀ z Z e, ‖toC z - Z‖ ≤ e → P Z e → ‖toC (F z) - S Z‖ ≤ G ‖Z‖ e)
    (yes : ∀ z, 2 + 1 / 2 ^ 50 < ‖toC z‖ → out z = true) (no : ∀ z, ‖toC z‖ < 2 - 1 / 2 ^ 50 → out z = false)
    (hex : ∀ Z, exact Z = true ↔ 2 < ‖Z‖) (Z0 : ℂ) (m : ℕ) (hc : Clear S G Z0 m)
    (hP : ∀ k < m, (∀ j < k, ‖S^[j + 1] Z0‖ ≤ 2) → P (S^[k] Z0) (dev S G Z0 k)) :
    ∀ fuel i z, i + fuel = m → ‖toC z - S^[i] Z0‖ ≤ dev S G Z0 i → (∀ j < i, ‖S^[j + 1] Z0‖ ≤ 2) →
      escapeFrom F out m fuel i z = escapeFrom S exact m fuel i (S^[i] Z0)
  | 0, _, _, _, _, _ => rfl
  | fuel + 1, i, z, hi, hz, hin => by
    have h1 : ‖toC (F z) - S^[i + 1] Z0‖ ≤ dev S G Z0 (i + 1) := by
      rw [Function.iterate_succ_apply']
      exact step z _ _ hz (hP i (by omega) hin)
    have h2 := hc i (by omega) hin
    have t1 := norm_sub_norm_le (S^[i + 1] Z0) (toC (F z))
    have t2 := norm_sub_norm_le (toC (F z)) (S^[i + 1] Z0)
    rw [norm_sub_rev] at t1
    unfold escapeFrom
    dsimp only
    rw [← Function.iterate_succ_apply' S i Z0]
    by_cases hb : 2 < ‖S^[i + 1] Z0‖
    · rw [abs_of_pos (by linarith)] at h2
      rw [if_pos (yes _ (by linarith)), if_pos ((hex _).mpr hb)]
    · have hle : ‖S^[i + 1] Z0‖ ≤ 2 := not_lt.mp hb
      rw [abs_of_nonpos (by linarith)] at h2
      rw [no _ (by linarith), if_neg (by simp), if_neg (fun h => hb ((hex _).mp h))]
      exact follow step yes no hex Z0 m hc hP fuel (i + 1) (F z) (by omega) h1 (fun j hj => by
        rcases Nat.lt_succ_iff_lt_or_eq.mp hj with h | rfl
        · exact hin j h
        · exact hle)

theorem hypot_norm (L : Libm) (z : ℚ × ℚ) : |((L.hypot z.1 z.2 : ℚ) : ℝ) - ‖toC z‖| ≤ ‖toC z‖ / 2 ^ 52 := by
  have h := L.hypot_err z.1 z.2
  have e : ‖toC z‖ = √((z.1 : ℝ) ^ 2 + (z.2 : ℝ) ^ 2) := by
    rw [toC, Complex.norm_def, Complex.normSq_mk, pow_two, pow_two]
  rwa [e]

theorem beyond2_yes (L : Libm) (z : ℚ × ℚ) (h : 2 + 1 / 2 ^ 50 < ‖toC z‖) : beyond2F L z = true := by
  have := abs_le.mp (hypot_norm L z)
  unfold beyond2F
  have h2 : (2 : ℝ) < (L.hypot z.1 z.2 : ℚ) := by linarith [this.1]
  exact decide_eq_true (by exact_mod_cast h2)

theorem beyond2_no (L : Libm) (z : ℚ × ℚ) (h : ‖toC z‖ < 2 - 1 / 2 ^ 50) : beyond2F L z = false := by
  have := abs_le.mp (hypot_norm L z)
  unfold beyond2F
  have h2 : ((L.hypot z.1 z.2 : ℚ) : ℝ) ≤ 2 := by linarith [this.2]
  refine decide_eq_false (not_lt.mpr ?_)
  exact_mod_cast h2

theorem square_err (z : ℚ × ℚ) : |(((cmulF z (z.1, -z.2)).1 : ℚ) : ℝ) - ‖toC z‖ ^ 2| ≤ 17 / 8 / 2 ^ 53 * ‖toC z‖ ^ 2 := by
  have e : ‖toC z‖ ^ 2 = (z.1 : ℝ) * z.1 + z.2 * z.2 := by
    rw [← Complex.normSq_eq_norm_sq, toC, Complex.normSq_mk]
  have h := fl_two (z.1 * z.1) (z.2 * z.2) (m := ‖toC z‖ ^ 2) (by
    push_cast
    rw [e, abs_of_nonneg (mul_self_nonneg _), abs_of_nonneg (mul_self_nonneg _)])
  have e2 : (cmulF z (z.1, -z.2)).1 = fl (fl (z.1 * z.1) + fl (z.2 * z.2)) := by
    unfold cmulF
    dsimp only
    rw [mul_neg, Plane.fl_neg, sub_neg_eq_add]
  rw [e2]
  push_cast at h
  rwa [← e] at h

theorem beyond4_yes (z : ℚ × ℚ) (h : 2 + 1 / 2 ^ 50 < ‖toC z‖) : beyond4F z = true := by
  have := abs_le.mp (square_err z)
  unfold beyond4F
  have h2 : (2 + 1 / 2 ^ 50 : ℝ) ^ 2 < ‖toC z‖ ^ 2 := by gcongr
  have h3 : (4 : ℝ) < ((cmulF z (z.1, -z.2)).1 : ℚ) := by
    norm_num at h2 this ⊢
    linarith [this.1]
  exact decide_eq_true (by exact_mod_cast h3)

theorem beyond4_no (z : ℚ × ℚ) (h : ‖toC z‖ < 2 - 1 / 2 ^ 50) : beyond4F z = false := by
  have := abs_le.mp (square_err z)
  unfold beyond4F
  have h2 : ‖toC z‖ ^ 2 < (2 - 1 / 2 ^ 50 : ℝ) ^ 2 := by gcongr
  have h3 : (((cmulF z (z.1, -z.2)).1 : ℚ) : ℝ) ≤ 4 := by
    norm_num at h2 this ⊢
    linarith [this.2]
  refine decide_eq_false (not_lt.mpr ?_)
  exact_mod_cast h3

theorem exact2 (Z : ℂ) : beyond2 Z = true ↔ 2 < ‖Z‖ := by unfold beyond2; simp

theorem exact4 (Z : ℂ) : (open Classical in decide (4 < (Z * starRingEnd ℂ Z).re)) = true ↔ 2 < ‖Z‖ := by
  rw [decide_eq_true_iff, Complex.mul_conj, Complex.ofReal_re, Complex.normSq_eq_norm_sq]
  have := norm_nonneg Z
  constructor
  · intro h; nlinarith
  · intro h; nlinarith

/-! ### One step -/

theorem pow_sub {a b : ℂ} {R e : ℝ} (ha : ‖a‖ ≤ R) (hb : ‖b‖ ≤ R) (he : ‖a - b‖ ≤ e) (n : ℕ) : ‖a ^ n - b ^ n‖ ≤ n * R ^ (n - 1) * e := by
  have hR : 0 ≤ R := (norm_nonneg _).trans ha
  have he0 : 0 ≤ e := (norm_nonneg _).trans he
  induction n with
  | zero => simp
  | succ n ih =>
    rw [show a ^ (n + 1) - b ^ (n + 1) = a * (a ^ n - b ^ n) + (a - b) * b ^ n by ring]
    refine (norm_add_le _ _).trans ?_
    rw [norm_mul, norm_mul, norm_pow]
    have h1 := mul_le_mul ha ih (norm_nonneg _) hR
    have h2 := mul_le_mul he (pow_le_pow_left₀ (norm_nonneg _) hb n) (by positivity) he0
    have h3 : R * (n * R ^ (n - 1) * e) = n * R ^ n * e := by
      rcases Nat.eq_zero_or_pos n with rfl | h
      · simp
      · obtain ⟨m, rfl⟩ : ∃ m, n = m + 1 := ⟨n - 1, by omega⟩
        rw [Nat.add_sub_cancel, pow_succ]; ring
    rw [h3] at h1
    rw [Nat.add_sub_cancel]
    push_cast
    linarith

theorem pow_step {d : ℕ} (hd : d ≤ 100) (c z : ℚ × ℚ) (Z : ℂ) (e : ℝ) (he : ‖toC z - Z‖ ≤ e) :
    ‖toC (caddF (cpow z d) c) - (Z ^ d + toC c)‖ ≤ powDev d (toC c) ‖Z‖ e := by
  have he0 : 0 ≤ e := (norm_nonneg _).trans he
  have hz : ‖toC z‖ ≤ ‖Z‖ + e := by
    have := norm_sub_norm_le (toC z) Z; linarith
  have h1 := pow_sub hz (by linarith : ‖Z‖ ≤ ‖Z‖ + e) he d
  have h2 := cpow_err z hd
  have h3 := cadd_err (cpow z d) c
  have h4 : ‖toC (cpow z d) + toC c‖ ≤ ‖toC (cpow z d) - toC z ^ d‖ + ‖toC z‖ ^ d + ‖toC c‖ := by
    refine (norm_add_le _ _).trans ?_
    have := norm_add_le (toC (cpow z d) - toC z ^ d) (toC z ^ d)
    rw [sub_add_cancel, norm_pow] at this
    linarith
  have h5 : ‖toC z‖ ^ d ≤ (‖Z‖ + e) ^ d := pow_le_pow_left₀ (norm_nonneg _) hz d
  have t1 := norm_add_le (toC (caddF (cpow z d) c) - (toC (cpow z d) + toC c)) (toC (cpow z d) - toC z ^ d + (toC z ^ d - Z ^ d))
  have t2 := norm_add_le (toC (cpow z d) - toC z ^ d) (toC z ^ d - Z ^ d)
  rw [show toC (caddF (cpow z d) c) - (toC (cpow z d) + toC c) + (toC (cpow z d) - toC z ^ d + (toC z ^ d - Z ^ d)) =
    toC (caddF (cpow z d) c) - (Z ^ d + toC c) by ring] at t1
  have h6 : 0 ≤ ‖toC z‖ ^ d := by positivity
  have h7 := norm_nonneg (toC c)
  unfold powDev
  have h8 : (1 : ℝ) / 2 ^ 53 * ‖toC (cpow z d) + toC c‖ ≤ 1 / 2 ^ 53 * (‖toC (cpow z d) - toC z ^ d‖ + ‖toC z‖ ^ d + ‖toC c‖) := by gcongr
  linarith

theorem conj_toC (z : ℚ × ℚ) : toC (z.1, -z.2) = starRingEnd ℂ (toC z) := by
  apply Complex.ext <;> simp [toC]

theorem lam_step (c z : ℚ × ℚ) (Z : ℂ) (e : ℝ) (he : ‖toC z - Z‖ ≤ e) :
    ‖toC (cmulF (cmulF c z) (csubF (1, 0) z)) - toC c * Z * (1 - Z)‖ ≤ lamDev (toC c) ‖Z‖ e := by
  have he0 : 0 ≤ e := (norm_nonneg _).trans he
  have hz : ‖toC z‖ ≤ ‖Z‖ + e := by
    have := norm_sub_norm_le (toC z) Z; linarith
  have h1 : toC (1, 0) = 1 := by apply Complex.ext <;> simp [toC]
  have a1 := cmul_err c z
  have a2 := csub_err (1, 0) z
  rw [h1] at a2
  have a3 := cmul_err (cmulF c z) (csubF (1, 0) z)
  have n1 : ‖1 - toC z‖ ≤ 1 + ‖Z‖ + e := by
    have := norm_sub_le 1 (toC z); rw [norm_one] at this; linarith
  set A := toC (cmulF c z)
  set B := toC (csubF (1, 0) z)
  set r := ‖Z‖ + e
  have hr : 0 ≤ r := (norm_nonneg _).trans hz
  have hcz : ‖toC c‖ * ‖toC z‖ ≤ ‖toC c‖ * r := by gcongr
  have nA : ‖A‖ ≤ (1 + 4 / 2 ^ 53) * (‖toC c‖ * r) := by
    have := norm_add_le (A - toC c * toC z) (toC c * toC z)
    rw [sub_add_cancel, norm_mul] at this
    linarith
  have nB : ‖B‖ ≤ (1 + 1 / 2 ^ 53) * (1 + r) := by
    have := norm_add_le (B - (1 - toC z)) (1 - toC z)
    rw [sub_add_cancel] at this
    have : 1 + ‖Z‖ + e = 1 + r := by ring
    linarith
  have dA : ‖A - toC c * toC z‖ ≤ 4 / 2 ^ 53 * (‖toC c‖ * r) := by linarith
  have dB : ‖B - (1 - toC z)‖ ≤ 1 / 2 ^ 53 * (1 + r) := by
    have : 1 + ‖Z‖ + e = 1 + r := by ring
    linarith
  have ncr : 0 ≤ ‖toC c‖ * r := by positivity
  have m1 : ‖A‖ * ‖B‖ ≤ (1 + 4 / 2 ^ 53) * (‖toC c‖ * r) * ((1 + 1 / 2 ^ 53) * (1 + r)) := mul_le_mul nA nB (norm_nonneg _) (by positivity)
  have m2 : ‖(A - toC c * toC z) * B‖ ≤ 4 / 2 ^ 53 * (‖toC c‖ * r) * ((1 + 1 / 2 ^ 53) * (1 + r)) := by
    rw [norm_mul]; exact mul_le_mul dA nB (norm_nonneg _) (by positivity)
  have m3 : ‖toC c * toC z * (B - (1 - toC z))‖ ≤ ‖toC c‖ * r * (1 / 2 ^ 53 * (1 + r)) := by
    rw [norm_mul, norm_mul]; exact mul_le_mul hcz dB (norm_nonneg _) ncr
  have m4 : ‖toC c * (toC z - Z) * (1 - toC z - Z)‖ ≤ ‖toC c‖ * ((1 + 2 * ‖Z‖ + e) * e) := by
    rw [norm_mul, norm_mul, mul_assoc]
    apply mul_le_mul_of_nonneg_left _ (norm_nonneg _)
    rw [mul_comm]
    refine mul_le_mul ?_ he (norm_nonneg _) (by positivity)
    have := norm_sub_le (1 - toC z) Z
    linarith
  have s1 := norm_add_le (toC (cmulF (cmulF c z) (csubF (1, 0) z)) - A * B) ((A - toC c * toC z) * B + toC c * toC z * (B - (1 - toC z)) +
    toC c * (toC z - Z) * (1 - toC z - Z))
  have s2 := norm_add_le ((A - toC c * toC z) * B + toC c * toC z * (B - (1 - toC z))) (toC c * (toC z - Z) * (1 - toC z - Z))
  have s3 := norm_add_le ((A - toC c * toC z) * B) (toC c * toC z * (B - (1 - toC z)))
  rw [show toC (cmulF (cmulF c z) (csubF (1, 0) z)) - A * B + ((A - toC c * toC z) * B + toC c * toC z * (B - (1 - toC z)) +
    toC c * (toC z - Z) * (1 - toC z - Z)) = toC (cmulF (cmulF c z) (csubF (1, 0) z)) - toC c * Z * (1 - Z) by ring] at s1
  have p0 : 0 ≤ ‖toC c‖ * r * (1 + r) := by positivity
  unfold lamDev
  rw [show (1 : ℝ) + ‖Z‖ + e = 1 + r by ring]
  have e1 : ‖toC c‖ * ((1 + 2 * ‖Z‖ + e) * e + r * (1 + r) / 2 ^ 49) = ‖toC c‖ * ((1 + 2 * ‖Z‖ + e) * e) + ‖toC c‖ * r * (1 + r) / 2 ^ 49 := by ring
  rw [e1]
  set X := ‖toC c‖ * r * (1 + r)
  have b1 : (1 + 4 / 2 ^ 53) * (‖toC c‖ * r) * ((1 + 1 / 2 ^ 53) * (1 + r)) = (1 + 4 / 2 ^ 53) * (1 + 1 / 2 ^ 53) * X := by ring
  have b2 : 4 / 2 ^ 53 * (‖toC c‖ * r) * ((1 + 1 / 2 ^ 53) * (1 + r)) = 4 / 2 ^ 53 * (1 + 1 / 2 ^ 53) * X := by ring
  have b3 : ‖toC c‖ * r * (1 / 2 ^ 53 * (1 + r)) = 1 / 2 ^ 53 * X := by ring
  rw [b1] at m1; rw [b2] at m2; rw [b3] at m3
  norm_num at *
  linarith

theorem tree_step (d z : ℚ × ℚ) (Z : ℂ) (e : ℝ) (he : ‖toC z - Z‖ ≤ e) (hs : e < |Z.re|) :
    ‖toC (cmulF d (csubF z (signQ z.1, 0))) - toC d * (Z - (signR Z.re : ℂ))‖ ≤ treeDev (toC d) ‖Z‖ e := by
  have he0 : 0 ≤ e := (norm_nonneg _).trans he
  have hz : ‖toC z‖ ≤ ‖Z‖ + e := by
    have := norm_sub_norm_le (toC z) Z; linarith
  have hre : |(z.1 : ℝ) - Z.re| ≤ e := by
    have := (Complex.abs_re_le_norm (toC z - Z)).trans he
    simpa [toC] using this
  have sg : ((signQ z.1 : ℚ) : ℝ) = signR Z.re ∧ |signR Z.re| ≤ 1 := by
    have a := abs_le.mp hre
    unfold signQ signR
    rcases lt_trichotomy Z.re 0 with h | h | h
    · rw [abs_of_neg h] at hs
      have h1 : (z.1 : ℝ) < 0 := by linarith [a.2]
      have h1 : z.1 < 0 := by exact_mod_cast h1
      rw [if_neg (by linarith), if_neg (by linarith), if_neg (by linarith), if_neg (by linarith)]
      simp
    · rw [h, abs_zero] at hs; linarith
    · rw [abs_of_pos h] at hs
      have h1 : 0 < (z.1 : ℝ) := by linarith [a.1]
      have h1 : 0 < z.1 := by exact_mod_cast h1
      rw [if_pos (by linarith), if_pos (by linarith)]
      simp
  have h1 : toC (signQ z.1, 0) = (signR Z.re : ℂ) := by
    apply Complex.ext
    · simp only [toC, Complex.ofReal_re]; exact sg.1
    · simp [toC]
  have a2 := csub_err z (signQ z.1, 0)
  rw [h1] at a2
  have a3 := cmul_err d (csubF z (signQ z.1, 0))
  have n1 : ‖toC z - (signR Z.re : ℂ)‖ ≤ 1 + ‖Z‖ + e := by
    have := norm_sub_le (toC z) (signR Z.re : ℂ)
    rw [Complex.norm_real, Real.norm_eq_abs] at this
    linarith [sg.2]
  set B := toC (csubF z (signQ z.1, 0))
  set s : ℂ := (signR Z.re : ℂ)
  set r := 1 + ‖Z‖ + e
  have hr : 0 ≤ r := (norm_nonneg _).trans n1
  have dB : ‖B - (toC z - s)‖ ≤ 1 / 2 ^ 53 * r := by linarith
  have nB : ‖B‖ ≤ (1 + 1 / 2 ^ 53) * r := by
    have := norm_add_le (B - (toC z - s)) (toC z - s)
    rw [sub_add_cancel] at this
    linarith
  have m1 : ‖toC d‖ * ‖B‖ ≤ ‖toC d‖ * ((1 + 1 / 2 ^ 53) * r) := by gcongr
  have m2 : ‖toC d * (B - (toC z - s))‖ ≤ ‖toC d‖ * (1 / 2 ^ 53 * r) := by rw [norm_mul]; gcongr
  have m3 : ‖toC d * (toC z - Z)‖ ≤ ‖toC d‖ * e := by rw [norm_mul]; gcongr
  have s1 := norm_add_le (toC (cmulF d (csubF z (signQ z.1, 0))) - toC d * B) (toC d * (B - (toC z - s)) + toC d * (toC z - Z))
  have s2 := norm_add_le (toC d * (B - (toC z - s))) (toC d * (toC z - Z))
  rw [show toC (cmulF d (csubF z (signQ z.1, 0))) - toC d * B + (toC d * (B - (toC z - s)) + toC d * (toC z - Z)) =
    toC (cmulF d (csubF z (signQ z.1, 0))) - toC d * (Z - s) by ring] at s1
  have p0 : 0 ≤ ‖toC d‖ * r := by positivity
  unfold treeDev
  rw [show ‖toC d‖ * (e + (1 + ‖Z‖ + e) / 2 ^ 50) = ‖toC d‖ * e + ‖toC d‖ * r / 2 ^ 50 by ring]
  rw [show ‖toC d‖ * ((1 + 1 / 2 ^ 53) * r) = (1 + 1 / 2 ^ 53) * (‖toC d‖ * r) by ring] at m1
  rw [show ‖toC d‖ * (1 / 2 ^ 53 * r) = 1 / 2 ^ 53 * (‖toC d‖ * r) by ring] at m2
  norm_num at *
  linarith

/-! ### The values -/

theorem zero_toC : toC (0, 0) = 0 := by apply Complex.ext <;> simp [toC]

/-- C177: `multibrot` with floats has the exact value when the exact orbit keeps away from the circle. -/
theorem C177_multibrot (L : Libm) (p q : ℚ) {d : ℕ} (hd : d ≤ 100) (m : ℕ)
    (h : Clear (fun z => z ^ d + toC (p, q)) (powDev d (toC (p, q))) 0 m) : multibrotF L p q d m = multibrot (toC (p, q)) d m := by
  unfold multibrotF multibrot escape
  exact follow (P := fun _ _ => True) (fun z Z e he _ => pow_step hd (p, q) z Z e he) (beyond2_yes L) (beyond2_no L) exact2 0 m h (fun _ _ _ => trivial)
    m 0 (0, 0) (by omega) (by rw [zero_toC]; simp [dev]) (fun j hj => by omega)

/-- C177: the same for `multicorn` -/
theorem C177_multicorn (L : Libm) (p q : ℚ) {d : ℕ} (hd : d ≤ 100) (m : ℕ)
    (h : Clear (fun z => starRingEnd ℂ z ^ d + toC (p, q)) (powDev d (toC (p, q))) 0 m) : multicornF L p q d m = multicorn (toC (p, q)) d m := by
  unfold multicornF multicorn escape
  refine follow (P := fun _ _ => True) (fun z Z e he _ => ?_) (beyond2_yes L) (beyond2_no L) exact2 0 m h (fun _ _ _ => trivial)
    m 0 (0, 0) (by omega) (by rw [zero_toC]; simp [dev]) (fun j hj => by omega)
  have := pow_step hd (p, q) (z.1, -z.2) (starRingEnd ℂ Z) e (by rw [conj_toC, ← map_sub, Complex.norm_conj]; exact he)
  rwa [Complex.norm_conj] at this

/-- C177: the same for `multijulia` -/
theorem C177_multijulia (p q : ℚ) (c : ℚ × ℚ) {d : ℕ} (hd : d ≤ 100) (m : ℕ)
    (h : Clear (fun z => z ^ d + toC c) (powDev d (toC c)) (toC (p, q)) m) : multijuliaF p q c d m = multijulia (toC (p, q)) (toC c) d m := by
  unfold multijuliaF multijulia escape
  exact follow (P := fun _ _ => True) (fun z Z e he _ => pow_step hd c z Z e he) beyond4_yes beyond4_no exact4 (toC (p, q)) m h (fun _ _ _ => trivial)
    m 0 (p, q) (by omega) (by simp [dev]) (fun j hj => by omega)

/-- C177: the same for `lambdafn` -/
theorem C177_lambda (L : Libm) (p q : ℚ) (c : ℚ × ℚ) (m : ℕ)
    (h : Clear (fun z => toC c * z * (1 - z)) (lamDev (toC c)) (toC (p, q)) m) : lambdafnF L p q c m = lambdafn (toC (p, q)) (toC c) m := by
  unfold lambdafnF lambdafn escape
  exact follow (P := fun _ _ => True) (fun z Z e he _ => lam_step c z Z e he) (beyond2_yes L) (beyond2_no L) exact2 (toC (p, q)) m h (fun _ _ _ => trivial)
    m 0 (p, q) (by omega) (by simp [dev]) (fun j hj => by omega)

/-- C177: the same for `barnsleytree`, when the orbit keeps away from the imaginary axis too -/
theorem C177_tree (L : Libm) (p q : ℚ) (d : ℚ × ℚ) (m : ℕ)
    (h : Clear (fun z => toC d * (z - (signR z.re : ℂ))) (treeDev (toC d)) (toC (p, q)) m)
    (hs : ∀ k < m, (∀ j < k, ‖(fun z => toC d * (z - (signR z.re : ℂ)))^[j + 1] (toC (p, q))‖ ≤ 2) →
      dev (fun z => toC d * (z - (signR z.re : ℂ))) (treeDev (toC d)) (toC (p, q)) k <
        |((fun z => toC d * (z - (signR z.re : ℂ)))^[k] (toC (p, q))).re|) :
    barnsleytreeF L p q d m = barnsleytree (toC (p, q)) (toC d) m := by
  unfold barnsleytreeF barnsleytree escape
  exact follow (P := fun Z e => e < |Z.re|) (fun z Z e he hs => tree_step d z Z e he hs) (beyond2_yes L) (beyond2_no L) exact2 (toC (p, q)) m h hs
    m 0 (p, q) (by omega) (by simp [dev]) (fun j hj => by omega)

/-! ### Points that are counted to the end, or not at all -/

/-- C177: a point closer to 0 than 1/4 is counted to the end, whatever the limit is. -/
theorem C177_inside (L : Libm) (p q : ℚ) {d : ℕ} (hd : 2 ≤ d) (hd2 : d ≤ 100) (hc : ‖toC (p, q)‖ ≤ 1 / 4 - 1 / 2 ^ 43) (m : ℕ) :
    multibrotF L p q d m = m ∧ multicornF L p q d m = m ∧ ∀ x y, ‖toC (x, y)‖ ≤ 1 / 2 → multijuliaF x y (p, q) d m = m := by
  have key : ∀ z : ℚ × ℚ, ‖toC z‖ ≤ 1 / 2 → ‖toC (caddF (cpow z d) (p, q))‖ ≤ 1 / 2 := by
    intro z hz
    have h := pow_step hd2 (p, q) z (toC z) 0 (by simp)
    unfold powDev at h
    rw [add_zero, mul_zero, zero_add] at h
    have hp : ‖toC z‖ ^ d ≤ 1 / 4 := by
      calc ‖toC z‖ ^ d ≤ (1 / 2) ^ d := pow_le_pow_left₀ (norm_nonneg _) hz d
        _ ≤ (1 / 2) ^ 2 := pow_le_pow_of_le_one (by norm_num) (by norm_num) hd
        _ = 1 / 4 := by norm_num
    have t := norm_add_le (toC (caddF (cpow z d) (p, q)) - (toC z ^ d + toC (p, q))) (toC z ^ d + toC (p, q))
    rw [sub_add_cancel] at t
    have t2 := norm_add_le (toC z ^ d) (toC (p, q))
    rw [norm_pow] at t2
    linarith
  have orbit : ∀ (F : ℚ × ℚ → ℚ × ℚ) (out : ℚ × ℚ → Bool), (∀ z, ‖toC z‖ ≤ 1 / 2 → ‖toC (F z)‖ ≤ 1 / 2) →
      (∀ z, ‖toC z‖ < 2 - 1 / 2 ^ 50 → out z = false) → ∀ z, ‖toC z‖ ≤ 1 / 2 → escape F out z m = m := by
    intro F out hF no z hz
    refine (C109_inside F out z m).mpr fun j _ => ?_
    have : ∀ k, ‖toC (F^[k] z)‖ ≤ 1 / 2 := fun k => by
      induction k with
      | zero => exact hz
      | succ k ih => rw [Function.iterate_succ_apply']; exact hF _ ih
    exact no _ (lt_of_le_of_lt (this _) (by norm_num))
  have z0 : ‖toC (0, 0)‖ ≤ 1 / 2 := by rw [zero_toC]; norm_num
  refine ⟨orbit _ _ key (beyond2_no L) _ z0, orbit _ _ (fun z hz => key _ ?_) (beyond2_no L) _ z0, fun x y h => orbit _ _ key beyond4_no _ h⟩
  rw [conj_toC, Complex.norm_conj]; exact hz

/-- C177: a point farther from 0 than 2 is outside at once. -/
theorem C177_outside (L : Libm) (p q : ℚ) {d : ℕ} (hd : 1 ≤ d) (hd2 : d ≤ 100) (hc : 2 + 1 / 2 ^ 40 ≤ ‖toC (p, q)‖) {m : ℕ} (hm : 0 < m) :
    multibrotF L p q d m = 0 ∧ multicornF L p q d m = 0 := by
  have key : 2 + 1 / 2 ^ 50 < ‖toC (caddF (cpow (0, 0) d) (p, q))‖ := by
    have h := pow_step hd2 (p, q) (0, 0) 0 0 (by rw [zero_toC]; simp)
    unfold powDev at h
    rw [norm_zero, add_zero, mul_zero, zero_add, zero_pow (by omega), zero_add, zero_pow (by omega), zero_add] at h
    have t := norm_sub_norm_le (toC (p, q)) (toC (caddF (cpow (0, 0) d) (p, q)))
    rw [norm_sub_rev] at t
    norm_num at *
    linarith
  have z0 : ((0 : ℚ), -(0 : ℚ)) = (0, 0) := by norm_num
  refine ⟨(C109_escape _ _ _ m 0 hm).mpr ⟨beyond2_yes L _ key, by omega⟩, (C109_escape _ _ _ m 0 hm).mpr ⟨?_, by omega⟩⟩
  show beyond2F L (caddF (cpow (0, -0) d) (p, q)) = true
  rw [z0]
  exact beyond2_yes L _ key

/-- C177: the value is the number of the first computed point outside of the circle, as the library sees it. -/
theorem C177_first (L : Libm) (p q : ℚ) (d m i : ℕ) (hi : i < m) :
    multibrotF L p q d m = i ↔ let z := fun k => (fun z => caddF (cpow z d) (p, q))^[k] (0, 0)
      2 < L.hypot (z (i + 1)).1 (z (i + 1)).2 ∧ ∀ j < i, L.hypot (z (j + 1)).1 (z (j + 1)).2 ≤ 2 := by
  unfold multibrotF
  rw [C109_escape _ _ _ m i hi]
  unfold beyond2F
  simp only [decide_eq_true_eq, decide_eq_false_iff_not, not_lt]

/-! ### Mirror images -/

theorem fl_neg' (x : ℚ) : Model.fl (-x) = -Model.fl x := Plane.fl_neg x

def conjF (z : ℚ × ℚ) : ℚ × ℚ := (z.1, -z.2)

theorem cmul_conj (z w : ℚ × ℚ) : cmulF (conjF z) (conjF w) = conjF (cmulF z w) := by
  unfold cmulF conjF
  dsimp only
  rw [neg_mul_neg, mul_neg, neg_mul, fl_neg', fl_neg', ← neg_add, fl_neg']

theorem cadd_conj (z w : ℚ × ℚ) : caddF (conjF z) (conjF w) = conjF (caddF z w) := by
  unfold caddF conjF
  dsimp only
  rw [← neg_add, fl_neg']

theorem csub_conj (z w : ℚ × ℚ) : csubF (conjF z) (conjF w) = conjF (csubF z w) := by
  unfold csubF conjF
  dsimp only
  rw [← neg_sub', fl_neg']

theorem loop_conj (n : ℕ) : ∀ r p : ℚ × ℚ, powLoop (conjF r) (conjF p) n = conjF (powLoop r p n) := by
  induction n using Nat.strong_induction_on with
  | _ n ih =>
    intro r p
    rw [powLoop, powLoop.eq_def r p n]
    by_cases h0 : n = 0
    · rw [dif_pos h0, dif_pos h0]
    · rw [dif_neg h0, dif_neg h0, cmul_conj, cmul_conj, ← ih _ (by omega)]
      split_ifs <;> rfl

theorem cpow_conj (z : ℚ × ℚ) (n : ℕ) : cpow (conjF z) n = conjF (cpow z n) := by
  have : conjF (1, 0) = (1, 0) := by simp [conjF]
  unfold cpow
  rw [← loop_conj, this]

/-- C177: the values are the same on both sides of the real axis, not only nearly. -/
theorem C177_mirror (L : Libm) (hL : ∀ x y, L.hypot x (-y) = L.hypot x y) (p q c c' : ℚ) (d m : ℕ) :
    multibrotF L p (-q) d m = multibrotF L p q d m ∧ multicornF L p (-q) d m = multicornF L p q d m ∧
    multijuliaF p (-q) (c, -c') d m = multijuliaF p q (c, c') d m ∧ lambdafnF L p (-q) (c, -c') m = lambdafnF L p q (c, c') m ∧
    barnsleytreeF L p (-q) (c, -c') m = barnsleytreeF L p q (c, c') m := by
  have ho : ∀ z, beyond2F L (conjF z) = beyond2F L z := fun z => by unfold beyond2F conjF; rw [hL]
  have ho4 : ∀ z, beyond4F (conjF z) = beyond4F z := fun z => by
    unfold beyond4F
    have : ((conjF z).1, -(conjF z).2) = conjF (z.1, -z.2) := rfl
    rw [this, cmul_conj]; rfl
  have z0 : ((0 : ℚ), (0 : ℚ)) = conjF (0, 0) := by simp [conjF]
  have one : ((1 : ℚ), (0 : ℚ)) = conjF (1, 0) := by simp [conjF]
  have h0 : ∀ s : ℚ, (s, (0 : ℚ)) = conjF (s, 0) := fun s => by simp [conjF]
  refine ⟨?_, ?_, ?_, ?_, ?_⟩
  · unfold multibrotF escape
    conv_lhs => rw [z0]
    refine escapeFrom_mirror (fun z => ?_) ho m m 0 (0, 0)
    rw [cpow_conj]
    exact cadd_conj _ (p, q)
  · unfold multicornF escape
    conv_lhs => rw [z0]
    refine escapeFrom_mirror (fun z => ?_) ho m m 0 (0, 0)
    have := cpow_conj (z.1, -z.2) d
    show caddF (cpow (conjF (z.1, -z.2)) d) (conjF (p, q)) = _
    rw [this, cadd_conj]
  · unfold multijuliaF escape
    refine escapeFrom_mirror (fun z => ?_) ho4 m m 0 (p, q)
    rw [cpow_conj]
    exact cadd_conj _ (c, c')
  · unfold lambdafnF escape
    refine escapeFrom_mirror (fun z => ?_) ho m m 0 (p, q)
    show cmulF (cmulF (conjF (c, c')) (conjF z)) (csubF (1, 0) (conjF z)) = _
    conv_lhs => rw [one]
    rw [csub_conj, cmul_conj, cmul_conj]
  · unfold barnsleytreeF escape
    refine escapeFrom_mirror (fun z => ?_) ho m m 0 (p, q)
    show cmulF (conjF (c, c')) (csubF (conjF z) (signQ z.1, 0)) = _
    conv_lhs => rw [h0 (signQ z.1)]
    rw [csub_conj, cmul_conj]

def negF (z : ℚ × ℚ) : ℚ × ℚ := (-z.1, -z.2)

theorem cmul_neg (z w : ℚ × ℚ) : cmulF z (negF w) = negF (cmulF z w) := by
  unfold cmulF negF
  dsimp only
  rw [mul_neg, mul_neg, mul_neg, mul_neg, fl_neg', fl_neg', fl_neg', fl_neg', ← neg_sub', fl_neg', ← neg_add, fl_neg']

theorem cmul_neg_neg (z w : ℚ × ℚ) : cmulF (negF z) (negF w) = cmulF z w := by
  unfold cmulF negF
  dsimp only
  rw [neg_mul_neg, neg_mul_neg, neg_mul_neg, neg_mul_neg]

/-- C177: the values of a Julia set with an even exponent and of a Barnsley tree are the same at opposite points. -/
theorem C177_centre (L : Libm) (hL : ∀ x y, L.hypot (-x) (-y) = L.hypot x y) (p q : ℚ) (c : ℚ × ℚ) {d : ℕ} (hd : Even d) (hd0 : d ≠ 0) {m : ℕ} :
    multijuliaF (-p) (-q) c d m = multijuliaF p q c d m ∧ barnsleytreeF L (-p) (-q) c m = barnsleytreeF L p q c m := by
  constructor
  · unfold multijuliaF escape
    cases m with
    | zero => rfl
    | succ m =>
      unfold escapeFrom
      have : cpow (-p, -q) d = cpow (p, q) d := by
        unfold cpow
        rw [powLoop, powLoop.eq_def (1, 0) (p, q) d, dif_neg hd0, dif_neg hd0, if_neg (by have := Nat.even_iff.mp hd; omega), if_neg (by have := Nat.even_iff.mp hd; omega)]
        rw [show ((-p : ℚ), (-q : ℚ)) = negF (p, q) from rfl, cmul_neg_neg]
      dsimp only
      rw [this]
  · unfold barnsleytreeF escape
    refine escapeFrom_mirror (σ := negF) (fun z => ?_) (fun z => by unfold beyond2F negF; rw [hL]) m m 0 (p, q)
    have hs : signQ (negF z).1 = -signQ z.1 := by
      unfold signQ negF
      dsimp only
      rcases lt_trichotomy z.1 0 with h | h | h
      · rw [if_pos (by linarith), if_neg (by linarith), if_neg (by linarith), neg_neg]
      · rw [h]; simp
      · rw [if_neg (by linarith), if_neg (by linarith), if_pos h]
    have e : csubF (negF z) (signQ (negF z).1, 0) = negF (csubF z (signQ z.1, 0)) := by
      rw [hs]
      unfold csubF negF
      dsimp only
      rw [← neg_sub', fl_neg', sub_zero, sub_zero, fl_neg']
    rw [e, cmul_neg]

/-! ### Lists and files -/

/-- The point of the domain that belongs to a pixel. -/
def pointAt (W H : Nat) (dom : ℚ × ℚ × ℚ × ℚ) (x y : Nat) : ℚ × ℚ :=
  (domainAt dom.1 dom.2.1 0 W x, domainAt dom.2.2.1 dom.2.2.2 0 H y)

/-- One valid image was written. The pixels whose points satisfy `C` have the shades of the exact values `E`. -/
def ShowsExact (r : Py Files) (fs : Files) (file : String) (W H bits : Nat) (dom : ℚ × ℚ × ℚ × ℚ) (f : ℚ × ℚ × ℚ) (C : ℚ × ℚ → Prop) (E : ℂ → Nat) : Prop :=
  ∃ fs', r = .ok fs' ∧ Saved fs fs' file (fun n => Valid n W H bits ∧
    ∀ x y, x < W → y < H → C (pointAt W H dom x y) → pix n W H bits x y = shade bits f.1 f.2.1 f.2.2 (E (toC (pointAt W H dom x y))))

theorem shows_exact (fs : Files) (file : String) {W H bits : Nat} (hd : Depth bits) (hW : 0 < W ∧ W < 2 ^ 24) (hH : 0 < H ∧ H < 2 ^ 24)
    {m : ℕ} (hm : m < 256) (g : ℚ → ℚ → ℕ) (hg : ∀ p q, g p q ≤ m) (dom : ℚ × ℚ × ℚ × ℚ) {f : ℚ × ℚ × ℚ} (hf : Pals.Unit f)
    {C : ℚ × ℚ → Prop} {E : ℂ → Nat} (hC : ∀ z, C z → g z.1 z.2 = E (toC z)) :
    ShowsExact (savefractal2file fs file W H (fun p q => (g p q : ℕ)) dom (.mono f) bits) fs file W H bits dom f C E := by
  obtain ⟨fs', e, ⟨n, h1, h2, h3, -⟩, h4⟩ := Escape.C152_file fs file hd hW hH (fun p q => ((g p q : ℕ) : Int))
    (fun p q => ⟨by positivity, by have := hg p q; omega⟩) dom hf
  refine ⟨fs', e, ⟨n, h1, h2, fun x y hx hy hc => ?_⟩, h4⟩
  rw [h3 x y hx hy, ← hC _ hc]
  rfl

/-- C177: in the saved pictures every pixel whose point keeps away from the circle has the shade of its exact value. -/
theorem C177_files (L : Libm) (fs : Files) (file : String) {W H bits : Nat} (hb : Depth bits) (hW : 0 < W ∧ W < 2 ^ 24) (hH : 0 < H ∧ H < 2 ^ 24)
    {m : ℕ} (hm : m < 256) {d : ℕ} (hd : d ≤ 100) (c : ℚ × ℚ) (dom : ℚ × ℚ × ℚ × ℚ) {f : ℚ × ℚ × ℚ} (hf : Pals.Unit f) :
    ShowsExact (savemandelbrotfractal2fileF L fs file W H dom (.mono f) bits m) fs file W H bits dom f
      (fun p => Clear (fun z => z ^ 2 + toC p) (powDev 2 (toC p)) 0 m) (fun p => multibrot p 2 m) ∧
    ShowsExact (savemultibrotfractal2fileF L fs file W H d dom (.mono f) bits m) fs file W H bits dom f
      (fun p => Clear (fun z => z ^ d + toC p) (powDev d (toC p)) 0 m) (fun p => multibrot p d m) ∧
    ShowsExact (savetricornfractal2fileF L fs file W H dom (.mono f) bits m) fs file W H bits dom f
      (fun p => Clear (fun z => starRingEnd ℂ z ^ 2 + toC p) (powDev 2 (toC p)) 0 m) (fun p => multicorn p 2 m) ∧
    ShowsExact (savemulticornfractal2fileF L fs file W H d dom (.mono f) bits m) fs file W H bits dom f
      (fun p => Clear (fun z => starRingEnd ℂ z ^ d + toC p) (powDev d (toC p)) 0 m) (fun p => multicorn p d m) ∧
    ShowsExact (savejuliafractal2fileF fs file W H c dom (.mono f) bits m) fs file W H bits dom f
      (fun p => Clear (fun z => z ^ 2 + toC c) (powDev 2 (toC c)) (toC p) m) (fun p => multijulia p (toC c) 2 m) ∧
    ShowsExact (savemultijuliafractal2fileF fs file W H c d dom (.mono f) bits m) fs file W H bits dom f
      (fun p => Clear (fun z => z ^ d + toC c) (powDev d (toC c)) (toC p) m) (fun p => multijulia p (toC c) d m) ∧
    ShowsExact (savelambdafractal2fileF L fs file W H c dom (.mono f) bits m) fs file W H bits dom f
      (fun p => Clear (fun z => toC c * z * (1 - z)) (lamDev (toC c)) (toC p) m) (fun p => lambdafn p (toC c) m) ∧
    ShowsExact (savebarnsleytreefractal2fileF L fs file W H c dom (.mono f) bits m) fs file W H bits dom f
      (fun p => Clear (fun z => toC c * (z - (signR z.re : ℂ))) (treeDev (toC c)) (toC p) m ∧
        ∀ k < m, (∀ j < k, ‖(fun z => toC c * (z - (signR z.re : ℂ)))^[j + 1] (toC p)‖ ≤ 2) →
          dev (fun z => toC c * (z - (signR z.re : ℂ))) (treeDev (toC c)) (toC p) k <
            |((fun z => toC c * (z - (signR z.re : ℂ)))^[k] (toC p)).re|) (fun p => barnsleytree p (toC c) m) :=
  ⟨shows_exact fs file hb hW hH hm (fun p q => multibrotF L p q 2 m) (fun _ _ => C109_le _ _ _ _) dom hf fun z h => C177_multibrot L z.1 z.2 (by norm_num) m h,
   shows_exact fs file hb hW hH hm (fun p q => multibrotF L p q d m) (fun _ _ => C109_le _ _ _ _) dom hf fun z h => C177_multibrot L z.1 z.2 hd m h,
   shows_exact fs file hb hW hH hm (fun p q => multicornF L p q 2 m) (fun _ _ => C109_le _ _ _ _) dom hf fun z h => C177_multicorn L z.1 z.2 (by norm_num) m h,
   shows_exact fs file hb hW hH hm (fun p q => multicornF L p q d m) (fun _ _ => C109_le _ _ _ _) dom hf fun z h => C177_multicorn L z.1 z.2 hd m h,
   shows_exact fs file hb hW hH hm (fun p q => multijuliaF p q c 2 m) (fun _ _ => C109_le _ _ _ _) dom hf fun z h => C177_multijulia z.1 z.2 c (by norm_num) m h,
   shows_exact fs file hb hW hH hm (fun p q => multijuliaF p q c d m) (fun _ _ => C109_le _ _ _ _) dom hf fun z h => C177_multijulia z.1 z.2 c hd m h,
   shows_exact fs file hb hW hH hm (fun p q => lambdafnF L p q c m) (fun _ _ => C109_le _ _ _ _) dom hf fun z h => C177_lambda L z.1 z.2 c m h,
   shows_exact fs file hb hW hH hm (fun p q => barnsleytreeF L p q c m) (fun _ _ => C109_le _ _ _ _) dom hf fun z h => C177_tree L z.1 z.2 c m h.1 h.2⟩

/-- The triples for all pixels of the rectangle, row by row. -/
def Triples (l : List (Int × Int × Int)) (x1 y1 x2 y2 : Int) (v : Int → Int → Int) : Prop :=
  l = (pyRange (min y1 y2) (max y1 y2)).flatMap fun y => (pyRange (min x1 x2) (max x1 x2)).map fun x => (x, y, v x y)

/-- C177: `itermandelbrot`, `iterjulia` and `itertricorn` yield the pixels of the rectangle with the values of their points. -/
theorem C177_iter (L : Libm) {x1 y1 x2 y2 : Int} (hx : x1 ≠ x2) (hy : y1 ≠ y2) (c : ℚ × ℚ) (pmax pmin qmax qmin : ℚ) (m : ℕ) :
    let P := domainAt pmax pmin (min x1 x2) (max x1 x2)
    let Q := domainAt qmax qmin (min y1 y2) (max y1 y2)
    (∃ l, itermandelbrot L x1 y1 x2 y2 (pmax, pmin, qmax, qmin) m = .ok l ∧ Triples l x1 y1 x2 y2 fun x y => multibrotF L (P x) (Q y) 2 m) ∧
    (∃ l, iterjulia x1 y1 x2 y2 c (pmax, pmin, qmax, qmin) m = .ok l ∧ Triples l x1 y1 x2 y2 fun x y => multijuliaF (P x) (Q y) c 2 m) ∧
    (∃ l, itertricorn L x1 y1 x2 y2 (pmax, pmin, qmax, qmin) m = .ok l ∧ Triples l x1 y1 x2 y2 fun x y => multicornF L (P x) (Q y) 2 m) :=
  ⟨⟨_, C108_points hx hy _ _ _ _ _, rfl⟩, ⟨_, C108_points hx hy _ _ _ _ _, rfl⟩, ⟨_, C108_points hx hy _ _ _ _ _, rfl⟩⟩

/-! ### Examples -/

/-- The point 3/2: the orbit is 3/2, 15/4. -/
theorem clear_example : Clear (fun z => z ^ 2 + toC (3 / 2, 0)) (powDev 2 (toC (3 / 2, 0))) 0 9 := by
  have hc : toC (3 / 2, 0) = ((3 / 2 : ℝ) : ℂ) := by apply Complex.ext <;> simp [toC]
  have hn : ‖((3 / 2 : ℝ) : ℂ)‖ = 3 / 2 := by rw [Complex.norm_real, Real.norm_eq_abs, abs_of_pos (by norm_num)]
  rw [hc]
  intro k _ hin
  have d1 : dev (fun z : ℂ => z ^ 2 + ((3 / 2 : ℝ) : ℂ)) (powDev 2 ((3 / 2 : ℝ) : ℂ)) 0 1 = 3 / 2 / 2 ^ 42 := by
    simp only [dev, powDev, Function.iterate_zero, id_eq, norm_zero, hn]
    norm_num
  match k with
  | 0 =>
    rw [d1]
    simp only [Function.iterate_succ, Function.iterate_zero, Function.comp_apply, id_eq]
    rw [show (0 : ℂ) ^ 2 + ((3 / 2 : ℝ) : ℂ) = ((3 / 2 : ℝ) : ℂ) by norm_num, hn]
    norm_num [abs_of_neg]
  | 1 =>
    have i1 : (fun z : ℂ => z ^ 2 + ((3 / 2 : ℝ) : ℂ))^[1] 0 = ((3 / 2 : ℝ) : ℂ) := by
      simp
    have i2 : (fun z : ℂ => z ^ 2 + ((3 / 2 : ℝ) : ℂ))^[2] 0 = ((15 / 4 : ℝ) : ℂ) := by
      rw [Function.iterate_succ_apply', i1]; push_cast; norm_num
    rw [dev, d1, i1, i2, hn, Complex.norm_real, Real.norm_eq_abs]
    unfold powDev
    rw [hn]
    norm_num [abs_of_pos]
  | k + 2 =>
    exfalso
    have i2 : (fun z : ℂ => z ^ 2 + ((3 / 2 : ℝ) : ℂ))^[2] 0 = ((15 / 4 : ℝ) : ℂ) := by
      rw [Function.iterate_succ_apply', show (fun z : ℂ => z ^ 2 + ((3 / 2 : ℝ) : ℂ))^[1] 0 = ((3 / 2 : ℝ) : ℂ) by simp]; push_cast; norm_num
    have := hin 1 (by omega)
    rw [i2, Complex.norm_real, Real.norm_eq_abs, abs_of_pos (by norm_num)] at this
    norm_num at this

/-- With every library, `multibrot(1.5, 0, 2, 9)` is the exact value. -/
example (L : Libm) : multibrotF L (3 / 2) 0 2 9 = multibrot (toC (3 / 2, 0)) 2 9 := C177_multibrot L _ _ (by norm_num) _ clear_example

/-- `multibrot(0.1, 0.1, 2, 255)` is 255, and `multibrot(3, 0, 2, 255)` is 0. -/
example (L : Libm) : multibrotF L (1 / 10) (1 / 10) 2 255 = 255 :=
  (C177_inside L _ _ (by norm_num) (by norm_num) (by
    refine (Complex.norm_le_abs_re_add_abs_im _).trans ?_
    simp only [toC]; push_cast; rw [abs_of_pos (by norm_num)]; norm_num) _).1

example (L : Libm) : multibrotF L 3 0 2 255 = 0 :=
  (C177_outside L _ _ (by norm_num) (by norm_num) (by
    refine le_trans ?_ (Complex.abs_re_le_norm _)
    simp only [toC]; push_cast; rw [abs_of_pos (by norm_num)]; norm_num) (by norm_num)).1

theorem cpow_two (z : ℚ × ℚ) : cpow z 2 = cmulF (1, 0) (cmulF z z) := by
  unfold cpow
  rw [powLoop.eq_def (1, 0) z 2, dif_neg (by norm_num), if_neg (by norm_num), powLoop, dif_neg (by norm_num), if_pos (by norm_num), powLoop, dif_pos (by norm_num)]

example : multijuliaF (1 / 10) (1 / 10) (-1, 0) 2 20 = 20 ∧ multijuliaF (1 / 2) (1 / 4) (-1, 0) 2 20 = 10 ∧ multijuliaF 1 1 (-1, 0) 2 20 = 0 ∧
    multijuliaF (6 / 5) (1 / 2) (-1, 0) 2 20 = 1 := by
  unfold multijuliaF
  simp only [cpow_two]
  decide +kernel

end Verif.Props.FloatEscape
