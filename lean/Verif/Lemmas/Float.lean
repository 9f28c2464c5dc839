import Verif.Model.Float
import Mathlib.Tactic.Ring
import Mathlib.Tactic.Linarith
import Mathlib.Tactic.NormNum
import Mathlib.Tactic.Positivity
import Mathlib.Tactic.FieldSimp
/-! What rounding to the nearest float does to rational numbers. -/

namespace Verif
open Model

theorem rnd_cases (q : ℚ) : (rnd q = ⌊q⌋ ∧ q - ⌊q⌋ ≤ 1 / 2) ∨ (rnd q = ⌊q⌋ + 1 ∧ 1 / 2 ≤ q - ⌊q⌋) := by
  unfold rnd
  split_ifs with h1 h2 h3
  · left; exact ⟨rfl, h1.le⟩
  · right; exact ⟨rfl, h2.le⟩
  · left; exact ⟨rfl, by linarith⟩
  · right; exact ⟨rfl, by linarith⟩

/-- `rnd` gives a nearest integer. -/
theorem rnd_near (q : ℚ) : |(rnd q : ℚ) - q| ≤ 1 / 2 := by
  have h1 := Int.floor_le q
  have h2 := Int.lt_floor_add_one q
  rcases rnd_cases q with ⟨e, h⟩ | ⟨e, h⟩ <;> rw [e, abs_le] <;> push_cast <;> constructor <;> linarith

theorem rnd_int (k : ℤ) : rnd k = k := by
  unfold rnd
  simp

theorem rnd_eq_of_near {q : ℚ} {k : ℤ} (h : |q - k| < 1 / 2) : rnd q = k := by
  have h1 := rnd_near q
  rw [abs_le] at h1
  rw [abs_lt] at h
  have a : ((rnd q - k : ℤ) : ℚ) < 1 := by push_cast; linarith
  have b : ((k - rnd q : ℤ) : ℚ) < 1 := by push_cast; linarith
  have a' : rnd q - k < 1 := by exact_mod_cast a
  have b' : k - rnd q < 1 := by exact_mod_cast b
  omega

theorem rnd_mono {p q : ℚ} (h : p ≤ q) : rnd p ≤ rnd q := by
  by_contra hc
  have h1 := rnd_near p
  have h2 := rnd_near q
  rw [abs_le] at h1 h2
  have hlt : (rnd q : ℚ) + 1 ≤ rnd p := by exact_mod_cast (by omega : rnd q + 1 ≤ rnd p)
  have : p = q := by linarith
  rw [this] at hc; omega

theorem two_zpow_pos (e : ℤ) : (0 : ℚ) < 2 ^ e := zpow_pos (by norm_num) e

theorem ulp_pos (q : ℚ) : 0 < ulp q := two_zpow_pos _

theorem log_bounds {q : ℚ} (hq : q ≠ 0) : (2 : ℚ) ^ Int.log 2 |q| ≤ |q| ∧ |q| < (2 : ℚ) ^ (Int.log 2 |q| + 1) := by
  have h := Int.zpow_log_le_self (b := 2) (r := |q|) (by omega) (abs_pos.mpr hq)
  have h' := Int.lt_zpow_succ_log_self (b := 2) (by omega) |q|
  exact ⟨by exact_mod_cast h, by exact_mod_cast h'⟩

/-- The relative error of rounding to a float. -/
theorem fl_err (q : ℚ) : |fl q - q| ≤ |q| / 2 ^ 53 := by
  by_cases hq : q = 0
  · subst hq
    have : fl 0 = 0 := by unfold fl; rw [zero_div]; have := rnd_int 0; push_cast at this; rw [this]; simp
    rw [this]; simp
  · have hu := ulp_pos q
    have h1 := rnd_near (q / ulp q)
    have e : fl q - q = ((rnd (q / ulp q) : ℚ) - q / ulp q) * ulp q := by
      unfold fl; rw [sub_mul, div_mul_cancel₀ _ hu.ne']
    rw [e, abs_mul, abs_of_pos hu]
    have hlog := (log_bounds hq).1
    have hu2 : ulp q = (2 : ℚ) ^ Int.log 2 |q| / 2 ^ 52 := by
      unfold ulp
      rw [zpow_sub₀ (by norm_num)]; norm_num
    calc |(rnd (q / ulp q) : ℚ) - q / ulp q| * ulp q ≤ 1 / 2 * ulp q := mul_le_mul_of_nonneg_right h1 hu.le
      _ = (2 : ℚ) ^ Int.log 2 |q| / 2 ^ 53 := by rw [hu2]; ring
      _ ≤ |q| / 2 ^ 53 := div_le_div_of_nonneg_right hlog (by positivity)

/-- Integers of at most 53 bits are floats. -/
theorem fl_int {k : ℤ} (hk : |k| ≤ 2 ^ 53) : fl (k : ℚ) = k := by
  by_cases h0 : k = 0
  · subst h0
    unfold fl; rw [Int.cast_zero, zero_div]; have := rnd_int 0; push_cast at this; rw [this]; simp
  · have hq : (k : ℚ) ≠ 0 := by exact_mod_cast h0
    have hlog := (log_bounds hq).1
    have hk' : |(k : ℚ)| ≤ 2 ^ 53 := by exact_mod_cast hk
    have hkp : (0 : ℚ) < |(k : ℚ)| := abs_pos.mpr hq
    set e := Int.log 2 |(k : ℚ)| with he
    have hle : e ≤ 53 := by
      have h1 := Int.log_mono_right (b := 2) hkp hk'
      have h2 := Int.log_zpow (R := ℚ) (b := 2) (by omega) 53
      norm_num at h1 h2
      omega
    have hge : 0 ≤ e := by
      have h1 : (1 : ℚ) ≤ |(k : ℚ)| := by
        rw [← Int.cast_abs]; exact_mod_cast Int.one_le_abs h0
      have := Int.log_mono_right (b := 2) (by norm_num) h1
      rw [Int.log_one_right] at this
      exact this
    have hu : ulp (k : ℚ) = (2 : ℚ) ^ (e - 52) := rfl
    have key : ∃ m : ℤ, (k : ℚ) / ulp k = m := by
      rw [hu]
      by_cases h53 : e = 53
      · have h2 : (2 : ℚ) ^ (53 : ℤ) ≤ |(k : ℚ)| := by rw [← h53]; exact hlog
        have h3 : |(k : ℚ)| = 2 ^ 53 := le_antisymm hk' (by exact_mod_cast h2)
        have h4 : |k| = 2 ^ 53 := by
          rw [← Int.cast_abs] at h3; exact_mod_cast h3
        rw [h53]
        rcases abs_choice k with hc | hc
        · exact ⟨2 ^ 52, by rw [← hc, h4]; norm_num⟩
        · refine ⟨-2 ^ 52, ?_⟩
          have : k = -2 ^ 53 := by omega
          rw [this]; norm_num
      · obtain ⟨d, hd⟩ : ∃ d : ℕ, e - 52 = -(d : ℤ) := ⟨(52 - e).toNat, by omega⟩
        refine ⟨k * 2 ^ d, ?_⟩
        rw [hd, zpow_neg, div_inv_eq_mul, zpow_natCast]
        push_cast; rfl
    obtain ⟨m, hm⟩ := key
    unfold fl
    rw [hm, rnd_int, ← hm, div_mul_cancel₀ _ (ulp_pos _).ne']

/-- Rounding to a float keeps the order of positive numbers. -/
theorem fl_mono_pos {p q : ℚ} (hp : 0 < p) (h : p ≤ q) : fl p ≤ fl q := by
  have hq : 0 < q := lt_of_lt_of_le hp h
  have bp := log_bounds hp.ne'
  have bq := log_bounds hq.ne'
  have hl := Int.log_mono_right (b := 2) hp h
  rw [abs_of_pos hp] at bp
  rw [abs_of_pos hq] at bq
  unfold fl
  have up : ulp p = (2 : ℚ) ^ (Int.log 2 p - 52) := by unfold ulp; rw [abs_of_pos hp]
  have uq : ulp q = (2 : ℚ) ^ (Int.log 2 q - 52) := by unfold ulp; rw [abs_of_pos hq]
  rcases eq_or_lt_of_le hl with he | hlt
  · have : ulp p = ulp q := by rw [up, uq, he]
    rw [this]
    apply mul_le_mul_of_nonneg_right _ (ulp_pos q).le
    exact_mod_cast rnd_mono (div_le_div_of_nonneg_right h (ulp_pos q).le)
  · have h1 : (rnd (p / ulp p) : ℚ) * ulp p ≤ (2 : ℚ) ^ (Int.log 2 p + 1) := by
      have : p / ulp p ≤ ((2 ^ 53 : ℤ) : ℚ) := by
        rw [div_le_iff₀ (ulp_pos p), up]
        push_cast
        have : (2 : ℚ) ^ 53 * 2 ^ (Int.log 2 p - 52) = 2 ^ (Int.log 2 p + 1) := by
          rw [← zpow_natCast, ← zpow_add₀ (by norm_num)]; congr 1; push_cast; ring
        norm_num at this ⊢
        rw [this]; exact bp.2.le
      have := rnd_mono this
      rw [rnd_int] at this
      have h3 : (rnd (p / ulp p) : ℚ) ≤ 2 ^ 53 := by exact_mod_cast this
      calc (rnd (p / ulp p) : ℚ) * ulp p ≤ 2 ^ 53 * ulp p := mul_le_mul_of_nonneg_right h3 (ulp_pos p).le
        _ = (2 : ℚ) ^ (Int.log 2 p + 1) := by
          rw [up, ← zpow_natCast, ← zpow_add₀ (by norm_num)]; congr 1; push_cast; ring
    have h2 : (2 : ℚ) ^ Int.log 2 q ≤ (rnd (q / ulp q) : ℚ) * ulp q := by
      have : ((2 ^ 52 : ℤ) : ℚ) ≤ q / ulp q := by
        rw [le_div_iff₀ (ulp_pos q), uq]
        push_cast
        have : (2 : ℚ) ^ 52 * 2 ^ (Int.log 2 q - 52) = 2 ^ Int.log 2 q := by
          rw [← zpow_natCast, ← zpow_add₀ (by norm_num)]; congr 1; push_cast; ring
        norm_num at this ⊢
        rw [this]; exact bq.1
      have := rnd_mono this
      rw [rnd_int] at this
      have h3 : (2 : ℚ) ^ 52 ≤ (rnd (q / ulp q) : ℚ) := by exact_mod_cast this
      calc (2 : ℚ) ^ Int.log 2 q = 2 ^ 52 * ulp q := by
            rw [uq, ← zpow_natCast, ← zpow_add₀ (by norm_num)]; congr 1; push_cast; ring
        _ ≤ _ := mul_le_mul_of_nonneg_right h3 (ulp_pos q).le
    calc _ ≤ (2 : ℚ) ^ (Int.log 2 p + 1) := h1
      _ ≤ (2 : ℚ) ^ Int.log 2 q := zpow_le_zpow_right₀ (by norm_num) (by omega)
      _ ≤ _ := h2

theorem fl_zero : fl 0 = 0 := by
  have := fl_int (k := 0) (by norm_num)
  exact_mod_cast this

theorem fl_nonneg {q : ℚ} (h : 0 ≤ q) : 0 ≤ fl q := by
  have := fl_err q
  rw [abs_of_nonneg h, abs_le] at this
  have : q / 2 ^ 53 ≤ q := div_le_self h (by norm_num)
  linarith

theorem le_fl_of_int {q : ℚ} {k : ℕ} (hk : k ≤ 2 ^ 53) (h : (k : ℚ) ≤ q) : (k : ℚ) ≤ fl q := by
  rcases Nat.eq_zero_or_pos k with rfl | hp
  · simpa using fl_nonneg (by simpa using h)
  · have h1 := fl_mono_pos (by exact_mod_cast hp) h
    have h2 := fl_int (k := (k : ℤ)) (by rw [abs_of_nonneg (by omega)]; exact_mod_cast hk)
    push_cast at h2
    rw [h2] at h1; exact h1

theorem fl_le_of_int {q : ℚ} {k : ℕ} (hk : k ≤ 2 ^ 53) (h0 : 0 ≤ q) (h : q ≤ (k : ℚ)) : fl q ≤ (k : ℚ) := by
  rcases eq_or_lt_of_le h0 with h0 | h0
  · rw [← h0, fl_zero]; positivity
  · have h1 := fl_mono_pos h0 h
    have h2 := fl_int (k := (k : ℤ)) (by rw [abs_of_nonneg (by omega)]; exact_mod_cast hk)
    push_cast at h2
    rw [h2] at h1; exact h1

end Verif
