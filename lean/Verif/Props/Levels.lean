import Verif.Model.Levels
import Verif.Props.CircGrad
import Verif.Props.Tone
import Verif.Props.Float
import Verif.Props.Hilbert
import Verif.Props.Plane
import Verif.Props.Dots
/-! Property C171: the percentages of the brightness gradients, with floats. -/

namespace Verif.Props
open Verif Spec Model

/-- The percentage `i` steps after `a` on the straight way to `c` in `n` steps. -/
def level (a c : Int) (n i : ℚ) : ℚ := a + (c - a) * i / n

/-- The byte nearest to a number. -/
def clipQ (q : ℚ) : ℚ := max 0 (min 255 q)

/-- The byte `w` is the byte `v`, brighter by `lum` percent, up to the rounding and a thousandth. -/
def Lighter (lum : ℚ) (v w : Nat) : Prop := |(w : ℚ) - clipQ (v * (1 + lum / 100))| ≤ 1 / 2 + 1 / 1000

/-- The byte `w` is the byte `v`, brighter by `(a * (n - i) + c * i) / n` percent and rounded to a nearest integer. -/
def Shaded (a c : Int) (n : Nat) (i : Int) (v w : Nat) : Prop :=
  ∃ r : Int, NearestInt r (v * (100 * n + a * (n - i) + c * i)) (100 * n) ∧ (w : Int) = max 0 (min 255 r)

theorem clipQ_lip (p q : ℚ) : |clipQ p - clipQ q| ≤ |p - q| := by
  unfold clipQ
  have h1 := abs_max_sub_max_le_max 0 (min 255 p) 0 (min 255 q)
  have h2 := abs_min_sub_min_le_max 255 p 255 q
  rw [sub_self, abs_zero, max_eq_right (abs_nonneg (min 255 p - min 255 q))] at h1
  rw [sub_self, abs_zero, max_eq_right (abs_nonneg (p - q))] at h2
  exact h1.trans h2

theorem fl_idem (q : ℚ) : fl (fl q) = fl q := by
  by_cases hq : q = 0
  · subst hq; rw [fl_zero, fl_zero]
  have hk : |rnd (q / ulp q)| ≤ 2 ^ 53 := by
    have h1 := (log_bounds hq).2
    have hu : 0 < ulp q := by unfold ulp; positivity
    have h2 : |q / ulp q| ≤ 2 ^ 53 := by
      rw [abs_div, abs_of_pos hu, div_le_iff₀ hu]
      refine h1.le.trans (le_of_eq ?_)
      unfold ulp
      rw [← zpow_natCast, ← zpow_add₀ (by norm_num)]
      congr 1
      push_cast; ring
    rw [abs_le] at h2 ⊢
    have e1 := rnd_mono h2.1
    have e2 := rnd_mono h2.2
    have e3 := rnd_int (2 ^ 53)
    have e4 := rnd_int (-(2 ^ 53))
    norm_num at e1 e2 e3 e4 ⊢
    omega
  have e : fl q = (rnd (q / ulp q) : ℚ) * (2 : ℚ) ^ (Int.log 2 |q| - 52) := rfl
  rw [e, fl_scale, fl_int hk]

theorem lumAcc_float {a c : Int} (ha : |a| ≤ 2 ^ 53) (n k : Nat) : fl (lumAcc a c n k) = lumAcc a c n k := by
  cases k with
  | zero => exact fl_int ha
  | succ k => exact fl_idem _

/-- The added percentages are near the exact ones. -/
theorem lumAcc_near {a c : Int} (ha : |a| ≤ 10 ^ 4) (hc : |c| ≤ 10 ^ 4) {n : Nat} (hn : 0 < n) (hn2 : n ≤ 2 ^ 24) {k : Nat} (hk : k ≤ n) :
    |lumAcc a c n k - level a c n k| ≤ k / 2 ^ 38 := by
  have ha' : |(a : ℚ)| ≤ 10 ^ 4 := by rw [← Int.cast_abs]; exact_mod_cast ha
  have hc' : |(c : ℚ)| ≤ 10 ^ 4 := by rw [← Int.cast_abs]; exact_mod_cast hc
  have hn' : (1 : ℚ) ≤ n := by exact_mod_cast hn
  have hn2' : (n : ℚ) ≤ 2 ^ 24 := by exact_mod_cast hn2
  have hd : |((c - a : Int) : ℚ) / n| ≤ 2 * 10 ^ 4 := by
    rw [abs_div, abs_of_pos (by linarith : (0 : ℚ) < n), div_le_iff₀ (by linarith)]
    push_cast
    rw [abs_le] at *
    constructor <;> nlinarith [ha'.1, ha'.2, hc'.1, hc'.2]
  have hde := (fl_err (((c - a : Int) : ℚ) / n)).trans (div_le_div_of_nonneg_right hd (by positivity))
  induction k with
  | zero => simp [lumAcc, level]
  | succ k ih =>
    have ih := ih (by omega)
    have hk' : (k : ℚ) ≤ 2 ^ 24 := by exact_mod_cast (by omega : k ≤ 2 ^ 24)
    have hstep : level a c n ((k + 1 : Nat) : ℚ) = level a c n k + ((c - a : Int) : ℚ) / n := by
      unfold level; push_cast; ring
    have hlev : |level a c n ((k + 1 : Nat) : ℚ)| ≤ 10 ^ 4 := by
      have h0 : (0 : ℚ) ≤ ((k + 1 : Nat) : ℚ) / n := by positivity
      have h1 : ((k + 1 : Nat) : ℚ) / n ≤ 1 := by
        rw [div_le_one (by linarith)]; exact_mod_cast hk
      have e : level a c n ((k + 1 : Nat) : ℚ) = a * (1 - ((k + 1 : Nat) : ℚ) / n) + c * (((k + 1 : Nat) : ℚ) / n) := by
        unfold level; field_simp; ring
      rw [e]
      generalize ((k + 1 : Nat) : ℚ) / n = t at *
      rw [abs_le] at *
      constructor <;> nlinarith [ha'.1, ha'.2, hc'.1, hc'.2]
    rw [lumAcc, hstep, show ((k + 1 : Nat) : ℚ) = (k : ℚ) + 1 by push_cast; ring]
    rw [hstep] at hlev
    clear hstep
    generalize hκ : (k : ℚ) = κ at *
    generalize fl (((c - a : Int) : ℚ) / n) = D at *
    generalize ((c - a : Int) : ℚ) / n = d at *
    generalize level a c n k = L at *
    generalize lumAcc a c n k = A at *
    have hs : |A + D| ≤ 10 ^ 4 + 1 := by
      rw [abs_le] at *
      norm_num at *
      constructor <;> linarith [ih.1, ih.2, hde.1, hde.2, hlev.1, hlev.2]
    have hf := (fl_err (A + D)).trans (div_le_div_of_nonneg_right hs (by positivity))
    rw [abs_le] at *
    norm_num at *
    constructor <;> linarith [ih.1, ih.2, hde.1, hde.2, hf.1, hf.2]

/-- The percentages of the discs are near the exact ones. -/
theorem lumAt_near {a c : Int} (ha : |a| ≤ 10 ^ 4) (hc : |c| ≤ 10 ^ 4) {r i : Int} (hr : r ≠ 0) (hi : |i| ≤ 2 * |r|) :
    |lumAt a c r i - level a c ((2 * r : Int) : ℚ) i| ≤ 1 / 2 ^ 36 ∧ |level a c ((2 * r : Int) : ℚ) i| ≤ 3 * 10 ^ 4 := by
  have ha' : |(a : ℚ)| ≤ 10 ^ 4 := by rw [← Int.cast_abs]; exact_mod_cast ha
  have hc' : |(c : ℚ)| ≤ 10 ^ 4 := by rw [← Int.cast_abs]; exact_mod_cast hc
  have hr0 : ((2 * r : Int) : ℚ) ≠ 0 := by exact_mod_cast (by omega : 2 * r ≠ 0)
  have hi' : |(i : ℚ)| ≤ |((2 * r : Int) : ℚ)| := by
    rw [← Int.cast_abs, ← Int.cast_abs, abs_mul]; exact_mod_cast hi
  have hca : |((c - a : Int) : ℚ)| ≤ 2 * 10 ^ 4 := by
    push_cast
    rw [abs_le] at *
    constructor <;> linarith [ha'.1, ha'.2, hc'.1, hc'.2]
  have hq : |(i : ℚ) * (((c - a : Int) : ℚ) / ((2 * r : Int) : ℚ))| ≤ 2 * 10 ^ 4 := by
    rw [abs_mul, abs_div, mul_div_assoc', div_le_iff₀ (abs_pos.mpr hr0), mul_comm]
    exact mul_le_mul hca hi' (abs_nonneg _) (by norm_num)
  have e : level a c ((2 * r : Int) : ℚ) i = a + (i : ℚ) * (((c - a : Int) : ℚ) / ((2 * r : Int) : ℚ)) := by
    unfold level; push_cast; ring
  have h1 := fl_mul_err (((c - a : Int) : ℚ) / ((2 * r : Int) : ℚ)) i
  unfold lumAt
  rw [e]
  rw [mul_comm _ (i : ℚ), mul_comm (((c - a : Int) : ℚ) / ((2 * r : Int) : ℚ)) (i : ℚ)] at h1
  generalize (i : ℚ) * (((c - a : Int) : ℚ) / ((2 * r : Int) : ℚ)) = q at *
  have h1 := h1.trans (div_le_div_of_nonneg_right hq (by positivity))
  generalize fl ((i : ℚ) * fl (((c - a : Int) : ℚ) / ((2 * r : Int) : ℚ))) = Q at *
  have hs : |(a : ℚ) + Q| ≤ 3 * 10 ^ 4 + 1 := by
    rw [abs_le] at *
    norm_num at *
    constructor <;> linarith [ha'.1, ha'.2, h1.1, h1.2, hq.1, hq.2]
  have hf := (fl_err ((a : ℚ) + Q)).trans (div_le_div_of_nonneg_right hs (by positivity))
  rw [abs_le] at *
  rw [abs_le]
  norm_num at *
  refine ⟨⟨?_, ?_⟩, ?_, ?_⟩ <;> linarith [ha'.1, ha'.2, h1.1, h1.2, hq.1, hq.2, hf.1, hf.2]

/-- One channel before the last rounding. -/
theorem brightQ_close {lum L ε : ℚ} (h : |lum - L| ≤ ε) (hε : ε ≤ 1 / 2 ^ 14) (hL : |L| ≤ 3 * 10 ^ 4) {v : Nat} (hv : v < 256) :
    |fl ((v : ℚ) * fl (1 + fl (lum / 100))) - v * (1 + L / 100)| ≤ 255 / 100 * ε + 1 / 2 ^ 35 := by
  have hv' : (v : ℚ) ≤ 255 := by exact_mod_cast (by omega : v ≤ 255)
  have hv0 : (0 : ℚ) ≤ v := by positivity
  have h1 := fl_err (lum / 100)
  have hl : |lum / 100| ≤ 301 := by
    rw [abs_le] at *
    norm_num at *
    constructor <;> linarith [h.1, h.2, hL.1, hL.2]
  have h1 := h1.trans (div_le_div_of_nonneg_right hl (by positivity))
  have h2 := fl_err (1 + fl (lum / 100))
  have hl2 : |1 + fl (lum / 100)| ≤ 303 := by
    rw [abs_le] at *
    norm_num at *
    constructor <;> linarith [h1.1, h1.2, hl.1, hl.2]
  have h2 := h2.trans (div_le_div_of_nonneg_right hl2 (by positivity))
  have hF : |fl (1 + fl (lum / 100)) - (1 + L / 100)| ≤ ε / 100 + 604 / 2 ^ 53 := by
    rw [abs_le] at *
    norm_num at *
    constructor <;> linarith [h1.1, h1.2, h2.1, h2.2, h.1, h.2]
  have hF2 : |fl (1 + fl (lum / 100))| ≤ 304 := by
    rw [abs_le] at *
    norm_num at *
    constructor <;> linarith [h2.1, h2.2, hl2.1, hl2.2]
  generalize fl (1 + fl (lum / 100)) = F at *
  have h3 : |fl ((v : ℚ) * F) - v * F| ≤ 255 * 304 / 2 ^ 53 := by
    refine (fl_err _).trans (div_le_div_of_nonneg_right ?_ (by positivity))
    rw [abs_mul, abs_of_nonneg hv0]
    exact mul_le_mul hv' hF2 (abs_nonneg _) (by norm_num)
  have h4 : |(v : ℚ) * F - v * (1 + L / 100)| ≤ 255 * (ε / 100 + 604 / 2 ^ 53) := by
    rw [← mul_sub, abs_mul, abs_of_nonneg hv0]
    exact mul_le_mul hv' hF (abs_nonneg _) (by norm_num)
  generalize (v : ℚ) * (1 + L / 100) = q at *
  generalize fl ((v : ℚ) * F) = z at *
  rw [abs_le] at *
  norm_num at *
  constructor <;> linarith [h3.1, h3.2, h4.1, h4.2]

/-- One channel. -/
theorem brightQ_near {lum L : ℚ} (h : |lum - L| ≤ 1 / 2 ^ 14) (hL : |L| ≤ 3 * 10 ^ 4) {v : Nat} (hv : v < 256) :
    |(brightQ lum v : ℚ) - v * (1 + L / 100)| ≤ 1 / 2 + 1 / 1000 := by
  have h1 := brightQ_close h le_rfl hL hv
  have h2 := rnd_near (fl ((v : ℚ) * fl (1 + fl (lum / 100))))
  unfold brightQ
  rw [abs_le] at *
  norm_num at *
  constructor <;> linarith [h1.1, h1.2, h2.1, h2.2]

theorem brightQ_mono {p q : ℚ} (h : p ≤ q) (v : Nat) : brightQ p v ≤ brightQ q v := by
  unfold brightQ
  apply rnd_mono
  apply Plane.fl_le
  apply mul_le_mul_of_nonneg_left _ (by positivity)
  apply Plane.fl_le
  have   := Plane.fl_le (show p / 100 ≤ q / 100 by linarith)
  linarith

theorem lumAcc_mono {a c : Int} (ha : |a| ≤ 2 ^ 53) (h : a ≤ c) (n : Nat) {j k : Nat} (hjk : j ≤ k) :
    lumAcc a c n j ≤ lumAcc a c n k := by
  induction hjk with
  | refl => exact le_rfl
  | @step k _ ih =>
    refine ih.trans ?_
    rw [lumAcc]
    conv_lhs => rw [← lumAcc_float ha n k]
    apply Plane.fl_le
    have : 0 ≤ fl (((c - a : Int) : ℚ) / n) := by
      apply fl_nonneg
      have : (0 : ℚ) ≤ ((c - a : Int) : ℚ) := by exact_mod_cast (by omega : 0 ≤ c - a)
      positivity
    linarith

theorem lumAcc_anti {a c : Int} (ha : |a| ≤ 2 ^ 53) (h : c ≤ a) (n : Nat) {j k : Nat} (hjk : j ≤ k) :
    lumAcc a c n k ≤ lumAcc a c n j := by
  induction hjk with
  | refl => exact le_rfl
  | @step k _ ih =>
    refine le_trans ?_ ih
    rw [lumAcc]
    conv_rhs => rw [← lumAcc_float ha n k]
    apply Plane.fl_le
    have : 0 ≤ fl (-(((c - a : Int) : ℚ) / n)) := by
      apply fl_nonneg
      rw [← neg_div]
      have : (0 : ℚ) ≤ -((c - a : Int) : ℚ) := by exact_mod_cast (by omega : 0 ≤ -(c - a))
      positivity
    rw [Plane.fl_neg] at this
    linarith

theorem chan_brightened (f : Nat → Int) (c : Nat) {k : Nat} (hk : k < 3) :
    (chan k (brightened f c) : Int) = max 0 (min 255 (f (chan k c))) := by
  have hnb : ∀ r : Int, (nearestByte r : Int) = max 0 (min 255 r) := by
    intro r; unfold nearestByte; split_ifs <;> omega
  have hlt : ∀ r : Int, nearestByte r < 256 := by intro r; unfold nearestByte; split_ifs <;> omega
  rw [← hnb]
  unfold brightened
  have l0 := hlt (f (redOf c))
  have l1 := hlt (f (greenOf c))
  have l2 := hlt (f (blueOf c))
  have hk' : k = 0 ∨ k = 1 ∨ k = 2 := by omega
  rcases hk' with rfl | rfl | rfl
  · rw [show chan 0 c = blueOf c by simp [chan, blueOf]]
    unfold chan rgb
    norm_num; omega
  · rw [show chan 1 c = greenOf c by simp [chan, greenOf]]
    unfold chan rgb
    norm_num; omega
  · rw [show chan 2 c = redOf c by simp [chan, redOf]]
    unfold chan rgb
    norm_num; omega

theorem level_swap (a c : Int) {n : ℚ} (hn : n ≠ 0) (i : ℚ) : level c a n (n - i) = level a c n i := by
  unfold level; field_simp; ring

theorem shaded_of {lum : ℚ} {a c : Int} {n : Nat} (hn : 0 < n) {i : Int} {ε : ℚ} (h : |lum - level a c n i| ≤ ε)
    (hL : |level a c n i| ≤ 3 * 10 ^ 4) (hε : ε ≤ 1 / 2 ^ 14) (hs : (255 / 100 * ε + 1 / 2 ^ 35) * (200 * n) < 1) {v : Nat} (hv : v < 256) :
    NearestInt (brightQ lum v) (v * (100 * n + a * (n - i) + c * i)) (100 * n) := by
  unfold brightQ
  apply nearest_of_close (by omega)
  have h1 := brightQ_close h hε hL hv
  have hn' : (n : ℚ) ≠ 0 := by exact_mod_cast (by omega : n ≠ 0)
  have e : (((v : Int) * (100 * n + a * (n - i) + c * i) : Int) : ℚ) / ((100 * n : Nat) : ℚ) = (v : ℚ) * (1 + level a c n i / 100) := by
    unfold level; push_cast; field_simp; ring
  rw [e]
  refine lt_of_le_of_lt (mul_le_mul_of_nonneg_right h1 (by positivity)) ?_
  refine lt_of_eq_of_lt ?_ hs
  push_cast; ring

theorem level_abs {a c : Int} (ha : |a| ≤ 10 ^ 4) (hc : |c| ≤ 10 ^ 4) {n : Nat} (hn : 0 < n) {i : ℚ} (h0 : 0 ≤ i) (h1 : i ≤ n) :
    |level a c n i| ≤ 3 * 10 ^ 4 := by
  have ha' : |(a : ℚ)| ≤ 10 ^ 4 := by rw [← Int.cast_abs]; exact_mod_cast ha
  have hc' : |(c : ℚ)| ≤ 10 ^ 4 := by rw [← Int.cast_abs]; exact_mod_cast hc
  have hn' : (0 : ℚ) < n := by exact_mod_cast hn
  have e : level a c n i = a * (1 - i / n) + c * (i / n) := by unfold level; field_simp; ring
  have k0 : 0 ≤ i / n := by positivity
  have k1 : i / n ≤ 1 := by rw [div_le_one hn']; exact h1
  rw [e]
  generalize i / (n : ℚ) = t at *
  rw [abs_le] at *
  constructor <;> nlinarith [ha'.1, ha'.2, hc'.1, hc'.2]

variable {b : Bytes} {W H : Nat}

/-- What one pixel becomes, in terms of the exact percentages. -/
theorem acc_pixel {a c : Int} (ha : |a| ≤ 10 ^ 4) (hc : |c| ≤ 10 ^ 4) {n : Nat} (hn : 0 < n) (hn2 : n ≤ 2 ^ 24) {k : Nat} (hk : k ≤ n)
    (col : Nat) {j : Nat} (hj : j < 3) :
    Lighter (level a c n k) (chan j col) (chan j (brightened (brightQ (lumAcc a c n k)) col)) ∧
    (n ≤ 2 ^ 14 → Shaded a c n k (chan j col) (chan j (brightened (brightQ (lumAcc a c n k)) col))) := by
  have hv : chan j col < 256 := Nat.mod_lt _ (by omega)
  have h1 := lumAcc_near ha hc hn hn2 hk
  have hL := level_abs ha hc hn (i := k) (by positivity) (by exact_mod_cast hk)
  have hk2 : (k : ℚ) ≤ 2 ^ 24 := by exact_mod_cast hk.trans hn2
  have hkn : (k : ℚ) ≤ n := by exact_mod_cast hk
  have hε : (k : ℚ) / 2 ^ 38 ≤ 1 / 2 ^ 14 := by
    refine (div_le_div_of_nonneg_right hk2 (by positivity)).trans ?_
    norm_num
  have hch := chan_brightened (brightQ (lumAcc a c n k)) col hj
  constructor
  · unfold Lighter
    have h2 := brightQ_near (h1.trans hε) hL hv
    refine le_trans ?_ h2
    refine le_trans (le_of_eq ?_) (clipQ_lip _ _)
    congr 2
    rw [show ((chan j (brightened (brightQ (lumAcc a c n k)) col) : Nat) : ℚ) =
      (((chan j (brightened (brightQ (lumAcc a c n k)) col) : Nat) : Int) : ℚ) by push_cast; rfl, hch]
    unfold clipQ
    push_cast; rfl
  · intro hs
    have hs' : (n : ℚ) ≤ 2 ^ 14 := by exact_mod_cast hs
    refine ⟨_, shaded_of hn (i := (k : Int)) (ε := k / 2 ^ 38) (by simpa using h1) (by simpa using hL) hε ?_ hv, hch⟩
    have : (255 / 100 * ((k : ℚ) / 2 ^ 38) + 1 / 2 ^ 35) * (200 * n) ≤ (255 / 100 * (2 ^ 14 / 2 ^ 38) + 1 / 2 ^ 35) * (200 * 2 ^ 14) := by
      apply mul_le_mul _ (by linarith) (by positivity) (by positivity)
      have : (k : ℚ) / 2 ^ 38 ≤ 2 ^ 14 / 2 ^ 38 := div_le_div_of_nonneg_right (hkn.trans hs') (by positivity)
      linarith
    refine lt_of_le_of_lt this ?_
    norm_num

theorem shaded_swap {a c : Int} {n : Nat} {i i' : Int} (e : i' = n - i) {v w : Nat} : Shaded a c n i v w ↔ Shaded c a n i' v w := by
  subst e
  unfold Shaded
  rw [show (v : Int) * (100 * n + a * (n - i) + c * i) = (v : Int) * (100 * n + c * (n - (n - i)) + a * (n - i)) by ring]

/-- C171: `verticalbrightnessgradto24bitregion` makes the rows of the rectangle brighter by percentages that go evenly from
`l0` in the top row to `l1` in the bottom row. Up to 2^14 rows every channel is the nearest integer (the floats do no
harm); for more rows it differs by at most a thousandth more than by rounding. -/
theorem C171_vertical (h : Valid b W H 24) {l0 l1 : Int} (h0 : |l0| ≤ 10 ^ 4) (h1 : |l1| ≤ 10 ^ 4) {x1 y1 x2 y2 : Int}
    (hi : InImage W H x1 y1 x2 y2) (hy : y1 ≠ y2) :
    ∃ b', vertgradregion b x1 y1 x2 y2 l0 l1 = .ok b' ∧ Valid b' W H 24 ∧ SameHeader b b' 24 ∧
      ∀ x y, x < W → y < H → if inRect x1 y1 x2 y2 x y then ∀ j < 3,
          Lighter (level l0 l1 ((max y1 y2 - min y1 y2 : Int) : ℚ) ((y - min y1 y2 : Int) : ℚ))
            (chan j (pix b W H 24 x y)) (chan j (pix b' W H 24 x y)) ∧
          (max y1 y2 - min y1 y2 ≤ 2 ^ 14 → Shaded l0 l1 (max y1 y2 - min y1 y2).toNat (y - min y1 y2)
            (chan j (pix b W H 24 x y)) (chan j (pix b' W H 24 x y)))
        else pix b' W H 24 x y = pix b W H 24 x y := by
  unfold vertgradregion
  obtain ⟨b', e, r⟩ := C60_vertgradient_partial h
    (fun k => brightQ (lumAcc l1 l0 (max y1 y2 - min y1 y2).toNat k)) hi hy
  refine ⟨b', e, r.valid, r.header, ?_⟩
  intro x y hx hyH
  rw [r.pixels x y hx hyH]
  have hH := h.hlt
  unfold InImage at hi
  split_ifs with c
  · intro j hj
    unfold inRect at c
    rw [decide_eq_true_eq] at c
    have hn : 0 < (max y1 y2 - min y1 y2).toNat := by omega
    have hk : (max y1 y2 - (y : Int)).toNat ≤ (max y1 y2 - min y1 y2).toNat := by omega
    have key := acc_pixel h1 h0 hn (by omega) hk (pix b W H 24 x y) hj
    have en : ((max y1 y2 - min y1 y2).toNat : ℚ) = ((max y1 y2 - min y1 y2 : Int) : ℚ) := by
      rw [← Int.cast_natCast, Int.toNat_of_nonneg (by omega)]
    have ek : ((max y1 y2 - (y : Int)).toNat : ℚ) = ((max y1 y2 - min y1 y2 : Int) : ℚ) - ((y - min y1 y2 : Int) : ℚ) := by
      rw [← Int.cast_natCast, Int.toNat_of_nonneg (by omega)]; push_cast; ring
    constructor
    · have k1 := key.1
      rw [en, ek, level_swap _ _ (by rw [← en]; exact_mod_cast (by omega))] at k1
      exact k1
    · intro hs
      exact (shaded_swap (by omega)).mpr (key.2 (by omega))
  · rfl

/-- C171: `horizontalbrightnessgradto24bitregion` makes the columns of the rectangle brighter by percentages that go evenly
from `l0` in the left column to `l1` in the right column, except in the top row, which it never changes (see C85). -/
theorem C171_horizontal (h : Valid b W H 24) {l0 l1 : Int} (h0 : |l0| ≤ 10 ^ 4) (h1 : |l1| ≤ 10 ^ 4) {x1 y1 x2 y2 : Int}
    (hi : InImage W H x1 y1 x2 y2) (hx12 : x1 ≠ x2) :
    ∃ b', horigradregion b x1 y1 x2 y2 l0 l1 = .ok b' ∧ Valid b' W H 24 ∧ SameHeader b b' 24 ∧
      ∀ x y, x < W → y < H → if inRect x1 y1 x2 y2 x y ∧ (y : Int) ≠ min y1 y2 then ∀ j < 3,
          Lighter (level l0 l1 ((max x1 x2 - min x1 x2 : Int) : ℚ) ((x - min x1 x2 : Int) : ℚ))
            (chan j (pix b W H 24 x y)) (chan j (pix b' W H 24 x y)) ∧
          (max x1 x2 - min x1 x2 ≤ 2 ^ 14 → Shaded l0 l1 (max x1 x2 - min x1 x2).toNat (x - min x1 x2)
            (chan j (pix b W H 24 x y)) (chan j (pix b' W H 24 x y)))
        else pix b' W H 24 x y = pix b W H 24 x y := by
  unfold horigradregion
  obtain ⟨b', e, r⟩ := C85_horigradient_exact h
    (fun k => brightQ (lumAcc l0 l1 (max x1 x2 - min x1 x2).toNat k)) hi hx12
  refine ⟨b', e, r.valid, r.header, ?_⟩
  intro x y hx hyH
  rw [r.pixels x y hx hyH]
  have hW := h.wlt
  unfold InImage at hi
  split_ifs with c
  · intro j hj
    unfold inRect at c
    rw [decide_eq_true_eq] at c
    have hn : 0 < (max x1 x2 - min x1 x2).toNat := by omega
    have hk : ((x : Int) - min x1 x2).toNat ≤ (max x1 x2 - min x1 x2).toNat := by omega
    have key := acc_pixel h0 h1 hn (by omega) hk (pix b W H 24 x y) hj
    have en : ((max x1 x2 - min x1 x2).toNat : ℚ) = ((max x1 x2 - min x1 x2 : Int) : ℚ) := by
      rw [← Int.cast_natCast, Int.toNat_of_nonneg (by omega)]
    have ek : (((x : Int) - min x1 x2).toNat : ℚ) = ((x - min x1 x2 : Int) : ℚ) := by
      rw [← Int.cast_natCast, Int.toNat_of_nonneg (by omega)]
    constructor
    · have k1 := key.1
      rw [en, ek] at k1
      exact k1
    · intro hs
      have k2 := key.2 (by omega)
      rw [Int.toNat_of_nonneg (by omega)] at k2
      exact k2
  · rfl

/-- What one pixel of a disc becomes. -/
theorem at_pixel {l0 l1 : Int} (h0 : |l0| ≤ 10 ^ 4) (h1 : |l1| ≤ 10 ^ 4) {r i : Int} (hr : 0 < r) (hr2 : r ≤ 2 ^ 23) (hi0 : 0 ≤ i)
    (hi : i ≤ 2 * r) (col : Nat) {j : Nat} (hj : j < 3) :
    Shaded l0 l1 (2 * r).toNat i (chan j col) (chan j (brightened (brightQ (lumAt l0 l1 r i)) col)) := by
  have hv : chan j col < 256 := Nat.mod_lt _ (by omega)
  obtain ⟨k1, k2⟩ := lumAt_near h0 h1 (show r ≠ 0 by omega) (i := i) (by rw [abs_of_nonneg hi0, abs_of_pos hr]; exact hi)
  have en : ((2 * r).toNat : ℚ) = ((2 * r : Int) : ℚ) := by rw [← Int.cast_natCast, Int.toNat_of_nonneg (by omega)]
  rw [← en] at k1 k2
  refine ⟨_, shaded_of (by omega) k1 k2 (by norm_num) ?_ hv, chan_brightened _ col hj⟩
  have h2 : ((2 * r).toNat : ℚ) ≤ 2 ^ 24 := by exact_mod_cast (by omega : (2 * r).toNat ≤ 2 ^ 24)
  generalize ((2 * r).toNat : ℚ) = N at h2 ⊢
  norm_num at h2 ⊢
  linarith

/-- C171: inside a disc the percentages go evenly from `l0` at the top to `l1` at the bottom, or from left to right, and every
channel is the nearest integer; the right end of each row and the ends of the outer columns are missed (see C76). -/
theorem C171_disc (h : Valid b W H 24) {l0 l1 : Int} (h0 : |l0| ≤ 10 ^ 4) (h1 : |l1| ≤ 10 ^ 4) {x y r : Int}
    (hs : SquareInside W H x y r) (hr : 0 < r) :
    (∃ b', vertgradcirc b x y r l0 l1 = .ok b' ∧ Valid b' W H 24 ∧ SameHeader b b' 24 ∧ ∀ px py, px < W → py < H →
      (DiscSet x y r px py ∧ DiscSet x y r (px + 1) py → ∀ j < 3,
        Shaded l0 l1 (2 * r).toNat (py - (y - r)) (chan j (pix b W H 24 px py)) (chan j (pix b' W H 24 px py))) ∧
      (¬ (DiscSet x y r px py ∧ DiscSet x y r (px + 1) py) → pix b' W H 24 px py = pix b W H 24 px py)) ∧
    (∃ b', horigradcirc b x y r l0 l1 = .ok b' ∧ Valid b' W H 24 ∧ SameHeader b b' 24 ∧ ∀ px py, px < W → py < H →
      (DiscSet x y r px py ∧ ColSet x y r px py → ∀ j < 3,
        Shaded l0 l1 (2 * r).toNat (px - (x - r)) (chan j (pix b W H 24 px py)) (chan j (pix b' W H 24 px py))) ∧
      (¬ (DiscSet x y r px py ∧ ColSet x y r px py) → pix b' W H 24 px py = pix b W H 24 px py)) := by
  have hb := hs (x - r) (y - r) (by omega) (by omega)
  have hb2 := hs (x + r) (y + r) (by omega) (by omega)
  have hW := h.wlt
  obtain ⟨⟨b1, e1, a1⟩, -⟩ := C76_gradients_partial h (fun py => brightQ (lumAt l0 l1 r (py - (y - r)))) hs (by omega)
  obtain ⟨-, b2, e2, a2⟩ := C76_gradients_partial h (fun px => brightQ (lumAt l0 l1 r (px - (x - r)))) hs (by omega)
  refine ⟨⟨b1, e1, a1.valid, a1.header, fun px py hx hy => ⟨fun hd j hj => ?_, a1.outside px py hx hy⟩⟩,
    ⟨b2, e2, a2.valid, a2.header, fun px py hx hy => ⟨fun hd j hj => ?_, a2.outside px py hx hy⟩⟩⟩
  · rw [a1.inside px py hx hy hd]
    have := Dots.disc_bounds hd.1
    exact at_pixel h0 h1 hr (by omega) (by omega) (by omega) _ hj
  · rw [a2.inside px py hx hy hd]
    have := Dots.disc_bounds hd.1
    exact at_pixel h0 h1 hr (by omega) (by omega) (by omega) _ hj

/-- C171: of two pixels of the same colour the lower one does not become darker if `l0 ≤ l1`, and not brighter if `l1 ≤ l0`.
This holds for all percentages of at most 53 bits. -/
theorem C171_order (h : Valid b W H 24) {l0 l1 : Int} (h1 : |l1| ≤ 2 ^ 53) {x1 y1 x2 y2 : Int}
    (hi : InImage W H x1 y1 x2 y2) (hy : y1 ≠ y2) :
    ∃ b', vertgradregion b x1 y1 x2 y2 l0 l1 = .ok b' ∧ ∀ x y x' y', x < W → y < H → x' < W → y' < H →
      inRect x1 y1 x2 y2 x y = true → inRect x1 y1 x2 y2 x' y' = true → y ≤ y' → ∀ j < 3,
      chan j (pix b W H 24 x y) = chan j (pix b W H 24 x' y') →
      (l0 ≤ l1 → chan j (pix b' W H 24 x y) ≤ chan j (pix b' W H 24 x' y')) ∧
      (l1 ≤ l0 → chan j (pix b' W H 24 x' y') ≤ chan j (pix b' W H 24 x y)) := by
  unfold vertgradregion
  obtain ⟨b', e, r⟩ := C60_vertgradient_partial h
    (fun k => brightQ (lumAcc l1 l0 (max y1 y2 - min y1 y2).toNat k)) hi hy
  refine ⟨b', e, ?_⟩
  intro x y x' y' hx hyH hx' hy' c c' hyy j hj hsame
  rw [r.pixels x y hx hyH, r.pixels x' y' hx' hy', if_pos c, if_pos c']
  have e1 := chan_brightened (brightQ (lumAcc l1 l0 (max y1 y2 - min y1 y2).toNat (max y1 y2 - (y : Int)).toNat)) (pix b W H 24 x y) hj
  have e2 := chan_brightened (brightQ (lumAcc l1 l0 (max y1 y2 - min y1 y2).toNat (max y1 y2 - (y' : Int)).toNat)) (pix b W H 24 x' y') hj
  have hk : (max y1 y2 - (y' : Int)).toNat ≤ (max y1 y2 - (y : Int)).toNat := by omega
  rw [hsame] at e1
  constructor
  · intro hl
    have := brightQ_mono (lumAcc_anti h1 hl (max y1 y2 - min y1 y2).toNat hk) (chan j (pix b W H 24 x' y'))
    omega
  · intro hl
    have := brightQ_mono (lumAcc_mono h1 hl (max y1 y2 - min y1 y2).toNat hk) (chan j (pix b W H 24 x' y'))
    omega

/-- C171: the whole image. -/
theorem C171_images (h : Valid b W H 24) {l0 l1 : Int} (h0 : |l0| ≤ 10 ^ 4) (h1 : |l1| ≤ 10 ^ 4) (hW : 1 < W) (hH : 1 < H) :
    (∃ b', vertgradimage b l0 l1 = .ok b' ∧ Valid b' W H 24 ∧ SameHeader b b' 24 ∧ ∀ x y, x < W → y < H → ∀ j < 3,
      Lighter (level l0 l1 ((H - 1 : Int) : ℚ) y) (chan j (pix b W H 24 x y)) (chan j (pix b' W H 24 x y)) ∧
      (H ≤ 2 ^ 14 → Shaded l0 l1 (H - 1) y (chan j (pix b W H 24 x y)) (chan j (pix b' W H 24 x y)))) ∧
    (∃ b', horigradimage b l0 l1 = .ok b' ∧ Valid b' W H 24 ∧ SameHeader b b' 24 ∧ ∀ x y, x < W → y < H →
      if y ≠ 0 then ∀ j < 3,
        Lighter (level l0 l1 ((W - 1 : Int) : ℚ) x) (chan j (pix b W H 24 x y)) (chan j (pix b' W H 24 x y)) ∧
        (W ≤ 2 ^ 14 → Shaded l0 l1 (W - 1) x (chan j (pix b W H 24 x y)) (chan j (pix b' W H 24 x y)))
      else pix b' W H 24 x y = pix b W H 24 x y) := by
  have hi : InImage W H 0 0 ((W : Int) - 1) ((H : Int) - 1) := by unfold InImage; omega
  have hin : ∀ x y : Nat, x < W → y < H → inRect 0 0 ((W : Int) - 1) ((H : Int) - 1) x y = true := by
    intro x y hx hy; unfold inRect; rw [decide_eq_true_eq]; omega
  have m1 : ∀ n : Nat, 1 < n → max 0 ((n : Int) - 1) - min 0 ((n : Int) - 1) = (n : Int) - 1 := by intro n hn; omega
  have m2 : ∀ n : Nat, 1 < n → min 0 ((n : Int) - 1) = 0 := by intro n hn; omega
  constructor
  · obtain ⟨b', e, v, s, p⟩ := C171_vertical h h0 h1 hi (by omega)
    refine ⟨b', ?_, v, s, ?_⟩
    · unfold vertgradimage getmaxx getmaxy
      rw [h.getmaxx_eq, h.getmaxy_eq]
      exact e
    · intro x y hx hy j hj
      have := p x y hx hy
      rw [if_pos (hin x y hx hy), m1 H hH, m2 H hH, sub_zero] at this
      obtain ⟨t1, t2⟩ := this j hj
      refine ⟨by simpa using t1, fun hs => ?_⟩
      have := t2 (by omega)
      rwa [show ((H : Int) - 1).toNat = H - 1 by omega] at this
  · obtain ⟨b', e, v, s, p⟩ := C171_horizontal h h0 h1 hi (by omega)
    refine ⟨b', ?_, v, s, ?_⟩
    · unfold horigradimage getmaxx getmaxy
      rw [h.getmaxx_eq, h.getmaxy_eq]
      exact e
    · intro x y hx hy
      have := p x y hx hy
      rw [m1 W hW, m2 W hW, sub_zero, m2 H hH] at this
      by_cases c : y = 0
      · rw [if_neg (by omega)] at this
        rw [if_neg (by omega)]
        exact this
      · rw [if_pos ⟨hin x y hx hy, by omega⟩] at this
        rw [if_pos c]
        intro j hj
        obtain ⟨t1, t2⟩ := this j hj
        refine ⟨by simpa using t1, fun hs => ?_⟩
        have := t2 (by omega)
        rwa [show ((W : Int) - 1).toNat = W - 1 by omega] at this

/-- The claim of `C171_vertical` about a result. -/
def VertLevels (b : Bytes) (W H : Nat) (l0 l1 x1 y1 x2 y2 : Int) (b' : Bytes) : Prop :=
  Valid b' W H 24 ∧ SameHeader b b' 24 ∧ ∀ x y, x < W → y < H → if inRect x1 y1 x2 y2 x y then ∀ j < 3,
      Lighter (level l0 l1 ((max y1 y2 - min y1 y2 : Int) : ℚ) ((y - min y1 y2 : Int) : ℚ))
        (chan j (pix b W H 24 x y)) (chan j (pix b' W H 24 x y)) ∧
      (max y1 y2 - min y1 y2 ≤ 2 ^ 14 → Shaded l0 l1 (max y1 y2 - min y1 y2).toNat (y - min y1 y2)
        (chan j (pix b W H 24 x y)) (chan j (pix b' W H 24 x y)))
    else pix b' W H 24 x y = pix b W H 24 x y

/-- The claim of `C171_horizontal` about a result. -/
def HoriLevels (b : Bytes) (W H : Nat) (l0 l1 x1 y1 x2 y2 : Int) (b' : Bytes) : Prop :=
  Valid b' W H 24 ∧ SameHeader b b' 24 ∧ ∀ x y, x < W → y < H → if inRect x1 y1 x2 y2 x y ∧ (y : Int) ≠ min y1 y2 then ∀ j < 3,
      Lighter (level l0 l1 ((max x1 x2 - min x1 x2 : Int) : ℚ) ((x - min x1 x2 : Int) : ℚ))
        (chan j (pix b W H 24 x y)) (chan j (pix b' W H 24 x y)) ∧
      (max x1 x2 - min x1 x2 ≤ 2 ^ 14 → Shaded l0 l1 (max x1 x2 - min x1 x2).toNat (x - min x1 x2)
        (chan j (pix b W H 24 x y)) (chan j (pix b' W H 24 x y)))
    else pix b' W H 24 x y = pix b W H 24 x y

/-- C171: the file programs save the same pictures. -/
theorem C171_files {fs : Files} {ex nw : String} (h : Stored fs ex b W H 24) {l0 l1 : Int} (h0 : |l0| ≤ 10 ^ 4) (h1 : |l1| ≤ 10 ^ 4)
    {x1 y1 x2 y2 : Int} (hi : InImage W H x1 y1 x2 y2) :
    (y1 ≠ y2 → ∃ fs', vertgradregion2file fs ex nw x1 y1 x2 y2 l0 l1 = .ok fs' ∧
      Saved fs fs' nw (VertLevels b W H l0 l1 x1 y1 x2 y2)) ∧
    (x1 ≠ x2 → ∃ fs', horigradregion2file fs ex nw x1 y1 x2 y2 l0 l1 = .ok fs' ∧
      Saved fs fs' nw (HoriLevels b W H l0 l1 x1 y1 x2 y2)) :=
  ⟨fun hy => applysave24_saved h (C171_vertical h.valid h0 h1 hi hy),
   fun hx => applysave24_saved h (C171_horizontal h.valid h0 h1 hi hx)⟩

/-- C171: the file programs for discs save the same pictures. -/
theorem C171_disc_files {fs : Files} {ex nw : String} (h : Stored fs ex b W H 24) {l0 l1 : Int} (h0 : |l0| ≤ 10 ^ 4)
    (h1 : |l1| ≤ 10 ^ 4) {x y r : Int} (hs : SquareInside W H x y r) (hr : 0 < r) :
    (∃ fs', vertgradcirc2file fs ex nw x y r l0 l1 = .ok fs' ∧ Saved fs fs' nw (fun b' => Valid b' W H 24 ∧ SameHeader b b' 24 ∧
      ∀ px py, px < W → py < H →
        (DiscSet x y r px py ∧ DiscSet x y r (px + 1) py → ∀ j < 3,
          Shaded l0 l1 (2 * r).toNat (py - (y - r)) (chan j (pix b W H 24 px py)) (chan j (pix b' W H 24 px py))) ∧
        (¬ (DiscSet x y r px py ∧ DiscSet x y r (px + 1) py) → pix b' W H 24 px py = pix b W H 24 px py))) ∧
    (∃ fs', horigradcirc2file fs ex nw x y r l0 l1 = .ok fs' ∧ Saved fs fs' nw (fun b' => Valid b' W H 24 ∧ SameHeader b b' 24 ∧
      ∀ px py, px < W → py < H →
        (DiscSet x y r px py ∧ ColSet x y r px py → ∀ j < 3,
          Shaded l0 l1 (2 * r).toNat (px - (x - r)) (chan j (pix b W H 24 px py)) (chan j (pix b' W H 24 px py))) ∧
        (¬ (DiscSet x y r px py ∧ ColSet x y r px py) → pix b' W H 24 px py = pix b W H 24 px py))) :=
  ⟨applysave24_saved h (C171_disc h.valid h0 h1 hs hr).1, applysave24_saved h (C171_disc h.valid h0 h1 hs hr).2⟩

/-- Three rows of the colour (200, 100, 50) with -100 to 0 percent: black, half, unchanged. -/
example : (do let b ← newBMP 2 3 24; let b ← filledrect b 0 0 1 2 0xc86432; let b ← vertgradregion b 1 2 0 0 (-100) 0
              pure (pix b 2 3 24 0 0, pix b 2 3 24 0 1, pix b 2 3 24 0 2)) = .ok (0, 0x643219, 0xc86432) := by decide +kernel

/-- Three columns of two rows; the top row stays. -/
example : (do let b ← newBMP 3 2 24; let b ← filledrect b 0 0 2 1 0xc86432; let b ← horigradregion b 0 0 2 1 (-100) 100
              pure (pix b 3 2 24 0 1, pix b 3 2 24 1 1, pix b 3 2 24 2 1, pix b 3 2 24 2 0)) =
    .ok (0, 0xc86432, 0xffc864, 0xc86432) := by decide +kernel

/-- A disc with radius 1 in the middle of 3 by 3 pixels, with 0 to 50 percent: the middle gets 25 percent. -/
example : (do let b ← newBMP 3 3 24; let b ← filledrect b 0 0 2 2 0xc86432; let b ← vertgradcirc b 1 1 1 0 50
              pure (pix b 3 3 24 1 1, pix b 3 3 24 2 1)) = .ok (0xfa7d3e, 0xc86432) := by decide +kernel

end Verif.Props
