import Verif.Lemmas.Float
import Verif.Props.Files
import Verif.Props.Smaller
/-! C103–C105: what the rounding of floats does to colour values. The filters are modelled with an
arbitrary function in the place of each float expression; here the expressions themselves are
modelled, and the assumptions about those functions are proved of them. -/

namespace Verif.Props
open Verif Spec Model

variable {b : Bytes} {W H bits : Nat}

/-- `r` is an integer nearest to `a / d`. -/
def NearestInt (r a : Int) (d : Nat) : Prop := 2 * |r * d - a| ≤ d

theorem trunc_nonneg {q : ℚ} (h : 0 ≤ q) : trunc q = ⌊q⌋ := if_pos h

/-- The error of a product with one rounded factor. -/
theorem fl_mul_err (x y : ℚ) : |fl (fl x * y) - x * y| ≤ |x * y| / 2 ^ 51 := by
  have h1 := fl_err x
  have h2 := fl_err (fl x * y)
  have h3 : |fl x| ≤ |x| + |x| / 2 ^ 53 := by
    calc |fl x| = |(fl x - x) + x| := by ring_nf
      _ ≤ |fl x - x| + |x| := abs_add_le _ _
      _ ≤ _ := by linarith
  have e : fl (fl x * y) - x * y = (fl (fl x * y) - fl x * y) + (fl x - x) * y := by ring
  have hx := abs_nonneg x
  have hy := abs_nonneg y
  rw [e]
  calc |(fl (fl x * y) - fl x * y) + (fl x - x) * y|
      ≤ |fl (fl x * y) - fl x * y| + |(fl x - x) * y| := abs_add_le _ _
    _ ≤ |fl x * y| / 2 ^ 53 + |fl x - x| * |y| := by rw [abs_mul (fl x - x)]; linarith
    _ ≤ (|x| + |x| / 2 ^ 53) * |y| / 2 ^ 53 + |x| / 2 ^ 53 * |y| := by
        rw [abs_mul]
        have a1 : |fl x| * |y| ≤ (|x| + |x| / 2 ^ 53) * |y| := mul_le_mul_of_nonneg_right h3 hy
        have a2 : |fl x - x| * |y| ≤ |x| / 2 ^ 53 * |y| := mul_le_mul_of_nonneg_right h1 hy
        have a3 : |fl x| * |y| / 2 ^ 53 ≤ (|x| + |x| / 2 ^ 53) * |y| / 2 ^ 53 := div_le_div_of_nonneg_right a1 (by positivity)
        linarith
    _ ≤ |x * y| / 2 ^ 51 := by
        rw [abs_mul]
        have : 0 ≤ |x| * |y| := mul_nonneg hx hy
        have e2 : (|x| + |x| / 2 ^ 53) * |y| / 2 ^ 53 + |x| / 2 ^ 53 * |y| = |x| * |y| * ((1 + 1 / 2 ^ 53) / 2 ^ 53 + 1 / 2 ^ 53) := by ring
        have key : ((1 : ℚ) + 1 / 2 ^ 53) / 2 ^ 53 + 1 / 2 ^ 53 ≤ 1 / 2 ^ 51 := by norm_num
        rw [e2]
        calc _ ≤ |x| * |y| * (1 / 2 ^ 51) := mul_le_mul_of_nonneg_left key this
          _ = _ := by ring

/-- An integer close to a nearest integer of `a / d` is nearest. -/
theorem nearest_of_close {z : ℚ} {a : Int} {d : Nat} (hd : 0 < d) (h : |z - (a : ℚ) / d| * (2 * d) < 1) : NearestInt (rnd z) a d := by
  unfold NearestInt
  have h1 := rnd_near z
  have hd' : (0 : ℚ) < d := by exact_mod_cast hd
  have h2 : |(rnd z : ℚ) - (a : ℚ) / d| ≤ 1 / 2 + |z - (a : ℚ) / d| := by
    calc |(rnd z : ℚ) - (a : ℚ) / d| = |((rnd z : ℚ) - z) + (z - (a : ℚ) / d)| := by ring_nf
      _ ≤ _ := by have := abs_add_le ((rnd z : ℚ) - z) (z - (a : ℚ) / d); linarith
  have h3 : |(rnd z : ℚ) * d - a| = |(rnd z : ℚ) - (a : ℚ) / d| * d := by
    rw [← abs_of_pos hd', ← abs_mul, abs_of_pos hd', sub_mul, div_mul_cancel₀ _ hd'.ne']
  have h4 : 2 * |(rnd z : ℚ) * d - a| < d + 1 := by
    rw [h3]
    have : |(rnd z : ℚ) - (a : ℚ) / d| * d ≤ (1 / 2 + |z - (a : ℚ) / d|) * d := mul_le_mul_of_nonneg_right h2 hd'.le
    linarith
  have h5 : ((2 * |rnd z * d - a| : ℤ) : ℚ) < ((d + 1 : ℤ) : ℚ) := by push_cast; exact h4
  have : 2 * |rnd z * d - a| < (d : ℤ) + 1 := by exact_mod_cast h5
  omega

/-- NearestInt integers of integers. -/
theorem nearest_int {r v : Int} {d : Nat} (hd : 0 < d) (h : NearestInt r (v * d) d) : r = v := by
  unfold NearestInt at h
  have e : r * d - v * d = (r - v) * d := by ring
  rw [e, abs_mul, abs_of_nonneg (by omega : (0 : Int) ≤ d)] at h
  by_contra hne
  have h1 : 1 ≤ |r - v| := Int.one_le_abs (by omega)
  have : (d : Int) ≤ |r - v| * d := by nlinarith
  omega

/-! ## Quotients -/

/-- C103: the float quotient of two integers, cut off, is the integer quotient. -/
theorem C103_trunc {a d : Nat} (hd : 0 < d) (h : a + d ≤ 2 ^ 52) : trunc (divF a d) = ((a / d : Nat) : Int) := by
  unfold divF
  have hd' : (0 : ℚ) < d := by exact_mod_cast hd
  have hq0 : (0 : ℚ) ≤ (a : ℚ) / d := by positivity
  rw [trunc_nonneg (fl_nonneg hq0), Int.floor_eq_iff]
  have hm := Nat.div_add_mod a d
  have hml := Nat.mod_lt a hd
  have hle := Nat.div_le_self a d
  constructor
  · have : ((a / d : Nat) : ℚ) ≤ (a : ℚ) / d := by
      rw [le_div_iff₀ hd']; exact_mod_cast Nat.div_mul_le_self a d
    exact_mod_cast le_fl_of_int (by omega) this
  · have he := fl_err ((a : ℚ) / d)
    rw [abs_of_nonneg hq0, abs_le] at he
    have h1 : (a : ℚ) + 1 ≤ (((a / d : Nat) : ℚ) + 1) * d := by
      have : a + 1 ≤ (a / d + 1) * d := by rw [Nat.add_mul, Nat.mul_comm]; omega
      exact_mod_cast this
    have h2 : (a : ℚ) / d + 1 / d ≤ ((a / d : Nat) : ℚ) + 1 := by
      rw [← add_div, div_le_iff₀ hd']; exact h1
    have h3 : (a : ℚ) / d / 2 ^ 53 < 1 / d := by
      rw [div_div, div_lt_div_iff₀ (by positivity) hd']
      have : (a : ℚ) < 2 ^ 53 := by
        have : a < 2 ^ 53 := by omega
        exact_mod_cast this
      nlinarith
    rw [Int.cast_natCast]
    linarith [he.2]

/-- C103: the truncated mean of three bytes, as the monochrome filter computes it, is the integer
quotient used in the model of the filter. -/
theorem C103_mean (s : Nat) (hs : s ≤ 765) : meanTrunc s = ((s / 3 : Nat) : Int) :=
  C103_trunc (by omega) (by omega)

/-- C103: the rounded mean of three bytes is the one used in the model of `monochrome`. -/
theorem C103_round (s : Nat) (hs : s ≤ 765) : meanRound s = ((s + 1) / 3 : Int) := by
  have h : NearestInt (meanRound s) s 3 := by
    unfold meanRound divF
    apply nearest_of_close (by omega)
    have he := fl_err ((s : ℚ) / 3)
    have hs' : (s : ℚ) ≤ 765 := by exact_mod_cast hs
    have hs0 : (0 : ℚ) ≤ s := by positivity
    rw [abs_of_nonneg (by positivity : (0 : ℚ) ≤ (s : ℚ) / 3)] at he
    push_cast
    have : (s : ℚ) / 3 / 2 ^ 53 ≤ 765 / 3 / 2 ^ 53 := by
      apply div_le_div_of_nonneg_right _ (by positivity); linarith
    norm_num at this he ⊢
    linarith
  unfold NearestInt at h
  have := abs_le.mp (show |meanRound s * ((3 : Nat) : Int) - (s : Int)| ≤ 1 by omega)
  push_cast at this
  omega

example : meanTrunc 764 = 254 ∧ meanRound 764 = 255 := by
  rw [C103_mean _ (by omega), C103_round _ (by omega)]; decide

/-! ## Averages over squares -/

/-- C103: the average over a square, as `resizesmaller24bitbuf` computes it, is a nearest integer. -/
theorem C103_area {n s : Nat} (hn : 0 < n) (hn2 : n < 2 ^ 20) (hs : s ≤ n * (n * 255)) : NearestInt (areaScale n s) s (n * n) := by
  unfold areaScale
  have hn' : (0 : ℚ) < n := by exact_mod_cast hn
  apply nearest_of_close (Nat.mul_pos hn hn)
  have he := fl_mul_err (1 / ((n ^ 2 : Nat) : ℚ)) s
  have e1 : 1 / ((n ^ 2 : Nat) : ℚ) * (s : ℚ) = (s : ℚ) / (n * n) := by push_cast; field_simp
  rw [e1, mul_comm (fl _) (s : ℚ), abs_of_nonneg (by positivity : (0 : ℚ) ≤ (s : ℚ) / (n * n))] at he
  have h1 : (s : ℚ) / (n * n) ≤ 255 := by
    rw [div_le_iff₀ (by positivity)]
    have : (s : ℚ) ≤ n * (n * 255) := by exact_mod_cast hs
    linarith
  have h2 : (n : ℚ) * n < 2 ^ 40 := by
    have : n * n < 2 ^ 20 * 2 ^ 20 := Nat.mul_lt_mul'' hn2 hn2
    have : n * n < 2 ^ 40 := by norm_num at this ⊢; omega
    exact_mod_cast this
  push_cast at he ⊢
  have h3 : |fl ((s : ℚ) * fl (1 / (n : ℚ) ^ 2)) - (s : ℚ) / (n * n)| ≤ 255 / 2 ^ 51 := by
    refine le_trans he (div_le_div_of_nonneg_right h1 (by positivity))
  calc _ ≤ 255 / 2 ^ 51 * (2 * ((n : ℚ) * n)) := mul_le_mul_of_nonneg_right h3 (by positivity)
    _ < 1 := by norm_num at h2 ⊢; linarith

/-- The average of a square is a byte. -/
theorem area_byte {n s : Nat} (hn : 0 < n) (hn2 : n < 2 ^ 20) (hs : s ≤ n * (n * 255)) :
    0 ≤ areaScale n s ∧ areaScale n s < 256 := by
  have h := C103_area hn hn2 hs
  unfold NearestInt at h
  have hd : 0 < n * n := Nat.mul_pos hn hn
  have hs' : (s : Int) ≤ (n * n : Nat) * 255 := by
    have : s ≤ n * n * 255 := by rw [Nat.mul_assoc]; exact hs
    exact_mod_cast this
  generalize n * n = d at h hd hs'
  generalize areaScale n s = r at h
  have hb : 2 * (r * d - s) ≤ d ∧ -(d : Int) ≤ 2 * (r * d - s) := by
    have := le_abs_self (r * d - s); have := neg_abs_le (r * d - s); omega
  constructor
  · by_contra hc
    have : r * d ≤ -1 * d := mul_le_mul_of_nonneg_right (by omega) (by omega)
    omega
  · by_contra hc
    have : 256 * (d : Int) ≤ r * d := mul_le_mul_of_nonneg_right (by omega) (by omega)
    omega

/-- C102 with the float arithmetic of the code: each channel of the result is a nearest integer to the
mean of the channel over its square (in the columns that survive). -/
theorem C102_mean_exact (h : Valid b W H 24) (hW : 0 < W) {n : Nat} (hn : 0 < n) (hn2 : n < 2 ^ 20)
    (hnH : n ≤ H) (hWl : W < 2 ^ 24) (hHl : H < 2 ^ 24) :
    ∃ b', resizeNtimessmaller areaScale b (n : Int) = .ok (some b') ∧ Valid b' (W / n) (H / n) 24 ∧
      ∀ x y, x < W / n → y < H / n → if x < W / 2 * 2 / n then
        ∀ k < 3, NearestInt (chan k (pix b' (W / n) (H / n) 24 x y))
          (areaSum n (fun x y => chan k (pix b W H 24 x y)) (x * n) (H % n + y * n)) (n * n)
      else pix b' (W / n) (H / n) 24 x y = 0 := by
  obtain ⟨b', e, s⟩ := C102_smaller_exact (scale := areaScale) (sc := fun s => (areaScale n s).toNat) h hW hn hnH hWl hHl
    (by
      intro s hs
      have := area_byte hn hn2 hs
      exact ⟨by omega, by omega⟩)
  refine ⟨b', e, s.valid, ?_⟩
  intro x y hx hy
  rw [s.pixels x y hx hy]
  split_ifs with hk
  · intro k hk3
    have hle : ∀ c, areaSum n (fun x y => chan c (pix b W H 24 x y)) (x * n) (H % n + y * n) ≤ n * (n * 255) := by
      intro c
      apply areaSum_le
      intro x y
      unfold chan
      have := Nat.mod_lt (pix b W H 24 x y / 256 ^ c) (show 0 < 256 by omega)
      omega
    have a0 := area_byte hn hn2 (hle 0)
    have a1 := area_byte hn hn2 (hle 1)
    have a2 := area_byte hn hn2 (hle 2)
    have hc : ((chan k (areaColour n (fun s => (areaScale n s).toNat) (pix b W H 24) (x * n) (H % n + y * n)) : Nat) : Int)
        = areaScale n (areaSum n (fun x y => chan k (pix b W H 24 x y)) (x * n) (H % n + y * n)) := by
      unfold areaColour
      dsimp only
      rw [show areaScale n (areaSum n (fun x y => chan k (pix b W H 24 x y)) (x * n) (H % n + y * n))
        = if k = 0 then areaScale n (areaSum n (fun x y => chan 0 (pix b W H 24 x y)) (x * n) (H % n + y * n))
          else if k = 1 then areaScale n (areaSum n (fun x y => chan 1 (pix b W H 24 x y)) (x * n) (H % n + y * n))
          else areaScale n (areaSum n (fun x y => chan 2 (pix b W H 24 x y)) (x * n) (H % n + y * n)) by
        interval_cases k <;> rfl]
      generalize areaScale n (areaSum n (fun x y => chan 0 (pix b W H 24 x y)) (x * n) (H % n + y * n)) = r0 at *
      generalize areaScale n (areaSum n (fun x y => chan 1 (pix b W H 24 x y)) (x * n) (H % n + y * n)) = r1 at *
      generalize areaScale n (areaSum n (fun x y => chan 2 (pix b W H 24 x y)) (x * n) (H % n + y * n)) = r2 at *
      unfold chan
      interval_cases k <;> norm_num <;> omega
    rw [hc]
    exact C103_area hn hn2 (hle k)
  · rfl

/-- C102: whatever the image shows, the last column of the smaller one is black when the width is an odd
multiple of `n`. -/
theorem C102_last_column_false (h : Valid b W H 24) {n k : Nat} (hn : 0 < n) (hn2 : n < 2 ^ 20) (hnH : n ≤ H) (hk : 0 < k)
    (hWk : W = k * n) (hodd : W % 2 = 1) (hWl : W < 2 ^ 24) (hHl : H < 2 ^ 24) :
    ∃ b', resizeNtimessmaller areaScale b (n : Int) = .ok (some b') ∧ Valid b' k (H / n) 24 ∧
      ∀ y, y < H / n → pix b' k (H / n) 24 (k - 1) y = 0 := by
  obtain ⟨b', e, v, px⟩ := C102_mean_exact h (by omega) hn hn2 hnH hWl hHl
  have hWn : W / n = k := by rw [hWk]; exact Nat.mul_div_cancel _ hn
  rw [hWn] at v px
  refine ⟨b', e, v, ?_⟩
  intro y hy
  have := px (k - 1) y (by omega) hy
  rw [if_neg] at this
  · exact this
  · have h2 : W / 2 * 2 < k * n := by omega
    have := Nat.div_lt_of_lt_mul (m := W / 2 * 2) (n := n) (k := k) (by rw [Nat.mul_comm n]; exact h2)
    omega

example : areaScale 2 (areaSum 2 (fun x y => if x = y then 255 else 3) 0 0) = 129 := by decide +kernel

/-- C102: a square of one colour keeps its colour. -/
theorem C102_uniform {n v : Nat} (hn : 0 < n) (hn2 : n < 2 ^ 20) (hv : v < 256) :
    areaScale n (areaSum n (fun _ _ => v) 0 0) = v := by
  have e : areaSum n (fun _ _ => v) 0 0 = v * (n * n) := by
    unfold areaSum
    simp only [List.map_const', List.length_range, List.sum_replicate_nat]
    ring
  rw [e]
  have h := C103_area (s := v * (n * n)) hn hn2 (by
    have : v * (n * n) ≤ 255 * (n * n) := Nat.mul_le_mul_right _ (by omega)
    calc _ ≤ 255 * (n * n) := this
      _ = _ := by ring)
  apply nearest_int (Nat.mul_pos hn hn)
  exact_mod_cast h

/-! ## Brightness -/

theorem factor_err {p : Int} (hp : |p| ≤ 10 ^ 6) :
    |fl (1 + fl ((p : ℚ) / 100)) - (1 + (p : ℚ) / 100)| ≤ 1 / 2 ^ 37 ∧ |fl (1 + fl ((p : ℚ) / 100))| ≤ 2 ^ 14 := by
  have hp' : |(p : ℚ)| ≤ 10 ^ 6 := by rw [← Int.cast_abs]; exact_mod_cast hp
  have hq : |(p : ℚ) / 100| ≤ 10 ^ 4 := by
    rw [abs_div, abs_of_pos (by norm_num : (0 : ℚ) < 100), div_le_iff₀ (by norm_num)]; norm_num at hp' ⊢; linarith
  have h1 := fl_err ((p : ℚ) / 100)
  have h2 := fl_err (1 + fl ((p : ℚ) / 100))
  generalize (p : ℚ) / 100 = q at *
  have h3 : |fl q - q| ≤ 10 ^ 4 / 2 ^ 53 := le_trans h1 (div_le_div_of_nonneg_right hq (by positivity))
  have h4 : |1 + fl q| ≤ 2 ^ 14 - 1 := by
    rw [abs_le] at h3 hq ⊢
    norm_num at h3 hq ⊢
    constructor <;> linarith [h3.1, h3.2, hq.1, hq.2]
  have h5 : |fl (1 + fl q) - (1 + fl q)| ≤ (2 ^ 14 - 1) / 2 ^ 53 := le_trans h2 (div_le_div_of_nonneg_right h4 (by positivity))
  rw [abs_le] at h3 h4 h5
  norm_num at h3 h4 h5
  constructor
  · rw [abs_le]; norm_num
    constructor <;> linarith [h3.1, h3.2, h5.1, h5.2]
  · rw [abs_le]; norm_num
    constructor <;> linarith [h4.1, h4.2, h5.1, h5.2]

/-- C104: the brightness adjustment of one channel by `p` percent gives an integer nearest to
`v * (100 + p) / 100`, for every byte and every percentage up to a million. -/
theorem C104_bright {p : Int} {v : Nat} (hp : |p| ≤ 10 ^ 6) (hv : v < 256) : NearestInt (brightF p v) (v * (100 + p)) 100 := by
  unfold brightF
  apply nearest_of_close (by omega)
  obtain ⟨h1, h2⟩ := factor_err hp
  have hv' : (v : ℚ) ≤ 255 := by exact_mod_cast (by omega : v ≤ 255)
  have hv0 : (0 : ℚ) ≤ v := by positivity
  have h3 := fl_err ((v : ℚ) * fl (1 + fl ((p : ℚ) / 100)))
  have e : (((v : Int) * (100 + p) : Int) : ℚ) / ((100 : Nat) : ℚ) = (v : ℚ) * (1 + (p : ℚ) / 100) := by push_cast; field_simp
  rw [e]
  generalize fl (1 + fl ((p : ℚ) / 100)) = F at *
  generalize 1 + (p : ℚ) / 100 = Q at *
  rw [abs_mul, abs_of_nonneg hv0] at h3
  have h4 : (v : ℚ) * |F| / 2 ^ 53 ≤ 255 * 2 ^ 14 / 2 ^ 53 := by
    apply div_le_div_of_nonneg_right _ (by positivity)
    exact mul_le_mul hv' h2 (abs_nonneg F) (by norm_num)
  have h5 : |(v : ℚ) * F - v * Q| ≤ 255 / 2 ^ 37 := by
    rw [← mul_sub, abs_mul, abs_of_nonneg hv0]
    calc (v : ℚ) * |F - Q| ≤ 255 * (1 / 2 ^ 37) := mul_le_mul hv' h1 (abs_nonneg _) (by norm_num)
      _ = _ := by ring
  have h6 : |fl ((v : ℚ) * F) - v * Q| ≤ 255 * 2 ^ 14 / 2 ^ 53 + 255 / 2 ^ 37 := by
    calc |fl ((v : ℚ) * F) - v * Q| = |(fl ((v : ℚ) * F) - v * F) + (v * F - v * Q)| := by ring_nf
      _ ≤ |fl ((v : ℚ) * F) - v * F| + |(v : ℚ) * F - v * Q| := abs_add_le _ _
      _ ≤ _ := by linarith
  calc _ ≤ (255 * 2 ^ 14 / 2 ^ 53 + 255 / 2 ^ 37) * (2 * ((100 : Nat) : ℚ)) := mul_le_mul_of_nonneg_right h6 (by positivity)
    _ < 1 := by norm_num

/-- C104: zero percent changes no channel, and minus one hundred percent makes every channel 0. -/
theorem C104_bright_ends {v : Nat} (hv : v < 256) : brightF 0 v = v ∧ brightF (-100) v = 0 := by
  constructor
  · have h := C104_bright (p := 0) (by norm_num) hv
    exact nearest_int (d := 100) (by omega) (by simpa using h)
  · have h := C104_bright (p := -100) (by norm_num) hv
    apply nearest_int (d := 100) (by omega)
    simpa using h

/-- C104: a brighter channel stays at least as bright. -/
theorem C104_bright_mono {p : Int} (hp : -100 ≤ p) {v w : Nat} (h : v ≤ w) : brightF p v ≤ brightF p w := by
  unfold brightF
  apply rnd_mono
  have hp' : (-100 : ℚ) ≤ p := by exact_mod_cast hp
  have hF : 0 ≤ fl (1 + fl ((p : ℚ) / 100)) := by
    apply fl_nonneg
    rcases le_or_gt 0 ((p : ℚ) / 100) with hs | hs
    · have := fl_nonneg hs; linarith
    · have e := fl_err ((p : ℚ) / 100)
      by_cases hpe : p = -100
      · subst hpe
        have : fl (((-100 : Int) : ℚ) / 100) = -1 := by
          have := fl_int (k := -1) (by norm_num)
          rw [show ((-100 : Int) : ℚ) / 100 = ((-1 : Int) : ℚ) by norm_num, this]; norm_num
        rw [this]; norm_num
      · have h99 : (-99 : ℚ) ≤ p := by exact_mod_cast (by omega : -99 ≤ p)
        rw [abs_of_neg hs, abs_le] at e
        have h1 : -(99 / 100 : ℚ) ≤ (p : ℚ) / 100 := by
          rw [neg_le_iff_add_nonneg, ← add_div]; apply div_nonneg <;> linarith
        have h2 : -((p : ℚ) / 100) / 2 ^ 53 ≤ 1 / 2 ^ 53 := div_le_div_of_nonneg_right (by linarith) (by positivity)
        norm_num at h2 e ⊢
        linarith [e.1]
  rcases Nat.eq_zero_or_pos v with rfl | hv
  · rw [Nat.cast_zero, zero_mul, fl_zero]
    exact fl_nonneg (mul_nonneg (by positivity) hF)
  · rcases eq_or_lt_of_le hF with h0 | h0
    · rw [← h0]; simp
    · apply fl_mono_pos (mul_pos (by exact_mod_cast hv) h0)
      exact mul_le_mul_of_nonneg_right (by exact_mod_cast h) hF

/-- C104: the brightness filter with the arithmetic of the code. Every channel of every pixel of the
rectangle becomes an integer nearest to its exact value, limited to a byte, and nothing else changes. -/
theorem C104_region (h : Valid b W H 24) {p : Int} (hp : |p| ≤ 10 ^ 6) {x1 y1 x2 y2 : Int} (hi : InImage W H x1 y1 x2 y2) :
    ∃ b', brightnesseadjto24bitregion (brightF p) b x1 y1 x2 y2 = .ok b' ∧ Valid b' W H 24 ∧ SameHeader b b' 24 ∧
      ∀ x y, x < W → y < H → if inRect x1 y1 x2 y2 x y then
        ∀ k < 3, ∃ r : Int, NearestInt r (chan k (pix b W H 24 x y) * (100 + p)) 100 ∧
          (chan k (pix b' W H 24 x y) : Int) = max 0 (min 255 r)
      else pix b' W H 24 x y = pix b W H 24 x y := by
  obtain ⟨b', e, v, s, px⟩ := C59_brightness h (brightF p) hi
  refine ⟨b', e, v, s, ?_⟩
  intro x y hx hy
  rw [px x y hx hy]
  split_ifs with hin
  · intro k hk
    have hc : chan k (pix b W H 24 x y) < 256 := Nat.mod_lt _ (by omega)
    refine ⟨brightF p (chan k (pix b W H 24 x y)), C104_bright hp hc, ?_⟩
    have hnb : ∀ r : Int, (nearestByte r : Int) = max 0 (min 255 r) := by
      intro r; unfold nearestByte; split_ifs <;> omega
    have hlt : ∀ r : Int, nearestByte r < 256 := by intro r; unfold nearestByte; split_ifs <;> omega
    rw [← hnb]
    have hcol := h.pix_lt x y
    unfold brightened
    have l0 := hlt (brightF p (redOf (pix b W H 24 x y)))
    have l1 := hlt (brightF p (greenOf (pix b W H 24 x y)))
    have l2 := hlt (brightF p (blueOf (pix b W H 24 x y)))
    have hk' : k = 0 ∨ k = 1 ∨ k = 2 := by omega
    rcases hk' with rfl | rfl | rfl
    · rw [show chan 0 (pix b W H 24 x y) = blueOf (pix b W H 24 x y) by simp [chan, blueOf]]
      unfold chan rgb
      norm_num; omega
    · rw [show chan 1 (pix b W H 24 x y) = greenOf (pix b W H 24 x y) by simp [chan, greenOf]]
      unfold chan rgb
      norm_num; omega
    · rw [show chan 2 (pix b W H 24 x y) = redOf (pix b W H 24 x y) by simp [chan, redOf]]
      unfold chan rgb
      norm_num; omega
  · rfl

/-- C104: with a palette the channel is divided by the luminosity and multiplied by the adjusted
luminosity; the result is again an integer nearest to `v * (100 + p) / 100`. -/
theorem C104_relum {p : Int} {v m : Nat} (hp : |p| ≤ 10 ^ 6) (hm : m < 256) (hm0 : 0 < m) (hv : v ≤ m) :
    NearestInt (relumBright p m v) (v * (100 + p)) 100 := by
  unfold relumBright divF
  apply nearest_of_close (by omega)
  obtain ⟨h1, h2⟩ := factor_err hp
  have hm' : (0 : ℚ) < m := by exact_mod_cast hm0
  have hm2 : (m : ℚ) ≤ 255 := by exact_mod_cast (by omega : m ≤ 255)
  have e : (((v : Int) * (100 + p) : Int) : ℚ) / ((100 : Nat) : ℚ) = (v : ℚ) / m * (m * (1 + (p : ℚ) / 100)) := by
    push_cast; field_simp
  rw [e]
  have hx0 : (0 : ℚ) ≤ (v : ℚ) / m := by positivity
  have hx1 : (v : ℚ) / m ≤ 1 := by rw [div_le_iff₀ hm', one_mul]; exact_mod_cast hv
  generalize fl (1 + fl ((p : ℚ) / 100)) = F at *
  generalize 1 + (p : ℚ) / 100 = Q at *
  generalize (v : ℚ) / m = x at *
  have h3 := fl_err ((m : ℚ) * F)
  have h4 : |(m : ℚ) * F| ≤ 255 * 2 ^ 14 := by
    rw [abs_mul, abs_of_pos hm']
    exact mul_le_mul hm2 h2 (abs_nonneg F) (by norm_num)
  have h5 : |(m : ℚ) * F - m * Q| ≤ 255 / 2 ^ 37 := by
    rw [← mul_sub, abs_mul, abs_of_pos hm']
    calc (m : ℚ) * |F - Q| ≤ 255 * (1 / 2 ^ 37) := mul_le_mul hm2 h1 (abs_nonneg _) (by norm_num)
      _ = _ := by ring
  have h6 : |fl ((m : ℚ) * F) - m * Q| ≤ 255 * 2 ^ 14 / 2 ^ 53 + 255 / 2 ^ 37 := by
    calc |fl ((m : ℚ) * F) - m * Q| = |(fl ((m : ℚ) * F) - m * F) + (m * F - m * Q)| := by ring_nf
      _ ≤ |fl ((m : ℚ) * F) - m * F| + |(m : ℚ) * F - m * Q| := abs_add_le _ _
      _ ≤ _ := add_le_add (le_trans h3 (div_le_div_of_nonneg_right h4 (by positivity))) h5
  have h7 : |fl ((m : ℚ) * F)| ≤ 2 ^ 22 := by
    have : |fl ((m : ℚ) * F)| ≤ |(m : ℚ) * F| + |fl ((m : ℚ) * F) - m * F| := by
      calc |fl ((m : ℚ) * F)| = |(m : ℚ) * F + (fl ((m : ℚ) * F) - m * F)| := by ring_nf
        _ ≤ _ := abs_add_le _ _
    have := le_trans h3 (div_le_div_of_nonneg_right h4 (by positivity))
    norm_num at *
    linarith
  generalize fl ((m : ℚ) * F) = y at *
  have h8 := fl_mul_err x y
  have h9 : |x * y| ≤ 2 ^ 22 := by
    rw [abs_mul, abs_of_nonneg hx0]
    calc x * |y| ≤ 1 * 2 ^ 22 := mul_le_mul hx1 h7 (abs_nonneg _) (by norm_num)
      _ = _ := by ring
  have h10 : |x * y - x * (m * Q)| ≤ 255 * 2 ^ 14 / 2 ^ 53 + 255 / 2 ^ 37 := by
    rw [← mul_sub, abs_mul, abs_of_nonneg hx0]
    calc x * |y - m * Q| ≤ 1 * (255 * 2 ^ 14 / 2 ^ 53 + 255 / 2 ^ 37) := mul_le_mul hx1 h6 (abs_nonneg _) (by norm_num)
      _ = _ := by ring
  have h11 : |fl (fl x * y) - x * (m * Q)| ≤ 2 ^ 22 / 2 ^ 51 + (255 * 2 ^ 14 / 2 ^ 53 + 255 / 2 ^ 37) := by
    calc |fl (fl x * y) - x * (m * Q)| = |(fl (fl x * y) - x * y) + (x * y - x * (m * Q))| := by ring_nf
      _ ≤ |fl (fl x * y) - x * y| + |x * y - x * (m * Q)| := abs_add_le _ _
      _ ≤ _ := add_le_add (le_trans h8 (div_le_div_of_nonneg_right h9 (by positivity))) h10
  calc _ ≤ (2 ^ 22 / 2 ^ 51 + (255 * 2 ^ 14 / 2 ^ 53 + 255 / 2 ^ 37)) * (2 * ((100 : Nat) : ℚ)) :=
        mul_le_mul_of_nonneg_right h11 (by positivity)
    _ < 1 := by norm_num

/-- `w` is an integer nearest to `p` percent more than `v`, limited to a byte. -/
def BrightByte (p : Int) (v w : Nat) : Prop := ∃ r : Int, NearestInt r (v * (100 + p)) 100 ∧ (w : Int) = max 0 (min 255 r)

theorem nearestByte_clamp (r : Int) : (nearestByte r : Int) = max 0 (min 255 r) := by
  unfold nearestByte; split_ifs <;> omega

/-- C104: `adjustbrightness2file` for every depth: all three channels of every visible colour become an
integer nearest to their exact value, limited to a byte. -/
theorem C104_file {fs : Files} {ex nw : String} (h : Stored fs ex b W H bits) (hW : 0 < W) (hH : 0 < H) {p : Int} (hp : |p| ≤ 10 ^ 6) :
    ∃ fs', adjustbrightness2file (relumBright p) (brightF p) fs ex nw = .ok fs' ∧ Saved fs fs' nw (fun b' => Valid b' W H bits ∧
      ∀ x y, x < W → y < H →
        BrightByte p (pixRGB b W H bits x y).1 (pixRGB b' W H bits x y).1 ∧
        BrightByte p (pixRGB b W H bits x y).2.1 (pixRGB b' W H bits x y).2.1 ∧
        BrightByte p (pixRGB b W H bits x y).2.2 (pixRGB b' W H bits x y).2.2) := by
  by_cases h24 : bits = 24
  · subst h24
    obtain ⟨fs', e, ⟨⟨c, hc, hv, _, _, hpx⟩, hr⟩⟩ := C90_bright_truecolour (nw := nw) h hW hH (relumBright p) (brightF p)
    refine ⟨fs', e, ⟨c, hc, hv, ?_⟩, hr⟩
    intro x y hx hy
    obtain ⟨l1, l2, l3⟩ := pixRGB_lt h.valid x y
    rw [hpx x y hx hy]
    exact ⟨⟨_, C104_bright hp l1, nearestByte_clamp _⟩, ⟨_, C104_bright hp l2, nearestByte_clamp _⟩,
      ⟨_, C104_bright hp l3, nearestByte_clamp _⟩⟩
  · obtain ⟨fs', e, ⟨⟨c, hc, _, hv, _, _, hpx⟩, hr⟩⟩ := (C90_bright_gamma_palette (nw := nw) h h24 (relumBright p) (brightF p) (fun _ _ => 0)).1
    refine ⟨fs', e, ⟨c, hc, hv, ?_⟩, hr⟩
    intro x y hx hy
    obtain ⟨l1, l2, l3⟩ := pixRGB_lt h.valid x y
    rw [hpx x y hx hy]
    generalize pixRGB b W H bits x y = q at *
    have hm : lumOr1 q < 256 := by unfold lumOr1; omega
    have hm0 : 0 < lumOr1 q := by unfold lumOr1; omega
    exact ⟨⟨_, C104_relum hp hm hm0 (by unfold lumOr1; omega), nearestByte_clamp _⟩,
      ⟨_, C104_relum hp hm hm0 (by unfold lumOr1; omega), nearestByte_clamp _⟩,
      ⟨_, C104_relum hp hm hm0 (by unfold lumOr1; omega), nearestByte_clamp _⟩⟩

/-- C104: exact halves are rounded differently for palettes and for 24-bit pixels: five percent more
than the green of (12, 10, 0) is 11 with a palette and 10 without. -/
theorem C104_depths_false : ¬ ∀ (p : Int) (m v : Nat), 0 < m → m < 256 → v ≤ m → relumBright p m v = brightF p v := by
  intro h
  have := h 5 12 10 (by omega) (by omega) (by omega)
  revert this
  decide +kernel

example : relumBright 5 12 10 = 11 ∧ brightF 5 10 = 10 := by decide +kernel
example : brightF 30 101 = 131 ∧ brightF (-150) 10 = -5 := by decide +kernel

/-- C104: a colour filter whose factor is between 0 and 1 turns bytes into bytes, none of them larger,
as C58 and C90 assume. -/
theorem C104_factor {F : ℚ} (h0 : 0 ≤ F) (h1 : F ≤ 1) : KeepsByte (timesF F) ∧ ∀ v < 256, timesF F v ≤ v := by
  have key : ∀ v, v < 256 → 0 ≤ timesF F v ∧ timesF F v ≤ v := by
    intro v hv
    unfold timesF
    have hp0 : 0 ≤ (v : ℚ) * F := by positivity
    have hp1 : (v : ℚ) * F ≤ v := by
      have := mul_le_mul_of_nonneg_left h1 (show (0 : ℚ) ≤ v by positivity)
      linarith
    have hz1 := fl_le_of_int (k := v) (by norm_num; omega) hp0 hp1
    have hz0 := fl_nonneg hp0
    constructor
    · have := rnd_mono hz0
      have e := rnd_int 0
      push_cast at e
      rw [e] at this; exact this
    · have := rnd_mono hz1
      have e := rnd_int (v : Int)
      push_cast at e
      rw [e] at this; exact this
  exact ⟨fun v hv => ⟨(key v hv).1, by have := (key v hv).2; omega⟩, fun v hv => (key v hv).2⟩

example : timesF (1 / 2) 255 = 128 ∧ timesF (1 / 2) 253 = 126 := by decide +kernel

/-! ## Luminosity limits -/

/-- C105: the float expression of the threshold filter satisfies what the properties of the filter (C83)
assume: it is the exact quotient cut off, or one less. -/
theorem C105_scales : Scales thrT := by
  intro lim l v hlim hl256 hl hv
  have hl' : (0 : ℚ) < l := by exact_mod_cast hl
  have he := fl_mul_err ((lim : ℚ) / l) v
  have h0 : (0 : ℚ) ≤ (lim : ℚ) / l * v := by positivity
  rw [abs_of_nonneg h0] at he
  have hz : 0 ≤ fl (fl ((lim : ℚ) / l) * v) := fl_nonneg (mul_nonneg (fl_nonneg (by positivity)) (by positivity))
  unfold thrT divF
  rw [trunc_nonneg hz]
  set z := fl (fl ((lim : ℚ) / l) * v) with hzd
  have hq : (lim : ℚ) / l * v ≤ 255 := by
    have h1 : (v : ℚ) ≤ l := by exact_mod_cast hv
    have h2 : (lim : ℚ) ≤ 255 := by exact_mod_cast (by omega : lim ≤ 255)
    have h3 : (lim : ℚ) * v ≤ 255 * l := mul_le_mul h2 h1 (by positivity) (by norm_num)
    rw [div_mul_eq_mul_div, div_le_iff₀ hl']; exact h3
  have he2 : |z - (lim : ℚ) / l * v| ≤ 255 / 2 ^ 51 := le_trans he (div_le_div_of_nonneg_right hq (by positivity))
  have hll : (l : ℚ) ≤ 255 := by exact_mod_cast (by omega : l ≤ 255)
  have hex : (lim : ℚ) / l * v * l = lim * v := by field_simp
  rw [abs_le] at he2
  have hf1 := Int.floor_le z
  have hf2 := Int.lt_floor_add_one z
  have small : 255 / 2 ^ 51 * (l : ℚ) < 1 := by
    calc 255 / 2 ^ 51 * (l : ℚ) ≤ 255 / 2 ^ 51 * 255 := mul_le_mul_of_nonneg_left hll (by positivity)
      _ < 1 := by norm_num
  have up : z * l ≤ (lim : ℚ) * v + 255 / 2 ^ 51 * l := by
    have : z * l ≤ ((lim : ℚ) / l * v + 255 / 2 ^ 51) * l := mul_le_mul_of_nonneg_right (by linarith) hl'.le
    rw [add_mul, hex] at this; exact this
  have lo : (lim : ℚ) * v - 255 / 2 ^ 51 * l ≤ z * l := by
    have : ((lim : ℚ) / l * v - 255 / 2 ^ 51) * l ≤ z * l := mul_le_mul_of_nonneg_right (by linarith) hl'.le
    rw [sub_mul, hex] at this; exact this
  refine ⟨Int.floor_nonneg.mpr hz, ?_, ?_⟩
  · have h1 : (⌊z⌋ : ℚ) * l ≤ z * l := mul_le_mul_of_nonneg_right hf1 hl'.le
    have h2 : ((⌊z⌋ * l : Int) : ℚ) < ((lim * v + 1 : Int) : ℚ) := by push_cast; linarith
    have : ⌊z⌋ * l < (lim : Int) * v + 1 := by exact_mod_cast h2
    omega
  · have h1 : z * l < ((⌊z⌋ : ℚ) + 1) * l := mul_lt_mul_of_pos_right hf2 hl'
    have h2 : ((lim * v : Int) : ℚ) < (((⌊z⌋ + 1) * l + 1 : Int) : ℚ) := by push_cast; linarith
    have : (lim : Int) * v < (⌊z⌋ + 1) * l + 1 := by exact_mod_cast h2
    omega

/-- C105: the code does miss the limit: luminosity 11 brought up to 15 becomes 14, and luminosity 49
brought down to 1 becomes 0. -/
theorem C105_limit_missed : thrT 15 11 11 = 14 ∧ thrT 1 49 49 = 0 := by
  constructor <;> decide +kernel

/-- C105: so the luminosity need not be in the range afterwards (compare C83): a grey of 11 limited to
15..200 becomes 14. -/
theorem C105_range_false : ¬ ∀ lo hi c : Nat, lo ≤ hi → hi < 256 → lum c ≠ 0 → lo ≤ lum (limited thrT lo hi c) := by
  intro h
  have := h 15 200 0x0b0b0b (by omega) (by omega) (by decide)
  revert this
  decide +kernel

/-- C105: for palettes the limit is met exactly, because `lum / lum` is exactly 1. -/
theorem C105_palette_exact {l m : Nat} (hl : l < 256) (hm : 0 < m) : relumLimit l m m = l := by
  unfold relumLimit divF
  have hm' : (m : ℚ) ≠ 0 := by exact_mod_cast hm.ne'
  have h1 := fl_int (k := 1) (by norm_num)
  have h2 := fl_int (k := (l : Int)) (by rw [abs_of_nonneg (by omega)]; norm_num; omega)
  push_cast at h1 h2
  rw [div_self hm', h1, one_mul, h2]
  exact_mod_cast rnd_int (l : Int)

/-- C105: the float expression used for palettes satisfies what C90 assumes of it. -/
theorem C105_within : Within relumLimit := by
  intro l m v hl hm hm0 hv
  unfold relumLimit divF
  have hm' : (0 : ℚ) < m := by exact_mod_cast hm0
  have hx0 : (0 : ℚ) ≤ (v : ℚ) / m := by positivity
  have hf0 := fl_nonneg hx0
  have hf1 : fl ((v : ℚ) / m) ≤ ((1 : Nat) : ℚ) := by
    apply fl_le_of_int (by norm_num) hx0
    rw [div_le_iff₀ hm', Nat.cast_one, one_mul]; exact_mod_cast hv
  have hp0 : 0 ≤ fl ((v : ℚ) / m) * (l : ℚ) := mul_nonneg hf0 (by positivity)
  have hp1 : fl ((v : ℚ) / m) * (l : ℚ) ≤ (l : ℚ) := by
    have : fl ((v : ℚ) / m) * (l : ℚ) ≤ 1 * (l : ℚ) := mul_le_mul_of_nonneg_right (by exact_mod_cast hf1) (by positivity)
    linarith
  have hz1 := fl_le_of_int (k := l) (by norm_num; omega) hp0 hp1
  have hz0 := fl_nonneg hp0
  constructor
  · have := rnd_mono hz0
    have e := rnd_int 0
    push_cast at e
    rw [e] at this; exact this
  · have := rnd_mono hz1
    have e := rnd_int (l : Int)
    push_cast at e
    rw [e] at this; exact this

/-- C105: with a palette each channel becomes an integer nearest to `v * l / m`. -/
theorem C105_palette_nearest {l m v : Nat} (hl : l < 256) (hm : m < 256) (hm0 : 0 < m) (hv : v ≤ m) :
    NearestInt (relumLimit l m v) (v * l) m := by
  unfold relumLimit divF
  apply nearest_of_close hm0
  have hm' : (0 : ℚ) < m := by exact_mod_cast hm0
  have hm2 : (m : ℚ) ≤ 255 := by exact_mod_cast (by omega : m ≤ 255)
  have e : (((v : Int) * (l : Int) : Int) : ℚ) / (m : ℚ) = (v : ℚ) / m * l := by push_cast; field_simp
  rw [e]
  have hx0 : (0 : ℚ) ≤ (v : ℚ) / m := by positivity
  have hx1 : (v : ℚ) / m ≤ 1 := by rw [div_le_iff₀ hm', one_mul]; exact_mod_cast hv
  have hl2 : (l : ℚ) ≤ 255 := by exact_mod_cast (by omega : l ≤ 255)
  have he := fl_mul_err ((v : ℚ) / m) l
  have hq : |(v : ℚ) / m * l| ≤ 255 := by
    rw [abs_of_nonneg (by positivity)]
    calc (v : ℚ) / m * l ≤ 1 * 255 := mul_le_mul hx1 hl2 (by positivity) (by norm_num)
      _ = _ := by ring
  have he2 := le_trans he (div_le_div_of_nonneg_right hq (by positivity))
  calc _ ≤ 255 / 2 ^ 51 * (2 * (m : ℚ)) := mul_le_mul_of_nonneg_right he2 (by positivity)
    _ ≤ 255 / 2 ^ 51 * (2 * 255) := by apply mul_le_mul_of_nonneg_left _ (by positivity); linarith
    _ < 1 := by norm_num

/-- C105: the threshold filter for files with a palette, with the arithmetic of the code: black stays
black or dark, and every other colour gets a luminosity exactly in the range. -/
theorem C105_palette_file {fs : Files} {ex nw : String} (h : Stored fs ex b W H bits) (h24 : bits ≠ 24) (l0 l1 : Int) :
    ∃ fs', thresholdadjust2file relumLimit thrT fs ex nw l0 l1 = .ok fs' ∧ Saved fs fs' nw (fun b' => Valid b' W H bits ∧
      ∀ x y, x < W → y < H →
        let c := pixRGB b W H bits x y
        let c' := pixRGB b' W H bits x y
        let lo := min (max 0 (min 255 l0)) (max 0 (min 255 l1))
        let hi := max (max 0 (min 255 l0)) (max 0 (min 255 l1))
        (c = (0, 0, 0) → c' = (0, 0, 0)) ∧
        (c ≠ (0, 0, 0) → lo ≤ max c'.1 (max c'.2.1 c'.2.2) ∧ (max c'.1 (max c'.2.1 c'.2.2) : Int) ≤ hi) ∧
        (lo ≤ max c.1 (max c.2.1 c.2.2) → (max c.1 (max c.2.1 c.2.2) : Int) ≤ hi → c' = c)) := by
  obtain ⟨fs', e, ⟨⟨b', hc, _, hv, _, _, hpx⟩, hr⟩⟩ := C90_threshold_palette (nw := nw) h h24 C105_within thrT l0 l1
  refine ⟨fs', e, ⟨b', hc, hv, ?_⟩, hr⟩
  intro x y hx hy
  have hb := pixRGB_lt h.valid x y
  rw [hpx x y hx hy]
  generalize pixRGB b W H bits x y = c at *
  obtain ⟨r, g, d⟩ := c
  dsimp only at hb ⊢
  rw [← nearestByte_clamp, ← nearestByte_clamp]
  have n0 : nearestByte l0 < 256 := by unfold nearestByte; split_ifs <;> omega
  have n1 : nearestByte l1 < 256 := by unfold nearestByte; split_ifs <;> omega
  generalize nearestByte l0 = a0 at *
  generalize nearestByte l1 = a1 at *
  generalize hm : lumOr1 (r, g, d) = m
  have hmd : m = max 1 (max r (max g d)) := by rw [← hm]; rfl
  generalize hl : intoRange (min a0 a1) (max a0 a1) m = l
  have hl2 : l < 256 := by rw [← hl]; unfold intoRange; split_ifs <;> omega
  have hlr : min a0 a1 ≤ l ∧ l ≤ max a0 a1 := by rw [← hl]; unfold intoRange; split_ifs <;> omega
  have hls : min a0 a1 ≤ m → m ≤ max a0 a1 → l = m := by intro h1 h2; rw [← hl]; unfold intoRange; split_ifs <;> omega
  clear hl hm
  have w1 := C105_within l m r hl2 (by omega) (by omega) (by omega)
  have w2 := C105_within l m g hl2 (by omega) (by omega) (by omega)
  have w3 := C105_within l m d hl2 (by omega) (by omega) (by omega)
  have hz : ∀ v, v = 0 → relumLimit l m v = 0 := by
    intro v hv
    have := C105_palette_nearest (l := l) (m := m) (v := v) hl2 (by omega) (by omega) (by omega)
    subst hv
    exact nearest_int (d := m) (by omega) (by simpa using this)
  have hmax : ∀ v, v = m → relumLimit l m v = l := by
    intro v hv; subst hv; exact C105_palette_exact hl2 (by omega)
  refine ⟨?_, ?_, ?_⟩
  · intro h0
    simp only [Prod.mk.injEq] at h0
    rw [hz r h0.1, hz g h0.2.1, hz d h0.2.2]; rfl
  · intro h0
    have hne : ¬ (r = 0 ∧ g = 0 ∧ d = 0) := by
      rintro ⟨rfl, rfl, rfl⟩; exact h0 rfl
    have hcase : r = m ∨ g = m ∨ d = m := by omega
    rcases hcase with hh | hh | hh
    · have := hmax _ hh; omega
    · have := hmax _ hh; omega
    · have := hmax _ hh; omega
  · intro h1 h2
    by_cases h0 : r = 0 ∧ g = 0 ∧ d = 0
    · rw [hz r h0.1, hz g h0.2.1, hz d h0.2.2, h0.1, h0.2.1, h0.2.2]; rfl
    · have hlm : l = m := hls (by omega) (by omega)
      have same : ∀ v, v ≤ m → relumLimit l m v = v := by
        intro v hv
        have := C105_palette_nearest (l := l) (m := m) (v := v) hl2 (by omega) (by omega) hv
        rw [hlm] at this ⊢
        exact nearest_int (d := m) (by omega) this
      rw [same r (by omega), same g (by omega), same d (by omega)]
      simp

example : relumLimit 15 11 11 = 15 ∧ relumLimit 15 11 5 = 7 := by decide +kernel

/-- C105: thresholding a whole image with the arithmetic of the code. -/
theorem C105_image (h : Valid b W H 24) (l0 l1 : Int) (hW : 0 < W) (hH : 0 < H) :
    ∃ b', thresholdadjto24bitimage thrT b l0 l1 = .ok b' ∧ Valid b' W H 24 ∧ SameHeader b b' 24 ∧ ∀ x y, x < W → y < H →
      (pix b W H 24 x y = 0 → pix b' W H 24 x y = 0) ∧
      (pix b W H 24 x y ≠ 0 → min (l0 % 256) (l1 % 256) - 1 ≤ lum (pix b' W H 24 x y) ∧
        (lum (pix b' W H 24 x y) : Int) ≤ max (l0 % 256) (l1 % 256)) ∧
      (min (l0 % 256) (l1 % 256) ≤ lum (pix b W H 24 x y) → (lum (pix b W H 24 x y) : Int) ≤ max (l0 % 256) (l1 % 256) →
        pix b' W H 24 x y = pix b W H 24 x y) :=
  C83_image h C105_scales l0 l1 hW hH

end Verif.Props
