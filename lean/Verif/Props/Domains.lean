import Verif.Props.Plane
import Verif.Props.Fractal
import Verif.Props.Resize
import Verif.Props.Smaller
import Verif.Props.Float
/-! C102 `pixelizenxn` for every size, C108 the points of a fractal for every domain. -/

namespace Verif.Props
open Verif Spec Model

variable {b : Bytes} {W H : Nat}

/-- C102: `pixelizenxn` gives an image of whole squares. Every square has the mean colour of the square
of the source that begins `H % n` rows further down. The last column of squares is black if their number
is odd, and so are squares which the reduced image has lost. -/
theorem C102_pixelize_exact {scale : Nat → Nat → Int} {sc : Nat → Nat} (h : Valid b W H 24) {n : Nat} (hn : 0 < n)
    (hnW : n ≤ W) (hnH : n ≤ H) (hWl : W < 2 ^ 24) (hHl : H < 2 ^ 24)
    (hsc : ∀ s, s ≤ n * (n * 255) → scale n s = sc s ∧ sc s < 256) :
    ∃ b', pixelizenxn scale b (n : Int) = .ok b' ∧ Shows b' (W / n * n) (H / n * n) 24 (palRGB b) (fun x y =>
      if x < W / n / 2 * 2 * n then areaColour n sc (pix b W H 24) (x / n * n) (H % n + y / n * n) else 0) := by
  obtain ⟨b1, e1, s1⟩ := C102_smaller_exact h (by omega) hn hnH hWl hHl hsc
  have hp : 0 < W / n := Nat.div_pos hnW hn
  have hq : 0 < H / n := Nat.div_pos hnH hn
  obtain ⟨b2, e2, s2⟩ := C40_resize_exact s1.valid hp hq hn
    (lt_of_le_of_lt (Nat.div_mul_le_self W n) hWl) (lt_of_le_of_lt (Nat.div_mul_le_self H n) hHl)
  refine ⟨b2, ?_, s2.valid, fun h24 => absurd rfl h24, ?_⟩
  · unfold pixelizenxn
    rw [e1]; exact e2
  · intro x y hx hy
    have hxn : x / n < W / n := Nat.div_lt_of_lt_mul (by rw [Nat.mul_comm]; exact hx)
    have hyn : y / n < H / n := Nat.div_lt_of_lt_mul (by rw [Nat.mul_comm]; exact hy)
    have hk : keepCols (W / n) 24 = W / n / 2 * 2 := by unfold keepCols; norm_num
    have hr : rotCol 24 x = x := by unfold rotCol; norm_num
    rw [s2.pixels x y hx hy, hk, hr, s1.pixels _ _ hxn hyn]
    by_cases hc : x < W / n / 2 * 2 * n
    · rw [if_pos hc, if_pos hc, if_pos]
      have h2 : x / n < W / n / 2 * 2 := Nat.div_lt_of_lt_mul (by rw [Nat.mul_comm]; exact hc)
      have h3 : W / n / 2 * 2 ≤ W / 2 * 2 / n := by
        rw [Nat.le_div_iff_mul_le hn]
        have h4 : W / n / 2 * n ≤ W / 2 := by
          rw [Nat.le_div_iff_mul_le (by norm_num), Nat.mul_right_comm]
          exact le_trans (Nat.mul_le_mul_right n (Nat.div_mul_le_self _ 2)) (Nat.div_mul_le_self W n)
        calc W / n / 2 * 2 * n = W / n / 2 * n * 2 := Nat.mul_right_comm _ _ _
          _ ≤ W / 2 * 2 := Nat.mul_le_mul_right 2 h4
      omega
    · rw [if_neg hc, if_neg hc]

/-- C102: with the float means of the program the squares of `pixelizenxn` have in every channel an integer
nearest to the mean. -/
theorem C102_pixelize_mean (h : Valid b W H 24) {n : Nat} (hn : 0 < n) (hn2 : n < 2 ^ 20)
    (hnW : n ≤ W) (hnH : n ≤ H) (hWl : W < 2 ^ 24) (hHl : H < 2 ^ 24) :
    ∃ b', pixelizenxn areaScale b (n : Int) = .ok b' ∧ Valid b' (W / n * n) (H / n * n) 24 ∧
      ∀ x y, x < W / n * n → y < H / n * n → if x < W / n / 2 * 2 * n then
        ∀ k < 3, NearestInt (chan k (pix b' (W / n * n) (H / n * n) 24 x y))
          (areaSum n (fun x y => chan k (pix b W H 24 x y)) (x / n * n) (H % n + y / n * n)) (n * n)
      else pix b' (W / n * n) (H / n * n) 24 x y = 0 := by
  obtain ⟨b1, e1, v1, p1⟩ := C102_mean_exact h (by omega) hn hn2 hnH hWl hHl
  have hp : 0 < W / n := Nat.div_pos hnW hn
  have hq : 0 < H / n := Nat.div_pos hnH hn
  obtain ⟨b2, e2, s2⟩ := C40_resize_exact v1 hp hq hn
    (lt_of_le_of_lt (Nat.div_mul_le_self W n) hWl) (lt_of_le_of_lt (Nat.div_mul_le_self H n) hHl)
  refine ⟨b2, ?_, s2.valid, ?_⟩
  · unfold pixelizenxn
    rw [e1]; exact e2
  · intro x y hx hy
    have hxn : x / n < W / n := Nat.div_lt_of_lt_mul (by rw [Nat.mul_comm]; exact hx)
    have hyn : y / n < H / n := Nat.div_lt_of_lt_mul (by rw [Nat.mul_comm]; exact hy)
    have hk : keepCols (W / n) 24 = W / n / 2 * 2 := by unfold keepCols; norm_num
    have hr : rotCol 24 x = x := by unfold rotCol; norm_num
    have hp1 := p1 _ _ hxn hyn
    rw [s2.pixels x y hx hy, hk, hr]
    by_cases hc : x < W / n / 2 * 2 * n
    · have h2 : x / n < W / n / 2 * 2 := Nat.div_lt_of_lt_mul (by rw [Nat.mul_comm]; exact hc)
      have h3 : W / n / 2 * 2 ≤ W / 2 * 2 / n := by
        rw [Nat.le_div_iff_mul_le hn]
        have h4 : W / n / 2 * n ≤ W / 2 := by
          rw [Nat.le_div_iff_mul_le (by norm_num), Nat.mul_right_comm]
          exact le_trans (Nat.mul_le_mul_right n (Nat.div_mul_le_self _ 2)) (Nat.div_mul_le_self W n)
        calc W / n / 2 * 2 * n = W / n / 2 * n * 2 := Nat.mul_right_comm _ _ _
          _ ≤ W / 2 * 2 := Nat.mul_le_mul_right 2 h4
      rw [if_pos (by omega)] at hp1
      rw [if_pos hc]
      simp only [if_pos hc]
      exact hp1
    · rw [if_neg hc]
      simp only [if_neg hc]

/-- Of three rows the first one is left over; the mean is that of the other two. -/
example : (do let b ← newBMP 4 3 24; let b ← plotxybit b 0 1 0x102030; let b ← plotxybit b 1 2 0x302010
              let r ← pixelizenxn areaScale b 2
              pure ((List.range 2).map fun y => (List.range 4).map fun x => pix r 4 2 24 x y))
    = .ok [[0x101010, 0x101010, 0, 0], [0x101010, 0x101010, 0, 0]] := by decide +kernel

/-- C108: for every domain, the values do not decrease from one pixel to the next. -/
theorem C108_increasing_all {hi lo : ℚ} (hl : lo ≤ hi) {x1 x2 x x' : Int} (h12 : x1 < x2) (hxx : x ≤ x') :
    domainAt hi lo x1 x2 x ≤ domainAt hi lo x1 x2 x' := by
  unfold domainAt
  have hd : (0 : ℚ) < ((x2 - x1 : Int) : ℚ) := by exact_mod_cast (by omega : 0 < x2 - x1)
  have hs : 0 ≤ fl (fl (hi - lo) / ((x2 - x1 : Int) : ℚ)) :=
    fl_nonneg (div_nonneg (fl_nonneg (by linarith)) hd.le)
  have hb : ((x - x1 : Int) : ℚ) ≤ ((x' - x1 : Int) : ℚ) := by exact_mod_cast (by omega : x - x1 ≤ x' - x1)
  have h1 := Plane.fl_le (mul_le_mul_of_nonneg_right hb hs)
  exact Plane.fl_le (by linarith)

/-- C108: the value of a pixel is the point of the domain that divides it as the pixel divides the
rectangle, up to a few units in the last place of the limits. -/
theorem C108_accurate (hi lo : ℚ) {x1 x2 x : Int} (h12 : x1 < x2) (hx : x1 ≤ x) (hx2 : x ≤ x2) :
    |domainAt hi lo x1 x2 x - (lo + (hi - lo) * ((x - x1 : Int) / (x2 - x1 : Int)))| ≤ (|lo| + |hi - lo|) / 2 ^ 50 := by
  unfold domainAt
  set d := hi - lo with hd
  set N : ℚ := ((x2 - x1 : Int) : ℚ) with hN
  set k : ℚ := ((x - x1 : Int) : ℚ) with hk
  have hN0 : 0 < N := by rw [hN]; exact_mod_cast (by omega : 0 < x2 - x1)
  have hk0 : 0 ≤ k := by rw [hk]; exact_mod_cast (by omega : 0 ≤ x - x1)
  have hkN : k ≤ N := by rw [hk, hN]; exact_mod_cast (by omega : x - x1 ≤ x2 - x1)
  set t := k / N with ht
  have ht0 : 0 ≤ t := div_nonneg hk0 hN0.le
  have ht1 : t ≤ 1 := (div_le_one hN0).mpr hkN
  set e1 := fl d with he1
  have a1 := fl_err d
  rw [← he1] at a1
  have a2 := fl_err (e1 / N)
  set e2 := fl (e1 / N) with he2
  have a3 := fl_err (k * e2)
  set e3 := fl (k * e2) with he3
  have a4 := fl_err (lo + e3)
  set e4 := fl (lo + e3) with he4
  have hd0 := abs_nonneg d
  have hl0 := abs_nonneg lo
  have b1 : |e1| ≤ |d| + |d| / 2 ^ 53 := by
    calc |e1| = |(e1 - d) + d| := by ring_nf
      _ ≤ |e1 - d| + |d| := abs_add_le _ _
      _ ≤ _ := by linarith
  -- the step times the number of the pixel
  have c2 : |k * e2 - d * t| ≤ 3 * |d| / 2 ^ 53 := by
    have e : k * e2 - d * t = k * (e2 - e1 / N) + (e1 - d) * t := by rw [ht]; field_simp; ring
    have f1 : |k * (e2 - e1 / N)| ≤ |e1| / 2 ^ 53 := by
      rw [abs_mul, abs_of_nonneg hk0]
      calc k * |e2 - e1 / N| ≤ k * (|e1 / N| / 2 ^ 53) := mul_le_mul_of_nonneg_left a2 hk0
        _ = t * (|e1| / 2 ^ 53) := by rw [abs_div, abs_of_pos hN0, ht]; ring
        _ ≤ 1 * (|e1| / 2 ^ 53) := mul_le_mul_of_nonneg_right ht1 (by positivity)
        _ = _ := one_mul _
    have f2 : |(e1 - d) * t| ≤ |d| / 2 ^ 53 := by
      rw [abs_mul, abs_of_nonneg ht0]
      calc |e1 - d| * t ≤ |e1 - d| * 1 := mul_le_mul_of_nonneg_left ht1 (abs_nonneg _)
        _ ≤ _ := by rw [mul_one]; exact a1
    rw [e]
    calc _ ≤ |k * (e2 - e1 / N)| + |(e1 - d) * t| := abs_add_le _ _
      _ ≤ |e1| / 2 ^ 53 + |d| / 2 ^ 53 := add_le_add f1 f2
      _ ≤ _ := by linarith
  have hdt : |d * t| ≤ |d| := by
    rw [abs_mul, abs_of_nonneg ht0]
    calc |d| * t ≤ |d| * 1 := mul_le_mul_of_nonneg_left ht1 hd0
      _ = _ := mul_one _
  have b2 : |k * e2| ≤ 2 * |d| := by
    calc |k * e2| = |(k * e2 - d * t) + d * t| := by ring_nf
      _ ≤ |k * e2 - d * t| + |d * t| := abs_add_le _ _
      _ ≤ _ := by linarith
  have c3 : |e3 - d * t| ≤ 5 * |d| / 2 ^ 53 := by
    calc |e3 - d * t| = |(e3 - k * e2) + (k * e2 - d * t)| := by ring_nf
      _ ≤ |e3 - k * e2| + |k * e2 - d * t| := abs_add_le _ _
      _ ≤ _ := by linarith
  have b3 : |lo + e3| ≤ |lo| + 2 * |d| := by
    calc |lo + e3| = |lo + ((e3 - d * t) + d * t)| := by ring_nf
      _ ≤ |lo| + |(e3 - d * t) + d * t| := abs_add_le _ _
      _ ≤ |lo| + (|e3 - d * t| + |d * t|) := by linarith [abs_add_le (e3 - d * t) (d * t)]
      _ ≤ _ := by linarith
  calc |e4 - (lo + d * t)| = |(e4 - (lo + e3)) + (e3 - d * t)| := by ring_nf
    _ ≤ |e4 - (lo + e3)| + |e3 - d * t| := abs_add_le _ _
    _ ≤ _ := by linarith

example : domainAt (7 / 4) (-7 / 4) 0 3 1 ≠ -7 / 4 + (7 / 4 - -7 / 4) * (1 / 3) ∧
    domainAt (7 / 4) (-7 / 4) 0 3 1 < domainAt (7 / 4) (-7 / 4) 0 3 2 := by decide +kernel

end Verif.Props
