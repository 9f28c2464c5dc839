import Verif.Props.Line4
import Verif.Props.Strokes
import Mathlib.Tactic.LinearCombination
import Mathlib.Algebra.Order.Ring.Abs
/-! Property C174: lines in the other direction and lines that leave the image. -/

namespace Verif.Props.Clip
open Verif Spec Model

theorem sum_div {a d k : Int} (ha : 0 ≤ a) (had : a < d) : |(k + 1) * a / d + (d - k + 1) * a / d - a| ≤ 1 := by
  have hd : 0 < d := by omega
  have h1 := Int.emod_nonneg ((k + 1) * a) hd.ne'
  have h2 := Int.emod_lt_of_pos ((k + 1) * a) hd
  have h3 := Int.mul_ediv_add_emod ((k + 1) * a) d
  have h4 := Int.emod_nonneg ((d - k + 1) * a) hd.ne'
  have h5 := Int.emod_lt_of_pos ((d - k + 1) * a) hd
  have h6 := Int.mul_ediv_add_emod ((d - k + 1) * a) d
  generalize (k + 1) * a / d = A at *
  generalize (d - k + 1) * a / d = B at *
  have e : d * (A + B - a) = 2 * a - (k + 1) * a % d - (d - k + 1) * a % d := by linear_combination h3 + h6
  rw [abs_le]
  constructor
  · by_contra hc
    have : d * (A + B - a) ≤ d * (-2) := mul_le_mul_of_nonneg_left (by omega) hd.le
    omega
  · by_contra hc
    have : d * 2 ≤ d * (A + B - a) := mul_le_mul_of_nonneg_left (by omega) hd.le
    omega

theorem sign_mul_abs' (v : Int) : v.sign * |v| = v := Int.sign_mul_abs v

theorem abs_sign_le (v : Int) : |v.sign| ≤ 1 := by
  rcases lt_trichotomy v 0 with g | g | g
  · rw [Int.sign_eq_neg_one_of_neg g]; decide
  · rw [g]; decide
  · rw [Int.sign_eq_one_of_pos g]; decide

theorem raster_reverse {x1 y1 x2 y2 : Int} (hne : |x2 - x1| ≠ |y2 - y1|) (k : Int) :
    |(rasterPt x1 y1 x2 y2 k).1 - (rasterPt x2 y2 x1 y1 (max |x2 - x1| |y2 - y1| - k)).1| +
      |(rasterPt x1 y1 x2 y2 k).2 - (rasterPt x2 y2 x1 y1 (max |x2 - x1| |y2 - y1| - k)).2| ≤ 1 := by
  have ax : |x1 - x2| = |x2 - x1| := abs_sub_comm _ _
  have ay : |y1 - y2| = |y2 - y1| := abs_sub_comm _ _
  have sx : (x1 - x2).sign = -(x2 - x1).sign := by rw [← Int.sign_neg]; congr 1; ring
  have sy : (y1 - y2).sign = -(y2 - y1).sign := by rw [← Int.sign_neg]; congr 1; ring
  have ex := sign_mul_abs' (x2 - x1)
  have ey := sign_mul_abs' (y2 - y1)
  have hx0 := abs_nonneg (x2 - x1)
  have hy0 := abs_nonneg (y2 - y1)
  unfold rasterPt
  dsimp only
  rw [ax, ay, sx, sy]
  by_cases c : |y2 - y1| ≤ |x2 - x1|
  · rw [if_pos c, if_pos c, max_eq_left c]
    dsimp only
    have h := sum_div (k := k) hy0 (show |y2 - y1| < |x2 - x1| by omega)
    have e1 : x1 + k * (x2 - x1).sign - (x2 + (|x2 - x1| - k) * -(x2 - x1).sign) = 0 := by linear_combination ex
    have e2 : y1 + (y2 - y1).sign * ((k + 1) * |y2 - y1| / |x2 - x1|) -
        (y2 + -(y2 - y1).sign * ((|x2 - x1| - k + 1) * |y2 - y1| / |x2 - x1|)) =
        (y2 - y1).sign * ((k + 1) * |y2 - y1| / |x2 - x1| + (|x2 - x1| - k + 1) * |y2 - y1| / |x2 - x1| - |y2 - y1|) := by
      linear_combination ey
    rw [e1, e2, abs_zero, zero_add, abs_mul]
    have hs := abs_sign_le (y2 - y1)
    calc _ ≤ 1 * 1 := mul_le_mul hs h (abs_nonneg _) (by norm_num)
      _ = 1 := by norm_num
  · rw [if_neg c, if_neg c, max_eq_right (by omega)]
    dsimp only
    have h := sum_div (k := k) hx0 (show |x2 - x1| < |y2 - y1| by omega)
    have e1 : y1 + k * (y2 - y1).sign - (y2 + (|y2 - y1| - k) * -(y2 - y1).sign) = 0 := by linear_combination ey
    have e2 : x1 + (x2 - x1).sign * ((k + 1) * |x2 - x1| / |y2 - y1|) -
        (x2 + -(x2 - x1).sign * ((|y2 - y1| - k + 1) * |x2 - x1| / |y2 - y1|)) =
        (x2 - x1).sign * ((k + 1) * |x2 - x1| / |y2 - y1| + (|y2 - y1| - k + 1) * |x2 - x1| / |y2 - y1| - |x2 - x1|) := by
      linear_combination ex
    rw [e1, e2, abs_zero, add_zero, abs_mul]
    have hs := abs_sign_le (x2 - x1)
    calc _ ≤ 1 * 1 := mul_le_mul hs h (abs_nonneg _) (by norm_num)
      _ = 1 := by norm_num

/-- C174: a line that is not diagonal and its reverse are never more than one pixel apart. -/
theorem C174_reverse_near {x1 y1 x2 y2 : Int} (hne : |x2 - x1| ≠ |y2 - y1|) {p : Int × Int} (hp : p ∈ iterline (x1, y1) (x2, y2)) :
    ∃ q ∈ iterline (x2, y2) (x1, y1), |p.1 - q.1| + |p.2 - q.2| ≤ 1 := by
  have hx0 := abs_nonneg (x2 - x1)
  rw [iterline_eq] at hp
  rw [iterline_eq, abs_sub_comm x1, abs_sub_comm y1]
  rcases List.mem_append.mp hp with h | h
  · obtain ⟨k, hk, rfl⟩ := List.mem_map.mp h
    rw [List.mem_range] at hk
    refine ⟨_, List.mem_append.mpr (Or.inl (List.mem_map.mpr ⟨(max |x2 - x1| |y2 - y1| - k).toNat, ?_, rfl⟩)), ?_⟩
    · rw [List.mem_range]; omega
    · have := raster_reverse hne k
      rw [Int.toNat_of_nonneg (by omega)]
      exact this
  · obtain rfl := List.mem_singleton.mp h
    refine ⟨(x2, y2), List.mem_append.mpr (Or.inl (List.mem_map.mpr ⟨0, ?_, ?_⟩)), by simp⟩
    · rw [List.mem_range]; omega
    · unfold rasterPt
      dsimp only
      have h1 : |y2 - y1| < |x2 - x1| → |y2 - y1| / |x2 - x1| = 0 := fun h => Int.ediv_eq_zero_of_lt (abs_nonneg _) h
      have h2 : |x2 - x1| < |y2 - y1| → |x2 - x1| / |y2 - y1| = 0 := fun h => Int.ediv_eq_zero_of_lt (abs_nonneg _) h
      rw [abs_sub_comm x1, abs_sub_comm y1]
      split_ifs with c
      · simp [h1 (by omega)]
      · simp [h2 (by omega)]

/-- C174 is false: the reverse of a line has other points. -/
theorem C174_reverse_false : iterline (0, 0) (2, 1) = [(0, 0), (1, 1), (2, 1), (2, 1)] ∧
    iterline (2, 1) (0, 0) = [(2, 1), (1, 0), (0, 0), (0, 0)] := by decide +kernel

theorem clamp_in {v : Int} {n : Nat} (h : 0 ≤ v ∧ v < n) : clampTo v n = v := by unfold clampTo; omega

/-- C174: with both ends in the image the line is painted point by point. -/
theorem C174_inside {b : Bytes} {W H bits : Nat} (h : Valid b W H bits) {x1 y1 x2 y2 color : Int} (hi : InImage W H x1 y1 x2 y2)
    (hc : IsColour bits color) (hne : |x2 - x1| ≠ |y2 - y1|) (h4 : bits = 4 → y1 ≠ y2) :
    ∃ b', line b x1 y1 x2 y2 color = .ok b' ∧ Paints b b' W H bits (fun x y => ((x : Int), (y : Int)) ∈ iterline (x1, y1) (x2, y2)) color.toNat := by
  obtain ⟨⟨a1, a2, a3, a4⟩, a5, a6, a7, a8⟩ := hi
  have e1 := clamp_in (v := x1) (n := W) ⟨a1, a2⟩
  have e2 := clamp_in (v := x2) (n := W) ⟨a5, a6⟩
  have e3 := clamp_in (v := y1) (n := H) ⟨a3, a4⟩
  have e4 := clamp_in (v := y2) (n := H) ⟨a7, a8⟩
  obtain ⟨b', e, p⟩ := C24_line_partial (x1 := x1) (y1 := y1) (x2 := x2) (y2 := y2) h (by omega) (by omega) hc
    (by rw [e1, e2, e3, e4]; exact Or.inl hne) (by rw [e3, e4]; intro c1 c2; exact absurd c2 (h4 c1))
  rw [e1, e2, e3, e4] at p
  refine ⟨b', e, p.valid, p.header, fun x y hx hy hs => p.inside x y hx hy ((mem_iterline (Or.inl hne) x y).mp hs),
    fun x y hx hy hs => p.outside x y hx hy fun hr => hs ((mem_iterline (Or.inl hne) x y).mpr hr)⟩

/-- C174: level and upright lines through the image are clipped. -/
theorem C174_axis {b : Bytes} {W H bits : Nat} (h : Valid b W H bits) {color : Int} (hc : IsColour bits color) (h4 : bits ≠ 4) :
    (∀ x1 x2 y : Int, 0 ≤ y → y < H → min x1 x2 < W → 0 ≤ max x1 x2 → 0 < W → clampTo x1 W ≠ clampTo x2 W →
      ∃ b', line b x1 y x2 y color = .ok b' ∧
        Paints b b' W H bits (fun px py => (py : Int) = y ∧ min x1 x2 ≤ px ∧ (px : Int) ≤ max x1 x2) color.toNat) ∧
    (∀ x y1 y2 : Int, 0 ≤ x → x < W → min y1 y2 < H → 0 ≤ max y1 y2 → 0 < H → clampTo y1 H ≠ clampTo y2 H →
      ∃ b', line b x y1 x y2 color = .ok b' ∧
        Paints b b' W H bits (fun px py => (px : Int) = x ∧ min y1 y2 ≤ py ∧ (py : Int) ≤ max y1 y2) color.toNat) := by
  constructor
  · intro x1 x2 y y0 yH m1 m2 hW hne
    obtain ⟨b', e, p⟩ := C24_line_partial (x1 := x1) (y1 := y) (x2 := x2) (y2 := y) h hW (by omega) hc
      (Or.inl (by rw [sub_self, abs_zero]; intro hz; rw [abs_eq_zero] at hz; omega)) (fun c => absurd c h4)
    have key : ∀ px py : Nat, px < W → (Raster (clampTo x1 W) (clampTo y H) (clampTo x2 W) (clampTo y H) px py ↔
        (py : Int) = y ∧ min x1 x2 ≤ px ∧ (px : Int) ≤ max x1 x2) := by
      intro px py hx
      rw [raster_h]; unfold HSeg clampTo; omega
    exact ⟨b', e, p.valid, p.header, fun px py hx hy hs => p.inside px py hx hy ((key px py hx).mpr hs),
      fun px py hx hy hs => p.outside px py hx hy fun hr => hs ((key px py hx).mp hr)⟩
  · intro x y1 y2 x0 xW m1 m2 hH hne
    obtain ⟨b', e, p⟩ := C24_line_partial (x1 := x) (y1 := y1) (x2 := x) (y2 := y2) h (by omega) hH hc
      (Or.inl (by rw [sub_self, abs_zero]; intro hz; rw [eq_comm, abs_eq_zero] at hz; omega)) (fun c => absurd c h4)
    have key : ∀ px py : Nat, px < W → py < H → (Raster (clampTo x W) (clampTo y1 H) (clampTo x W) (clampTo y2 H) px py ↔
        (px : Int) = x ∧ min y1 y2 ≤ py ∧ (py : Int) ≤ max y1 y2) := by
      intro px py hx hy
      rw [raster_v]; unfold VSeg clampTo; omega
    exact ⟨b', e, p.valid, p.header, fun px py hx hy hs => p.inside px py hx hy ((key px py hx hy).mpr hs),
      fun px py hx hy hs => p.outside px py hx hy fun hr => hs ((key px py hx hy).mp hr)⟩

/-- C174 is false for lines that leave the image: they are bent, so that a point far from the line is painted, and a line
that misses the image is painted on its edge. -/
theorem C174_clip_false :
    (do let b ← newBMP 8 4 24; let b ← line b 0 0 300 2 7; pure (← getxybit b 7 2, ← getxybit b 7 0)) = .ok (7, 0) ∧
    (7, 2) ∉ iterline (0, 0) (300, 2) ∧ (7, 0) ∈ iterline (0, 0) (300, 2) ∧
    (do let b ← newBMP 4 4 24; let b ← line b 0 (-5) 3 (-5) 7; pure (← getxybit b 0 0, ← getxybit b 3 0, ← getxybit b 0 1)) =
      .ok (7, 7, 0) := by decide +kernel

end Verif.Props.Clip
