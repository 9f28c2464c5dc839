import Verif.Props.Negative
import Verif.Props.Session
/-! Properties C200 and C202: which pixels slanted lines in negative colours leave behind on 4-bit images. -/

namespace Verif.Props.Session
open Verif Spec Model Model.Run Verif.Props Verif.Props.Beyond Verif.Props.Far Verif.Props.Overlay Verif.Props.Abort

variable {b b' : Bytes} {W H bits : Nat}

/-- Specification: the two pixels of a byte after a negative number has been added to it. -/
def borrow (c : Int) (x y : Nat) (g : Nat → Nat → Nat) (px py : Nat) : Nat :=
  if py = y ∧ px = x then ((16 * (g (x - 1) y : Int) + c) % 16).toNat
  else if py = y ∧ px + 1 = x then ((16 * (g (x - 1) y : Int) + c) / 16).toNat
  else g px py

/-- Specification: row after row the number is added, until the left pixel of a row is too small. -/
def spoil (c : Int) (x : Nat) : List Nat → (Nat → Nat → Nat) → Nat → Nat → Nat
  | [], g => g
  | y :: ys, g => if 16 * (g (x - 1) y : Int) + c < 0 then g else spoil c x ys (borrow c x y g)

/-- Specification: the rows of a slanted line in the column of its start. -/
def firstRows (x1 y1 x2 y2 : Int) : List Nat :=
  if |y2 - y1| ≤ |x2 - x1| then [(y1 + (y2 - y1).sign * (|y2 - y1| / |x2 - x1|)).toNat]
  else (List.range (((|y2 - y1| + |x2 - x1| - 1) / |x2 - x1|).toNat - 1)).map fun k : Nat => (y1 + (y2 - y1).sign * k).toNat

theorem step_borrow (h : Valid b W H 4) {c : Int} (hc : c < 0) {x y : Nat} (hx : x < W) (hy : y < H) (ho : x % 2 = 1) :
    (16 * (pix b W H 4 (x - 1) y : Int) + c < 0 ∧ nibStep c ((x : Int), (y : Int)) b = (.error .overflowError, b)) ∨
    (¬ 16 * (pix b W H 4 (x - 1) y : Int) + c < 0 ∧ ∃ b', nibStep c ((x : Int), (y : Int)) b = (.ok (), b') ∧
      Redraws b b' W H 4 (borrow c x y (pix b W H 4))) := by
  have hl := addr_lt h (x := x) (y := y) (by omega) (by omega)
  norm_num at hl
  have hlt : addr W H 4 x y < b.length := by omega
  have hge : dataOff 4 ≤ addr W H 4 x y := by unfold addr; omega
  have hb := byte_lt_of_mem h.bytes (addr W H 4 x y)
  have e : diagStep 4 c b ((x : Int), (y : Int)) = setItem b (addr W H 4 x y : Int) (((byte b (addr W H 4 x y) &&& 0xf0 : Nat) : Int) + c) := by
    unfold diagStep
    dsimp only at ho ⊢
    rw [h.BMoffsethd_eq x y (by omega), ok_bind, if_neg (by omega), if_neg (by omega), getItem_ok rfl hlt, ok_bind,
      if_pos (by rw [pyAnd_1]; omega)]
  have ea : addr W H 4 (x - 1) y = addr W H 4 x y := by
    unfold addr rel
    omega
  have s0 : shiftOf 4 x = 0 := by
    unfold shiftOf
    simp
    omega
  have s1 : shiftOf 4 (x - 1) = 4 := by
    unfold shiftOf
    simp
    omega
  have ep : pix b W H 4 (x - 1) y = byte b (addr W H 4 x y) / 16 := by
    rw [pix_4, ea, s1]
    norm_num
    omega
  have ev : ((byte b (addr W H 4 x y) &&& 0xf0 : Nat) : Int) = 16 * (pix b W H 4 (x - 1) y : Int) := by
    rw [and_f0 _ hb, ep]
    omega
  rw [ev] at e
  by_cases hv : 16 * (pix b W H 4 (x - 1) y : Int) + c < 0
  · exact .inl ⟨hv, run_assign_error (by rw [e]; exact Verif.Props.Abort.setItem_neg hlt hv)⟩
  · right
    obtain ⟨w, hw⟩ := Int.eq_ofNat_of_zero_le (show 0 ≤ 16 * (pix b W H 4 (x - 1) y : Int) + c by omega)
    have w256 : w < 256 := by omega
    refine ⟨hv, b.set (addr W H 4 x y) w, run_assign (by rw [e]; exact setItem_ok rfl hlt hw (by omega)), ?_, ⟨by simp, ?_⟩, ?_⟩
    · refine valid_congr h (by simp) (mem_lt_of_byte fun i hi => ?_) fun i hi => ?_
      · rw [byte_set]
        split_ifs
        · omega
        · exact byte_lt_of_mem h.bytes i
      · rw [byte_set, if_neg (by unfold dataOff palSize at hge; norm_num at hge; omega)]
    · intro i hi
      rw [byte_set, if_neg (by omega)]
    · intro px py hpx hpy
      unfold borrow
      rw [hw]
      by_cases hyy : py = y
      · subst hyy
        by_cases hxx : px = x
        · subst hxx
          rw [if_pos ⟨rfl, rfl⟩, pix_4, byte_set, if_pos ⟨rfl, hlt⟩, s0]
          norm_num
          omega
        · rw [if_neg (by omega)]
          by_cases hx1 : px + 1 = x
          · obtain rfl : px = x - 1 := by omega
            rw [if_pos ⟨rfl, hx1⟩, pix_4, ea, byte_set, if_pos ⟨rfl, hlt⟩, s1]
            norm_num
            omega
          · rw [if_neg (by omega), pix_4, pix_4, byte_set, if_neg]
            rintro ⟨g, -⟩
            unfold addr rel at g
            omega
      · rw [if_neg (by omega), if_neg (by omega), pix_4, pix_4, byte_set, if_neg]
        rintro ⟨g, -⟩
        have := addr_row (bits := 4) (by simp [Depth]) hpx (show x < W by omega) hpy (show y < H by omega) hyy
        norm_num at this
        omega

theorem borrow_congr {c : Int} {x y : Nat} (hx : x < W) (hy : y < H) {g g' : Nat → Nat → Nat} (h : ∀ px py, px < W → py < H → g px py = g' px py)
    {px py : Nat} (hpx : px < W) (hpy : py < H) : borrow c x y g px py = borrow c x y g' px py := by
  unfold borrow
  rw [h (x - 1) y (by omega) hy, h px py hpx hpy]

theorem spoil_congr {c : Int} {x : Nat} (hx : x < W) {ys : List Nat} (hy : ∀ y ∈ ys, y < H) {g g' : Nat → Nat → Nat}
    (h : ∀ px py, px < W → py < H → g px py = g' px py) {px py : Nat} (hpx : px < W) (hpy : py < H) :
    spoil c x ys g px py = spoil c x ys g' px py := by
  induction ys generalizing g g' with
  | nil => exact h px py hpx hpy
  | cons y ys ih =>
    have hy0 := hy y (by simp)
    unfold spoil
    rw [h (x - 1) y (by omega) hy0]
    split_ifs
    · exact h px py hpx hpy
    · exact ih (fun z hz => hy z (by simp [hz])) fun qx qy hqx hqy => borrow_congr hx hy0 h hqx hqy

theorem neg_rows (h : Valid b W H 4) {c : Int} (hc : c < 0) {x : Nat} (hx : x < W) (ho : x % 2 = 1) {ys : List Nat} (hys : ∀ y ∈ ys, y < H)
    {a : Int × Int} {l : List (Int × Int)} (ha : ∀ b', Valid b' W H 4 → ∃ e, nibStep c a b' = (.error e, b')) :
    Redraws b (each (nibStep c) ((ys.map fun y : Nat => ((x : Int), (y : Int))) ++ a :: l) b).2 W H 4 (spoil c x ys (pix b W H 4)) := by
  induction ys generalizing b with
  | nil =>
    obtain ⟨e, he⟩ := ha b h
    have : each (nibStep c) ([] ++ a :: l) b = (.error e, b) := run_seq_error he
    rw [List.map_nil, this]
    exact ⟨h, ⟨rfl, fun _ _ => rfl⟩, fun _ _ _ _ => rfl⟩
  | cons y ys ih =>
    have hy := hys y (by simp)
    rw [List.map_cons, List.cons_append]
    unfold spoil
    rcases step_borrow h hc hx hy ho with ⟨hv, e⟩ | ⟨hv, b1, e, r⟩
    · have : each (nibStep c) (((x : Int), (y : Int)) :: ((ys.map fun y : Nat => ((x : Int), (y : Int))) ++ a :: l)) b = (.error .overflowError, b) :=
        run_seq_error e
      rw [this, if_pos hv]
      exact ⟨h, ⟨rfl, fun _ _ => rfl⟩, fun _ _ _ _ => rfl⟩
    · have : each (nibStep c) (((x : Int), (y : Int)) :: ((ys.map fun y : Nat => ((x : Int), (y : Int))) ++ a :: l)) b =
        each (nibStep c) ((ys.map fun y : Nat => ((x : Int), (y : Int))) ++ a :: l) b1 := run_seq e
      rw [this, if_neg hv]
      have r2 := ih r.valid fun z hz => hys z (by simp [hz])
      refine ⟨r2.valid, ⟨r2.header.1.trans r.header.1, fun i hi => (r2.header.2 i hi).trans (r.header.2 i hi)⟩, fun px py hpx hpy => ?_⟩
      rw [r2.pixels px py hpx hpy]
      exact spoil_congr hx (fun z hz => hys z (by simp [hz])) (fun qx qy hqx hqy => r.pixels qx qy hqx hqy) hpx hpy

/-- The rows in the column of the start are those of the specification, and the next point is in the column beside it. -/
theorem raster_rows {x1 y1 x2 y2 : Int} (hx : x1 ≠ x2) (hy : y1 ≠ y2) (hd : ¬ (|x2 - x1| = 1 ∧ |y2 - y1| = 1)) (h1 : 0 ≤ y1) (h2 : 0 ≤ y2) :
    ∃ a l', iterline (x1, y1) (x2, y2) = ((firstRows x1 y1 x2 y2).map fun y : Nat => (x1, (y : Int))) ++ a :: l' ∧
      (a.1 = x1 + (x2 - x1).sign) ∧ min y1 y2 ≤ a.2 ∧ a.2 ≤ max y1 y2 ∧ ∀ y ∈ firstRows x1 y1 x2 y2, (y : Int) ≤ max y1 y2 := by
  have hD : 0 < |x2 - x1| := abs_pos.mpr (by omega)
  have hE : 0 < |y2 - y1| := abs_pos.mpr (by omega)
  have band : ∀ v : Int, 0 ≤ v → v ≤ |y2 - y1| → min y1 y2 ≤ y1 + (y2 - y1).sign * v ∧ y1 + (y2 - y1).sign * v ≤ max y1 y2 := by
    intro v v0 v1
    rcases lt_or_gt_of_ne hy with g | g
    · rw [abs_of_pos (by omega)] at v1
      rw [Int.sign_eq_one_of_pos (by omega)]
      omega
    · rw [abs_of_neg (by omega)] at v1
      rw [Int.sign_eq_neg_one_of_neg (by omega)]
      omega
  rw [iterline_eq]
  unfold firstRows
  generalize hDD : |x2 - x1| = D at *
  generalize hEE : |y2 - y1| = E at *
  by_cases hm : E ≤ D
  · obtain ⟨r, hr⟩ := range_split (fun k : Nat => rasterPt x1 y1 x2 y2 k) (N := (max D E + 1).toNat) (k := 1) (by omega)
    have b0 := band (E / D) (Int.ediv_nonneg (by omega) (by omega)) (Int.ediv_le_of_le_mul hD (by nlinarith))
    rw [hr, List.append_assoc, if_pos hm]
    refine ⟨rasterPt x1 y1 x2 y2 (1 : Nat), r ++ [(x2, y2)], ?_, ?_, ?_⟩
    · rw [List.cons_append]
      congr 1
      rw [List.range_one, List.map_singleton, List.map_singleton]
      unfold rasterPt
      dsimp only
      rw [hDD, hEE, if_pos hm, Int.toNat_of_nonneg (by omega)]
      simp
    · unfold rasterPt
      dsimp only
      rw [hDD, hEE, if_pos hm]
      simp
    · have b1 := band ((((1 : Nat) : Int) + 1) * E / D) (Int.ediv_nonneg (by push_cast; omega) (by omega))
        (Int.ediv_le_of_le_mul hD (by push_cast; have : 2 ≤ D := by omega
                                      nlinarith))
      refine ⟨?_, ?_, fun y hy => ?_⟩
      · unfold rasterPt
        dsimp only
        rw [hDD, hEE, if_pos hm]
        exact b1.1
      · unfold rasterPt
        dsimp only
        rw [hDD, hEE, if_pos hm]
        exact b1.2
      · rw [List.mem_singleton] at hy
        omega
  · have hDE : D < E := by omega
    rw [if_neg hm]
    have hq := Int.mul_ediv_add_emod (E + D - 1) D
    have hr0 := Int.emod_nonneg (E + D - 1) (show D ≠ 0 by omega)
    have hr1 := Int.emod_lt_of_pos (E + D - 1) hD
    generalize (E + D - 1) / D = t at hq
    generalize (E + D - 1) % D = u at hq hr0 hr1
    have t1 : 1 ≤ t := by nlinarith
    have t2 : t ≤ E := by nlinarith
    obtain ⟨n, rfl⟩ : ∃ n : Nat, t = n + 1 := ⟨(t - 1).toNat, by omega⟩
    obtain ⟨r, hr⟩ := range_split (fun k : Nat => rasterPt x1 y1 x2 y2 k) (N := (max D E + 1).toNat) (k := n) (by omega)
    rw [hr, List.append_assoc]
    have hp : ∀ k : Nat, rasterPt x1 y1 x2 y2 k = (x1 + (x2 - x1).sign * (((k : Int) + 1) * D / E), y1 + (y2 - y1).sign * k) := by
      intro k
      unfold rasterPt
      dsimp only
      rw [hDD, hEE, if_neg hm, Int.mul_comm (k : Int)]
    have en : ((n : Int) + 1).toNat - 1 = n := by omega
    rw [en]
    refine ⟨rasterPt x1 y1 x2 y2 n, r ++ [(x2, y2)], ?_, ?_, ?_⟩
    · rw [List.cons_append]
      congr 1
      rw [List.map_map]
      refine List.map_congr_left fun k hk => ?_
      rw [List.mem_range] at hk
      have : ((k : Int) + 1) * D / E = 0 := by
        refine Int.ediv_eq_zero_of_lt (by positivity) ?_
        have : (k : Int) + 1 ≤ n := by omega
        nlinarith
      have b0 := band k (by omega) (by omega)
      rw [hp, this, Int.mul_zero, Int.add_zero, Function.comp_apply, Int.toNat_of_nonneg (by omega)]
    · rw [hp]
      have : ((n : Int) + 1) * D / E = 1 := by
        rw [Int.ediv_eq_iff_of_pos (by omega)]
        constructor <;> nlinarith
      dsimp only
      rw [this, Int.mul_one]
    · have b1 := band n (by omega) (by omega)
      rw [hp]
      refine ⟨b1.1, b1.2, fun y hy => ?_⟩
      rw [List.mem_map] at hy
      obtain ⟨k, hk, rfl⟩ := hy
      rw [List.mem_range] at hk
      have b0 := band k (by omega) (by omega)
      omega

/-- **C200**: what a slanted line in a negative number leaves behind on a 4-bit image, pixel by pixel: nothing if it starts in an even
column, otherwise the number is added to the bytes of the start column until the left pixel is too small. -/
theorem C200_negative_exact (h : Valid b W H 4) (hW : 0 < W) (hH : 0 < H) {x1 y1 x2 y2 c : Int} (hc : c < 0)
    (hx : clampTo x1 W ≠ clampTo x2 W) (hy : clampTo y1 H ≠ clampTo y2 H) :
    Redraws b (lineR x1 y1 x2 y2 c b).2 W H 4 (if clampTo x1 W % 2 = 0 then pix b W H 4 else
      spoil c (clampTo x1 W).toNat (firstRows (clampTo x1 W) (clampTo y1 H) (clampTo x2 W) (clampTo y2 H)) (pix b W H 4)) := by
  have hX1 : 0 ≤ clampTo x1 W ∧ clampTo x1 W < W := by unfold clampTo; omega
  have hX2 : 0 ≤ clampTo x2 W ∧ clampTo x2 W < W := by unfold clampTo; omega
  have hY1 : 0 ≤ clampTo y1 H ∧ clampTo y1 H < H := by unfold clampTo; omega
  have hY2 : 0 ≤ clampTo y2 H ∧ clampTo y2 H < H := by unfold clampTo; omega
  by_cases he : clampTo x1 W % 2 = 0
  · rw [if_pos he, C200_negative_even h hW hH hc hx hy he]
    exact ⟨h, ⟨rfl, fun _ _ => rfl⟩, fun _ _ _ _ => rfl⟩
  rw [if_neg he, neg_start h hc hx hy]
  generalize clampTo x1 W = X1 at *
  generalize clampTo x2 W = X2 at *
  generalize clampTo y1 H = Y1 at *
  generalize clampTo y2 H = Y2 at *
  obtain ⟨n, rfl⟩ := Int.eq_ofNat_of_zero_le hX1.1
  have hs : ∀ a : Int, a = n + (X2 - n).sign → 0 ≤ a ∧ a < W ∧ a % 2 = 0 := by
    rintro a rfl
    rcases lt_or_gt_of_ne hx with g | g
    · rw [Int.sign_eq_one_of_pos (by omega)]; omega
    · rw [Int.sign_eq_neg_one_of_neg (by omega)]; omega
  by_cases hd : |X2 - n| = 1 ∧ |Y2 - Y1| = 1
  · obtain ⟨hdx, hdy⟩ := hd
    have hs' : ∀ u v : Int, |v - u| = 1 → (v - u).sign = v - u := by
      intro u v g
      rcases eq_or_eq_neg_of_abs_eq g with g | g <;> rw [g] <;> rfl
    have ex := hs' _ _ hdx
    have ey := hs' _ _ hdy
    have e : iterline ((n : Int), Y1) (X2, Y2) = [((n : Int), Y2), (X2, Y2 + (Y2 - Y1)), (X2, Y2)] := by
      rw [C23_diagonal n Y1 X2 Y2 (by rw [hdx, hdy]) hx, ex, ey]
      have : (X2 - n).natAbs = 1 := by rw [Int.abs_eq_natAbs] at hdx; omega
      rw [this]
      simp [List.range_succ]
      ring
    have ef : firstRows n Y1 X2 Y2 = [Y2.toNat] := by
      unfold firstRows
      rw [hdx, hdy, if_pos (le_refl _), ey]
      norm_num
    have k := neg_rows (b := b) (c := c) (x := n) (ys := [Y2.toNat]) (a := (X2, Y2 + (Y2 - Y1))) (l := [(X2, Y2)]) h hc (by omega) (by omega)
      (by simp; omega) (fun b1 v1 => by
        have even : X2 % 2 = 0 := by rcases eq_or_eq_neg_of_abs_eq hdx with g | g <;> omega
        by_cases hin : 0 ≤ Y2 + (Y2 - Y1) ∧ Y2 + (Y2 - Y1) < H
        · exact ⟨_, step_even v1 hc hX2 hin even⟩
        by_cases hlow : Y2 + (Y2 - Y1) = H
        · exact ⟨_, step_below v1 hc hX2 hH hlow even⟩
        have htop : Y2 + (Y2 - Y1) = -1 ∧ Y2 = 0 := by rcases eq_or_eq_neg_of_abs_eq hdy with g | g <;> omega
        refine ⟨.indexError, run_assign_error ?_⟩
        unfold diagStep
        dsimp only
        have hlen := v1.len
        have hr : ((H : Int) - (-1) - 1) * (rowLen W 4 : Int) = ((H * rowLen W 4 : Nat) : Int) := by push_cast; ring
        rw [htop.1, BMoffsethd_any v1, hr, ok_bind, if_neg (by omega), if_neg (by omega), getItem_ge (by omega)]
        rfl)
    rw [e, ef]
    rw [List.map_singleton, Int.toNat_of_nonneg hY2.1] at k
    exact k
  · obtain ⟨a, l', e, a1, a2, a3, a4⟩ := raster_rows hx hy hd hY1.1 hY2.1
    rw [e]
    have ha := hs _ a1
    exact neg_rows h hc (by omega) (by omega) (fun y hy => by have := a4 y hy; omega)
      fun b1 v1 => ⟨_, step_even v1 hc ⟨ha.1, ha.2.1⟩ (by omega) ha.2.2⟩

open Classical in
/-- Specification: the picture after a call on an image with a palette, for all numbers. -/
noncomputable def shown (W H bits : Nat) (t : Figure × Int) (g : Nat → Nat → Nat) : Nat → Nat → Nat :=
  match t.1 with
  | .segment p q =>
    if bits = 4 ∧ t.2 < 0 ∧ Slanted W H p q then
      (if clampTo p.1 W % 2 = 0 then g
      else spoil t.2 (clampTo p.1 W).toNat (firstRows (clampTo p.1 W) (clampTo p.2 H) (clampTo q.1 W) (clampTo q.2 H)) g)
    else coloured W H bits t g
  | _ => coloured W H bits t g

theorem firstRows_lt (hH : 0 < H) (x1 x2 y1 y2 : Int) (hx : x1 ≠ x2) (hy : clampTo y1 H ≠ clampTo y2 H) :
    ∀ y ∈ firstRows x1 (clampTo y1 H) x2 (clampTo y2 H), y < H := by
  have hY1 : 0 ≤ clampTo y1 H ∧ clampTo y1 H < H := by unfold clampTo; omega
  have hY2 : 0 ≤ clampTo y2 H ∧ clampTo y2 H < H := by unfold clampTo; omega
  generalize clampTo y1 H = Y1 at *
  generalize clampTo y2 H = Y2 at *
  intro y hm
  by_cases hd : |x2 - x1| = 1 ∧ |Y2 - Y1| = 1
  · unfold firstRows at hm
    rw [hd.1, hd.2, if_pos (le_refl _), List.mem_singleton] at hm
    have : (Y2 - Y1).sign = Y2 - Y1 := by rcases eq_or_eq_neg_of_abs_eq hd.2 with g | g <;> rw [g] <;> rfl
    rw [this] at hm
    norm_num at hm
    omega
  · obtain ⟨a, l', -, -, -, -, a4⟩ := raster_rows hx hy hd hY1.1 hY2.1
    have := a4 y hm
    omega

theorem shown_congr (hH : 0 < H) {t : Figure × Int} {g g' : Nat → Nat → Nat} (h : ∀ px py, px < W → py < H → g px py = g' px py)
    {px py : Nat} (hpx : px < W) (hpy : py < H) : shown W H bits t g px py = shown W H bits t g' px py := by
  obtain ⟨f, c⟩ := t
  cases f with
  | segment p q =>
    unfold shown
    dsimp only
    split_ifs with h1 h2
    · exact h px py hpx hpy
    · have : 0 ≤ clampTo p.1 W ∧ clampTo p.1 W < W := by unfold clampTo; omega
      exact spoil_congr (by omega) (firstRows_lt hH _ _ _ _ h1.2.2.1 h1.2.2.2) h hpx hpy
    · exact coloured_congr (h px py hpx hpy)
  | _ =>
    unfold shown
    exact coloured_congr (h px py hpx hpy)

theorem shown_step (h : Valid b W H bits) (h24 : bits ≠ 24) (hW : 0 < W) (hH : 0 < H) {t : Figure × Int} (hs : Safe W H bits t.1) :
    Redraws b (drawR t.1 t.2 b).2 W H bits (shown W H bits t (pix b W H bits)) := by
  obtain ⟨f, c⟩ := t
  cases f with
  | segment p q =>
    unfold shown
    dsimp only at hs ⊢
    by_cases hn : bits = 4 ∧ c < 0 ∧ Slanted W H p q
    · rw [if_pos hn]
      obtain ⟨rfl, hc, sl⟩ := hn
      exact C200_negative_exact h hW hH hc sl.1 sl.2
    · rw [if_neg hn]
      refine shade_step h h24 hs fun e p' q' e1 sl => ?_
      cases e1
      by_contra k
      exact hn ⟨e, by omega, sl⟩
  | _ => exact shade_step h h24 hs fun _ _ _ e => nomatch e

/-- **C202** on images with a palette: the picture after a session follows from the picture before it, for all numbers. -/
theorem C202_palette (h : Valid b W H bits) (h24 : bits ≠ 24) (hW : 0 < W) (hH : 0 < H) {l : List (Figure × Int)}
    (hl : ∀ t ∈ l, Safe W H bits t.1) :
    Redraws b (session l b) W H bits (l.foldl (fun g t => shown W H bits t g) (pix b W H bits)) := by
  suffices main : ∀ g : Nat → Nat → Nat, (∀ px py, px < W → py < H → pix b W H bits px py = g px py) →
      Redraws b (session l b) W H bits (l.foldl (fun g t => shown W H bits t g) g) from main _ fun _ _ _ _ => rfl
  induction l generalizing b with
  | nil => exact fun g hg => ⟨h, ⟨rfl, fun _ _ => rfl⟩, hg⟩
  | cons t l ih =>
    intro g hg
    have r := shown_step h h24 hW hH (hl t (by simp))
    have r' := ih r.valid (fun s hs => hl s (by simp [hs])) (shown W H bits t g)
      fun px py hx hy => (r.pixels px py hx hy).trans (shown_congr hH hg hx hy)
    exact ⟨r'.valid, ⟨r'.header.1.trans r.header.1, fun i hi => (r'.header.2 i hi).trans (r.header.2 i hi)⟩, r'.pixels⟩

/-- **C202**: whatever numbers are given as colours, the file has the same size, depth and palette after the session. -/
theorem C202_intact (h : Valid b W H bits) (hW : 0 < W) (hH : 0 < H) {l : List (Figure × Int)} (hl : ∀ t ∈ l, Safe W H bits t.1) :
    Valid (session l b) W H bits ∧ SameHeader b (session l b) bits := by
  by_cases h24 : bits = 24
  · subst h24
    have r := C202_session h hW hH hl
    exact ⟨r.valid, r.header⟩
  · have r := C202_palette h h24 hW hH hl
    exact ⟨r.valid, r.header⟩

/-- A steep line from (1, 0) to (2, 4) in the number −3: the first rows of the column are changed as long as the left pixel is not 0. -/
example : firstRows 1 0 2 4 = [0, 1, 2] ∧
    (List.range 4).map (fun y => (spoil (-3) 1 [0, 1, 2] (fun px py => if px = 0 ∧ py ≠ 2 then 9 else 4) 0 y,
      spoil (-3) 1 [0, 1, 2] (fun px py => if px = 0 ∧ py ≠ 2 then 9 else 4) 1 y)) = [(8, 13), (8, 13), (3, 13), (9, 4)] := by
  decide +kernel

end Verif.Props.Session
