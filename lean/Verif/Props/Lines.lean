import Verif.Lemmas.Paint
import Verif.Model.Draw
import Verif.Props.Blt
/-! Properties C19 and C20: horizontal and vertical lines. -/

namespace Verif.Props
open Verif Spec Model

theorem getmaxxy_eq {b : Bytes} {W H bits : Nat} (h : Valid b W H bits) :
    getmaxxy b = .ok ((W : Int), (H : Int)) := by
  unfold getmaxxy; rw [h.getmaxx_eq, h.getmaxy_eq]; rfl

theorem isinrange_iff (v hi : Int) : isinrange v hi (-1) = true ↔ 0 ≤ v ∧ v < hi := by
  simp [isinrange]; omega

theorem swap_min (a b : Int) : (swapif a b (decide (a > b))).1 = min a b := by
  unfold swapif; by_cases c : a > b <;> simp [c] <;> omega
theorem swap_max (a b : Int) : (swapif a b (decide (a > b))).2 = max a b := by
  unfold swapif; by_cases c : a > b <;> simp [c] <;> omega
theorem setmin_eq (a b : Int) : setmin a b = max a b := by unfold setmin; split_ifs <;> omega
theorem setmax_eq (a b : Int) : setmax a b = min a b := by unfold setmax; split_ifs <;> omega

/-- Offsets of points to the right of the image in the same row. -/
theorem BMoffsethd_int {b : Bytes} {W H bits : Nat} (h : Valid b W H bits) (hb : bits = 8 ∨ bits = 24)
    (x : Int) (y : Int) :
    BMoffsethd b x y = .ok ((dataOff bits : Int) + ((H : Int) - y - 1) * (rowLen W bits : Int) + (bpp bits : Int) * x) := by
  have hr := h.rowoff_eq y
  unfold BMoffsethd
  rw [h.bits_eq]
  rcases hb with rfl | rfl
  all_goals
    norm_num at hr
    norm_num [bmofhd24, bmofhd8, hr, dataOff, palSize, bpp]
    ring

theorem addr_int {W H bits x y : Nat} (hb : bits = 8 ∨ bits = 24) (hy : y < H) :
    (addr W H bits x y : Int) = (dataOff bits : Int) + ((H : Int) - y - 1) * (rowLen W bits : Int) + (bpp bits : Int) * x := by
  rw [addr_x hb, row_cast hy]
  unfold addr rel
  push_cast
  simp

/-- Pixels of the row `y` between `x1` and `x2`. -/
def HSeg (y x1 x2 : Int) (x' y' : Nat) : Prop :=
  (y' : Int) = y ∧ min x1 x2 ≤ x' ∧ (x' : Int) ≤ max x1 x2

/-- Pixels of the column `x` between `y1` and `y2`. -/
def VSeg (x y1 y2 : Int) (x' y' : Nat) : Prop :=
  (x' : Int) = x ∧ min y1 y2 ≤ y' ∧ (y' : Int) ≤ max y1 y2

theorem horiline_8_24 {b : Bytes} {W H bits : Nat} (h : Valid b W H bits) (hb : bits = 8 ∨ bits = 24)
    {y x1 x2 color : Int} (hc : bits = 24 → 0 ≤ color ∧ color < 2 ^ 24)
    (hleft : -19 ≤ max x1 x2) :
    ∃ b', horiline b y x1 x2 color = .ok b' ∧ Paints b b' W H bits (HSeg y x1 x2) (reduce bits color) := by
  unfold horiline
  rw [h.bits_eq, getmaxxy_eq h]
  simp only [ok_bind, swap_min, swap_max, setmin_eq, setmax_eq]
  by_cases hy : 0 ≤ y ∧ y < H
  swap
  · rw [if_neg (by rw [isinrange_iff]; exact hy)]
    refine ⟨b, rfl, Paints.refl h _ ?_⟩
    rintro x' y' _ _ ⟨e, _⟩; omega
  rw [if_pos ((isinrange_iff _ _).mpr hy)]
  obtain ⟨y0, rfl⟩ := Int.eq_ofNat_of_zero_le hy.1
  have hyH : y0 < H := by omega
  by_cases hm : max (min x1 x2) 0 ≤ min (max x1 x2) ((W : Int) - 1)
  · -- the segment meets the image
    obtain ⟨a, ha⟩ := Int.eq_ofNat_of_zero_le (show 0 ≤ max (min x1 x2) 0 by omega)
    obtain ⟨z, hz⟩ := Int.eq_ofNat_of_zero_le (show 0 ≤ min (max x1 x2) ((W : Int) - 1) by omega)
    rw [ha, hz, h.BMoffsethd_eq a y0 hyH]
    simp only [ok_bind]
    have hdx : (z : Int) - (a : Int) + 1 = ((z - a + 1 : Nat) : Int) := by omega
    rw [hdx]
    have hfit := addr_le_len h hb (x := a) (n := z - a + 1) (y := y0) (by omega) (by omega) hyH
    have hp := run_paints (c := reduce bits color) h hb (x1 := a) (n := z - a + 1) (y := y0)
      (by omega) (by omega) hyH (reduce_lt color)
    refine ⟨_, ?_, hp.congr ?_⟩
    · rcases hb with rfl | rfl
      · rw [if_neg (by norm_num), if_pos rfl, pyRepeat_run8]
        simp only [ok_bind, pure_eq_ok]
        rw [setSlice_ok rfl (by rw [length_run]; simp [bpp]) (by rw [length_run]; exact hfit)]
      · obtain ⟨h0, h1⟩ := hc rfl
        rw [if_pos rfl, pyRepeat_run24 h0 h1]
        simp only [ok_bind, pure_eq_ok]
        rw [reduce_24 h0 h1]
        rw [setSlice_ok rfl (by rw [length_run]; simp [bpp]; ring) (by rw [length_run]; exact hfit)]
    · intro x' y' hx' hy'
      unfold HSeg
      omega
  · -- nothing to draw: the segment is to the right or slightly to the left of the image
    have hge := dataOff_ge bits
    refine ⟨b, ?_, Paints.refl h _ ?_⟩
    · rw [BMoffsethd_int h hb]
      simp only [ok_bind]
      have hrow := row_cast hyH (rowLen W bits)
      rw [hrow]
      rcases hb with rfl | rfl
      · rw [if_neg (by norm_num), if_pos rfl, pyRepeat_neg _ (by omega)]
        simp only [mkArray, List.all_nil, if_true, List.map_nil, ok_bind, pure_eq_ok]
        rw [setSlice_empty] <;> simp only [bpp] <;> push_cast <;> omega
      · rw [if_pos rfl, pyRepeat_neg _ (by omega)]
        simp only [mkArray, List.all_nil, if_true, List.map_nil, ok_bind, pure_eq_ok]
        rw [setSlice_empty] <;> simp only [bpp] <;> push_cast <;> (try simp) <;> omega
    · rintro x' y' hx' _ ⟨_, e2, e3⟩
      omega

theorem horiline_1 {b : Bytes} {W H : Nat} (h : Valid b W H 1) (y x1 x2 color : Int) :
    ∃ b', horiline b y x1 x2 color = .ok b' ∧ Paints b b' W H 1 (HSeg y x1 x2) (reduce 1 color) := by
  unfold horiline
  rw [h.bits_eq, getmaxxy_eq h]
  simp only [ok_bind, swap_min, swap_max, setmin_eq, setmax_eq]
  by_cases hy : 0 ≤ y ∧ y < H
  swap
  · rw [if_neg (by rw [isinrange_iff]; exact hy)]
    refine ⟨b, rfl, Paints.refl h _ ?_⟩
    rintro x' y' _ _ ⟨e, _⟩; omega
  rw [if_pos ((isinrange_iff _ _).mpr hy)]
  have hoff : ∃ s, BMoffsethd b (max (min x1 x2) 0) y = .ok s := by
    have hr := h.rowoff_eq y
    norm_num at hr
    unfold BMoffsethd
    rw [h.bits_eq]
    norm_num [bmofhd1, hr]
  obtain ⟨s, hs⟩ := hoff
  rw [hs]
  simp only [ok_bind]
  rw [if_neg (by norm_num), if_neg (by norm_num), if_neg (by norm_num), if_pos trivial]
  obtain ⟨b', e, p⟩ := foldl_paints (W := W) (H := H) (bits := 1) (c := reduce 1 color)
    (fun b (x : Int) => plotxybit b x y color) (fun x x' y' => (x' : Int) = x ∧ (y' : Int) = y)
    (pyRange (max (min x1 x2) 0) (min (max x1 x2) ((W : Int) - 1) + 1))
    (fun b hb a _ => plot_paints hb a y (by omega)) h
  refine ⟨b', e, p.congr ?_⟩
  intro x' y' hx' hy'
  unfold HSeg pyRange
  simp only [List.mem_map, List.mem_range]
  constructor
  · rintro ⟨e1, e2, e3⟩
    exact ⟨(x' : Int), ⟨((x' : Int) - max (min x1 x2) 0).toNat, by omega, by omega⟩, rfl, e1⟩
  · rintro ⟨a, ⟨k, hk, rfl⟩, e2, e3⟩
    omega

theorem nibbles : ∀ c, c < 16 → 17 * c / 2 ^ 4 % 2 ^ 4 = c ∧ 17 * c / 2 ^ 0 % 2 ^ 4 = c := by decide

/-- Sixteen colours: one byte holds two pixels. -/
theorem horiline_4 {b : Bytes} {W H : Nat} (h : Valid b W H 4) {y x1 x2 color : Int} {a n : Nat}
    (ha : max (min x1 x2) 0 = (2 * a : Nat)) (hz : min (max x1 x2) ((W : Int) - 1) = (2 * a + 2 * n + 1 : Nat)) :
    ∃ b', horiline b y x1 x2 color = .ok b' ∧ Paints b b' W H 4 (HSeg y x1 x2) (reduce 4 color) := by
  unfold horiline
  rw [h.bits_eq, getmaxxy_eq h]
  simp only [ok_bind, swap_min, swap_max, setmin_eq, setmax_eq]
  by_cases hy : 0 ≤ y ∧ y < H
  swap
  · rw [if_neg (by rw [isinrange_iff]; exact hy)]
    refine ⟨b, rfl, Paints.refl h _ ?_⟩
    rintro x' y' _ _ ⟨e, _⟩; omega
  rw [if_pos ((isinrange_iff _ _).mpr hy)]
  obtain ⟨y0, rfl⟩ := Int.eq_ofNat_of_zero_le hy.1
  have hyH : y0 < H := by omega
  rw [ha, hz, h.BMoffsethd_eq (2 * a) y0 hyH]
  simp only [ok_bind]
  rw [if_neg (by norm_num), if_neg (by norm_num), if_pos trivial]
  have hdx : pyShr (((2 * a + 2 * n + 1 : Nat) : Int) - ((2 * a : Nat) : Int) + 1) 1 = ((n + 1 : Nat) : Int) := by
    rw [pyShr_1]; omega
  have hodd : ¬ (pyAnd ((2 * a : Nat) : Int) 1 = 1) := by rw [pyAnd_1]; omega
  have hx2 : pyAnd ((2 * a + 2 * n + 1 : Nat) : Int) 1 = 1 := by rw [pyAnd_1]; omega
  rw [hdx, if_neg hodd]
  simp only [ok_bind, pure_eq_ok]
  set c := reduce 4 color with hcdef
  have hc : c < 16 := reduce_lt (bits := 4) color
  have hcol : pyAnd color 15 = (c : Int) := by rw [pyAnd_15, hcdef, reduce_4]; omega
  have harr : mkArray (pyRepeat [pyShl (pyAnd color 15) 4 + pyAnd color 15] ((n + 1 : Nat) : Int))
      = .ok (List.replicate (n + 1) (17 * c)) := by
    rw [hcol]
    apply mkArray_ok
    · have e : pyShl (c : Int) 4 + (c : Int) = ((17 * c : Nat) : Int) := by simp [pyShl]; ring
      rw [e]
      unfold pyRepeat
      rw [List.map_replicate, Int.toNat_natCast]
      induction (n + 1) with
      | zero => rfl
      | succ k ih => rw [List.replicate_succ, List.flatten_cons, ih, List.replicate_succ]; rfl
    · intro v hv
      rw [List.mem_replicate] at hv; omega
  rw [harr]
  simp only [ok_bind]
  have hW : 2 * a + 2 * n + 1 < W := by omega
  have halast := addr_lt h hW hyH
  rw [if_neg (by omega)] at halast
  have hA : addr W H 4 (2 * a) y0 = addr W H 4 0 y0 + a := by rw [addr_same_row]; omega
  have hB : addr W H 4 (2 * a + 2 * n + 1) y0 = addr W H 4 0 y0 + a + n := by rw [addr_same_row]; omega
  have hfit : addr W H 4 (2 * a) y0 + (List.replicate (n + 1) (17 * c)).length ≤ b.length := by simp; omega
  rw [setSlice_ok (n := addr W H 4 (2 * a) y0) rfl (by simp) hfit]
  set b1 := ow b (addr W H 4 (2 * a) y0) (List.replicate (n + 1) (17 * c)) with hb1
  have hge := dataOff_ge 4
  have haddr : dataOff 4 ≤ addr W H 4 (2 * a) y0 := by unfold addr; omega
  have hv1 : Valid b1 W H 4 := valid_ow h (by omega) hfit (by intro v hv; rw [List.mem_replicate] at hv; omega)
  have hp1 : Paints b b1 W H 4 (HSeg y0 x1 x2) c := by
    have key : ∀ x' y', x' < W → y' < H → byte b1 (addr W H 4 x' y') =
        if y' = y0 ∧ 2 * a ≤ x' ∧ x' ≤ 2 * a + 2 * n + 1 then 17 * c else byte b (addr W H 4 x' y') := by
      intro x' y' hx' hy'
      rw [hb1, byte_ow hfit, byte_replicate]
      simp only [List.length_replicate]
      by_cases cy : y' = y0
      · subst cy
        have hX : addr W H 4 x' y' = addr W H 4 0 y' + x' / 2 := by rw [addr_same_row]; omega
        rw [hX, hA]
        by_cases cx : 2 * a ≤ x' ∧ x' ≤ 2 * a + 2 * n + 1
        · rw [if_pos (by omega), if_pos (by omega), if_pos ⟨rfl, cx⟩]
        · rw [if_neg (by omega), if_neg (by tauto)]
      · have g3 := row_disj (W := W) (H := H) (bits := 4) hy' hyH cy
        have g5 := addr_in_row (H := H) (y := y') h.depth hx'
        have g6 := addr_in_row (H := H) (y := y0) h.depth hW
        rw [if_neg (by omega)] at g5 g6
        rw [if_neg (by omega), if_neg (by tauto)]
    refine ⟨hv1, ⟨length_ow hfit, ?_⟩, ?_, ?_⟩
    · intro i hi; rw [hb1, byte_ow hfit, if_neg (by omega)]
    · rintro x' y' hx' hy' ⟨e1, e2, e3⟩
      rw [pix_eq, if_neg (by omega), key x' y' hx' hy', if_pos (by omega)]
      have : shiftOf 4 x' = 4 ∨ shiftOf 4 x' = 0 := by unfold shiftOf; omega
      rcases this with e | e <;> rw [e]
      · exact (nibbles c hc).1
      · exact (nibbles c hc).2
    · intro x' y' hx' hy' hs
      rw [pix_eq, pix_eq, if_neg (by omega), if_neg (by omega), key x' y' hx' hy', if_neg]
      rintro ⟨e1, e2, e3⟩
      apply hs
      unfold HSeg
      omega
  obtain ⟨b2, e2, p2⟩ := plot_paints (c := pyAnd color 15) hv1
    (((2 * a + 2 * n + 1 : Nat) : Int) - 1) (y0 : Int) (by omega)
  rw [show (-1 : Int) = -1 from rfl] at *
  refine ⟨b2, ?_, ?_⟩
  · rw [if_neg (by simp), if_pos hx2]
    exact e2
  · have hcc : reduce 4 (pyAnd color 15) = c := by rw [hcol, reduce_4]; omega
    rw [hcc] at p2
    apply hp1.trans p2
    intro x' y' hx' hy'
    unfold HSeg
    omega

/-- C19 where the code does it: on 1-bit images without restriction; on 8- and 24-bit images unless
the segment lies entirely to the left of the image, 20 or more pixels away; on 4-bit images if after clipping the left end
is even and the right end is odd. Missing: the full statement, for all integers and depths, is
false (`C19_left_truncates`, `C19_4bit_wrong`). -/
theorem C19_horiline_partial {b : Bytes} {W H bits : Nat} (h : Valid b W H bits) {y x1 x2 color : Int}
    (hc : IsColour bits color)
    (hok : bits = 1 ∨ ((bits = 8 ∨ bits = 24) ∧ -19 ≤ max x1 x2) ∨
      (bits = 4 ∧ ∃ a z : Nat, max (min x1 x2) 0 = (a : Int) ∧ min (max x1 x2) ((W : Int) - 1) = (z : Int) ∧
        a ≤ z ∧ a % 2 = 0 ∧ z % 2 = 1)) :
    ∃ b', horiline b y x1 x2 color = .ok b' ∧ Paints b b' W H bits (HSeg y x1 x2) color.toNat := by
  have hred := reduce_of_colour h.depth hc
  rw [← hred]
  rcases hok with rfl | ⟨hb, hl⟩ | ⟨rfl, a, z, h1, h2, h3, h4, h5⟩
  · exact horiline_1 h y x1 x2 color
  · exact horiline_8_24 h hb (fun e => by subst e; exact hc) hl
  · refine horiline_4 h (a := a / 2) (n := (z - a) / 2) ?_ ?_
    · rw [h1]; congr 1; omega
    · rw [h2]; congr 1; omega

/-- C19, rows outside the image: nothing happens, in every depth. -/
theorem C19_row_outside {b : Bytes} {W H bits : Nat} (h : Valid b W H bits) {y x1 x2 color : Int}
    (hy : y < 0 ∨ (H : Int) ≤ y) : horiline b y x1 x2 color = .ok b := by
  unfold horiline
  rw [h.bits_eq, getmaxxy_eq h]
  simp only [ok_bind]
  rw [if_neg (by rw [isinrange_iff]; omega)]
  rfl

/-- C19 is false for segments far to the left of an 8- or 24-bit image: the slice assignment
deletes bytes, the file gets shorter. -/
theorem C19_left_truncates :
    (do let b ← newBMP 1 40 24; let b' ← horiline b 39 (-31) (-30) 0
        pure (b.length, b'.length)) = .ok (214, 87) := by decide +kernel

/-- C19 is false on 4-bit images: a line from 1 to 1 paints pixel 0 instead of pixel 1, and a line
from 0 to 2 leaves out pixel 2. -/
theorem C19_4bit_wrong :
    (do let b ← newBMP 4 1 4; let b ← horiline b 0 1 1 9; pure (← getxybit b 0 0, ← getxybit b 1 0)) = .ok (9, 0) ∧
    (do let b ← newBMP 4 1 4; let b ← horiline b 0 0 2 9; getxybit b 2 0) = .ok 0 := by decide +kernel

example : (do let b ← newBMP 5 3 24; let b ← horiline b 1 7 2 0x010203
              pure (← getxybit b 1 1, ← getxybit b 2 1, ← getxybit b 4 1, ← getxybit b 2 2)) =
    .ok (0, 0x010203, 0x010203, 0) := by decide +kernel

/-! ### Vertical lines -/

theorem vertline_1_4 {b : Bytes} {W H bits : Nat} (h : Valid b W H bits) (hb : bits = 1 ∨ bits = 4) (x y1 y2 color : Int) :
    ∃ b', vertline b x y1 y2 color = .ok b' ∧ Paints b b' W H bits (VSeg x y1 y2) (reduce bits color) := by
  unfold vertline
  rw [h.bits_eq]
  simp only [ok_bind, swap_min, swap_max]
  rw [if_pos (by omega)]
  obtain ⟨b', e, p⟩ := foldl_paints (W := W) (H := H) (bits := bits) (c := reduce bits color)
    (fun b (y : Int) => plotxybit b x y color) (fun y x' y' => (x' : Int) = x ∧ (y' : Int) = y)
    (pyRange (min y1 y2) (max y1 y2 + 1))
    (fun b hb a _ => plot_paints hb x a (by omega)) h
  refine ⟨b', e, p.congr ?_⟩
  intro x' y' hx' hy'
  unfold VSeg pyRange
  simp only [List.mem_map, List.mem_range]
  constructor
  · rintro ⟨e1, e2, e3⟩
    exact ⟨(y' : Int), ⟨((y' : Int) - min y1 y2).toNat, by omega, by omega⟩, e1, rfl⟩
  · rintro ⟨a, ⟨k, hk, rfl⟩, e2, e3⟩
    omega

theorem mkArray_replicate {v : Int} {w : Nat} (hv : v = w) (hw : w < 256) (n : Int) :
    mkArray (pyRepeat [v] n) = .ok (List.replicate n.toNat w) := by
  subst hv
  apply mkArray_ok
  · unfold pyRepeat
    rw [List.map_replicate]
    induction n.toNat with
    | zero => rfl
    | succ k ih => rw [List.replicate_succ, List.flatten_cons, ih, List.replicate_succ]; rfl
  · intro v hv; rw [List.mem_replicate] at hv; omega

theorem vertline_8_24 {b : Bytes} {W H bits : Nat} (h : Valid b W H bits) (hb : bits = 8 ∨ bits = 24)
    {x y1 y2 color : Int} (hc : bits = 24 → 0 ≤ color ∧ color < 2 ^ 24) (hbelow : min y1 y2 < H) :
    ∃ b', vertline b x y1 y2 color = .ok b' ∧ Paints b b' W H bits (VSeg x y1 y2) (reduce bits color) := by
  unfold vertline
  rw [h.bits_eq, h.xchrcnt_eq, getmaxxy_eq h]
  simp only [ok_bind, swap_min, swap_max, setmin_eq, setmax_eq]
  rw [if_neg (by omega)]
  by_cases hx : 0 ≤ x ∧ x < W
  swap
  · rw [if_neg (by rw [isinrange_iff]; exact hx)]
    refine ⟨b, rfl, Paints.refl h _ ?_⟩
    rintro x' y' _ _ ⟨e, _⟩; omega
  rw [if_pos ((isinrange_iff _ _).mpr hx)]
  obtain ⟨x0, rfl⟩ := Int.eq_ofNat_of_zero_le hx.1
  have hxW : x0 < W := by omega
  have hr := rowLen_pos (bits := bits) (show 0 < W by omega) h.depth
  by_cases hm : max (min y1 y2) 0 ≤ min (max y1 y2) ((H : Int) - 1)
  · obtain ⟨lo, hlo⟩ := Int.eq_ofNat_of_zero_le (show 0 ≤ max (min y1 y2) 0 by omega)
    obtain ⟨hi, hhi⟩ := Int.eq_ofNat_of_zero_le (show 0 ≤ min (max y1 y2) ((H : Int) - 1) by omega)
    have hle : lo ≤ hi := by omega
    have hH : hi < H := by omega
    rw [hlo, hhi, h.BMoffsethd_eq x0 hi hH, h.BMoffsethd_eq x0 lo (by omega)]
    simp only [ok_bind]
    have hdy : (hi : Int) - (lo : Int) + 1 = ((hi - lo + 1 : Nat) : Int) := by omega
    rw [hdy]
    have hlo2 : addr W H bits x0 lo = addr W H bits x0 hi + (hi - lo) * rowLen W bits := by
      have := addr_col (W := W) (H := H) (bits := bits) (x := x0) hH (hi - lo) (by omega)
      rwa [show hi - (hi - lo) = lo by omega] at this
    have ha := addr_lt h hxW (y := lo) (by omega)
    have hmul : (hi - lo + 1) * rowLen W bits = (hi - lo) * rowLen W bits + rowLen W bits := by ring
    rcases hb with rfl | rfl
    · rw [if_neg (by norm_num)]
      rw [if_neg (by norm_num)] at ha
      rw [mkArray_replicate (w := reduce 8 color) (by rw [reduce_8]; omega) (reduce_lt (bits := 8) color)]
      simp only [ok_bind, Int.toNat_natCast]
      obtain ⟨g1, g2, g3⟩ := col_channel (t0 := 0) h (Or.inl rfl) hxW hle hH (by decide)
        (buf := List.replicate (hi - lo + 1) (reduce 8 color))
        (by intro v hv; rw [List.mem_replicate] at hv; have := reduce_lt (bits := 8) color; omega) (by simp)
      refine ⟨_, setSliceStep_ok (n := addr W H 8 x0 hi) (eN := addr W H 8 x0 lo + rowLen W 8) rfl (by push_cast; rfl)
        (by omega) (by simp) (by simp; omega) (by simp; omega) (by simp; omega), ?_⟩
      rw [Nat.add_zero] at g1 g2 g3
      refine ⟨g1, g2, ?_, ?_⟩
      · rintro x' y' hx' hy' ⟨e1, e2, e3⟩
        have k0 := g3 x' y' 0 hx' hy' (by decide)
        simp only [Nat.add_zero] at k0
        rw [if_pos ⟨by omega, trivial, by omega, by omega⟩, byte_replicate, if_pos (by omega)] at k0
        rw [pix_bytes g1 (Or.inl rfl), if_neg (by norm_num), k0]
      · intro x' y' hx' hy' hs
        have k0 := g3 x' y' 0 hx' hy' (by decide)
        simp only [Nat.add_zero] at k0
        rw [if_neg (by rintro ⟨_, _, _, _⟩; unfold VSeg at hs; omega)] at k0
        rw [pix_bytes g1 (Or.inl rfl), if_neg (by norm_num), k0, pix_bytes h (Or.inl rfl), if_neg (by norm_num)]
    · rw [if_pos rfl]
      rw [if_pos rfl] at ha
      obtain ⟨h0, h1⟩ := hc rfl
      rw [reduce_24 h0 h1]
      obtain ⟨c, rfl⟩ := Int.eq_ofNat_of_zero_le h0
      have hc' : c < 16777216 := by norm_num at h1; omega
      rw [Int.toNat_natCast]
      rw [mkArray_replicate (w := c % 256) (by simp only [int2RGB]; rw [pyAnd_255]; omega) (by omega),
        mkArray_replicate (w := c / 256 % 256) (by simp only [int2RGB]; rw [pyAnd_255, pyShr_8]; omega) (by omega),
        mkArray_replicate (w := c / 65536) (by simp only [int2RGB]; rw [pyShr_16]; omega) (by omega)]
      simp only [ok_bind, Int.toNat_natCast]
      have hbytes : ∀ w, w < 256 → ∀ v ∈ List.replicate (hi - lo + 1) w, v < 256 := by
        intro w hw v hv; rw [List.mem_replicate] at hv; omega
      have hE : (addr W H 24 x0 lo : Int) + (rowLen W 24 : Int) = ((addr W H 24 x0 lo + rowLen W 24 : Nat) : Int) := by
        push_cast; rfl
      rw [hE]
      obtain ⟨g1, g2, g3⟩ := col_channel (t0 := 0) h (Or.inr rfl) hxW hle hH (by decide)
        (buf := List.replicate (hi - lo + 1) (c % 256)) (hbytes _ (by omega)) (by simp)
      rw [setSliceStep_ok (s := (addr W H 24 x0 hi : Int)) (n := addr W H 24 x0 hi + 0) (eN := addr W H 24 x0 lo + rowLen W 24 - 2) rfl (by omega)
        (by omega) (by simp) (by simp; omega) (by simp; omega) (by simp; omega)]
      simp only [ok_bind]
      set b1 := writeStride b (addr W H 24 x0 hi + 0) (rowLen W 24) (List.replicate (hi - lo + 1) (c % 256)) with hb1
      obtain ⟨k1, k2, k3⟩ := col_channel (t0 := 1) g1 (Or.inr rfl) hxW hle hH (by decide)
        (buf := List.replicate (hi - lo + 1) (c / 256 % 256)) (hbytes _ (by omega)) (by simp)
      rw [setSliceStep_ok (b := b1) (n := addr W H 24 x0 hi + 1) (eN := addr W H 24 x0 lo + rowLen W 24 - 1)
        (by push_cast; rfl) (by omega) (by omega) (by simp) (by simp; omega) (by simp; omega)
        (by rw [g2.1]; simp; omega)]
      simp only [ok_bind]
      set b2 := writeStride b1 (addr W H 24 x0 hi + 1) (rowLen W 24) (List.replicate (hi - lo + 1) (c / 256 % 256)) with hb2
      obtain ⟨l1, l2, l3⟩ := col_channel (t0 := 2) k1 (Or.inr rfl) hxW hle hH (by decide)
        (buf := List.replicate (hi - lo + 1) (c / 65536)) (hbytes _ (by omega)) (by simp)
      refine ⟨_, setSliceStep_ok (b := b2) (n := addr W H 24 x0 hi + 2) (eN := addr W H 24 x0 lo + rowLen W 24)
        (by push_cast; rfl) (by omega) (by omega) (by simp) (by simp; omega) (by simp; omega)
        (by rw [k2.1, g2.1]; simp; omega), l1, ?_, ?_, ?_⟩
      · exact ⟨l2.1.trans (k2.1.trans g2.1), fun i hi =>
          (l2.2 i hi).trans ((k2.2 i hi).trans (g2.2 i hi))⟩
      · rintro x' y' hx' hy' ⟨e1, e2, e3⟩
        have q : ∀ t, t < 3 → _ := fun t ht => l3 x' y' t hx' hy' ht
        have q0 := q 0 (by omega); have q1 := q 1 (by omega); have q2 := q 2 (by omega)
        rw [if_neg (by omega), k3 x' y' 0 hx' hy' (by decide), if_neg (by omega), g3 x' y' 0 hx' hy' (by decide),
          if_pos (by omega), byte_replicate, if_pos (by omega)] at q0
        simp only [Nat.add_zero] at q0
        rw [if_neg (by omega), k3 x' y' 1 hx' hy' (by decide), if_pos (by omega), byte_replicate, if_pos (by omega)] at q1
        rw [if_pos (by omega), byte_replicate, if_pos (by omega)] at q2
        rw [pix_bytes l1 (Or.inr rfl), if_pos rfl, q0, q1, q2]
        omega
      · intro x' y' hx' hy' hs
        have hn : ∀ t, ¬ (x' = x0 ∧ t ∧ lo ≤ y' ∧ y' ≤ hi) := by
          intro t; unfold VSeg at hs; omega
        have q : ∀ t, t < 3 → byte _ (addr W H 24 x' y' + t) = byte b (addr W H 24 x' y' + t) := fun t ht => by
          rw [l3 x' y' t hx' hy' ht, if_neg (hn _), k3 x' y' t hx' hy' ht, if_neg (hn _), g3 x' y' t hx' hy' ht, if_neg (hn _)]
        have q0 := q 0 (by omega)
        simp only [Nat.add_zero] at q0
        rw [pix_bytes l1 (Or.inr rfl), pix_bytes h (Or.inr rfl), if_pos rfl, if_pos rfl, q0, q 1 (by omega), q 2 (by omega)]
  · -- entirely above the image: empty slices
    refine ⟨b, ?_, Paints.refl h _ ?_⟩
    · have hy2 : min (max y1 y2) ((H : Int) - 1) ≤ -1 := by omega
      rw [BMoffsethd_int h hb, BMoffsethd_int h hb]
      simp only [ok_bind]
      have hl := h.len
      have hlow : (H : Int) * (rowLen W bits : Int) ≤
          ((H : Int) - min (max y1 y2) ((H : Int) - 1) - 1) * (rowLen W bits : Int) :=
        Int.mul_le_mul_of_nonneg_right (by omega) (by omega)
      have hlen : (b.length : Int) = (dataOff bits : Int) + (H : Int) * (rowLen W bits : Int) := by
        rw [hl]; push_cast; rfl
      have empty : ∀ (t : Nat) (e : Int), setSliceStep b ((dataOff bits : Int) +
          ((H : Int) - min (max y1 y2) ((H : Int) - 1) - 1) * (rowLen W bits : Int) + (bpp bits : Int) * (x0 : Int) + (t : Int)) e
          ((rowLen W bits : Int)).toNat [] = .ok b := by
        intro t e
        have hb0 : 0 ≤ (bpp bits : Int) * (x0 : Int) := by positivity
        generalize hsdef : (dataOff bits : Int) +
          ((H : Int) - min (max y1 y2) ((H : Int) - 1) - 1) * (rowLen W bits : Int) + (bpp bits : Int) * (x0 : Int) + (t : Int) = s
        have hs : (b.length : Int) ≤ s := by omega
        unfold setSliceStep
        rw [if_neg (by omega), if_neg (by omega)]
        have : clampIdx b.length s = b.length := by unfold clampIdx; rw [if_neg (by omega)]; omega
        simp only [this]
        have hc : clampIdx b.length e ≤ b.length := by unfold clampIdx; split_ifs <;> omega
        have : stepCount b.length (clampIdx b.length e) ((rowLen W bits : Int)).toNat = 0 := by
          unfold stepCount; rw [if_neg (by omega)]
        rw [this]
        rfl
      rw [pyRepeat_neg _ (by omega), pyRepeat_neg _ (by omega), pyRepeat_neg _ (by omega), pyRepeat_neg _ (by omega)]
      have hnil : mkArray [] = .ok [] := rfl
      rw [hnil]
      simp only [ok_bind]
      have e0 := empty 0
      have e1 := empty 1
      have e2 := empty 2
      norm_num only [Nat.cast_zero, Nat.cast_one, Nat.cast_ofNat, add_zero] at e0 e1 e2
      split_ifs
      · rw [e0]; simp only [ok_bind]; rw [e1]; simp only [ok_bind]; rw [e2]
      · rw [e0]
    · rintro x' y' _ hy' ⟨_, e2, e3⟩
      omega

/-- C20 unless the segment lies entirely below an 8- or 24-bit image. Missing: segments below. Nothing happens to those
that are not too far below (`C20_below`); for rows far below, bytes of the file are deleted (`C20_below_deletes`), so the
full statement is false. -/
theorem C20_vertline_partial {b : Bytes} {W H bits : Nat} (h : Valid b W H bits) {x y1 y2 color : Int}
    (hc : IsColour bits color) (hok : bits = 1 ∨ bits = 4 ∨ min y1 y2 < H) :
    ∃ b', vertline b x y1 y2 color = .ok b' ∧ Paints b b' W H bits (VSeg x y1 y2) color.toNat := by
  have hred := reduce_of_colour h.depth hc
  rw [← hred]
  by_cases hb : bits = 1 ∨ bits = 4
  · exact vertline_1_4 h hb x y1 y2 color
  · have hb' : bits = 8 ∨ bits = 24 := by rcases h.depth with e | e | e | e <;> omega
    exact vertline_8_24 h hb' (fun e => by subst e; exact hc) (by omega)

/-- C20 below an 8- or 24-bit image: nothing changes as long as the rows do not reach back before the start of the file. -/
theorem C20_below {b : Bytes} {W H bits : Nat} (h : Valid b W H bits) (hb : bits = 8 ∨ bits = 24) {x y1 y2 color : Int}
    (hy : (H : Int) ≤ min y1 y2) (hn : (min y1 y2 - H) * rowLen W bits ≤ dataOff bits - 2) :
    vertline b x y1 y2 color = .ok b := by
  unfold vertline
  rw [h.bits_eq, h.xchrcnt_eq, getmaxxy_eq h]
  simp only [ok_bind, swap_min, swap_max, setmin_eq, setmax_eq]
  rw [if_neg (by omega)]
  by_cases hx : 0 ≤ x ∧ x < W
  swap
  · rw [if_neg (by rw [isinrange_iff]; exact hx)]; rfl
  rw [if_pos ((isinrange_iff _ _).mpr hx)]
  obtain ⟨x0, rfl⟩ := Int.eq_ofNat_of_zero_le hx.1
  have hr := rowLen_pos (bits := bits) (show 0 < W by omega) h.depth
  have hr4 : 4 ∣ rowLen W bits := Nat.dvd_mul_left _ _
  rw [show max (min y1 y2) 0 = min y1 y2 by omega, show min (max y1 y2) ((H : Int) - 1) = (H : Int) - 1 by omega]
  rw [BMoffsethd_int h hb, BMoffsethd_int h hb]
  simp only [ok_bind]
  rw [pyRepeat_neg _ (by omega), pyRepeat_neg _ (by omega), pyRepeat_neg _ (by omega), pyRepeat_neg _ (by omega)]
  have hnil : mkArray [] = .ok [] := rfl
  rw [hnil]
  simp only [ok_bind]
  have hb0 : 0 ≤ (bpp bits : Int) * (x0 : Int) := by positivity
  have hm : 0 ≤ (min y1 y2 - H) * (rowLen W bits : Int) := Int.mul_nonneg (by omega) (by omega)
  generalize hs : (dataOff bits : Int) + ((H : Int) - ((H : Int) - 1) - 1) * (rowLen W bits : Int) + (bpp bits : Int) * (x0 : Int) = s
  generalize he : (dataOff bits : Int) + ((H : Int) - min y1 y2 - 1) * (rowLen W bits : Int) + (bpp bits : Int) * (x0 : Int) = e0
  have e1 : s = dataOff bits + (bpp bits : Int) * (x0 : Int) := by rw [← hs]; ring
  have e2 : e0 + rowLen W bits = dataOff bits - (min y1 y2 - H) * (rowLen W bits : Int) + (bpp bits : Int) * (x0 : Int) := by
    rw [← he]; ring
  have empty : ∀ s e : Int, 0 ≤ e → e ≤ s → setSliceStep b s e ((rowLen W bits : Int)).toNat [] = .ok b := by
    intro s e h1 h2
    unfold setSliceStep
    rw [if_neg (by omega), if_neg (by omega)]
    have : stepCount (clampIdx b.length s) (clampIdx b.length e) ((rowLen W bits : Int)).toNat = 0 := by
      unfold stepCount clampIdx
      split_ifs <;> omega
    dsimp only
    rw [this]
    rfl
  split_ifs
  · rw [empty _ _ (by omega) (by omega)]; simp only [ok_bind]
    rw [empty _ _ (by omega) (by omega)]; simp only [ok_bind]
    rw [empty _ _ (by omega) (by omega)]
  · rw [empty _ _ (by omega) (by omega)]

/-- C20 is false for rows far below an 8- or 24-bit image: the end of the extended slice is counted from the end of the
file, nothing is assigned to the slice, and CPython deletes the bytes in it. -/
theorem C20_below_deletes :
    (do let b ← newBMP 1 20 24; let b' ← vertline b 0 50 51 0; pure (b.length, b'.length)) = .ok (134, 126) := by decide +kernel

example : (do let b ← newBMP 3 4 24; let b ← vertline b 1 9 2 0x010203
              pure (← getxybit b 1 1, ← getxybit b 1 2, ← getxybit b 1 3, ← getxybit b 2 3)) =
    .ok (0, 0x010203, 0x010203, 0) := by decide +kernel

end Verif.Props
