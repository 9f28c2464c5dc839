import Verif.Props.Line4
/-! Properties C19 and C27 with one statement for all depths: horizontal lines and discs, with the exact effect on 4-bit images
for every position near the image. All figures that consist of lines and discs are built on these two. -/

namespace Verif.Props
open Verif Spec Model

/-! ### Rows -/

/-- What `horiline` paints on a 4-bit image of width `W`, after the ends have been clipped: all pixels but the last; the last one
only between an even and an odd column; the pixel before a single odd column; and for segments wholly to the right
of an image of even width the last pixel but one. -/
def Row4 (W : Nat) (y x1 x2 : Int) (px py : Nat) : Prop :=
  (py : Int) = y ∧
    ((max (min x1 x2) 0 ≤ px ∧ (px : Int) < min (max x1 x2) ((W : Int) - 1)) ∨
     ((px : Int) = min (max x1 x2) ((W : Int) - 1) ∧ max (min x1 x2) 0 ≤ px ∧ max (min x1 x2) 0 % 2 = 0 ∧ px % 2 = 1) ∨
     (max (min x1 x2) 0 = min (max x1 x2) ((W : Int) - 1) ∧ max (min x1 x2) 0 % 2 = 1 ∧ (px : Int) + 1 = max (min x1 x2) 0) ∨
     ((W : Int) ≤ min x1 x2 ∧ W % 2 = 0 ∧ px + 2 = W))

/-- What `horiline` paints: the segment, except on 4-bit images. -/
def RowSet (W bits : Nat) (y x1 x2 : Int) (px py : Nat) : Prop :=
  if bits = 4 then Row4 W y x1 x2 px py else HSeg y x1 x2 px py

/-- The segments that do not lie too far away from the image. -/
def RowOK (W bits : Nat) (x1 x2 : Int) : Prop :=
  bits = 1 ∨ (bits = 4 ∧ -237 ≤ max x1 x2 ∧ (min x1 x2 < 2 * rowLen W 4 ∨ min x1 x2 % 2 = 0)) ∨ ((bits = 8 ∨ bits = 24) ∧ -19 ≤ max x1 x2)

theorem horiline_4_right {b : Bytes} {W H : Nat} (h : Valid b W H 4) {y x1 x2 color : Int}
    (hr : (W : Int) ≤ min x1 x2) (hm : min x1 x2 < 2 * rowLen W 4 ∨ min x1 x2 % 2 = 0) :
    ∃ b', horiline b y x1 x2 color = .ok b' ∧
      Paints b b' W H 4 (fun px py => (py : Int) = y ∧ W % 2 = 0 ∧ px + 2 = W) (reduce 4 color) := by
  unfold horiline
  rw [h.bits_eq, getmaxxy_eq h]
  simp only [ok_bind, swap_min, swap_max, setmin_eq, setmax_eq]
  by_cases hy : 0 ≤ y ∧ y < H
  swap
  · rw [if_neg (by rw [isinrange_iff]; exact hy)]
    refine ⟨b, rfl, Paints.refl h _ ?_⟩
    rintro x' y' _ _ ⟨e, _⟩; omega
  rw [if_pos ((isinrange_iff _ _).mpr hy)]
  obtain ⟨y0, rfl⟩ := Int.eq_ofNat_of_zero_le hy.1
  have hyH : y0 < H := by omega
  obtain ⟨a, ha⟩ := Int.eq_ofNat_of_zero_le (show 0 ≤ max (min x1 x2) 0 by omega)
  have hz : min (max x1 x2) ((W : Int) - 1) = (W : Int) - 1 := by omega
  rw [ha, hz, h.BMoffsethd_eq a y0 hyH]
  simp only [ok_bind]
  rw [if_neg (by norm_num), if_neg (by norm_num), if_pos trivial]
  have hdx : pyShr ((W : Int) - 1 - (a : Int) + 1) 1 ≤ 0 := by rw [pyShr_1]; omega
  have hlow : -(a : Int) / 2 ≤ pyShr ((W : Int) - 1 - (a : Int) + 1) 1 := by rw [pyShr_1]; omega
  rw [pyRepeat_neg _ hdx]
  simp only [mkArray, List.all_nil, if_true, List.map_nil, ok_bind, pure_eq_ok]
  have hge := dataOff_ge 4
  have haddr : addr W H 4 a y0 = dataOff 4 + (H - 1 - y0) * rowLen W 4 + a / 2 := by unfold addr rel; omega
  have hlt : a % 2 = 1 → addr W H 4 a y0 < b.length := by
    intro ho
    rw [haddr, h.len]
    have : (H - 1 - y0) * rowLen W 4 + rowLen W 4 ≤ H * rowLen W 4 := by
      rw [← Nat.succ_mul]; exact Nat.mul_le_mul_right _ (by omega)
    omega
  have hsl : setSlice b (addr W H 4 a y0 : Int) ((addr W H 4 a y0 : Int) + pyShr ((W : Int) - 1 - (a : Int) + 1) 1) [] = b := by
    apply setSlice_empty <;> omega
  have hcc : reduce 4 (pyAnd color 15) = reduce 4 color := by
    rw [pyAnd_15, reduce_4, reduce_4]; omega
  have last : ∃ b', (if pyAnd ((W : Int) - 1) 1 = 1 then plotxybit b ((W : Int) - 1 - 1) (y0 : Int) (pyAnd color 15) else .ok b) = .ok b' ∧
      Paints b b' W H 4 (fun px py => (py : Int) = y0 ∧ W % 2 = 0 ∧ px + 2 = W) (reduce 4 color) := by
    by_cases he : W % 2 = 0
    · obtain ⟨b3, e3, p3⟩ := plot_paints (c := pyAnd color 15) h ((W : Int) - 1 - 1) (y0 : Int) (by omega)
      refine ⟨b3, ?_, ?_⟩
      · rw [if_pos (by rw [pyAnd_1]; omega)]; exact e3
      · rw [hcc] at p3
        exact p3.congr fun px py _ _ => by omega
    · refine ⟨b, ?_, Paints.refl h _ ?_⟩
      · rw [if_neg (by rw [pyAnd_1]; omega)]
      · rintro px py _ _ ⟨_, g, _⟩; exact he g
  by_cases ho : a % 2 = 1
  · replace hlt := hlt ho
    rw [if_pos (by rw [pyAnd_1]; omega), getItem_ok rfl hlt]
    simp only [ok_bind]
    rw [hsl, if_pos (by omega), getItem_ok rfl hlt]
    simp only [ok_bind]
    have hb : byte b (addr W H 4 a y0) < 256 := byte_lt_of_mem h.bytes _
    rw [show ((byte b (addr W H 4 a y0) &&& 240 : Nat) : Int) + ((byte b (addr W H 4 a y0) &&& 15 : Nat) : Int) =
      (byte b (addr W H 4 a y0) : Int) by rw [and_f0 _ hb, and_0f]; omega, setItem_ok rfl hlt rfl hb]
    rw [show b.set (addr W H 4 a y0) (byte b (addr W H 4 a y0)) = b from ?_]
    · exact last
    · apply List.ext_getElem (by simp)
      intro i h1 h2
      rw [List.getElem_set]
      split_ifs with g
      · subst g; unfold byte; rw [List.getD_eq_getElem?_getD, List.getElem?_eq_getElem h2]; rfl
      · rfl
  · rw [if_neg (by rw [pyAnd_1]; omega)]
    rw [hsl, if_neg (by simp)]
    exact last

theorem horiline_4_left {b : Bytes} {W H : Nat} (h : Valid b W H 4) {y x1 x2 color : Int}
    (h0 : min x1 x2 ≤ 0) (hl : min (max x1 x2) ((W : Int) - 1) < 0) (hm : -237 ≤ max x1 x2) :
    ∃ b', horiline b y x1 x2 color = .ok b' ∧ Paints b b' W H 4 (fun _ _ => False) (reduce 4 color) := by
  unfold horiline
  rw [h.bits_eq, getmaxxy_eq h]
  simp only [ok_bind, swap_min, swap_max, setmin_eq, setmax_eq]
  by_cases hy : 0 ≤ y ∧ y < H
  swap
  · rw [if_neg (by rw [isinrange_iff]; exact hy)]
    exact ⟨b, rfl, Paints.refl h _ (by simp)⟩
  rw [if_pos ((isinrange_iff _ _).mpr hy)]
  obtain ⟨y0, rfl⟩ := Int.eq_ofNat_of_zero_le hy.1
  have hyH : y0 < H := by omega
  rw [show max (min x1 x2) 0 = ((0 : Nat) : Int) by omega, h.BMoffsethd_eq 0 y0 hyH]
  obtain ⟨z, hz⟩ : ∃ z, min (max x1 x2) ((W : Int) - 1) = z := ⟨_, rfl⟩
  rw [hz] at hl
  rw [hz]
  have hz' : -237 ≤ z := by omega
  simp only [ok_bind]
  rw [if_neg (by norm_num), if_neg (by norm_num), if_pos trivial]
  have hdx : pyShr (z - ((0 : Nat) : Int) + 1) 1 ≤ 0 := by rw [pyShr_1]; omega
  have hlow : -118 ≤ pyShr (z - ((0 : Nat) : Int) + 1) 1 := by rw [pyShr_1]; omega
  rw [pyRepeat_neg _ hdx]
  simp only [mkArray, List.all_nil, if_true, List.map_nil, ok_bind, pure_eq_ok]
  have hge : dataOff 4 = 118 := by decide
  have haddr : addr W H 4 0 y0 = dataOff 4 + (H - 1 - y0) * rowLen W 4 := by unfold addr rel; omega
  rw [if_neg (by rw [pyAnd_1]; omega)]
  rw [setSlice_empty (by omega) (by omega), if_neg (by simp)]
  by_cases he : z % 2 = 1
  · obtain ⟨b3, e3, p3⟩ := plot_paints (c := pyAnd color 15) h (z - 1) (y0 : Int) (by omega)
    refine ⟨b3, ?_, ?_⟩
    · rw [if_pos (by rw [pyAnd_1]; omega)]; exact e3
    · have hcc : reduce 4 (pyAnd color 15) = reduce 4 color := by
        rw [pyAnd_15, reduce_4, reduce_4]; omega
      rw [hcc] at p3
      exact p3.congr fun px py _ _ => by show False ↔ _; rw [false_iff]; omega
  · refine ⟨b, ?_, Paints.refl h _ (by simp)⟩
    rw [if_neg (by rw [pyAnd_1]; omega)]

/-- C19 for all depths: `horiline` paints the segment, on 4-bit images what `Row4` says. Excluded are segments
so far to the left that the code deletes bytes (`C19_left_truncates`) and 4-bit segments so far to the right that they are outside
the file. -/
theorem C19_horiline_depths {b : Bytes} {W H bits : Nat} (h : Valid b W H bits) {y x1 x2 color : Int}
    (hc : IsColour bits color) (hok : RowOK W bits x1 x2) :
    ∃ b', horiline b y x1 x2 color = .ok b' ∧ Paints b b' W H bits (RowSet W bits y x1 x2) color.toNat := by
  rcases hok with rfl | ⟨rfl, h1, h2⟩ | ⟨hb, hl⟩
  · exact C19_horiline_partial h hc (.inl rfl)
  · rw [← reduce_of_colour h.depth hc]
    by_cases cr : (W : Int) ≤ min x1 x2
    · obtain ⟨b', e, p⟩ := horiline_4_right h (y := y) (color := color) cr h2
      refine ⟨b', e, p.congr fun px py hx hy => ?_⟩
      unfold RowSet Row4
      rw [if_pos rfl]
      omega
    · by_cases cl : min (max x1 x2) ((W : Int) - 1) < 0
      · obtain ⟨b', e, p⟩ := horiline_4_left h (y := y) (color := color) (by omega) cl h1
        refine ⟨b', e, p.congr fun px py hx hy => ?_⟩
        unfold RowSet Row4
        rw [if_pos rfl]
        show _ ↔ False
        rw [iff_false]
        omega
      · obtain ⟨a, ha⟩ := Int.eq_ofNat_of_zero_le (show 0 ≤ max (min x1 x2) 0 by omega)
        obtain ⟨z, hz⟩ := Int.eq_ofNat_of_zero_le (show 0 ≤ min (max x1 x2) ((W : Int) - 1) by omega)
        obtain ⟨b', e, p⟩ := C19_horiline_4bit h (y := y) (color := color) ha hz (by omega)
        refine ⟨b', e, p.congr fun px py hx hy => ?_⟩
        unfold RowSet Row4 Nib
        rw [if_pos rfl, ha, hz]
        omega
  · have p := C19_horiline_partial h (y := y) (x1 := x1) (x2 := x2) hc (.inr (.inl ⟨hb, hl⟩))
    obtain ⟨b', e, p⟩ := p
    refine ⟨b', e, p.congr fun px py _ _ => ?_⟩
    unfold RowSet
    rw [if_neg (by omega)]

/-- Segments that meet the image can be drawn. -/
theorem rowOK_of_meets {W bits : Nat} (hd : Depth bits) {x1 x2 : Int} (h1 : 0 ≤ max x1 x2) (h2 : min x1 x2 < W) : RowOK W bits x1 x2 := by
  have : W ≤ 2 * rowLen W 4 := by unfold rowLen; omega
  unfold RowOK
  rcases hd with g | g | g | g <;> omega

/-- On images of 1, 8 or 24 bits the row is the segment. -/
theorem rowSet_of_ne {W bits : Nat} (h4 : bits ≠ 4) (y x1 x2 : Int) (px py : Nat) : RowSet W bits y x1 x2 px py ↔ HSeg y x1 x2 px py := by
  unfold RowSet; rw [if_neg h4]

/-- On 4-bit images it is the segment if its clipped left end is even and its clipped right end odd. -/
theorem rowSet_aligned {W : Nat} {y x1 x2 : Int} (h1 : 0 ≤ max x1 x2) (h2 : min x1 x2 < W) (ha : max (min x1 x2) 0 % 2 = 0)
    (hz : min (max x1 x2) ((W : Int) - 1) % 2 = 1) {px : Nat} (hp : px < W) (py : Nat) :
    RowSet W 4 y x1 x2 px py ↔ HSeg y x1 x2 px py := by
  unfold RowSet Row4 HSeg
  rw [if_pos rfl]
  omega

example : (do
    let b ← newBMP 8 3 4
    let b ← horiline b 0 10 11 9
    let b ← horiline b 1 (-100) (-50) 9
    let b ← horiline b 2 (-3) 4 9
    pure ((← getxybit b 6 0, ← getxybit b 7 0, ← getxybit b 0 1, ← getxybit b 3 2, ← getxybit b 4 2))) = .ok (9, 0, 0, 9, 0) := by
  decide +kernel

/-- Segments farther to the right raise an error: on an image of 8 columns a line from 9 to 11 in the first row. -/
theorem C19_4bit_right_error :
    (do let b ← newBMP 8 3 4; horiline b 0 9 11 9) = .error .indexError := by decide +kernel

/-! ### Discs -/

/-- What `filledcircle` paints: the disc, on 4-bit images each row of it as `horiline` does. -/
def Mark (W bits : Nat) (x y r : Int) (px py : Nat) : Prop :=
  if bits = 4 then ∃ hw, HalfWidth r hw |(py : Int) - y| ∧ Row4 W py (x - hw) (x + hw) px py else DiscSet x y r px py

/-- The places for which `Mark` describes a filled circle around column `x`. -/
def PenOK (W bits : Nat) (x : Int) : Prop :=
  bits = 1 ∨ (bits = 4 ∧ -237 ≤ x ∧ x < 2 * rowLen W 4) ∨ ((bits = 8 ∨ bits = 24) ∧ -19 ≤ x)

theorem mark_of_ne {W bits : Nat} (h4 : bits ≠ 4) (x y r : Int) (px py : Nat) : Mark W bits x y r px py ↔ DiscSet x y r px py := by
  unfold Mark; rw [if_neg h4]

theorem penOK_of_ne {W bits : Nat} (h : bits ≠ 4) {x : Int} : PenOK W bits x ↔ bits = 1 ∨ ((bits = 8 ∨ bits = 24) ∧ -19 ≤ x) := by
  unfold PenOK; omega

theorem penOK_between {W bits : Nat} {x y z : Int} (hx : PenOK W bits x) (hz : PenOK W bits z) (h1 : min x z ≤ y) (h2 : y ≤ max x z) :
    PenOK W bits y := by
  unfold PenOK at *; omega

/-- Every place in the image is allowed. -/
theorem penOK_in {W bits : Nat} (hd : Depth bits) {x : Int} (h0 : 0 ≤ x) (h1 : x < W) : PenOK W bits x := by
  have : W ≤ 2 * rowLen W 4 := by unfold rowLen; omega
  unfold PenOK
  rcases hd with g | g | g | g <;> omega

/-- C27 for all depths: a filled circle leaves exactly its mark. -/
theorem C27_filledcircle_depths {b : Bytes} {W H bits : Nat} (h : Valid b W H bits) {x y r : Int} {color : Int}
    (hc : IsColour bits color) (hok : PenOK W bits x) :
    ∃ b', filledcircle b x y r color = .ok b' ∧ Paints b b' W H bits (Mark W bits x y r) color.toNat := by
  by_cases h4 : bits = 4
  swap
  · obtain ⟨b', e, p⟩ := C27_filledcircle_partial h (y := y) (r := r) hc ((penOK_of_ne h4).mp hok)
    exact ⟨b', e, p.congr fun px py _ _ => mark_of_ne h4 ..⟩
  subst h4
  have hok' : -237 ≤ x ∧ x < 2 * rowLen W 4 := by unfold PenOK at hok; omega
  unfold filledcircle
  rw [h.bits_eq]
  simp only [ok_bind]
  rw [if_pos (by norm_num)]
  have row : ∀ b, Valid b W H 4 → ∀ v ∈ itercirclepartlineedge r, ∀ y',
      ∃ b', horiline b y' (x - v.1) (x + v.1) color = .ok b' ∧
        Paints b b' W H 4 (Row4 W y' (x - v.1) (x + v.1)) color.toNat := by
    intro b hb v hv y'
    have := halfWidth_bounds (mem_lineedge.mp hv)
    obtain ⟨b', e, p⟩ := C19_horiline_depths hb (y := y') (x1 := x - v.1) (x2 := x + v.1) hc (.inr (.inl ⟨rfl, by omega, .inl (by omega)⟩))
    exact ⟨b', e, p.congr fun px py _ _ => by unfold RowSet; rw [if_pos rfl]⟩
  obtain ⟨b', e, p⟩ := foldl_paints (W := W) (H := H) (bits := 4) (c := color.toNat)
    (fun bmp (v : Int × Int) => do
      let bmp ← horiline bmp (mirror y v.2).1 (mirror x v.1).1 (mirror x v.1).2 color
      horiline bmp (mirror y v.2).2 (mirror x v.1).1 (mirror x v.1).2 color)
    (fun v px py => Row4 W (y - v.2) (x - v.1) (x + v.1) px py ∨ Row4 W (y + v.2) (x - v.1) (x + v.1) px py)
    (itercirclepartlineedge r) (by
      intro b hb v hv
      obtain ⟨b1, e1, p1⟩ := row b hb v hv (y - v.2)
      obtain ⟨b2, e2, p2⟩ := row b1 p1.valid v hv (y + v.2)
      refine ⟨b2, ?_, p1.trans p2 fun _ _ _ _ => Iff.rfl⟩
      unfold mirror
      dsimp only
      rw [e1]
      exact e2) h
  refine ⟨b', e, p.congr ?_⟩
  intro px py hpx hpy
  unfold Mark
  rw [if_pos rfl]
  constructor
  · rintro ⟨hw, h1, h2⟩
    refine ⟨(hw, |(py : Int) - y|), mem_lineedge.mpr h1, ?_⟩
    dsimp only
    rcases abs_cases ((py : Int) - y) with ⟨e1, _⟩ | ⟨e1, _⟩
    · right; rw [e1, show y + ((py : Int) - y) = py by ring]; exact h2
    · left; rw [e1, show y - -((py : Int) - y) = py by ring]; exact h2
  · rintro ⟨v, hv, hn⟩
    have hv' := mem_lineedge.mp hv
    have hb := halfWidth_bounds hv'
    have hy : (py : Int) = y - v.2 ∨ (py : Int) = y + v.2 := by
      rcases hn with hn | hn
      · exact Or.inl hn.1
      · exact Or.inr hn.1
    have habs : |(py : Int) - y| = v.2 := by
      rcases hy with e | e <;> rw [e]
      · rw [show y - v.2 - y = -v.2 by ring, abs_neg, abs_of_nonneg hb.2.2.1]
      · rw [show y + v.2 - y = v.2 by ring, abs_of_nonneg hb.2.2.1]
    refine ⟨v.1, by rw [habs]; exact hv', ?_⟩
    rcases hn with hn | hn
    · rw [hn.1]; exact ⟨hn.1, hn.2⟩
    · rw [hn.1]; exact ⟨hn.1, hn.2⟩

end Verif.Props
