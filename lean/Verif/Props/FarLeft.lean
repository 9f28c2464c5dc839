import Verif.Props.Nibbles
import Verif.Props.DiagEdge
/-! Properties C19 and C27 for every position: what `horiline` and `filledcircle` do with rows left of the image, where the slice
they assign to runs backwards, and what `horiline` does with 4-bit rows far to the right. -/

namespace Verif.Props
open Verif Spec Model

/-- `b'` begins with the same 54 bytes of header as `b`. -/
def SameHead (b b' : Bytes) : Prop := 54 ≤ b.length ∧ 54 ≤ b'.length ∧ ∀ i < 54, byte b' i = byte b i

/-- The file without the bytes from `s` on up to `back - s` bytes before its end, if `back` is more than `s` but less than the length of the
file; the whole file otherwise. -/
def cutBack (b : Bytes) (s back : Nat) : Bytes :=
  if s < back ∧ back < b.length then b.take s ++ b.drop (b.length + s - back) else b

/-- How many bytes in front of the row the slice for a segment with the right end `m < 0` ends. -/
def backBytes (bits : Nat) (m : Int) : Nat := if bits = 4 then (-m / 2).toNat else (bits / 8) * (-m - 1).toNat

/-- Where row `y` starts in the file. -/
def rowStart (W H bits : Nat) (y : Nat) : Nat := dataOff bits + (H - 1 - y) * rowLen W bits

theorem cutBack_length (b : Bytes) (s back : Nat) : (cutBack b s back).length = if s < back ∧ back < b.length then b.length - (b.length - back) else b.length := by
  unfold cutBack
  split_ifs with g
  · rw [List.length_append, List.length_take, List.length_drop]; omega
  · rfl

theorem cutBack_le (b : Bytes) (s back : Nat) : (cutBack b s back).length ≤ b.length := by
  rw [cutBack_length]; split_ifs <;> omega

theorem setSlice_cut (b : Bytes) (s back : Nat) : setSlice b (s : Int) ((s : Int) - back) [] = cutBack b s back := by
  unfold setSlice cutBack clampIdx
  rw [if_neg (by omega)]
  dsimp only
  rw [List.append_nil]
  split_ifs with g1 g2 g2
  · rw [show min (s : Int).toNat b.length = s by omega,
      show max s ((s : Int) - back + b.length).toNat = b.length + s - back by omega]
  · rw [show max (min (s : Int).toNat b.length) ((s : Int) - back + b.length).toNat = min (s : Int).toNat b.length by omega]
    exact List.take_append_drop _ _
  · omega
  · rw [show max (min (s : Int).toNat b.length) (min ((s : Int) - back).toNat b.length) = min (s : Int).toNat b.length by omega]
    exact List.take_append_drop _ _

theorem SameHead.trans {b c d : Bytes} (h : SameHead b c) (g : SameHead c d) : SameHead b d :=
  ⟨h.1, g.2.1, fun i hi => (g.2.2 i hi).trans (h.2.2 i hi)⟩

theorem sameHead_cut {b : Bytes} {s back : Nat} (hb : 54 ≤ b.length) (hs : 54 ≤ s) : SameHead b (cutBack b s back) := by
  have hl := cutBack_length b s back
  refine ⟨hb, by rw [hl]; split_ifs <;> omega, fun i hi => ?_⟩
  unfold cutBack
  split_ifs with g
  · unfold byte
    rw [List.getD_eq_getElem?_getD, List.getD_eq_getElem?_getD, List.getElem?_append_left (by rw [List.length_take]; omega),
      List.getElem?_take_of_lt (by omega)]
  · rfl

theorem head_reads {b b' : Bytes} (h : SameHead b b') :
    getItem b' bmpcolorbits = getItem b bmpcolorbits ∧ getmaxxy b' = getmaxxy b ∧ (∀ x y, BMoffsethd b' x y = BMoffsethd b x y) ∧
      (∀ y bits, rowoff b' y bits = rowoff b y bits) ∧ ∀ x y, isinBMPrectbnd b' x y = isinBMPrectbnd b x y := by
  obtain ⟨hl, hl', hb⟩ := h
  have g : ∀ i : Nat, i < 30 → getItem b' (i : Int) = getItem b (i : Int) := by
    intro i hi
    rw [getItem_ok rfl (by omega), getItem_ok rfl (by omega), hb i (by omega)]
  have rd : ∀ off : Nat, off + 4 < 30 → readint (off : Int) 4 b' = readint (off : Int) 4 b := by
    intro off ho
    unfold readint
    rw [show pyRange 0 (4 - 1) = [0, 1, 2] from rfl]
    simp only [List.foldlM_cons, List.foldlM_nil]
    rw [show (off : Int) + 0 = ((off + 0 : Nat) : Int) by push_cast; rfl, show (off : Int) + 1 = ((off + 1 : Nat) : Int) by push_cast; rfl,
      show (off : Int) + 2 = ((off + 2 : Nat) : Int) by push_cast; rfl, g _ (by omega), g _ (by omega), g _ (by omega)]
  have rx : readint bmpx 4 b' = readint bmpx 4 b := rd 18 (by omega)
  have ry : readint bmpy 4 b' = readint bmpy 4 b := rd 22 (by omega)
  refine ⟨g 28 (by omega), ?_, fun x y => BMoffsethd_congr (by omega) (by omega) (fun i hi => hb i (by omega)) x y, ?_, ?_⟩
  · unfold getmaxxy; rw [rx, ry]
  · intro y bits; unfold rowoff; rw [rx, ry]
  · intro x y; unfold isinBMPrectbnd; rw [rx, ry]

variable {b : Bytes} {W H bits : Nat}

theorem valid_len54 (h : Valid b W H bits) : 54 ≤ b.length := by
  have := dataOff_ge bits
  rw [h.len]; omega

theorem rowStart_ge (W H bits y : Nat) : 54 ≤ rowStart W H bits y := by
  have := dataOff_ge bits
  unfold rowStart; omega

theorem rowStart_off (h : Valid b W H bits) {y : Nat} (hy : y < H) : BMoffsethd b 0 (y : Int) = .ok (rowStart W H bits y : Int) := by
  rw [BMoffsethd_any h]
  unfold rowStart
  rw [show ((H : Int) - y - 1) = ((H - 1 - y : Nat) : Int) by omega]
  push_cast
  simp

/-- A row left of the image, in a file that begins with the header of the image: no pixel is painted, bytes are deleted. -/
theorem horiline_left_head (h : Valid b W H bits) (hb : bits ≠ 1) {b' : Bytes} (hh : SameHead b b') {x1 x2 color : Int} {y : Nat}
    (hy : y < H) (hl : max x1 x2 < 0) :
    horiline b' y x1 x2 color = .ok (cutBack b' (rowStart W H bits y) (backBytes bits (max x1 x2))) := by
  obtain ⟨r1, r2, r3, _, r5⟩ := head_reads hh
  unfold horiline
  rw [r1, r2, h.bits_eq, getmaxxy_eq h]
  simp only [ok_bind, swap_min, swap_max, setmin_eq, setmax_eq, r3]
  rw [if_pos ((isinrange_iff _ _).mpr (by omega)), show max (min x1 x2) 0 = (0 : Int) by omega,
    show min (max x1 x2) ((W : Int) - 1) = max x1 x2 by omega, rowStart_off h hy]
  obtain ⟨m, hm⟩ : ∃ m, max x1 x2 = m := ⟨_, rfl⟩
  rw [hm] at hl ⊢
  simp only [ok_bind]
  rcases h.depth with rfl | rfl | rfl | rfl
  · exact absurd rfl hb
  · rw [if_neg (by norm_num), if_neg (by norm_num), if_pos rfl]
    have hdx : pyShr (m - 0 + 1) 1 ≤ 0 := by rw [pyShr_1]; omega
    rw [pyRepeat_neg _ hdx]
    simp only [mkArray, List.all_nil, if_true, List.map_nil, ok_bind, pure_eq_ok]
    rw [if_neg (by rw [pyAnd_1]; omega)]
    rw [show (rowStart W H 4 y : Int) + pyShr (m - 0 + 1) 1 = (rowStart W H 4 y : Int) - (backBytes 4 m : Nat) by
      rw [pyShr_1]; unfold backBytes; rw [if_pos rfl]; omega, setSlice_cut]
    rw [if_neg (by simp)]
    split_ifs with g
    · unfold plotxybit
      have hcut := sameHead_cut (b := b') (s := rowStart W H 4 y) (back := backBytes 4 m) hh.2.1 (rowStart_ge ..)
      rw [(head_reads (hh.trans hcut)).2.2.2.2]
      have : isinBMPrectbnd b (m - 1) (y : Int) = .ok false := by
        unfold isinBMPrectbnd
        rw [h.getmaxx_eq, h.getmaxy_eq]
        simp only [ok_bind]
        split_ifs
        · simp only [pure_eq_ok]; congr 1; simp; omega
        · rfl
        · rfl
      rw [this]
      rfl
    · rfl
  · rw [if_neg (by norm_num), if_pos rfl, pyRepeat_neg _ (by omega)]
    simp only [mkArray, List.all_nil, if_true, List.map_nil, ok_bind, pure_eq_ok]
    rw [show (rowStart W H 8 y : Int) + (m - 0 + 1) = (rowStart W H 8 y : Int) - (backBytes 8 m : Nat) by
      unfold backBytes; rw [if_neg (by norm_num)]; push_cast; omega, setSlice_cut]
  · rw [if_pos rfl, pyRepeat_neg _ (by omega)]
    simp only [mkArray, List.all_nil, if_true, List.map_nil, ok_bind, pure_eq_ok]
    rw [show (rowStart W H 24 y : Int) + (m - 0 + 1) * 3 = (rowStart W H 24 y : Int) - (backBytes 24 m : Nat) by
      unfold backBytes; rw [if_neg (by norm_num)]; push_cast; omega, setSlice_cut]

theorem sameHead_refl (h : Valid b W H bits) : SameHead b b := ⟨valid_len54 h, valid_len54 h, fun _ _ => rfl⟩

/-- C19, segments left of an image of 4, 8 or 24 bits: no pixel is painted. If the end of the slice lies before the beginning of
the file, its negative index counts from the end of the file, and the bytes between the start of the row and that place are deleted;
otherwise the image stays as it is. -/
theorem C19_left_exact (h : Valid b W H bits) (hb : bits ≠ 1) {x1 x2 color : Int} {y : Nat} (hy : y < H) (hl : max x1 x2 < 0) :
    horiline b y x1 x2 color = .ok (cutBack b (rowStart W H bits y) (backBytes bits (max x1 x2))) :=
  horiline_left_head h hb (sameHead_refl h) hy hl

/-- C19, left of the image the file keeps its bytes exactly for these distances; otherwise it gets shorter. -/
theorem C19_left_kept (h : Valid b W H bits) (hb : bits ≠ 1) {x1 x2 color : Int} {y : Nat} (hy : y < H) (hl : max x1 x2 < 0) :
    horiline b y x1 x2 color = .ok b ↔
      backBytes bits (max x1 x2) ≤ rowStart W H bits y ∨ b.length ≤ backBytes bits (max x1 x2) := by
  rw [C19_left_exact h hb hy hl]
  constructor
  · intro e
    by_contra g
    have := cutBack_length b (rowStart W H bits y) (backBytes bits (max x1 x2))
    rw [Except.ok.inj e, if_pos (by omega)] at this
    omega
  · intro g
    unfold cutBack
    rw [if_neg (by omega)]

/-- A line 30 columns left of a 24-bit image with 40 rows, as in `C19_left_truncates`: the row is at byte 54, the slice ends 87 bytes before it,
and all but 87 bytes are deleted. A line 100 columns left of it leaves the file of 214 bytes as it is. -/
example : backBytes 24 (-30) = 87 ∧ rowStart 1 40 24 39 = 54 ∧
    (do let b ← newBMP 1 40 24; let b' ← horiline b 39 (-31) (-30) 0; pure (b', b)) =
      (do let b ← newBMP 1 40 24; pure (cutBack b 54 87, b)) ∧
    (do let b ← newBMP 1 40 24; let b' ← horiline b 39 (-101) (-100) 0; pure (decide (b' = b))) = .ok true := by decide +kernel

/-! ### Far to the right -/

/-- A 4-bit segment wholly to the right that begins in an odd column: the byte of its left end is read, which fails if it is outside the file. -/
theorem horiline_4_far (h : Valid b W H 4) {x1 x2 color : Int} {y a : Nat} (hy : y < H) (ha : min x1 x2 = a) (hr : W ≤ a) (ho : a % 2 = 1) :
    if rowStart W H 4 y + a / 2 < b.length then
      ∃ b', horiline b y x1 x2 color = .ok b' ∧ Paints b b' W H 4 (fun px py => py = y ∧ W % 2 = 0 ∧ px + 2 = W) (reduce 4 color)
    else horiline b y x1 x2 color = .error .indexError := by
  have haddr : addr W H 4 a y = rowStart W H 4 y + a / 2 := by unfold addr rel rowStart; omega
  rw [← haddr]
  by_cases hlt : addr W H 4 a y < b.length
  all_goals
    simp only [hlt, if_true, if_false]
    unfold horiline
    rw [h.bits_eq, getmaxxy_eq h]
    simp only [ok_bind, swap_min, swap_max, setmin_eq, setmax_eq]
    rw [if_pos ((isinrange_iff _ _).mpr (by omega)), show max (min x1 x2) 0 = (a : Int) by omega,
      show min (max x1 x2) ((W : Int) - 1) = (W : Int) - 1 by omega, h.BMoffsethd_eq a y hy]
    simp only [ok_bind]
    rw [if_neg (by norm_num), if_neg (by norm_num), if_pos (by trivial), if_pos (by rw [pyAnd_1]; omega)]
  swap
  · rw [getItem_ge (by omega)]
    rfl
  have hdx : pyShr ((W : Int) - 1 - (a : Int) + 1) 1 ≤ 0 := by rw [pyShr_1]; omega
  have hlow : -(a : Int) / 2 ≤ pyShr ((W : Int) - 1 - (a : Int) + 1) 1 := by rw [pyShr_1]; omega
  rw [pyRepeat_neg _ hdx]
  simp only [mkArray, List.all_nil, if_true, List.map_nil, ok_bind, pure_eq_ok]
  have hsl : setSlice b (addr W H 4 a y : Int) ((addr W H 4 a y : Int) + pyShr ((W : Int) - 1 - (a : Int) + 1) 1) [] = b := by
    have := rowStart_ge W H 4 y
    apply setSlice_empty <;> omega
  have hcc : reduce 4 (pyAnd color 15) = reduce 4 color := by
    rw [pyAnd_15, reduce_4, reduce_4]; omega
  rw [getItem_ok rfl hlt]
  simp only [ok_bind]
  rw [hsl, if_pos (by omega), getItem_ok rfl hlt]
  simp only [ok_bind]
  have hb : byte b (addr W H 4 a y) < 256 := byte_lt_of_mem h.bytes _
  rw [show ((byte b (addr W H 4 a y) &&& 240 : Nat) : Int) + ((byte b (addr W H 4 a y) &&& 15 : Nat) : Int) =
    (byte b (addr W H 4 a y) : Int) by rw [and_f0 _ hb, and_0f]; omega, setItem_ok rfl hlt rfl hb]
  rw [show b.set (addr W H 4 a y) (byte b (addr W H 4 a y)) = b from ?_]
  · by_cases he : W % 2 = 0
    · obtain ⟨b3, e3, p3⟩ := plot_paints (c := pyAnd color 15) h ((W : Int) - 1 - 1) (y : Int) (by omega)
      refine ⟨b3, ?_, ?_⟩
      · simp only [ok_bind]
        rw [if_pos (by rw [pyAnd_1]; omega)]; exact e3
      · rw [hcc] at p3
        exact p3.congr fun px py _ _ => by omega
    · refine ⟨b, ?_, Paints.refl h _ ?_⟩
      · simp only [ok_bind]
        rw [if_neg (by rw [pyAnd_1]; omega)]
      · rintro px py _ _ ⟨_, g, _⟩; exact he g
  · apply List.ext_getElem (by simp)
    intro i h1 h2
    rw [List.getElem_set]
    split_ifs with g
    · subst g; unfold byte; rw [List.getD_eq_getElem?_getD, List.getElem?_eq_getElem h2]; rfl
    · rfl

/-- C19 for every image, every segment and every colour of the depth. Rows outside the image are left alone. Left of the image nothing is
painted, but on images of more than one bit bytes may be deleted. A 4-bit segment that begins in an odd column right of the image and whose
first byte is outside the file raises an IndexError. In all other cases exactly the pixels of `RowSet` get the colour. -/
theorem C19_exact (h : Valid b W H bits) {y x1 x2 color : Int} (hc : IsColour bits color) :
    (¬ (0 ≤ y ∧ y < H) → horiline b y x1 x2 color = .ok b) ∧
    ∀ y0 : Nat, y0 < H → y = y0 →
      if bits ≠ 1 ∧ max x1 x2 < 0 then
        horiline b y x1 x2 color = .ok (cutBack b (rowStart W H bits y0) (backBytes bits (max x1 x2)))
      else if bits = 4 ∧ (W : Int) ≤ min x1 x2 ∧ min x1 x2 % 2 = 1 ∧ (b.length : Int) ≤ rowStart W H 4 y0 + min x1 x2 / 2 then
        horiline b y x1 x2 color = .error .indexError
      else ∃ b', horiline b y x1 x2 color = .ok b' ∧ Paints b b' W H bits (RowSet W bits y x1 x2) color.toNat := by
  refine ⟨fun g => C19_row_outside h (by omega), ?_⟩
  rintro y0 hy rfl
  split_ifs with g1 g2
  · exact C19_left_exact h g1.1 hy g1.2
  · obtain ⟨rfl, g3, g4, g5⟩ := g2
    obtain ⟨a, ha⟩ := Int.eq_ofNat_of_zero_le (show 0 ≤ min x1 x2 by omega)
    have := horiline_4_far h (color := color) hy ha (by omega) (by omega)
    rwa [if_neg (by omega)] at this
  · by_cases hok : RowOK W bits x1 x2
    · exact C19_horiline_depths h hc hok
    · have h4 : bits = 4 ∧ 2 * (rowLen W 4 : Int) ≤ min x1 x2 ∧ min x1 x2 % 2 = 1 := by
        unfold RowOK at hok
        rcases h.depth with g | g | g | g <;> omega
      obtain ⟨rfl, g3, g4⟩ := h4
      have hW : W ≤ 2 * rowLen W 4 := by unfold rowLen; omega
      obtain ⟨a, ha⟩ := Int.eq_ofNat_of_zero_le (show 0 ≤ min x1 x2 by omega)
      have := horiline_4_far h (color := color) hy ha (by omega) (by omega)
      rw [if_pos (by omega), reduce_of_colour h.depth hc] at this
      obtain ⟨b', e, p⟩ := this
      refine ⟨b', e, p.congr fun px py hx _ => ?_⟩
      unfold RowSet Row4
      rw [if_pos rfl]
      omega

/-! ### Discs left of the image -/

/-- One row of a disc left of the image. -/
def cutRow (W H bits : Nat) (m : Int) (b : Bytes) (y : Int) : Bytes :=
  if 0 ≤ y ∧ y < H then cutBack b (rowStart W H bits y.toNat) (backBytes bits m) else b

theorem sameHead_cutRow {b b' : Bytes} {W H bits : Nat} (hh : SameHead b b') (m y : Int) : SameHead b (cutRow W H bits m b' y) := by
  unfold cutRow
  split_ifs
  · exact hh.trans (sameHead_cut hh.2.1 (rowStart_ge ..))
  · exact hh

theorem horiline_cutRow (h : Valid b W H bits) (hb : bits ≠ 1) {b' : Bytes} (hh : SameHead b b') {x1 x2 color y : Int}
    (hl : max x1 x2 < 0) : horiline b' y x1 x2 color = .ok (cutRow W H bits (max x1 x2) b' y) := by
  unfold cutRow
  split_ifs with g
  · obtain ⟨y0, rfl⟩ := Int.eq_ofNat_of_zero_le g.1
    exact horiline_left_head h hb hh (by omega) hl
  · obtain ⟨r1, r2, _⟩ := head_reads hh
    unfold horiline
    rw [r1, r2, h.bits_eq, getmaxxy_eq h]
    simp only [ok_bind]
    rw [if_neg (by rw [isinrange_iff]; omega)]
    rfl

theorem cutRow_le (m y : Int) (b : Bytes) : (cutRow W H bits m b y).length ≤ b.length := by
  unfold cutRow
  split_ifs
  · exact cutBack_le ..
  · rfl

theorem cutRow_eq (m y : Int) (b : Bytes) : cutRow W H bits m b y = b ∨ (cutRow W H bits m b y).length < b.length := by
  unfold cutRow
  split_ifs
  · by_cases g : rowStart W H bits y.toNat < backBytes bits m ∧ backBytes bits m < b.length
    · right; rw [cutBack_length, if_pos g]; omega
    · left; unfold cutBack; rw [if_neg g]
  · exact .inl rfl

/-- The row in `y` with the right end `m` keeps a file of the length `n`. -/
def KeepsRow (W H bits n : Nat) (m y : Int) : Prop :=
  ∀ y0 : Nat, y0 < H → y = y0 → backBytes bits m ≤ rowStart W H bits y0 ∨ n ≤ backBytes bits m

theorem cutRow_keeps (m y : Int) (b : Bytes) : cutRow W H bits m b y = b ↔ KeepsRow W H bits b.length m y := by
  unfold cutRow KeepsRow
  split_ifs with g
  · constructor
    · rintro e y0 _ rfl
      by_contra c
      have := congrArg List.length e
      rw [cutBack_length, if_pos (by rw [Int.toNat_natCast]; omega)] at this
      omega
    · intro k
      have := k y.toNat (by omega) (by omega)
      unfold cutBack
      rw [if_neg (by omega)]
  · constructor
    · rintro _ y0 h0 rfl; omega
    · intro _; rfl

/-- A list of rows `(m, y)` one after the other. -/
theorem cutRows_keep (L : List (Int × Int)) (b : Bytes) :
    (L.foldl (fun b p => cutRow W H bits p.1 b p.2) b).length ≤ b.length ∧
      (L.foldl (fun b p => cutRow W H bits p.1 b p.2) b = b ↔ ∀ p ∈ L, KeepsRow W H bits b.length p.1 p.2) := by
  induction L generalizing b with
  | nil => simp
  | cons p L ih =>
    rw [List.foldl_cons]
    obtain ⟨i1, i2⟩ := ih (cutRow W H bits p.1 b p.2)
    refine ⟨i1.trans (cutRow_le ..), ?_⟩
    rcases cutRow_eq (W := W) (H := H) (bits := bits) p.1 p.2 b with e | e
    · rw [e] at i2 ⊢
      rw [i2, List.forall_mem_cons]
      exact ⟨fun g => ⟨(cutRow_keeps ..).mp e, g⟩, fun g => g.2⟩
    · constructor
      · intro g
        rw [g] at i1; omega
      · intro g
        rw [(cutRow_keeps ..).mpr (g p (by simp))] at e
        omega

theorem disc_rows {f : Bytes → Int × Int → Py Bytes} {rows : Int × Int → List (Int × Int)}
    (l : List (Int × Int)) (hf : ∀ b', SameHead b b' → ∀ v ∈ l, f b' v = .ok ((rows v).foldl (fun b p => cutRow W H bits p.1 b p.2) b'))
    {b' : Bytes} (hh : SameHead b b') :
    l.foldlM f b' = .ok ((l.flatMap rows).foldl (fun b p => cutRow W H bits p.1 b p.2) b') := by
  have keep : ∀ (L : List (Int × Int)) b', SameHead b b' → SameHead b (L.foldl (fun b p => cutRow W H bits p.1 b p.2) b') := by
    intro L
    induction L with
    | nil => intro b' g; exact g
    | cons p L ih => intro b' g; exact ih _ (sameHead_cutRow g _ _)
  induction l generalizing b' with
  | nil => rfl
  | cons v l ih =>
    rw [List.foldlM_cons, hf b' hh v (by simp), List.flatMap_cons, List.foldl_append]
    exact ih (fun b'' g w hw => hf b'' g w (List.mem_cons_of_mem _ hw)) (keep _ _ hh)

theorem rowStart_row {y : Int} (g : 0 ≤ y ∧ y < H) :
    (dataOff bits : Int) + ((H : Int) - y - 1) * (rowLen W bits : Int) = (rowStart W H bits y.toNat : Int) := by
  unfold rowStart
  rw [show (H : Int) - y - 1 = ((H - 1 - y.toNat : Nat) : Int) by omega]
  push_cast
  rfl

theorem put8_left (h : Valid b W H 8) {b' : Bytes} (hh : SameHead b b') {m y : Int} (hm : m < 0) :
    (if isinrange y H (-1) = true then do
      let s ← bmofhd8 b' 0 y
      pure (setSlice b' s (s + (m - 0 + 1)) [])
    else pure b') = .ok (cutRow W H 8 m b' y) := by
  unfold cutRow
  simp only [isinrange_iff]
  split_ifs with g
  · have hr := h.rowoff_eq y
    unfold bmofhd8
    rw [(head_reads hh).2.2.2.1, show (8 : Int) = ((8 : Nat) : Int) from rfl, hr]
    simp only [ok_bind, pure_eq_ok]
    rw [show (0 : Int) + ((H : Int) - y - 1) * (rowLen W 8 : Int) + 1078 = (rowStart W H 8 y.toNat : Int) by
      rw [← rowStart_row g, show dataOff 8 = 1078 by decide]; push_cast; ring]
    rw [show (rowStart W H 8 y.toNat : Int) + (m - 0 + 1) = (rowStart W H 8 y.toNat : Int) - (backBytes 8 m : Nat) by
      unfold backBytes; rw [if_neg (by norm_num)]; push_cast; omega, setSlice_cut]
  · rfl

theorem put24_left (h : Valid b W H 24) {b' : Bytes} (hh : SameHead b b') {m y : Int} (hm : m < 0) :
    (if isinrange y H (-1) = true then do
      let s ← bmofhd24 b' 0 y
      pure (setSlice b' s (s + (m - 0 + 1) * 3) [])
    else pure b') = .ok (cutRow W H 24 m b' y) := by
  unfold cutRow
  simp only [isinrange_iff]
  split_ifs with g
  · have hr := h.rowoff_eq y
    unfold bmofhd24
    rw [(head_reads hh).2.2.2.1, show (24 : Int) = ((24 : Nat) : Int) from rfl, hr]
    simp only [ok_bind, pure_eq_ok]
    rw [show (0 : Int) * 3 + ((H : Int) - y - 1) * (rowLen W 24 : Int) + 54 = (rowStart W H 24 y.toNat : Int) by
      rw [← rowStart_row g, show dataOff 24 = 54 by decide]; push_cast; ring]
    rw [show (rowStart W H 24 y.toNat : Int) + (m - 0 + 1) * 3 = (rowStart W H 24 y.toNat : Int) - (backBytes 24 m : Nat) by
      unfold backBytes; rw [if_neg (by norm_num)]; push_cast; omega, setSlice_cut]
  · rfl

theorem ite_join {α : Type} (c : Prop) [Decidable c] (A : Py α) (g : α → Bytes) (b : Bytes) (k : Bytes → Py Bytes) :
    (if c then A >>= fun s => pure (g s) >>= k else pure b >>= k) = (if c then A >>= fun s => pure (g s) else pure b) >>= k := by
  split_ifs
  · cases A <;> rfl
  · rfl

/-- C27, discs left of an image of 4, 8 or 24 bits: no error, never a longer file, and the file is as before exactly if no row of the disc
deletes bytes. -/
theorem C27_left_exact (h : Valid b W H bits) (hb : bits ≠ 1) {x y r color : Int} (hl : x + r < 0) :
    ∃ b', filledcircle b x y r color = .ok b' ∧ SameHead b b' ∧ b'.length ≤ b.length ∧
      (b' = b ↔ ∀ hw : Int, ∀ py : Nat, py < H → HalfWidth r hw |(py : Int) - y| →
        backBytes bits (x + hw) ≤ rowStart W H bits py ∨ b.length ≤ backBytes bits (x + hw)) := by
  have key : ∃ rows : Int × Int → List (Int × Int),
      (∀ v, rows v = [(x + v.1, y - v.2), (x + v.1, y + v.2)] ∨ rows v = [(x + v.1, y + v.2), (x + v.1, y - v.2)]) ∧
      filledcircle b x y r color = .ok (((itercirclepartlineedge r).flatMap rows).foldl (fun b p => cutRow W H bits p.1 b p.2) b) := by
    unfold filledcircle
    rw [h.bits_eq]
    simp only [ok_bind]
    by_cases h8 : bits < 8
    · refine ⟨fun v => [(x + v.1, y - v.2), (x + v.1, y + v.2)], fun v => .inl rfl, ?_⟩
      rw [if_pos (by omega)]
      apply disc_rows _ _ (sameHead_refl h)
      intro b' hh v hv
      have := halfWidth_bounds (mem_lineedge.mp hv)
      have hm : max (x - v.1) (x + v.1) = x + v.1 := by omega
      unfold mirror
      dsimp only
      rw [horiline_cutRow h hb hh (by omega), hm]
      simp only [ok_bind]
      rw [horiline_cutRow h hb (sameHead_cutRow hh _ _) (by omega), hm]
      rfl
    · refine ⟨fun v => [(x + v.1, y + v.2), (x + v.1, y - v.2)], fun v => .inr rfl, ?_⟩
      rw [if_neg (by omega), getmaxxy_eq h]
      simp only [ok_bind]
      rcases h.depth with rfl | rfl | rfl | rfl
      · omega
      · omega
      · rw [if_neg (by norm_num), if_pos (by trivial)]
        apply disc_rows _ _ (sameHead_refl h)
        intro b' hh v hv
        have := halfWidth_bounds (mem_lineedge.mp hv)
        unfold mirror
        simp only [setmin_eq, setmax_eq]
        rw [show max (x - v.1) 0 = (0 : Int) by omega, show min (x + v.1) ((W : Int) - 1) = x + v.1 by omega, pyRepeat_neg _ (by omega)]
        simp only [mkArray, List.all_nil, if_true, List.map_nil, ok_bind]
        refine (ite_join _ (bmofhd8 b' 0 (y + v.2)) (fun s => setSlice b' s (s + (x + v.1 - 0 + 1)) []) b' (fun bmp =>
          if isinrange (y - v.2) (H : Int) (-1) = true then do
            let s ← bmofhd8 bmp 0 (y - v.2)
            pure (setSlice bmp s (s + (x + v.1 - 0 + 1)) [])
          else pure bmp)).trans ?_
        rw [put8_left h hh (by omega)]
        simp only [ok_bind]
        rw [put8_left h (sameHead_cutRow hh _ _) (by omega)]
        rfl
      · rw [if_pos (by trivial)]
        apply disc_rows _ _ (sameHead_refl h)
        intro b' hh v hv
        have := halfWidth_bounds (mem_lineedge.mp hv)
        unfold mirror
        simp only [setmin_eq, setmax_eq]
        rw [show max (x - v.1) 0 = (0 : Int) by omega, show min (x + v.1) ((W : Int) - 1) = x + v.1 by omega, pyRepeat_neg _ (by omega)]
        simp only [mkArray, List.all_nil, if_true, List.map_nil, ok_bind]
        refine (ite_join _ (bmofhd24 b' 0 (y + v.2)) (fun s => setSlice b' s (s + (x + v.1 - 0 + 1) * 3) []) b' (fun bmp =>
          if isinrange (y - v.2) (H : Int) (-1) = true then do
            let s ← bmofhd24 bmp 0 (y - v.2)
            pure (setSlice bmp s (s + (x + v.1 - 0 + 1) * 3) [])
          else pure bmp)).trans ?_
        rw [put24_left h hh (by omega)]
        simp only [ok_bind]
        rw [put24_left h (sameHead_cutRow hh _ _) (by omega)]
        rfl
  obtain ⟨rows, hrows, e⟩ := key
  have keep : ∀ (L : List (Int × Int)) b', SameHead b b' → SameHead b (L.foldl (fun b p => cutRow W H bits p.1 b p.2) b') := by
    intro L
    induction L with
    | nil => intro b' g; exact g
    | cons p L ih => intro b' g; exact ih _ (sameHead_cutRow g _ _)
  obtain ⟨k1, k2⟩ := cutRows_keep (W := W) (H := H) (bits := bits) ((itercirclepartlineedge r).flatMap rows) b
  refine ⟨_, e, keep _ _ (sameHead_refl h), k1, k2.trans ?_⟩
  have mem : ∀ p v, p ∈ rows v ↔ p = (x + v.1, y - v.2) ∨ p = (x + v.1, y + v.2) := by
    intro p v
    rcases hrows v with g | g <;> rw [g] <;> simp [or_comm]
  constructor
  · intro g hw py hpy hh
    have hv : (hw, |(py : Int) - y|) ∈ itercirclepartlineedge r := mem_lineedge.mpr hh
    rcases abs_cases ((py : Int) - y) with ⟨e1, _⟩ | ⟨e1, _⟩
    · exact g (x + hw, y + |(py : Int) - y|) (List.mem_flatMap.mpr ⟨_, hv, (mem _ _).mpr (.inr rfl)⟩) py hpy (by rw [e1]; ring)
    · exact g (x + hw, y - |(py : Int) - y|) (List.mem_flatMap.mpr ⟨_, hv, (mem _ _).mpr (.inl rfl)⟩) py hpy (by rw [e1]; ring)
  · intro g p hp
    obtain ⟨v, hv, hpv⟩ := List.mem_flatMap.mp hp
    have hv' := mem_lineedge.mp hv
    have hb := halfWidth_bounds hv'
    intro y0 hy0 ey
    rcases (mem _ _).mp hpv with rfl | rfl
    · apply g v.1 y0 hy0
      rw [← ey, show y - v.2 - y = -v.2 by ring, abs_neg, abs_of_nonneg hb.2.2.1]
      exact hv'
    · apply g v.1 y0 hy0
      rw [← ey, show y + v.2 - y = v.2 by ring, abs_of_nonneg hb.2.2.1]
      exact hv'

/-- A disc 20 columns left of a small 24-bit image deletes 13 bytes; one 40 columns left of it deletes nothing. -/
example :
    (do let b ← newBMP 2 2 24; let b' ← filledcircle b (-20) 1 0 9; pure (b.length - b'.length)) = .ok 13 ∧
    (do let b ← newBMP 2 2 24; let b' ← filledcircle b (-40) 1 0 9; pure (decide (b' = b))) = .ok true := by decide +kernel

/-! ### Discs anywhere -/

/-- The row from `x1` to `x2` in row `y` neither deletes bytes nor leaves a file of `n` bytes. -/
def RowSafe (W H bits n : Nat) (x1 x2 : Int) (y : Nat) : Prop :=
  if bits ≠ 1 ∧ max x1 x2 < 0 then backBytes bits (max x1 x2) ≤ rowStart W H bits y ∨ n ≤ backBytes bits (max x1 x2)
  else ¬ (bits = 4 ∧ (W : Int) ≤ min x1 x2 ∧ min x1 x2 % 2 = 1 ∧ (n : Int) ≤ rowStart W H 4 y + min x1 x2 / 2)

/-- C19: exactly the safe rows are painted as `RowSet` says. -/
theorem C19_safe_iff (h : Valid b W H bits) {x1 x2 color : Int} {y : Nat} (hy : y < H) (hc : IsColour bits color) :
    (∃ b', horiline b y x1 x2 color = .ok b' ∧ Paints b b' W H bits (RowSet W bits y x1 x2) color.toNat) ↔
      RowSafe W H bits b.length x1 x2 y := by
  have key := (C19_exact h (y := (y : Int)) (x1 := x1) (x2 := x2) hc).2 y hy rfl
  unfold RowSafe
  by_cases g1 : bits ≠ 1 ∧ max x1 x2 < 0
  · rw [if_pos g1] at key ⊢
    rw [← C19_left_kept (color := color) h g1.1 hy g1.2]
    constructor
    · rintro ⟨b', e, p⟩
      rw [key] at e ⊢
      have hl : b'.length = b.length := by rw [p.valid.len, h.len]
      rw [← Except.ok.inj e] at hl
      rcases cutRow_eq (W := W) (H := H) (bits := bits) (max x1 x2) y b with g | g
      · unfold cutRow at g
        rw [if_pos (by omega), Int.toNat_natCast] at g
        rw [g]
      · unfold cutRow at g
        rw [if_pos (by omega), Int.toNat_natCast] at g
        omega
    · intro e
      refine ⟨b, e, Paints.refl h _ ?_⟩
      intro px py _ _ g
      unfold RowSet Row4 HSeg at g
      split_ifs at g <;> omega
  · rw [if_neg g1] at key ⊢
    split_ifs at key with g2
    · constructor
      · rintro ⟨b', e, _⟩
        rw [key] at e
        cases e
      · intro g; exact absurd g2 g
    · exact ⟨fun _ => g2, fun _ => key⟩

/-- C27 for every centre: if all rows of the disc are safe, exactly the pixels of `Mark` are painted. -/
theorem C27_safe (h : Valid b W H bits) {x y r color : Int} (hc : IsColour bits color)
    (hs : ∀ hw : Int, ∀ py : Nat, py < H → HalfWidth r hw |(py : Int) - y| → RowSafe W H bits b.length (x - hw) (x + hw) py) :
    ∃ b', filledcircle b x y r color = .ok b' ∧ Paints b b' W H bits (Mark W bits x y r) color.toNat := by
  have row : ∀ b', Valid b' W H bits → ∀ v ∈ itercirclepartlineedge r, ∀ y', y' = y - v.2 ∨ y' = y + v.2 →
      ∃ b'', horiline b' y' (x - v.1) (x + v.1) color = .ok b'' ∧
        Paints b' b'' W H bits (RowSet W bits y' (x - v.1) (x + v.1)) color.toNat := by
    intro b' hb v hv y' hy'
    have hh := mem_lineedge.mp hv
    have := halfWidth_bounds hh
    by_cases g : 0 ≤ y' ∧ y' < H
    · obtain ⟨y0, rfl⟩ := Int.eq_ofNat_of_zero_le g.1
      refine (C19_safe_iff hb (by omega) hc).mpr ?_
      rw [hb.len, ← h.len]
      apply hs v.1 y0 (by omega)
      rw [show |(y0 : Int) - y| = v.2 by
        rcases hy' with e | e <;> rw [e]
        · rw [show y - v.2 - y = -v.2 by ring, abs_neg, abs_of_nonneg this.2.2.1]
        · rw [show y + v.2 - y = v.2 by ring, abs_of_nonneg this.2.2.1]]
      exact hh
    · refine ⟨b', C19_row_outside hb (by omega), Paints.refl hb _ ?_⟩
      intro px py _ _ g
      unfold RowSet Row4 HSeg at g
      split_ifs at g <;> omega
  have steps : ∃ f : Bytes → Int × Int → Py Bytes,
      filledcircle b x y r color = (itercirclepartlineedge r).foldlM f b ∧
      ∀ b', Valid b' W H bits → ∀ v ∈ itercirclepartlineedge r,
        f b' v = (do let c ← horiline b' (y - v.2) (x - v.1) (x + v.1) color; horiline c (y + v.2) (x - v.1) (x + v.1) color) ∨
        f b' v = (do let c ← horiline b' (y + v.2) (x - v.1) (x + v.1) color; horiline c (y - v.2) (x - v.1) (x + v.1) color) := by
    unfold filledcircle
    rw [h.bits_eq, getmaxxy_eq h]
    simp only [ok_bind]
    by_cases h8 : bits < 8
    · rw [if_pos (by omega)]
      exact ⟨_, rfl, fun b' hb v hv => .inl rfl⟩
    · rw [if_neg (by omega)]
      rcases h.depth with rfl | rfl | rfl | rfl
      · omega
      · omega
      · rw [if_neg (by norm_num), if_pos (by trivial)]
        refine ⟨_, rfl, fun b' hb v hv => .inr ?_⟩
        have h0 := halfWidth_bounds (mem_lineedge.mp hv)
        obtain ⟨a, ha⟩ := span8_ok color (setmax (x + v.1) ((W : Int) - 1) - setmin (x - v.1) 0 + 1)
        unfold mirror
        simp only [ha, ok_bind]
        refine (ite_join _ (bmofhd8 b' (setmin (x - v.1) 0) (y + v.2))
          (fun s => setSlice b' s (s + (setmax (x + v.1) ((W : Int) - 1) - setmin (x - v.1) 0 + 1)) a) b' (fun bmp =>
          if isinrange (y - v.2) (H : Int) (-1) = true then do
            let s ← bmofhd8 bmp (setmin (x - v.1) 0) (y - v.2)
            pure (setSlice bmp s (s + (setmax (x + v.1) ((W : Int) - 1) - setmin (x - v.1) 0 + 1)) a)
          else pure bmp)).trans ?_
        rw [← horiline_8 hb (y + v.2) (x - v.1) (x + v.1) color (by omega) ha]
        obtain ⟨c, ec, pc⟩ := row b' hb v hv (y + v.2) (.inr rfl)
        rw [ec]
        simp only [ok_bind]
        rw [horiline_8 pc.valid (y - v.2) (x - v.1) (x + v.1) color (by omega) ha]
      · rw [if_pos (by trivial)]
        refine ⟨_, rfl, fun b' hb v hv => .inr ?_⟩
        have h0 := halfWidth_bounds (mem_lineedge.mp hv)
        obtain ⟨a, ha⟩ := span24_ok hc (setmax (x + v.1) ((W : Int) - 1) - setmin (x - v.1) 0 + 1)
        unfold mirror
        simp only [ha, ok_bind]
        refine (ite_join _ (bmofhd24 b' (setmin (x - v.1) 0) (y + v.2))
          (fun s => setSlice b' s (s + (setmax (x + v.1) ((W : Int) - 1) - setmin (x - v.1) 0 + 1) * 3) a) b' (fun bmp =>
          if isinrange (y - v.2) (H : Int) (-1) = true then do
            let s ← bmofhd24 bmp (setmin (x - v.1) 0) (y - v.2)
            pure (setSlice bmp s (s + (setmax (x + v.1) ((W : Int) - 1) - setmin (x - v.1) 0 + 1) * 3) a)
          else pure bmp)).trans ?_
        rw [← horiline_24 hb (y + v.2) (x - v.1) (x + v.1) color (by omega) ha]
        obtain ⟨c, ec, pc⟩ := row b' hb v hv (y + v.2) (.inr rfl)
        rw [ec]
        simp only [ok_bind]
        rw [horiline_24 pc.valid (y - v.2) (x - v.1) (x + v.1) color (by omega) ha]
  obtain ⟨f, ef, hf⟩ := steps
  obtain ⟨b', e, p⟩ := foldl_paints (W := W) (H := H) (bits := bits) (c := color.toNat) f
    (fun v px py => RowSet W bits (y - v.2) (x - v.1) (x + v.1) px py ∨ RowSet W bits (y + v.2) (x - v.1) (x + v.1) px py)
    (itercirclepartlineedge r) (by
      intro b' hb v hv
      rcases hf b' hb v hv with g | g
      · obtain ⟨b1, e1, p1⟩ := row b' hb v hv (y - v.2) (.inl rfl)
        obtain ⟨b2, e2, p2⟩ := row b1 p1.valid v hv (y + v.2) (.inr rfl)
        refine ⟨b2, ?_, p1.trans p2 fun _ _ _ _ => Iff.rfl⟩
        rw [g, e1]
        exact e2
      · obtain ⟨b1, e1, p1⟩ := row b' hb v hv (y + v.2) (.inr rfl)
        obtain ⟨b2, e2, p2⟩ := row b1 p1.valid v hv (y - v.2) (.inl rfl)
        refine ⟨b2, ?_, p1.trans p2 fun _ _ _ _ => or_comm⟩
        rw [g, e1]
        exact e2) h
  refine ⟨b', ef.trans e, p.congr ?_⟩
  intro px py hpx hpy
  by_cases h4 : bits = 4
  swap
  · rw [mark_of_ne h4]
    simp only [rowSet_of_ne h4]
    exact disc_union x y r px py
  subst h4
  unfold Mark RowSet
  rw [if_pos rfl]
  simp only [if_true]
  constructor
  · rintro ⟨hw, h1, h2⟩
    refine ⟨(hw, |(py : Int) - y|), mem_lineedge.mpr h1, ?_⟩
    dsimp only
    rcases abs_cases ((py : Int) - y) with ⟨e1, _⟩ | ⟨e1, _⟩
    · right; rw [e1, show y + ((py : Int) - y) = py by ring]; exact h2
    · left; rw [e1, show y - -((py : Int) - y) = py by ring]; exact h2
  · rintro ⟨v, hv, hn⟩
    have hv' := mem_lineedge.mp hv
    have hb := halfWidth_bounds hv'
    have hy : (py : Int) = y - v.2 ∨ (py : Int) = y + v.2 := by
      rcases hn with hn | hn
      · exact Or.inl hn.1
      · exact Or.inr hn.1
    have habs : |(py : Int) - y| = v.2 := by
      rcases hy with e | e <;> rw [e]
      · rw [show y - v.2 - y = -v.2 by ring, abs_neg, abs_of_nonneg hb.2.2.1]
      · rw [show y + v.2 - y = v.2 by ring, abs_of_nonneg hb.2.2.1]
    refine ⟨v.1, by rw [habs]; exact hv', ?_⟩
    rcases hn with hn | hn
    · rw [hn.1]; exact ⟨hn.1, hn.2⟩
    · rw [hn.1]; exact ⟨hn.1, hn.2⟩

/-- A disc of radius 25 around column -24 of a 24-bit image: all rows of the image are safe. -/
example : (do
    let b ← newBMP 4 3 24
    let b' ← filledcircle b (-24) 1 25 9
    pure (b'.length - b.length, ← getxybit b' 1 1, ← getxybit b' 2 1)) = .ok (0, 9, 0) := by decide +kernel

end Verif.Props
