import Verif.Props.CircHori
import Verif.Props.Compare
/-! Properties C75 to C77: outlines, brightness gradients and quarter mirrors inside a circle. -/

namespace Verif.Props
open Verif Spec Model

section
variable {b b' : Bytes} {W H bits : Nat}

/-! ### Outline -/

/-- The exclusive or of every byte with the one that is `d` further. -/
def xorSeg (d : Nat) (ρ : Nat → Nat) (lo hi : Nat) : Bytes :=
  (List.range (hi - lo)).map fun i => ρ (lo + i) ^^^ ρ (lo + i + d)

theorem outline_rowFn (hd : Depth bits) : RowFn outlineSeg (xorSeg (bpp bits)) W H bits := by
  have hbp : bpp bits ≤ 3 ∧ 0 < bpp bits := by unfold bpp; split_ifs <;> omega
  have hfit : ∀ xb : Nat, xb < W → xb * bits / 8 + bpp bits ≤ rowLen W bits := by
    intro xb hx
    have := xcell_lt hd hx
    unfold bpp at *; unfold rowLen at *
    rcases hd with rfl | rfl | rfl | rfl <;> simp at * <;> omega
  have hlt : ∀ a c : Nat, a < 256 → c < 256 → a ^^^ c < 256 := fun a c ha hc => Nat.xor_lt_two_pow (n := 8) ha hc
  have hval : ∀ b, Valid b W H bits → ∀ s e : Int, outlineSeg b s e =
      mkArray (xorvect (slice b s e) (slice b (s + ((bpp bits : Nat) : Int)) (e + ((bpp bits : Nat) : Int)))) := by
    intro b h s e
    unfold outlineSeg
    rw [h.bits_eq, ok_bind]
    unfold bpp
    rcases hd with rfl | rfl | rfl | rfl <;> rfl
  refine ⟨?_, ?_, ?_, ?_, ?_⟩
  · intro b h y xa xb hy hx hW
    have hle : xa * bits / 8 ≤ xb * bits / 8 := Nat.div_le_div_right (Nat.mul_le_mul_right _ hx)
    have hf := hfit xb hW
    have hb : ∀ j, byte b (cell W H bits y j) < 256 := fun j => byte_lt_of_mem h.bytes _
    rw [hval b h, show (cell W H bits y (xa * bits / 8) : Int) + ((bpp bits : Nat) : Int) =
        (cell W H bits y (xa * bits / 8 + bpp bits) : Int) by unfold cell; push_cast; omega,
      show (cell W H bits y (xb * bits / 8) : Int) + ((bpp bits : Nat) : Int) =
        (cell W H bits y (xb * bits / 8 + bpp bits) : Int) by unfold cell; push_cast; omega,
      slice_row h hy hle (by omega), slice_row h hy (by omega) (by omega)]
    apply mkArray_ok
    · unfold xorvect xorSeg seg
      rw [show xb * bits / 8 + bpp bits - (xa * bits / 8 + bpp bits) = xb * bits / 8 - xa * bits / 8 by omega,
        List.zip_map', List.map_map, List.map_map]
      apply List.map_congr_left
      intro i _
      simp only [Function.comp, Int.ofNat_eq_natCast, cell_add]
      rw [show xa * bits / 8 + bpp bits + i = xa * bits / 8 + i + bpp bits by omega]
    · intro v hv
      obtain ⟨i, _, rfl⟩ := List.mem_map.mp hv
      exact hlt _ _ (hb _) (hb _)
  · intro ρ _ xa xb _ _
    simp [xorSeg]
  · intro ρ hρ xa xb _ _ v hv
    obtain ⟨i, _, rfl⟩ := List.mem_map.mp hv
    exact hlt _ _ (hρ _) (hρ _)
  · intro ρ ρ' hρ xa xb hx hW
    have hf := hfit xb hW
    apply List.map_congr_left
    intro i hi
    have hi' := List.mem_range.mp hi
    rw [hρ _ (by omega), hρ _ (by omega)]
  · intro b h s e h0 hle
    rw [hval b h, slice_empty h0 hle]
    rfl

/-- C75, what `outlinecircregion` does to 8- and 24-bit images: each pixel of `CircCols` becomes the exclusive or of its
colour with the colour of its right neighbour before the call. -/
theorem C75_outline_exact (h : Valid b W H bits) (hb : bits = 8 ∨ bits = 24) {x y r : Int}
    (hx : 0 ≤ x * bits / 8 + dataOff bits) :
    ∃ b', outlinecircregion b x y r = .ok b' ∧ Alters b b' W H bits (CircCols W bits x y r)
      (fun px py => pix b W H bits px py ^^^ pix b W H bits (px + 1) py) := by
  obtain ⟨b', e, c⟩ := circRegion_spec h (outline_rowFn h.depth) (y := y) (r := r) hx
  refine ⟨b', e, c.valid, c.header, ?_, ?_⟩
  · rintro px py hpx hpy ⟨hw, h1, h2⟩
    have key : ∀ t, t < bpp bits → byte b' (cell W H bits py (px * bits / 8 + t)) =
        byte b (cell W H bits py (px * bits / 8 + t)) ^^^ byte b (cell W H bits py ((px + 1) * bits / 8 + t)) := by
      intro t ht
      have hj : px * bits / 8 + t < rowLen W bits := by have := xcell_lt h.depth hpx; omega
      have := c.inside py _ hpy hj hw h1
      unfold newRow at this
      dsimp only at this
      have hin := (circ_in_iff h.depth ht).mpr h2
      rw [if_pos hin] at this
      unfold xorSeg at this
      rw [byte_range_map _ (by omega)] at this
      rw [show (max (x - hw) 0).toNat * bits / 8 + (px * bits / 8 + t - (max (x - hw) 0).toNat * bits / 8) =
        px * bits / 8 + t by omega] at this
      rw [show (px + 1) * bits / 8 + t = px * bits / 8 + t + bpp bits by
        unfold bpp; rcases hb with rfl | rfl <;> simp <;> omega]
      exact this
    have hl : ∀ j, byte b (cell W H bits py j) < 256 := fun j => byte_lt_of_mem h.bytes _
    rw [pix_cell, pix_cell, pix_cell]
    rcases hb with rfl | rfl
    · rw [if_neg (by omega), if_neg (by omega), if_neg (by omega)]
      have := key 0 (by unfold bpp; simp)
      rw [Nat.add_zero, Nat.add_zero] at this
      rw [this, show shiftOf 8 (px + 1) = shiftOf 8 px by unfold shiftOf; omega, bitop_xor.div, bitop_xor.mod]
    · have k0 := key 0 (by unfold bpp; simp)
      have k1 := key 1 (by unfold bpp; simp)
      have k2 := key 2 (by unfold bpp; simp)
      rw [show px * 24 / 8 = 3 * px by omega, show (px + 1) * 24 / 8 = 3 * (px + 1) by omega] at k0 k1 k2
      rw [Nat.add_zero, Nat.add_zero] at k0
      rw [if_pos rfl, if_pos rfl, if_pos rfl, k0, k1, k2]
      have e : ∀ p q r : Nat, p + 256 * q + 65536 * r = p + 256 * (q + 256 * r) := by intros; omega
      rw [e, e, e, bitop_xor.join (hl _) (hl _), bitop_xor.join (hl _) (hl _)]
  · intro px py hpx hpy hn
    apply pix_congr rfl
    intro t ht
    have hj : px * bits / 8 + t < rowLen W bits := by have := xcell_lt h.depth hpx; omega
    by_cases hr : r < |(py : Int) - y|
    · exact c.outside py _ hpy hj hr
    · obtain ⟨hw, h1⟩ := halfWidth_exists (abs_nonneg ((py : Int) - y)) (le_of_not_gt hr)
      have := c.inside py _ hpy hj hw h1
      unfold newRow at this
      dsimp only at this
      rw [if_neg (fun g => hn ⟨hw, h1, (circ_in_iff h.depth ht).mp g⟩)] at this
      exact this

/-- C75 with the disc. Missing: the right end of every row, and 1- and 4-bit images. -/
theorem C75_outline_partial (h : Valid b W H bits) (hb : bits = 8 ∨ bits = 24) {x y r : Int}
    (hs : SquareInside W H x y r) :
    ∃ b', outlinecircregion b x y r = .ok b' ∧ Alters b b' W H bits
      (fun px py => DiscSet x y r px py ∧ DiscSet x y r (px + 1) py)
      (fun px py => pix b W H bits px py ^^^ pix b W H bits (px + 1) py) := by
  have h0 := hs x y (by simp) (by simp)
  obtain ⟨b', e, a⟩ := C75_outline_exact h hb (x := x) (y := y) (r := r) (by
    have : 0 ≤ x * (bits : Int) := by
      apply mul_nonneg <;> omega
    omega)
  refine ⟨b', e, a.valid, a.header, ?_, ?_⟩
  · intro px py hpx hpy hd
    exact a.inside px py hpx hpy ((circCols_disc hb hs px py).mpr hd)
  · intro px py hpx hpy hd
    exact a.outside px py hpx hpy (fun g => hd ((circCols_disc hb hs px py).mp g))

example : (do let b ← newBMP 5 5 24; let b ← plotxybit b 1 2 0x102030; let b ← plotxybit b 2 2 0x112233
              let b ← outlinecircregion b 2 2 1
              pure (← getxybit b 1 2, ← getxybit b 2 2, ← getxybit b 3 2)) = .ok (0x010203, 0x112233, 0) := by decide +kernel

/-! ### Brightness gradients -/

theorem nearestByte_lt (v : Int) : nearestByte v < 256 := by unfold nearestByte; split_ifs <;> omega

theorem bright_eq (f : Nat → Int) (buf : Bytes) :
    applybrightnessadjtoBGRbuf f buf = .ok (buf.map fun v => nearestByte (f v)) := by
  apply mkArray_ok
  · rw [List.map_map, List.map_map]
    apply List.map_congr_left
    intro v _
    simp only [Function.comp_apply, Int.ofNat_eq_natCast, setminmax, nearestByte]
    split_ifs <;> omega
  · intro w hw
    obtain ⟨v, _, rfl⟩ := List.mem_map.mp hw
    exact nearestByte_lt _

/-- A pixel whose bytes are brightened. -/
theorem pix_bright (h : Valid b W H 24) {g : Nat → Int} {px py : Nat}
    (hc : ∀ t, t < 3 → rowOf b' W H 24 py (3 * px + t) = nearestByte (g (rowOf b W H 24 py (3 * px + t)))) :
    pix b' W H 24 px py = brightened g (pix b W H 24 px py) := by
  have hl : ∀ j, byte b (cell W H 24 py j) < 256 := fun j => byte_lt_of_mem h.bytes _
  have k0 := hc 0 (by omega)
  have k1 := hc 1 (by omega)
  have k2 := hc 2 (by omega)
  unfold rowOf at k0 k1 k2
  rw [Nat.add_zero] at k0
  have l0 := hl (3 * px); have l1 := hl (3 * px + 1); have l2 := hl (3 * px + 2)
  rw [pix_cell, pix_cell, if_pos rfl, if_pos rfl, k0, k1, k2]
  unfold brightened redOf greenOf blueOf rgb
  generalize byte b (cell W H 24 py (3 * px)) = p at *
  generalize byte b (cell W H 24 py (3 * px + 1)) = q at *
  generalize byte b (cell W H 24 py (3 * px + 2)) = r at *
  rw [show (p + 256 * q + 65536 * r) / 65536 % 256 = r by omega, show (p + 256 * q + 65536 * r) / 256 % 256 = q by omega,
    show (p + 256 * q + 65536 * r) % 256 = p by omega]
  omega

/-- Row `y'` after a round of the vertical gradient. -/
def vgNew (f : Int → Nat → Int) (x y : Int) (v : Int × Int) (y' : Nat) (ρ1 ρ2 : Nat → Nat) (j : Nat) : Nat :=
  let ρ := if (y' : Int) = y - v.2 then ρ1 else ρ2
  if 3 * (x - v.1).toNat ≤ j ∧ j < 3 * (x + v.1).toNat then nearestByte (f y' (ρ j)) else ρ j

theorem vgrad_step (f : Int → Nat → Int) (h : Valid b W H 24) {x y : Int} {v : Int × Int} {xa xb ya yb : Nat}
    (c : InCols W H 24 x y v xa xb ya yb) :
    ∃ b', (do
      let xm := mirror x v.1
      let ym := mirror y v.2
      let s1 ← BMoffsethd b xm.1 ym.1
      let e1 ← BMoffsethd b xm.2 ym.1
      let s2 ← BMoffsethd b xm.1 ym.2
      let e2 ← BMoffsethd b xm.2 ym.2
      let b1 ← applybrightnessadjtoBGRbuf (f ym.1) (slice b s1 e1)
      let b2 ← applybrightnessadjtoBGRbuf (f ym.2) (slice b s2 e2)
      pure (setSlice (setSlice b s1 e1 b1) s2 e2 b2)) = .ok b' ∧
      Grid b b' W H 24 (fun y' j => if (y' : Int) = y - v.2 ∨ (y' : Int) = y + v.2
        then vgNew f x y v y' (rowOf b W H 24 (y - v.2).toNat) (rowOf b W H 24 (y + v.2).toNat) j
        else byte b (cell W H 24 y' j)) := by
  obtain ⟨exa, exb, eya, eyb, hx, hxW, hya, hyb, col, row⟩ := c
  simp only [mirror, exa, exb, eya, eyb]
  rw [BMoffsethd_col h _ hya, BMoffsethd_col h _ hya, BMoffsethd_col h _ hyb, BMoffsethd_col h _ hyb]
  simp only [ok_bind, cell_col_int]
  rw [slice_row h hya col row, slice_row h hyb col row, bright_eq, bright_eq]
  simp only [ok_bind]
  refine ⟨_, rfl, ?_⟩
  have w : ∀ b0, Valid b0 W H 24 → ∀ yd : Nat, yd < H →
      Grid b0 (setSlice b0 (cell W H 24 yd (xa * 24 / 8) : Int) (cell W H 24 yd (xb * 24 / 8) : Int)
        ((seg b W H 24 yd (xa * 24 / 8) (xb * 24 / 8 - xa * 24 / 8)).map fun v => nearestByte (f yd v))) W H 24 (fun y' j' =>
        if y' = yd ∧ 3 * xa ≤ j' ∧ j' < 3 * xb then nearestByte (f yd (rowOf b W H 24 yd j'))
        else byte b0 (cell W H 24 y' j')) := by
    intro b0 h0 yd hyd
    refine (setSlice_row h0 hyd col row ?_ (by rw [List.length_map, length_seg])).congr ?_
    · intro v hv
      obtain ⟨w, _, rfl⟩ := List.mem_map.mp hv
      exact nearestByte_lt _
    intro y' j' _ _
    rw [show xa * 24 / 8 = 3 * xa by omega, show xb * 24 / 8 = 3 * xb by omega]
    split_ifs with c
    · rw [byte_eq_getElem _ _ (by rw [List.length_map, length_seg]; omega), List.getElem_map, ← byte_eq_getElem,
        byte_seg _ _ _ _ _ _ (by omega)]
      unfold rowOf
      rw [show 3 * xa + (j' - 3 * xa) = j' by omega]
    · rfl
  have g1 := w b h ya hya
  refine (g1.trans (w _ g1.valid yb hyb)).congr ?_
  intro y' j' hy' hj'
  rw [g1.cells y' j' hy' hj']
  unfold vgNew
  simp only [exa, exb, eya, eyb, Int.toNat_natCast, Nat.cast_inj]
  clear * -
  rcases eq_or_ne y' ya with rfl | c1 <;> rcases eq_or_ne y' yb with rfl | c2 <;>
    by_cases c3 : 3 * xa ≤ j' ∧ j' < 3 * xb <;> simp_all [rowOf]

/-- C76, what `vertbrightnessgrad2circregion` does: in every row of the circle the pixels of `CircCols` are brightened
with the factor of the row. -/
theorem C76_vert_exact (h : Valid b W H 24) (f : Int → Nat → Int) {x y r : Int} (hs : SquareInside W H x y r) (hr : r ≠ 0) :
    ∃ b', vertbrightnessgrad2circregion f b x y r = .ok b' ∧ Alters b b' W H 24 (CircCols W 24 x y r)
      (fun px py => brightened (f py) (pix b W H 24 px py)) := by
  have hsq := (square_iff W H x y r).mpr hs
  simp only [entirecircleisinboundary, isinrange, Bool.and_eq_true, decide_eq_true_eq] at hsq
  obtain ⟨b', e, hv, hh, hc⟩ := scanline_fold (W := W) (H := H) (bits := 24) (x := x) (y := y) (r := r) _
    (vgNew f x y)
    (by
      intro v hv y' ρ1 ρ1' ρ2 ρ2' h1 h2 _ _ j hj
      have := halfWidth_bounds (mem_lineedge.mp hv)
      have h1 := h1 (by omega) (by omega) j hj
      have h2 := h2 (by omega) (by omega) j hj
      unfold vgNew
      dsimp only
      by_cases c1 : (y' : Int) = y - v.2
      · rw [if_pos c1, if_pos c1, h1]
      · rw [if_neg c1, if_neg c1, h2])
    (fun b hb v hv => by
      obtain ⟨xa, xb, ya, yb, c⟩ := inCols h.depth hs hv
      exact vgrad_step f hb c) h
  have row : ∀ py j hw, py < H → j < rowLen W 24 → HalfWidth r hw |(py : Int) - y| → rowOf b' W H 24 py j =
      if 3 * (x - hw).toNat ≤ j ∧ j < 3 * (x + hw).toNat then nearestByte (f py (rowOf b W H 24 py j)) else rowOf b W H 24 py j := by
    intro py j hw hpy hj hhw
    have := (hc py j hpy hj).1 hw hhw
    unfold vgNew at this
    dsimp only at this
    have hcase := abs_cases ((py : Int) - y)
    by_cases c1 : (py : Int) = y - |(py : Int) - y|
    · rw [if_pos c1, show (y - |(py : Int) - y|).toNat = py by omega] at this
      exact this
    · rw [if_neg c1, show (y + |(py : Int) - y|).toNat = py by omega] at this
      exact this
  have inb : ∀ (px py : Nat) (hw : Int), HalfWidth r hw |(py : Int) - y| → ∀ t, t < 3 →
      ((3 * (x - hw).toNat ≤ 3 * px + t ∧ 3 * px + t < 3 * (x + hw).toNat) ↔ CircCols W 24 x y r px py) := by
    intro px py hw hhw t ht
    have := inside_bytes (bits := 24) h.depth hs hhw (px := px) (t := t) (by unfold bpp; simpa using ht)
    rw [← this]
    omega
  refine ⟨b', ?_, hv, hh, ?_, ?_⟩
  · unfold vertbrightnessgrad2circregion
    rw [(C45_circle_guards h _ x y r).1.1 ⟨rfl, hs⟩, if_neg hr, e]
    rfl
  · intro px py hpx hpy hin
    obtain ⟨hw, hhw, _⟩ := id hin
    apply pix_bright h
    intro t ht
    have hj : 3 * px + t < rowLen W 24 := by unfold rowLen; omega
    rw [row py _ hw hpy hj hhw, if_pos ((inb px py hw hhw t ht).mpr hin)]
  · intro px py hpx hpy hn
    apply pix_congr rfl
    intro t ht
    have ht : t < 3 := by unfold bpp at ht; simpa using ht
    have hj : 3 * px + t < rowLen W 24 := by unfold rowLen; omega
    rw [show px * 24 / 8 = 3 * px by omega]
    by_cases hr : r < |(py : Int) - y|
    · exact (hc py _ hpy hj).2 hr
    · obtain ⟨hw, hhw⟩ := halfWidth_exists (abs_nonneg ((py : Int) - y)) (le_of_not_gt hr)
      have := row py _ hw hpy hj hhw
      rw [if_neg (fun g => hn ((inb px py hw hhw t ht).mp g))] at this
      exact this

/-- A function on bytes applied to a part of a column of a 24-bit image. -/
theorem vertslice_map (h : Valid b W H 24) {func : Bytes → Py Bytes} {φ : Nat → Nat}
    (hf : ∀ buf, func buf = .ok (buf.map φ)) (hφ : ∀ v, φ v < 256) {px lo hi : Nat} (hx : px < W) (hle : lo ≤ hi) (hH : hi < H) :
    ∃ b', fnwithpar2vertslice func b px lo hi = .ok b' ∧ Grid b b' W H 24 (fun y' j =>
      if j / 3 = px ∧ lo ≤ y' ∧ y' ≤ hi then φ (rowOf b W H 24 y' j) else byte b (cell W H 24 y' j)) := by
  have hr : 3 * W ≤ rowLen W 24 := by unfold rowLen; omega
  have step : ∀ b1, Valid b1 W H 24 → ∀ t : Nat, t < 3 → ∀ s e : Int, s = (cell W H 24 hi (3 * px) : Int) + t →
      e = (cell W H 24 lo (3 * px) : Int) + rowLen W 24 + t - 2 → ∃ col b2,
      sliceStep b1 s e (rowLen W 24) = .ok col ∧ setSliceStep b1 s e (rowLen W 24) (col.map φ) = .ok b2 ∧
      Grid b1 b2 W H 24 (fun y' j => if j = 3 * px + t ∧ lo ≤ y' ∧ y' ≤ hi then φ (rowOf b1 W H 24 y' j)
        else byte b1 (cell W H 24 y' j)) := by
    intro b1 h1 t ht s e es0 ee0
    have hj : 3 * px + t < rowLen W 24 := by omega
    have es : s = (cell W H 24 hi (3 * px + t) : Nat) := by rw [es0]; unfold cell; push_cast; omega
    have ee : e = ((cell W H 24 lo (3 * px + t) + rowLen W 24 - 2 : Nat) : Int) := by rw [ee0]; unfold cell; push_cast; omega
    obtain ⟨b2, e2, g2⟩ := column_write h1 hle hH hj es (by omega) ee (by omega) (by omega)
      (buf := (column b1 W H 24 lo hi (3 * px + t)).map φ) (by rw [List.length_map, length_column])
      (by intro v hv; obtain ⟨w, _, rfl⟩ := List.mem_map.mp hv; exact hφ _)
    refine ⟨_, b2, column_read h1 hle hH hj es ee (by omega) (by omega), e2, g2.congr ?_⟩
    intro y' j _ _
    split_ifs with c
    · obtain ⟨rfl, c1, c2⟩ := c
      rw [byte_eq_getElem _ _ (by rw [List.length_map, length_column]; omega), List.getElem_map, ← byte_eq_getElem,
        byte_column c1 c2]
      rfl
    · rfl
  unfold fnwithpar2vertslice
  have hxy : getmaxxy b = .ok ((W : Int), (H : Int)) := by
    unfold getmaxxy; rw [h.getmaxx_eq, h.getmaxy_eq]; rfl
  rw [h.bits_eq, h.xchrcnt_eq, hxy]
  simp only [ok_bind]
  rw [if_pos (by simp only [isinrange, Bool.and_eq_true, decide_eq_true_eq]; omega)]
  have e1 : swapif (lo : Int) (hi : Int) (decide ((lo : Int) > hi)) = ((lo : Int), (hi : Int)) := by
    rw [decide_eq_false (by omega)]; rfl
  have e2 : setmin (lo : Int) 0 = lo := by unfold setmin; split_ifs <;> omega
  have e3 : setmax (hi : Int) ((H : Int) - 1) = hi := by unfold setmax; split_ifs <;> omega
  rw [e1]
  dsimp only
  rw [e2, e3, BMoffsethd_col h _ hH, BMoffsethd_col h _ (show lo < H by omega)]
  simp only [ok_bind, cell_col_int]
  rw [if_pos (by norm_num), show px * 24 / 8 = 3 * px by omega, Int.toNat_natCast]
  obtain ⟨k1, b1, d1, f1, g1⟩ := step b h 0 (by omega) (cell W H 24 hi (3 * px) : Int)
    ((cell W H 24 lo (3 * px) : Int) + rowLen W 24 - 2) (by omega) (by omega)
  obtain ⟨k2, b2, d2, f2, g2⟩ := step b1 g1.valid 1 (by omega) ((cell W H 24 hi (3 * px) : Int) + 1)
    ((cell W H 24 lo (3 * px) : Int) + rowLen W 24 - 1) (by omega) (by omega)
  obtain ⟨k3, b3, d3, f3, g3⟩ := step b2 g2.valid 2 (by omega) ((cell W H 24 hi (3 * px) : Int) + 2)
    ((cell W H 24 lo (3 * px) : Int) + rowLen W 24) (by omega) (by omega)
  refine ⟨b3, ?_, ((g1.trans g2).trans g3).congr ?_⟩
  · simp only [d1, hf, f1, d2, f2, d3, f3, ok_bind]
  · intro y' j hy hj
    have r1 : rowOf b1 W H 24 y' j = _ := g1.cells y' j hy hj
    have r2 : rowOf b2 W H 24 y' j = _ := g2.cells y' j hy hj
    have r1' : byte b1 (cell W H 24 y' j) = _ := g1.cells y' j hy hj
    have r2' : byte b2 (cell W H 24 y' j) = _ := g2.cells y' j hy hj
    rw [r2, r2', r1, r1']
    clear r1 r2 r1' r2' g1 g2 g3 d1 d2 d3 f1 f2 f3 e1 e2 e3 step
    by_cases c : lo ≤ y' ∧ y' ≤ hi
    · simp only [c, and_true]
      by_cases d : j / 3 = px
      · rw [if_pos d]
        have : j = 3 * px + 0 ∨ j = 3 * px + 1 ∨ j = 3 * px + 2 := by omega
        rcases this with e | e | e
        · rw [if_neg (show ¬ j = 3 * px + 2 by omega), if_neg (show ¬ j = 3 * px + 1 by omega), if_pos e]
        · rw [if_neg (show ¬ j = 3 * px + 2 by omega), if_pos e, if_neg (show ¬ j = 3 * px + 0 by omega)]; rfl
        · rw [if_pos e, if_neg (show ¬ j = 3 * px + 1 by omega), if_neg (show ¬ j = 3 * px + 0 by omega)]; rfl
      · rw [if_neg d, if_neg (show ¬ j = 3 * px + 2 by omega), if_neg (show ¬ j = 3 * px + 1 by omega),
          if_neg (show ¬ j = 3 * px + 0 by omega)]
    · simp only [c, and_false, if_false]

theorem hgrad_step (f : Int → Nat → Int) (h : Valid b W H 24) {x y : Int} {v : Int × Int} {xa xb ya yb : Nat}
    (c : InCols W H 24 x y v xa xb ya yb) (hy : ya ≤ yb) :
    ∃ b', (do
      let xm := mirror x v.1
      let ym := mirror y v.2
      let bmp ← fnwithpar2vertslice (applybrightnessadjtoBGRbuf (f xm.1)) b xm.1 ym.1 ym.2
      if xm.1 ≠ xm.2 then fnwithpar2vertslice (applybrightnessadjtoBGRbuf (f xm.2)) bmp xm.2 ym.1 ym.2
      else pure bmp) = .ok b' ∧
      Grid b b' W H 24 (fun y' j => if (j / 3 = xa ∨ j / 3 = xb) ∧ ya ≤ y' ∧ y' ≤ yb
        then nearestByte (f (j / 3 : Nat) (rowOf b W H 24 y' j)) else rowOf b W H 24 y' j) := by
  obtain ⟨exa, exb, eya, eyb, hx, hxW, hya, hyb, col, row⟩ := c
  simp only [mirror, exa, exb, eya, eyb]
  obtain ⟨b1, e1, g1⟩ := vertslice_map h (bright_eq (f xa)) (fun v => nearestByte_lt _) (px := xa) (by omega) hy hyb
  rw [e1, ok_bind]
  by_cases hne : (xa : Int) ≠ xb
  · obtain ⟨b2, e2, g2⟩ := vertslice_map g1.valid (bright_eq (f xb)) (fun v => nearestByte_lt _) (px := xb) (by omega) hy hyb
    rw [if_pos hne, e2]
    refine ⟨b2, rfl, (g1.trans g2).congr ?_⟩
    intro y' j hy hj
    have r1 : rowOf b1 W H 24 y' j = _ := g1.cells y' j hy hj
    have r1' : byte b1 (cell W H 24 y' j) = _ := g1.cells y' j hy hj
    rw [r1, r1']
    clear r1 r1' g1 g2 e1 e2
    by_cases c : ya ≤ y' ∧ y' ≤ yb
    · simp only [c, and_true]
      by_cases d1 : j / 3 = xa
      · rw [if_neg (show ¬ j / 3 = xb by omega), if_pos d1, if_pos (Or.inl d1), d1]
      · by_cases d2 : j / 3 = xb
        · rw [if_pos d2, if_neg d1, if_pos (Or.inr d2), d2]; rfl
        · rw [if_neg d2, if_neg d1, if_neg (by tauto)]; rfl
    · simp only [c, and_false, if_false]; rfl
  · rw [if_neg hne]
    refine ⟨b1, rfl, g1.congr ?_⟩
    intro y' j hy hj
    have : xa = xb := by omega
    subst this
    simp only [or_self]
    split_ifs with c
    · rw [c.1]
    · rfl

/-- C76, what `horibrightnessgrad2circregion` does: in every column of the circle the pixels of `ColSet` are brightened
with the factor of the column. -/
theorem C76_hori_exact (h : Valid b W H 24) (f : Int → Nat → Int) {x y r : Int} (hs : SquareInside W H x y r) (hr : r ≠ 0) :
    ∃ b', horibrightnessgrad2circregion f b x y r = .ok b' ∧ Alters b b' W H 24 (ColSet x y r)
      (fun px py => brightened (f px) (pix b W H 24 px py)) := by
  have zn : ∀ v : Int × Int, v ∈ itercirclepartvertlineedge r → ∀ q : Nat,
      ((q = (x - v.1).toNat ∨ q = (x + v.1).toNat) ↔ v.1 = |(q : Int) - x|) := by
    intro v hv q
    obtain ⟨xa, xb, ya, yb, c⟩ := inCols_vert h.depth hs hv
    have q5 := lowHeight_bounds (mem_vertlineedge.mp hv)
    have hcase := abs_cases ((q : Int) - x)
    have := c.exa; have := c.exb
    omega
  have disj : (itercirclepartvertlineedge r).Pairwise (fun a a' => ∀ p q : Nat,
      (p / 3 = (x - a.1).toNat ∨ p / 3 = (x + a.1).toNat) → ¬ (p / 3 = (x - a'.1).toNat ∨ p / 3 = (x + a'.1).toNat)) := by
    obtain ⟨g1, _, g3⟩ := C73_columns r
    rw [List.Nodup, List.pairwise_map] at g1
    refine g1.imp_of_mem ?_
    intro a a' ha ha' hne p q h1 h2
    have k1 := (zn a ha _).mp h1
    have k2 := (zn a' ha' _).mp h2
    omega
  obtain ⟨b', e, hv, hh, hc⟩ := zone_fold (W := W) (H := H) (bits := 24)
    (fun b p q => rowOf b W H 24 q p) (fun p q => q < H ∧ p < rowLen W 24)
    (fun v p _ => p / 3 = (x - v.1).toNat ∨ p / 3 = (x + v.1).toNat)
    (fun v g p q => if (y - v.2).toNat ≤ q ∧ q ≤ (y + v.2).toNat then nearestByte (f (p / 3 : Nat) (g p q)) else g p q)
    (fun bmp v => do
      let xm := mirror x v.1
      let ym := mirror y v.2
      let bmp ← fnwithpar2vertslice (applybrightnessadjtoBGRbuf (f xm.1)) bmp xm.1 ym.1 ym.2
      if xm.1 ≠ xm.2 then fnwithpar2vertslice (applybrightnessadjtoBGRbuf (f xm.2)) bmp xm.2 ym.1 ym.2
      else pure bmp)
    (itercirclepartvertlineedge r) disj
    (by
      intro v hv g g' hg p q hD hz
      have := hg p q hD hz
      rw [this])
    (by
      intro b hb v hv
      obtain ⟨xa, xb, ya, yb, c⟩ := inCols_vert h.depth hs hv
      have q5 := lowHeight_bounds (mem_vertlineedge.mp hv)
      have q3 := c.eya; have q4 := c.eyb
      obtain ⟨b', e, g⟩ := hgrad_step f hb c (by omega)
      refine ⟨b', e, g.valid, g.header, ?_⟩
      intro p q hD
      have hcell : rowOf b' W H 24 q p = _ := g.cells q p hD.1 hD.2
      dsimp only
      rw [c.exa, c.exb, c.eya, c.eyb]
      simp only [Int.toNat_natCast]
      rw [hcell]
      constructor
      · intro hz
        by_cases c2 : ya ≤ q ∧ q ≤ yb
        · rw [if_pos ⟨hz, c2⟩, if_pos c2]
        · rw [if_neg (fun g => c2 g.2), if_neg c2]
      · intro hz
        rw [if_neg (fun g => hz g.1)]) h
  have cells : ∀ px py t, px < W → py < H → t < 3 →
      (ColSet x y r px py → rowOf b' W H 24 py (3 * px + t) = nearestByte (f px (rowOf b W H 24 py (3 * px + t)))) ∧
      (¬ ColSet x y r px py → rowOf b' W H 24 py (3 * px + t) = rowOf b W H 24 py (3 * px + t)) := by
    intro px py t hpx hpy ht
    have hj : 3 * px + t < rowLen W 24 := by unfold rowLen; omega
    have hdiv : (3 * px + t) / 3 = px := by omega
    obtain ⟨k1, k2⟩ := hc (3 * px + t) py ⟨hpy, hj⟩
    rw [hdiv] at k1 k2
    have hcasey := abs_cases ((py : Int) - y)
    by_cases hr : |(px : Int) - x| ≤ r
    · obtain ⟨v, hvm, ev⟩ := List.mem_map.mp (((C73_columns r).2.1 _).mpr ⟨abs_nonneg _, hr⟩)
      have hl := mem_vertlineedge.mp hvm
      have := k1 v hvm ((zn v hvm px).mpr ev)
      obtain ⟨xa, xb, ya, yb, c⟩ := inCols_vert h.depth hs hvm
      have q3 := c.eya; have q4 := c.eyb
      have q5 := lowHeight_bounds hl
      rw [ev] at hl
      constructor
      · rintro ⟨lh, hlh, hle⟩
        obtain rfl := lowHeight_unique hl hlh
        rw [if_pos (by omega)] at this
        exact this
      · intro hn
        have hgt : ¬ |(py : Int) - y| ≤ v.2 := fun g => hn ⟨v.2, hl, g⟩
        rw [if_neg (by omega)] at this
        exact this
    · have hno : ¬ ColSet x y r px py := by
        rintro ⟨lh, hlh, _⟩
        exact hr (lowHeight_bounds hlh).2.2.2
      refine ⟨fun g => absurd g hno, fun _ => k2 ?_⟩
      intro v hvm hz
      have := (zn v hvm px).mp hz
      have := (lowHeight_bounds (mem_vertlineedge.mp hvm)).2.2.2
      omega
  refine ⟨b', ?_, hv, hh, ?_, ?_⟩
  · unfold horibrightnessgrad2circregion
    rw [(C45_circle_guards h _ x y r).1.1 ⟨rfl, hs⟩, if_neg hr, e]
    rfl
  · intro px py hpx hpy hin
    apply pix_bright h
    intro t ht
    exact (cells px py t hpx hpy ht).1 hin
  · intro px py hpx hpy hn
    apply pix_congr rfl
    intro t ht
    have ht : t < 3 := by unfold bpp at ht; simpa using ht
    rw [show px * 24 / 8 = 3 * px by omega]
    exact (cells px py t hpx hpy ht).2 hn

/-- C76 with the disc: nothing outside of it changes, and every pixel of it whose right neighbour is in the disc too (for
the vertical gradient), or that is in `ColSet` (for the horizontal one), is brightened with the factor of its row or column.
Missing: the other pixels of the disc, and the radius 0. -/
theorem C76_gradients_partial (h : Valid b W H 24) (f : Int → Nat → Int) {x y r : Int} (hs : SquareInside W H x y r)
    (hr : r ≠ 0) :
    (∃ b', vertbrightnessgrad2circregion f b x y r = .ok b' ∧ Alters b b' W H 24
      (fun px py => DiscSet x y r px py ∧ DiscSet x y r (px + 1) py) (fun px py => brightened (f py) (pix b W H 24 px py))) ∧
    (∃ b', horibrightnessgrad2circregion f b x y r = .ok b' ∧ Alters b b' W H 24
      (fun px py => DiscSet x y r px py ∧ ColSet x y r px py) (fun px py => brightened (f px) (pix b W H 24 px py))) := by
  constructor
  · obtain ⟨b', e, a⟩ := C76_vert_exact h f hs hr
    refine ⟨b', e, a.valid, a.header, ?_, ?_⟩
    · intro px py hpx hpy hd
      exact a.inside px py hpx hpy ((circCols_disc (Or.inr rfl) hs px py).mpr hd)
    · intro px py hpx hpy hd
      exact a.outside px py hpx hpy (fun g => hd ((circCols_disc (Or.inr rfl) hs px py).mp g))
  · obtain ⟨b', e, a⟩ := C76_hori_exact h f hs hr
    exact ⟨b', e, a.valid, a.header, fun px py hpx hpy hd => a.inside px py hpx hpy hd.2,
      fun px py hpx hpy hd => a.outside px py hpx hpy (fun g => hd ⟨colSet_disc g, g⟩)⟩

/-- C76: a circle that does not fit, or another depth, is left alone. -/
theorem C76_rejected (h : Valid b W H bits) (f : Int → Nat → Int) {x y r : Int}
    (hg : ¬ (bits = 24 ∧ SquareInside W H x y r)) :
    vertbrightnessgrad2circregion f b x y r = .ok b ∧ horibrightnessgrad2circregion f b x y r = .ok b := by
  unfold vertbrightnessgrad2circregion horibrightnessgrad2circregion
  rw [(C45_circle_guards h _ x y r).1.2 hg, (C45_circle_guards h _ x y r).1.2 hg]
  exact ⟨rfl, rfl⟩

/-- C76 is false for the radius 0: the step of the gradient is a division by zero. -/
theorem C76_radius0 (h : Valid b W H 24) (f : Int → Nat → Int) {x y : Int} (hs : SquareInside W H x y 0) :
    vertbrightnessgrad2circregion f b x y 0 = .error .zeroDivision ∧
      horibrightnessgrad2circregion f b x y 0 = .error .zeroDivision := by
  unfold vertbrightnessgrad2circregion horibrightnessgrad2circregion
  rw [(C45_circle_guards h _ x y 0).1.1 ⟨rfl, hs⟩, (C45_circle_guards h _ x y 0).1.1 ⟨rfl, hs⟩, if_pos rfl, if_pos rfl]
  exact ⟨rfl, rfl⟩

example : (do let b ← newBMP 5 5 24; let b ← plotxybit b 2 1 10; let b ← plotxybit b 2 3 10
              let b ← vertbrightnessgrad2circregion (fun y v => (y + 2) * v) b 2 2 2
              pure (← getxybit b 2 1, ← getxybit b 2 3)) = .ok (30, 50) := by decide +kernel
example : (do let b ← newBMP 5 5 24; let b ← plotxybit b 1 2 10; let b ← plotxybit b 3 2 10
              let b ← horibrightnessgrad2circregion (fun x v => (x + 2) * v) b 2 2 2
              pure (← getxybit b 1 2, ← getxybit b 3 2)) = .ok (30, 50) := by decide +kernel

/-! ### Quarters -/

/-- A quarter mirror: first the columns, then the rows. -/
def quarter (th : CircH) (tv : CircV) (b : Bytes) (x y r : Int) : Py Bytes := do
  verttransformincircregion tv (← horitransformincircregion th b x y r) x y r

/-- C77: the four quarter mirrors fill the circle from one quarter. A pixel that both passes reach gets the colour
of its image in that quarter; nothing outside of the disc changes. -/
theorem C77_quarter_partial (h : Valid b W H bits) (hb : bits = 8 ∨ bits = 24) {x y r : Int} (hs : SquareInside W H x y r)
    (hg : SquareInside W W x y r) :
    ∀ p ∈ [(CircH.L, CircV.T, mirrortopleftincircregion), (.R, .T, mirrortoprightincircregion),
      (.L, .B, mirrorbottomleftincircregion), (.R, .B, mirrorbottomrightincircregion)],
    ∃ b', p.2.2 b x y r = .ok b' ∧ Valid b' W H bits ∧ SameHeader b b' bits ∧ ∀ px py, px < W → py < H →
      (DiscSet x y r px py → DiscSet x y r (px + 1) py → ColSet x y r px (circRowSrc p.2.1 y py) →
        pix b' W H bits px py = pix b W H bits (circColSrc p.1 x px) (circRowSrc p.2.1 y py)) ∧
      (¬ DiscSet x y r px py → pix b' W H bits px py = pix b W H bits px py) := by
  have hsq := (square_iff W H x y r).mpr hs
  simp only [entirecircleisinboundary, isinrange, Bool.and_eq_true, decide_eq_true_eq] at hsq
  have key : ∀ th tv, ∃ b', quarter th tv b x y r = .ok b' ∧ Valid b' W H bits ∧ SameHeader b b' bits ∧
      ∀ px py, px < W → py < H →
      (DiscSet x y r px py → DiscSet x y r (px + 1) py → ColSet x y r px (circRowSrc tv y py) →
        pix b' W H bits px py = pix b W H bits (circColSrc th x px) (circRowSrc tv y py)) ∧
      (¬ DiscSet x y r px py → pix b' W H bits px py = pix b W H bits px py) := by
    intro th tv
    obtain ⟨b1, e1, a1⟩ := C73_hori_exact th h hb hs
    obtain ⟨b2, e2, a2⟩ := C72_vert_exact tv a1.valid hs hg
    refine ⟨b2, by unfold quarter; rw [e1, ok_bind, e2], a2.valid,
      ⟨a2.header.1.trans a1.header.1, fun i hi => (a2.header.2 i hi).trans (a1.header.2 i hi)⟩, ?_⟩
    intro px py hpx hpy
    constructor
    · intro d1 d2 cs
      have hrow : circRowSrc tv y py < H := by
        obtain ⟨X, on, _⟩ := d1
        have := (C25_circle_accuracy r X _ ((C25_circle_points _ _ _).mpr on)).2.2.2.1
        have hcase := abs_cases ((py : Int) - y)
        unfold circRowSrc
        cases tv <;> dsimp only <;> omega
      rw [a2.inside px py hpx hpy ((circCols_disc hb hs px py).mpr ⟨d1, d2⟩), a1.inside px _ hpx hrow cs]
    · intro d
      rw [a2.outside px py hpx hpy (fun g => d ((circCols_disc hb hs px py).mp g).1), a1.outside px py hpx hpy (fun g => d (colSet_disc g))]
  intro p hp
  simp only [List.mem_cons, List.not_mem_nil, or_false] at hp
  rcases hp with rfl | rfl | rfl | rfl
  · exact key .L .T
  · exact key .R .T
  · exact key .L .B
  · exact key .R .B

example : (do let b ← newBMP 5 5 24; let b ← plotxybit b 1 1 0x102030
              let b ← mirrortopleftincircregion b 2 2 2
              pure (← getxybit b 1 3, ← getxybit b 3 1, ← getxybit b 3 3)) =
                .ok (0x102030, 0x102030, 0x102030) := by decide +kernel

end
end Verif.Props
