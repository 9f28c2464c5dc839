import Verif.Props.Horizontal
/-! Properties C55 and C56: vertical flips and mirrors of regions, corner mirrors. -/

namespace Verif.Props
open Verif Spec Model

theorem adjustx {b : Bytes} {W H bits : Nat} (h : Valid b W H bits) {xa xb : Nat} (hle : xa ≤ xb) :
    adjustxbufsize b (xa : Int) (xb : Int) = .ok (((xb - xa + 1) * bits / 8 : Nat) : Int) := by
  unfold adjustxbufsize
  rw [show getItem b 28 = .ok bits from h.bits_eq]
  simp only [ok_bind, pure_eq_ok]
  congr 1
  unfold adjustbufsize pyShr
  rcases h.depth with rfl | rfl | rfl | rfl <;> norm_num <;> omega

/-- The bytes of an aligned column range are those of its pixels. -/
theorem seg_iff {bits xa xb x t : Nat} (hd : Depth bits) (ha : Aligned bits xa xb) (hle : xa ≤ xb)
    (ht : t < bpp bits) :
    (xa * bits / 8 ≤ x * bits / 8 + t ∧ x * bits / 8 + t < xa * bits / 8 + (xb - xa + 1) * bits / 8) ↔
      (xa ≤ x ∧ x ≤ xb) := by
  obtain ⟨h1, h2⟩ := ha
  unfold bpp at ht
  rcases hd with rfl | rfl | rfl | rfl <;> norm_num at ht h1 h2 ⊢ <;> omega

/-- The first column of the bytes that the code takes for the columns from `x1` to `x2`. -/
def byteLeft (bits : Nat) (x1 x2 : Int) : Int := min x1 x2 * bits / 8 * 8 / bits

/-- The number of columns in the whole bytes that fit in the columns from `x1` to `x2`. -/
def byteWidth (bits : Nat) (x1 x2 : Int) : Int := (max x1 x2 - min x1 x2 + 1) * bits / 8 * 8 / bits

/-- The bytes of any column range are those of the columns of whole bytes. -/
theorem seg_cols {bits xa xb x t : Nat} {x1 x2 : Int} (hd : Depth bits) (hxa : (xa : Int) = min x1 x2) (hxb : (xb : Int) = max x1 x2)
    (ht : t < bpp bits) :
    (xa * bits / 8 ≤ x * bits / 8 + t ∧ x * bits / 8 + t < xa * bits / 8 + (xb - xa + 1) * bits / 8) ↔
      (byteLeft bits x1 x2 ≤ x ∧ (x : Int) < byteLeft bits x1 x2 + byteWidth bits x1 x2) := by
  unfold byteLeft byteWidth
  have hle : xa ≤ xb := by omega
  rw [← hxa, ← hxb]
  unfold bpp at ht
  rcases hd with rfl | rfl | rfl | rfl <;> norm_num at ht ⊢ <;> omega

theorem seg_fit {W bits xa xb : Nat} (hd : Depth bits) (hle : xa ≤ xb) (hW : xb < W) :
    xa * bits / 8 + (xb - xa + 1) * bits / 8 ≤ rowLen W bits := by
  have := xcell_lt hd hW
  unfold bpp at this
  rcases hd with rfl | rfl | rfl | rfl <;> norm_num at * <;> omega

theorem verttransregion_grid {b : Bytes} {W H bits : Nat} (h : Valid b W H bits) (t : VTrans)
    {x1 y1 x2 y2 : Int} {xa xb ya yb : Nat} (hxa : (xa : Int) = min x1 x2) (hxb : (xb : Int) = max x1 x2)
    (hya : (ya : Int) = min y1 y2) (hyb : (yb : Int) = max y1 y2) (hW : xb < W) (hH : yb < H) :
    ∃ b', verttransregion b x1 y1 x2 y2 t = .ok b' ∧ Grid b b' W H bits (fun y j =>
      if (ya ≤ y ∧ y ≤ yb) ∧ xa * bits / 8 ≤ j ∧ j < xa * bits / 8 + (xb - xa + 1) * bits / 8
      then byte b (cell W H bits (vsrc t ya yb y) j) else byte b (cell W H bits y j)) := by
  unfold verttransregion
  rw [rect_guard h, if_pos (by omega), sortrec_eq, ← hxa, ← hxb, ← hya, ← hyb]
  dsimp only
  rw [adjustx h (by omega), h.xchrcnt_eq, h.BMoffsethd_eq _ _ hH, h.BMoffsethd_eq _ _ (show ya < H by omega)]
  simp only [ok_bind, pure_eq_ok, addr_cell]
  refine ⟨_, rfl, ?_⟩
  have hR : 0 < rowLen W bits := by
    have := rowLen_pos (show 0 < W by omega) h.depth
    omega
  have hfit : xa * bits / 8 + (xb - xa + 1) * bits / 8 ≤ rowLen W bits := seg_fit h.depth (by omega) hW
  apply vertLoop_grid t hR hfit _ h (by omega) hH
  have hle : (yb - ya) * 1 ≤ (yb - ya) * rowLen W bits := Nat.mul_le_mul_left _ hR
  have := cell_col (W := W) (H := H) (bits := bits) hH (xa * bits / 8) (yb - ya) (by omega)
  rw [show yb - (yb - ya) = ya by omega] at this
  omega

/-- Row from which a pixel of the rectangle is taken. -/
def vsrcI (t : VTrans) (y1 y2 : Int) (y : Nat) : Nat :=
  match t with
  | .F => (y1 + y2 - y).toNat
  | .T => (min (y : Int) (y1 + y2 - y)).toNat
  | .B => (max (y : Int) (y1 + y2 - y)).toNat

/-- Columns made of whole bytes. -/
def AlignedI (bits : Nat) (x1 x2 : Int) : Prop :=
  min x1 x2 * bits % 8 = 0 ∧ (max x1 x2 + 1) * bits % 8 = 0

theorem AlignedI.nat {bits : Nat} {x1 x2 : Int} (h : AlignedI bits x1 x2) {xa xb : Nat}
    (hxa : (xa : Int) = min x1 x2) (hxb : (xb : Int) = max x1 x2) : Aligned bits xa xb := by
  obtain ⟨h1, h2⟩ := h
  rw [← hxa] at h1
  rw [← hxb] at h2
  constructor
  · exact_mod_cast h1
  · exact_mod_cast h2

/-- The rectangle of the columns of whole bytes. -/
def byteRect (bits : Nat) (x1 y1 x2 y2 : Int) (x y : Nat) : Bool :=
  decide (byteLeft bits x1 x2 ≤ (x : Int) ∧ (x : Int) < byteLeft bits x1 x2 + byteWidth bits x1 x2 ∧
    min y1 y2 ≤ (y : Int) ∧ (y : Int) ≤ max y1 y2)

/-- What the code does, for every rectangle in every depth. -/
theorem vregion_exact {b : Bytes} {W H bits : Nat} (h : Valid b W H bits) (t : VTrans)
    {x1 y1 x2 y2 : Int} (hi : InImage W H x1 y1 x2 y2) :
    ∃ b', verttransregion b x1 y1 x2 y2 t = .ok b' ∧ Redraws b b' W H bits (fun x y =>
        if byteRect bits x1 y1 x2 y2 x y then pix b W H bits x (vsrcI t y1 y2 y) else pix b W H bits x y) ∧
      (t = .F → verttransregion b' x1 y1 x2 y2 t = .ok b) ∧
      (t ≠ .F → verttransregion b' x1 y1 x2 y2 t = .ok b') := by
  obtain ⟨xa, xb, ya, yb, hxa, hxb, hya, hyb, hW, hH⟩ := corners hi
  obtain ⟨b', e, g⟩ := verttransregion_grid h t hxa hxb hya hyb hW hH
  obtain ⟨b2, e2, g2⟩ := verttransregion_grid g.valid t hxa hxb hya hyb hW hH
  refine ⟨b', e, ⟨g.valid, g.header, ?_⟩, ?_, ?_⟩
  · intro x y hx hy
    have hxc := xcell_lt h.depth hx
    by_cases c : byteRect bits x1 y1 x2 y2 x y = true
    · rw [if_pos c]
      unfold byteRect at c
      rw [decide_eq_true_eq] at c
      apply pix_congr rfl
      intro s hs
      rw [g.cells y _ hy (by omega), if_pos ⟨by omega, (seg_cols h.depth hxa hxb hs).mpr ⟨c.1, c.2.1⟩⟩]
      congr 2
      cases t <;> simp only [vsrc, vsrcI] <;> (try split_ifs) <;> omega
    · rw [if_neg c]
      unfold byteRect at c
      rw [decide_eq_true_eq] at c
      apply pix_congr rfl
      intro s hs
      rw [g.cells y _ hy (by omega), if_neg]
      intro ⟨q1, q2⟩
      have := (seg_cols h.depth hxa hxb hs).mp q2
      exact c ⟨this.1, this.2, by omega, by omega⟩
  · rintro rfl
    rw [e2]
    congr 1
    apply Grid.undo h g g2
    intro y j hy hj
    by_cases c : (ya ≤ y ∧ y ≤ yb) ∧ xa * bits / 8 ≤ j ∧ j < xa * bits / 8 + (xb - xa + 1) * bits / 8
    · have hv := vsrc_range .F c.1.1 c.1.2
      rw [if_pos c, g.cells _ _ (by omega) hj, if_pos ⟨by omega, c.2⟩]
      congr 2
      simp only [vsrc]; omega
    · rw [if_neg c, g.cells _ _ hy hj, if_neg c]
  · intro ht
    rw [e2]
    congr 1
    apply grid_ext g.valid g2.header
    intro y j hy hj
    rw [g2.cells _ _ hy hj]
    by_cases c : (ya ≤ y ∧ y ≤ yb) ∧ xa * bits / 8 ≤ j ∧ j < xa * bits / 8 + (xb - xa + 1) * bits / 8
    · have hv := vsrc_range t c.1.1 c.1.2
      rw [if_pos c, g.cells _ _ (by omega) hj, if_pos ⟨by omega, c.2⟩, g.cells _ _ hy hj, if_pos c]
      congr 2
      cases t <;> simp only [vsrc] <;> (try split_ifs) <;> (try omega)
      exact absurd rfl ht
    · rw [if_neg c]

/-- For whole bytes this is the rectangle itself. -/
theorem byteRect_aligned {bits : Nat} (hd : Depth bits) {x1 x2 : Int} (h0 : 0 ≤ min x1 x2) (ha : AlignedI bits x1 x2) (y1 y2 : Int) (x y : Nat) :
    byteRect bits x1 y1 x2 y2 x y = inRect x1 y1 x2 y2 x y := by
  have key : byteLeft bits x1 x2 = min x1 x2 ∧ byteWidth bits x1 x2 = max x1 x2 - min x1 x2 + 1 := by
    obtain ⟨h1, h2⟩ := ha
    unfold byteLeft byteWidth
    rcases hd with rfl | rfl | rfl | rfl <;> norm_num at h1 h2 ⊢ <;> omega
  unfold byteRect inRect
  rw [key.1, key.2, decide_eq_decide]
  omega

theorem vregion {b : Bytes} {W H bits : Nat} (h : Valid b W H bits) (t : VTrans)
    {x1 y1 x2 y2 : Int} (hi : InImage W H x1 y1 x2 y2) (ha : AlignedI bits x1 x2) :
    ∃ b', verttransregion b x1 y1 x2 y2 t = .ok b' ∧ Redraws b b' W H bits (fun x y =>
        if inRect x1 y1 x2 y2 x y then pix b W H bits x (vsrcI t y1 y2 y) else pix b W H bits x y) ∧
      (t = .F → verttransregion b' x1 y1 x2 y2 t = .ok b) ∧
      (t ≠ .F → verttransregion b' x1 y1 x2 y2 t = .ok b') := by
  obtain ⟨b', e, r, u⟩ := vregion_exact h t (y1 := y1) (y2 := y2) hi
  refine ⟨b', e, ⟨r.valid, r.header, ?_⟩, u⟩
  intro x y hx hy
  rw [r.pixels x y hx hy, byteRect_aligned h.depth (by unfold InImage at hi; omega) ha]

/-- C55 (the full claim is for every rectangle in every depth; missing are 1- and 4-bit rectangles
that are not whole bytes, where it is false, see `C55_4bit_wrong`): `flipverticalregion` turns
exactly the rectangle upside down and undoes itself. -/
theorem C55_flipverticalregion_partial {b : Bytes} {W H bits : Nat} (h : Valid b W H bits)
    {x1 y1 x2 y2 : Int} (hi : InImage W H x1 y1 x2 y2) (ha : AlignedI bits x1 x2) :
    ∃ b', flipverticalregion b x1 y1 x2 y2 = .ok b' ∧ Redraws b b' W H bits (fun x y =>
        if inRect x1 y1 x2 y2 x y then pix b W H bits x (y1 + y2 - y).toNat else pix b W H bits x y) ∧
      flipverticalregion b' x1 y1 x2 y2 = .ok b := by
  obtain ⟨b', e, r, u, _⟩ := vregion h .F hi ha
  exact ⟨b', e, r, u rfl⟩

/-- C55: the lower half of the rectangle becomes the reflection of its upper half. -/
theorem C55_mirrortopinregion_partial {b : Bytes} {W H bits : Nat} (h : Valid b W H bits)
    {x1 y1 x2 y2 : Int} (hi : InImage W H x1 y1 x2 y2) (ha : AlignedI bits x1 x2) :
    ∃ b', mirrortopinregion b x1 y1 x2 y2 = .ok b' ∧ Redraws b b' W H bits (fun x y =>
        if inRect x1 y1 x2 y2 x y then pix b W H bits x (min (y : Int) (y1 + y2 - y)).toNat
        else pix b W H bits x y) ∧
      mirrortopinregion b' x1 y1 x2 y2 = .ok b' := by
  obtain ⟨b', e, r, _, u⟩ := vregion h .T hi ha
  exact ⟨b', e, r, u (by simp)⟩

/-- C55: the upper half of the rectangle becomes the reflection of its lower half. -/
theorem C55_mirrorbottominregion_partial {b : Bytes} {W H bits : Nat} (h : Valid b W H bits)
    {x1 y1 x2 y2 : Int} (hi : InImage W H x1 y1 x2 y2) (ha : AlignedI bits x1 x2) :
    ∃ b', mirrorbottominregion b x1 y1 x2 y2 = .ok b' ∧ Redraws b b' W H bits (fun x y =>
        if inRect x1 y1 x2 y2 x y then pix b W H bits x (max (y : Int) (y1 + y2 - y)).toNat
        else pix b W H bits x y) ∧
      mirrorbottominregion b' x1 y1 x2 y2 = .ok b' := by
  obtain ⟨b', e, r, _, u⟩ := vregion h .B hi ha
  exact ⟨b', e, r, u (by simp)⟩

/-- C55, what the code does for every rectangle in every depth: it turns the columns of whole bytes, as many as fit in the width
and starting with the byte of the left edge. -/
theorem C55_flipverticalregion_exact {b : Bytes} {W H bits : Nat} (h : Valid b W H bits)
    {x1 y1 x2 y2 : Int} (hi : InImage W H x1 y1 x2 y2) :
    ∃ b', flipverticalregion b x1 y1 x2 y2 = .ok b' ∧ Redraws b b' W H bits (fun x y =>
        if byteRect bits x1 y1 x2 y2 x y then pix b W H bits x (y1 + y2 - y).toNat else pix b W H bits x y) ∧
      flipverticalregion b' x1 y1 x2 y2 = .ok b := by
  obtain ⟨b', e, r, u, _⟩ := vregion_exact h .F hi
  exact ⟨b', e, r, u rfl⟩

theorem C55_mirrortopinregion_exact {b : Bytes} {W H bits : Nat} (h : Valid b W H bits)
    {x1 y1 x2 y2 : Int} (hi : InImage W H x1 y1 x2 y2) :
    ∃ b', mirrortopinregion b x1 y1 x2 y2 = .ok b' ∧ Redraws b b' W H bits (fun x y =>
        if byteRect bits x1 y1 x2 y2 x y then pix b W H bits x (min (y : Int) (y1 + y2 - y)).toNat
        else pix b W H bits x y) ∧
      mirrortopinregion b' x1 y1 x2 y2 = .ok b' := by
  obtain ⟨b', e, r, _, u⟩ := vregion_exact h .T hi
  exact ⟨b', e, r, u (by simp)⟩

theorem C55_mirrorbottominregion_exact {b : Bytes} {W H bits : Nat} (h : Valid b W H bits)
    {x1 y1 x2 y2 : Int} (hi : InImage W H x1 y1 x2 y2) :
    ∃ b', mirrorbottominregion b x1 y1 x2 y2 = .ok b' ∧ Redraws b b' W H bits (fun x y =>
        if byteRect bits x1 y1 x2 y2 x y then pix b W H bits x (max (y : Int) (y1 + y2 - y)).toNat
        else pix b W H bits x y) ∧
      mirrorbottominregion b' x1 y1 x2 y2 = .ok b' := by
  obtain ⟨b', e, r, _, u⟩ := vregion_exact h .B hi
  exact ⟨b', e, r, u (by simp)⟩

/-- On 4-bit images the columns 1 to 3 stand for the columns 0 and 1. -/
example : byteLeft 4 1 3 = 0 ∧ byteWidth 4 1 3 = 2 ∧ byteWidth 4 1 1 = 0 ∧ byteLeft 1 9 30 = 8 ∧ byteWidth 1 9 30 = 16 := by decide

/-- C55: in 8- and 24-bit images every rectangle qualifies. -/
theorem C55_aligned {bits : Nat} (hb : bits = 8 ∨ bits = 24) (x1 x2 : Int) : AlignedI bits x1 x2 := by
  rcases hb with rfl | rfl <;> constructor <;> push_cast <;> omega

/-- C55: a corner outside the image: nothing happens, in every depth. -/
theorem C55_rejected {b : Bytes} {W H bits : Nat} (h : Valid b W H bits) {x1 y1 x2 y2 : Int}
    (hi : ¬ InImage W H x1 y1 x2 y2) :
    flipverticalregion b x1 y1 x2 y2 = .ok b ∧ mirrortopinregion b x1 y1 x2 y2 = .ok b ∧
      mirrorbottominregion b x1 y1 x2 y2 = .ok b := by
  unfold InImage at hi
  refine ⟨?_, ?_, ?_⟩ <;>
    simp only [flipverticalregion, mirrortopinregion, mirrorbottominregion, verttransregion] <;>
    rw [rect_guard h, if_neg hi]

/-- C55 is false on 4-bit images: flipping column 1 to 1 does nothing at all. -/
theorem C55_4bit_wrong :
    (do let b ← newBMP 4 2 4; let b ← plotxybit b 1 0 9; let b ← flipverticalregion b 1 0 1 1
        pure (← getxybit b 1 0, ← getxybit b 1 1)) = .ok (9, 0) := by decide +kernel

/-- Kinds of corner mirrors: which half is kept in each direction. -/
theorem corner {b b1 : Bytes} {W H bits : Nat} {k : HKind} {t : VTrans} {y1 y2 : Int}
    (r : Redraws b b1 W H bits (fun x y => if inRect 0 y1 ((W : Int) - 1) y2 x y
      then pix b W H bits (hsrc k 0 ((W : Int) - 1) x) y else pix b W H bits x y))
    (hsrc_in : ∀ y, y < H → min y1 y2 ≤ (vsrc t 0 (H - 1) y : Int) ∧ (vsrc t 0 (H - 1) y : Int) ≤ max y1 y2) :
    ∃ b', verttrans b1 t = .ok b' ∧ Redraws b b' W H bits
      (fun x y => pix b W H bits (hsrc k 0 ((W : Int) - 1) x) (vsrc t 0 (H - 1) y)) := by
  obtain ⟨b', e, g⟩ := verttrans_grid r.valid t
  have r2 := grid_rows r.valid g
  refine ⟨b', e, r2.valid, ⟨r2.header.1.trans r.header.1, fun i hi => (r2.header.2 i hi).trans (r.header.2 i hi)⟩, ?_⟩
  intro x y hx hy
  have hv := vsrc_range t (lo := 0) (hi := H - 1) (y := y) (by omega) (by omega)
  have hs := hsrc_in y hy
  rw [r2.pixels x y hx hy, r.pixels x _ hx (by omega), if_pos]
  unfold inRect
  rw [decide_eq_true_eq]
  omega

/-- The four whole-image corner mirrors. -/
theorem corner_mirror {b : Bytes} {W H bits : Nat} (h : Valid b W H bits) (k : HKind)
    (hb : bits = 8 ∨ bits = 24 ∨ (bits = 4 ∧ W % 4 = 0)) (t : VTrans) {y1 y2 : Int} (hin : 0 < H → 0 ≤ y1 ∧ y1 < H ∧ 0 ≤ y2 ∧ y2 < H)
    (hsrc_in : ∀ y, y < H → min y1 y2 ≤ (vsrc t 0 (H - 1) y : Int) ∧ (vsrc t 0 (H - 1) y : Int) ≤ max y1 y2) :
    ∃ b1 b', hregion k b 0 y1 ((W : Int) - 1) y2 = .ok b1 ∧ verttrans b1 t = .ok b' ∧
      Redraws b b' W H bits (fun x y => pix b W H bits (hsrc k 0 ((W : Int) - 1) x) (vsrc t 0 (H - 1) y)) := by
  by_cases hi : InImage W H 0 y1 ((W : Int) - 1) y2
  · have hW : 0 < W := by unfold InImage at hi; omega
    have hok := mirrorOK_width hb hW
    obtain ⟨b1, e1, r⟩ := hregion_pixels h k hi hok.flipOK (Or.inr hok)
    obtain ⟨b', e2, r2⟩ := corner r hsrc_in
    exact ⟨b1, b', e1, e2, r2⟩
  · have hz : W = 0 ∨ H = 0 := by
      by_contra hz
      apply hi
      have := hin (by omega)
      unfold InImage; omega
    obtain ⟨b', e, g⟩ := verttrans_grid h t
    refine ⟨b, b', hregion_outside h k hi, e, g.valid, g.header, ?_⟩
    intro x y hx hy
    omega

/-- C56 (the full claim is for every depth; missing cases as in C31, see `C56_1bit_wrong`):
`mirrortopleft` makes the whole image out of its upper left quarter. -/
theorem C56_mirrortopleft_partial {b : Bytes} {W H bits : Nat} (h : Valid b W H bits)
    (hb : bits = 8 ∨ bits = 24 ∨ (bits = 4 ∧ W % 4 = 0)) :
    ∃ b', mirrortopleft b = .ok b' ∧
      Redraws b b' W H bits (fun x y => pix b W H bits (min x (W - 1 - x)) (min y (H - 1 - y))) := by
  obtain ⟨b1, b', e1, e2, r⟩ := corner_mirror h .left hb .T (y1 := 0) (y2 := ((H : Int) - 1) / 2) (by omega) (by
    intro y hy; simp only [vsrc]; split_ifs <;> omega)
  refine ⟨b', ?_, r.valid, r.header, ?_⟩
  · unfold mirrortopleft
    rw [show getmaxx b = .ok (W : Int) from h.getmaxx_eq, show getmaxy b = .ok (H : Int) from h.getmaxy_eq]
    simp only [ok_bind]
    rw [show mirrorleftinregion b 0 0 ((W : Int) - 1) (((H : Int) - 1) / 2) = .ok b1 from e1]
    exact e2
  · intro x y hx hy
    rw [r.pixels x y hx hy]
    congr 1
    · simp only [hsrc]; omega
    · simp only [vsrc]; split_ifs <;> omega

/-- C56: `mirrortopright` makes the whole image out of its upper right quarter. -/
theorem C56_mirrortopright_partial {b : Bytes} {W H bits : Nat} (h : Valid b W H bits)
    (hb : bits = 8 ∨ bits = 24 ∨ (bits = 4 ∧ W % 4 = 0)) :
    ∃ b', mirrortopright b = .ok b' ∧
      Redraws b b' W H bits (fun x y => pix b W H bits (max x (W - 1 - x)) (min y (H - 1 - y))) := by
  obtain ⟨b1, b', e1, e2, r⟩ := corner_mirror h .right hb .T (y1 := 0) (y2 := ((H : Int) - 1) / 2) (by omega) (by
    intro y hy; simp only [vsrc]; split_ifs <;> omega)
  refine ⟨b', ?_, r.valid, r.header, ?_⟩
  · unfold mirrortopright
    rw [show getmaxx b = .ok (W : Int) from h.getmaxx_eq, show getmaxy b = .ok (H : Int) from h.getmaxy_eq]
    simp only [ok_bind]
    rw [show mirrorrightinregion b 0 0 ((W : Int) - 1) (((H : Int) - 1) / 2) = .ok b1 from e1]
    exact e2
  · intro x y hx hy
    rw [r.pixels x y hx hy]
    congr 1
    · simp only [hsrc]; omega
    · simp only [vsrc]; split_ifs <;> omega

/-- C56: `mirrorbottomleft` makes the whole image out of its lower left quarter. -/
theorem C56_mirrorbottomleft_partial {b : Bytes} {W H bits : Nat} (h : Valid b W H bits)
    (hb : bits = 8 ∨ bits = 24 ∨ (bits = 4 ∧ W % 4 = 0)) :
    ∃ b', mirrorbottomleft b = .ok b' ∧
      Redraws b b' W H bits (fun x y => pix b W H bits (min x (W - 1 - x)) (max y (H - 1 - y))) := by
  obtain ⟨b1, b', e1, e2, r⟩ := corner_mirror h .left hb .B (y1 := ((H : Int) - 1) / 2) (y2 := (H : Int) - 1)
    (by omega) (by intro y hy; simp only [vsrc]; split_ifs <;> omega)
  refine ⟨b', ?_, r.valid, r.header, ?_⟩
  · unfold mirrorbottomleft
    rw [show getmaxx b = .ok (W : Int) from h.getmaxx_eq, show getmaxy b = .ok (H : Int) from h.getmaxy_eq]
    simp only [ok_bind]
    rw [show mirrorleftinregion b 0 (((H : Int) - 1) / 2) ((W : Int) - 1) ((H : Int) - 1) = .ok b1 from e1]
    exact e2
  · intro x y hx hy
    rw [r.pixels x y hx hy]
    congr 1
    · simp only [hsrc]; omega
    · simp only [vsrc]; split_ifs <;> omega

/-- C56: `mirrorbottomright` makes the whole image out of its lower right quarter. -/
theorem C56_mirrorbottomright_partial {b : Bytes} {W H bits : Nat} (h : Valid b W H bits)
    (hb : bits = 8 ∨ bits = 24 ∨ (bits = 4 ∧ W % 4 = 0)) :
    ∃ b', mirrorbottomright b = .ok b' ∧
      Redraws b b' W H bits (fun x y => pix b W H bits (max x (W - 1 - x)) (max y (H - 1 - y))) := by
  obtain ⟨b1, b', e1, e2, r⟩ := corner_mirror h .right hb .B (y1 := ((H : Int) - 1) / 2) (y2 := (H : Int) - 1)
    (by omega) (by intro y hy; simp only [vsrc]; split_ifs <;> omega)
  refine ⟨b', ?_, r.valid, r.header, ?_⟩
  · unfold mirrorbottomright
    rw [show getmaxx b = .ok (W : Int) from h.getmaxx_eq, show getmaxy b = .ok (H : Int) from h.getmaxy_eq]
    simp only [ok_bind]
    rw [show mirrorrightinregion b 0 (((H : Int) - 1) / 2) ((W : Int) - 1) ((H : Int) - 1) = .ok b1 from e1]
    exact e2
  · intro x y hx hy
    rw [r.pixels x y hx hy]
    congr 1
    · simp only [hsrc]; omega
    · simp only [vsrc]; split_ifs <;> omega

/-- C56 is false on 1-bit images: pixel (7, 0) is in the upper left quarter but its reflection
(8, 0) is not painted. -/
theorem C56_1bit_wrong :
    (do let b ← newBMP 16 2 1; let b ← plotxybit b 7 0 1; let b ← mirrortopleft b
        pure (← getxybit b 7 0, ← getxybit b 8 0, ← getxybit b 7 1)) = .ok (1, 0, 1) := by decide +kernel

example : (do let b ← newBMP 4 3 24; let b ← plotxybit b 1 0 5; let b ← plotxybit b 2 2 6
              let b ← flipverticalregion b 2 2 1 0
              pure (← getxybit b 1 2, ← getxybit b 2 0, ← getxybit b 1 0)) = .ok (5, 6, 0) := by decide +kernel
example : (do let b ← newBMP 8 3 4; let b ← plotxybit b 2 0 5; let b ← plotxybit b 2 2 6
              let t ← mirrortopinregion b 2 0 3 2; let m ← mirrorbottominregion b 2 0 3 2
              pure (← getxybit t 2 2, ← getxybit m 2 0)) = .ok (5, 6) := by decide +kernel
example : (do let b ← newBMP 3 3 24; let b ← plotxybit b 0 0 5; let b ← plotxybit b 2 2 6
              let t ← mirrortopleft b; let m ← mirrorbottomright b
              pure (← getxybit t 2 2, ← getxybit t 0 2, ← getxybit m 0 0, ← getxybit m 2 0)) = .ok (5, 5, 6, 6) := by
  decide +kernel

end Verif.Props
