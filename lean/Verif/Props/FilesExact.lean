import Verif.Props.Files
import Verif.Props.HoriExact
import Verif.Props.CopyExact
/-! Properties C56 and C87–C89 without conditions on depth or alignment: the corner mirrors, and the file programs. -/

namespace Verif.Props
open Verif Spec Model

variable {fs : Files} {ex nw : String} {b : Bytes} {W H bits : Nat}

/-- The picture after its left half has been written, in whole bytes and in reverse order, over the right half of a
rectangle: bit 0 of a byte of a 1-bit image gets lost (C30). -/
def leftHalf (b : Bytes) (W H bits : Nat) (x1 y1 x2 y2 : Int) (x y : Nat) : Nat :=
  if ByteCols bits x1 y1 x2 y2 x y ∧ x1 / dxOf bits + x2 / dxOf bits ≤ 2 * ((x / dxOf bits : Nat) : Int)
  then if bits = 1 ∧ x % 8 = 0 then 0 else pix b W H bits (byteMirror bits x1 x2 x) y
  else pix b W H bits x y

/-- The same with the right half written over the left one. -/
def rightHalf (b : Bytes) (W H bits : Nat) (x1 y1 x2 y2 : Int) (x y : Nat) : Nat :=
  if ByteCols bits x1 y1 x2 y2 x y ∧ 2 * ((x / dxOf bits : Nat) : Int) ≤ x1 / dxOf bits + x2 / dxOf bits
  then if bits = 1 ∧ x % 8 = 0 then 0 else pix b W H bits (byteMirror bits x1 x2 x) y
  else pix b W H bits x y

/-- Rows of a rectangle of whole bytes are taken from the row `sy y (y1 + y2 - y)` of the picture `g`. -/
def rowsOf (sy : Int → Int → Int) (g : Nat → Nat → Nat) (bits : Nat) (x1 y1 x2 y2 : Int) (x y : Nat) : Nat :=
  if byteRect bits x1 y1 x2 y2 x y then g x (sy (y : Int) (y1 + y2 - y)).toNat else g x y

theorem rows_then {b b1 b2 : Bytes} {g : Nat → Nat → Nat} {sy : Int → Int → Int} {x1 y1 x2 y2 : Int}
    (hi : InImage W H x1 y1 x2 y2) (hs : ∀ a c : Int, sy a c = a ∨ sy a c = c)
    (r1 : Redraws b b1 W H bits g)
    (r2 : Redraws b1 b2 W H bits (fun x y => if byteRect bits x1 y1 x2 y2 x y
      then pix b1 W H bits x (sy (y : Int) (y1 + y2 - y)).toNat else pix b1 W H bits x y)) :
    Redraws b b2 W H bits (rowsOf sy g bits x1 y1 x2 y2) := by
  refine ⟨r2.valid, ⟨r2.header.1.trans r1.header.1, fun i hi => (r2.header.2 i hi).trans (r1.header.2 i hi)⟩, ?_⟩
  intro x y hx hy
  rw [r2.pixels x y hx hy]
  unfold rowsOf
  by_cases hr : byteRect bits x1 y1 x2 y2 x y = true
  · rw [if_pos hr, if_pos hr]
    apply r1.pixels x _ hx
    unfold byteRect at hr
    rw [decide_eq_true_eq] at hr
    unfold InImage at hi
    rcases hs y (y1 + y2 - y) with e | e <;> rw [e] <;> omega
  · rw [if_neg hr, if_neg hr, r1.pixels x y hx hy]

/-- C56 inside a rectangle, for every depth and every rectangle: first one half of the whole bytes is repeated in the
other, then the upper or lower rows. -/
theorem C56_region_exact (h : Valid b W H bits) {x1 y1 x2 y2 : Int} (hi : InImage W H x1 y1 x2 y2) :
    (∃ b', mirrortopleftinregion b x1 y1 x2 y2 = .ok b' ∧
      Redraws b b' W H bits (rowsOf min (leftHalf b W H bits x1 y1 x2 y2) bits x1 y1 x2 y2)) ∧
    (∃ b', mirrortoprightinregion b x1 y1 x2 y2 = .ok b' ∧
      Redraws b b' W H bits (rowsOf min (rightHalf b W H bits x1 y1 x2 y2) bits x1 y1 x2 y2)) ∧
    (∃ b', mirrorbottomleftinregion b x1 y1 x2 y2 = .ok b' ∧
      Redraws b b' W H bits (rowsOf max (leftHalf b W H bits x1 y1 x2 y2) bits x1 y1 x2 y2)) ∧
    (∃ b', mirrorbottomrightinregion b x1 y1 x2 y2 = .ok b' ∧
      Redraws b b' W H bits (rowsOf max (rightHalf b W H bits x1 y1 x2 y2) bits x1 y1 x2 y2)) := by
  have hmin : ∀ a c : Int, min a c = a ∨ min a c = c := fun a c => by omega
  have hmax : ∀ a c : Int, max a c = a ∨ max a c = c := fun a c => by omega
  obtain ⟨bl, el, rl⟩ := C54_left_exact h hi
  obtain ⟨br, er, rr⟩ := C54_right_exact h hi
  have rl' : Redraws b bl W H bits (leftHalf b W H bits x1 y1 x2 y2) :=
    ⟨rl.valid, rl.header, fun x y hx hy => by rw [rl.pixels x y hx hy]; unfold leftHalf; congr⟩
  have rr' : Redraws b br W H bits (rightHalf b W H bits x1 y1 x2 y2) :=
    ⟨rr.valid, rr.header, fun x y hx hy => by rw [rr.pixels x y hx hy]; unfold rightHalf; congr⟩
  obtain ⟨lt, elt, rlt, _⟩ := C55_mirrortopinregion_exact rl.valid hi
  obtain ⟨rt, ert, rrt, _⟩ := C55_mirrortopinregion_exact rr.valid hi
  obtain ⟨lb, elb, rlb, _⟩ := C55_mirrorbottominregion_exact rl.valid hi
  obtain ⟨rb, erb, rrb, _⟩ := C55_mirrorbottominregion_exact rr.valid hi
  refine ⟨⟨lt, ?_, rows_then hi hmin rl' rlt⟩, ⟨rt, ?_, rows_then hi hmin rr' rrt⟩,
    ⟨lb, ?_, rows_then hi hmax rl' rlb⟩, ⟨rb, ?_, rows_then hi hmax rr' rrb⟩⟩
  · unfold mirrortopleftinregion; rw [el]; exact elt
  · unfold mirrortoprightinregion; rw [er]; exact ert
  · unfold mirrorbottomleftinregion; rw [el]; exact elb
  · unfold mirrorbottomrightinregion; rw [er]; exact erb

/-- C56: a rectangle that leaves the image changes nothing. -/
theorem C56_rejected (h : Valid b W H bits) {x1 y1 x2 y2 : Int} (hi : ¬ InImage W H x1 y1 x2 y2) :
    mirrortopleftinregion b x1 y1 x2 y2 = .ok b ∧ mirrortoprightinregion b x1 y1 x2 y2 = .ok b ∧
    mirrorbottomleftinregion b x1 y1 x2 y2 = .ok b ∧ mirrorbottomrightinregion b x1 y1 x2 y2 = .ok b := by
  obtain ⟨_, l, r⟩ := C53_rejected h hi
  obtain ⟨_, t, o⟩ := C55_rejected h hi
  unfold mirrortopleftinregion mirrortoprightinregion mirrorbottomleftinregion mirrorbottomrightinregion
  rw [l, r]
  exact ⟨t, t, o, o⟩

/-- A 4-bit image, columns 1 to 4: the columns 0 to 5 of three whole bytes are mirrored from left to right, but only the
columns 0 to 3 of two whole bytes are copied down. -/
example : (do
    let b ← newBMP 8 2 4; let b ← plotxybit b 0 0 7; let b ← plotxybit b 1 0 9
    let b ← mirrortopleftinregion b 1 0 4 1
    pure ((List.range 2).map fun y => (List.range 8).map fun x => pix b 8 2 4 x y)) =
    .ok [[7, 9, 0, 0, 9, 7, 0, 0], [7, 9, 0, 0, 0, 0, 0, 0]] := by decide +kernel

theorem corner_exact {b b1 : Bytes} {t : VTrans} {g : Nat → Nat → Nat} (r : Redraws b b1 W H bits g) :
    ∃ b', verttrans b1 t = .ok b' ∧ Redraws b b' W H bits (fun x y => g x (vsrc t 0 (H - 1) y)) := by
  obtain ⟨b', e, gr⟩ := verttrans_grid r.valid t
  have r2 := grid_rows r.valid gr
  refine ⟨b', e, r2.valid, ⟨r2.header.1.trans r.header.1, fun i hi => (r2.header.2 i hi).trans (r.header.2 i hi)⟩, ?_⟩
  intro x y hx hy
  have hv := vsrc_range t (lo := 0) (hi := H - 1) (y := y) (by omega) (by omega)
  rw [r2.pixels x y hx hy, r.pixels x _ hx (by omega)]

/-- C56 for every depth and size: the upper or lower half of the left (right) half of the whole bytes makes the whole
image. -/
theorem C56_exact (h : Valid b W H bits) (hW : 0 < W) (hH : 0 < H) :
    (∃ b', mirrortopleft b = .ok b' ∧ Redraws b b' W H bits (fun x y =>
      leftHalf b W H bits 0 0 (W - 1) (H - 1) x (min y (H - 1 - y)))) ∧
    (∃ b', mirrortopright b = .ok b' ∧ Redraws b b' W H bits (fun x y =>
      rightHalf b W H bits 0 0 (W - 1) (H - 1) x (min y (H - 1 - y)))) ∧
    (∃ b', mirrorbottomleft b = .ok b' ∧ Redraws b b' W H bits (fun x y =>
      leftHalf b W H bits 0 0 (W - 1) (H - 1) x (max y (H - 1 - y)))) ∧
    (∃ b', mirrorbottomright b = .ok b' ∧ Redraws b b' W H bits (fun x y =>
      rightHalf b W H bits 0 0 (W - 1) (H - 1) x (max y (H - 1 - y)))) := by
  have hc : ∀ {y1 y2 : Int} {x y : Nat}, y < H → min y1 y2 ≤ (y : Int) → (y : Int) ≤ max y1 y2 →
      (ByteCols bits 0 y1 (W - 1) y2 x y ↔ ByteCols bits 0 0 (W - 1) (H - 1) x y) := by
    intro y1 y2 x y hy h1 h2
    unfold ByteCols
    have a1 : min y1 y2 ≤ (y : Int) ∧ (y : Int) ≤ max y1 y2 := ⟨h1, h2⟩
    have a2 : min (0 : Int) (H - 1) ≤ (y : Int) ∧ (y : Int) ≤ max (0 : Int) (H - 1) := by omega
    simp only [a1, a2, true_and]
  have iT : InImage W H 0 0 (W - 1) (((H : Int) - 1) / 2) := by unfold InImage; omega
  have iB : InImage W H 0 (((H : Int) - 1) / 2) (W - 1) (H - 1) := by unfold InImage; omega
  have ew : getmaxx b = .ok (W : Int) := h.getmaxx_eq
  have eh : getmaxy b = .ok (H : Int) := h.getmaxy_eq
  refine ⟨?_, ?_, ?_, ?_⟩
  · obtain ⟨b1, e1, r1⟩ := C54_left_exact h iT
    obtain ⟨b2, e2, r2⟩ := corner_exact (t := .T) r1
    refine ⟨b2, ?_, r2.valid, r2.header, fun x y hx hy => ?_⟩
    · unfold mirrortopleft; rw [ew, eh]; simp only [ok_bind]; rw [e1]; exact e2
    · have ev : vsrc .T 0 (H - 1) y = min y (H - 1 - y) := by simp only [vsrc]; split_ifs <;> omega
      rw [r2.pixels x y hx hy, ev]
      unfold leftHalf
      simp only [hc (y1 := 0) (y2 := ((H : Int) - 1) / 2) (y := min y (H - 1 - y)) (by omega) (by omega) (by omega)]
  · obtain ⟨b1, e1, r1⟩ := C54_right_exact h iT
    obtain ⟨b2, e2, r2⟩ := corner_exact (t := .T) r1
    refine ⟨b2, ?_, r2.valid, r2.header, fun x y hx hy => ?_⟩
    · unfold mirrortopright; rw [ew, eh]; simp only [ok_bind]; rw [e1]; exact e2
    · have ev : vsrc .T 0 (H - 1) y = min y (H - 1 - y) := by simp only [vsrc]; split_ifs <;> omega
      rw [r2.pixels x y hx hy, ev]
      unfold rightHalf
      simp only [hc (y1 := 0) (y2 := ((H : Int) - 1) / 2) (y := min y (H - 1 - y)) (by omega) (by omega) (by omega)]
  · obtain ⟨b1, e1, r1⟩ := C54_left_exact h iB
    obtain ⟨b2, e2, r2⟩ := corner_exact (t := .B) r1
    refine ⟨b2, ?_, r2.valid, r2.header, fun x y hx hy => ?_⟩
    · unfold mirrorbottomleft; rw [ew, eh]; simp only [ok_bind]; rw [e1]; exact e2
    · have ev : vsrc .B 0 (H - 1) y = max y (H - 1 - y) := by simp only [vsrc]; split_ifs <;> omega
      rw [r2.pixels x y hx hy, ev]
      unfold leftHalf
      simp only [hc (y1 := ((H : Int) - 1) / 2) (y2 := (H : Int) - 1) (y := max y (H - 1 - y)) (by omega) (by omega) (by omega)]
  · obtain ⟨b1, e1, r1⟩ := C54_right_exact h iB
    obtain ⟨b2, e2, r2⟩ := corner_exact (t := .B) r1
    refine ⟨b2, ?_, r2.valid, r2.header, fun x y hx hy => ?_⟩
    · unfold mirrorbottomright; rw [ew, eh]; simp only [ok_bind]; rw [e1]; exact e2
    · have ev : vsrc .B 0 (H - 1) y = max y (H - 1 - y) := by simp only [vsrc]; split_ifs <;> omega
      rw [r2.pixels x y hx hy, ev]
      unfold rightHalf
      simp only [hc (y1 := ((H : Int) - 1) / 2) (y2 := (H : Int) - 1) (y := max y (H - 1 - y)) (by omega) (by omega) (by omega)]

/-- Nine pixels of 4 bits: the half byte after the last pixel comes into the picture in column 0. -/
example : (do
    let b ← newBMP 9 1 4; let b ← plotxybit b 8 0 9; let b ← plotxybit b 7 0 5
    let b ← mirrortopright b
    pure ((List.range 9).map fun x => pix b 9 1 4 x 0)) = .ok [0, 9, 5, 0, 0, 0, 0, 5, 9] := by decide +kernel

/-- C87 for every depth and size: mirrors and flips from left to right, outlines. -/
theorem C87_horizontal_exact (h : Stored fs ex b W H bits) :
    (∃ fs', fliphorizontal2file fs ex nw = .ok fs' ∧ Saved fs fs' nw (fun b' => Redraws b b' W H bits (fun x y =>
      if 2 * (x / dxOf bits) = (W - 1) / dxOf bits ∧ (W - 1) % dxOf bits = 0 then pix b W H bits x y
      else if bits = 1 ∧ x % 8 = 0 then 0 else pix b W H bits (dxOf bits * ((W - 1) / dxOf bits + 1) - 1 - x) y))) ∧
    (∃ fs', mirrorleft2file fs ex nw = .ok fs' ∧ Saved fs fs' nw (fun b' => Redraws b b' W H bits (fun x y =>
      if (2 * (x / dxOf bits) = (W - 1) / dxOf bits → 0 < (W - 1) % dxOf bits) ∧
        (W - 1) / dxOf bits ≤ 2 * (x / dxOf bits)
      then if bits = 1 ∧ x % 8 = 0 then 0
        else pix b W H bits (dxOf bits * ((W - 1) / dxOf bits + 1) - 1 - x) y
      else pix b W H bits x y))) ∧
    (∃ fs', mirrorright2file fs ex nw = .ok fs' ∧ Saved fs fs' nw (fun b' => Redraws b b' W H bits (fun x y =>
      if (2 * (x / dxOf bits) = (W - 1) / dxOf bits → 0 < (W - 1) % dxOf bits) ∧
        2 * (x / dxOf bits) ≤ (W - 1) / dxOf bits
      then if bits = 1 ∧ x % 8 = 0 then 0
        else pix b W H bits (dxOf bits * ((W - 1) / dxOf bits + 1) - 1 - x) y
      else pix b W H bits x y))) :=
  ⟨applysave_saved h (C30_exact h.valid), applysave_saved h (C31_left_exact h.valid),
    applysave_saved h (C31_right_exact h.valid)⟩

theorem C87_corners_exact (h : Stored fs ex b W H bits) (hW : 0 < W) (hH : 0 < H) :
    (∃ fs', mirrortopleft2file fs ex nw = .ok fs' ∧ Saved fs fs' nw (fun b' => Redraws b b' W H bits (fun x y =>
      leftHalf b W H bits 0 0 (W - 1) (H - 1) x (min y (H - 1 - y))))) ∧
    (∃ fs', mirrortopright2file fs ex nw = .ok fs' ∧ Saved fs fs' nw (fun b' => Redraws b b' W H bits (fun x y =>
      rightHalf b W H bits 0 0 (W - 1) (H - 1) x (min y (H - 1 - y))))) ∧
    (∃ fs', mirrorbottomleft2file fs ex nw = .ok fs' ∧ Saved fs fs' nw (fun b' => Redraws b b' W H bits (fun x y =>
      leftHalf b W H bits 0 0 (W - 1) (H - 1) x (max y (H - 1 - y))))) ∧
    (∃ fs', mirrorbottomright2file fs ex nw = .ok fs' ∧ Saved fs fs' nw (fun b' => Redraws b b' W H bits (fun x y =>
      rightHalf b W H bits 0 0 (W - 1) (H - 1) x (max y (H - 1 - y))))) := by
  obtain ⟨a, c, d, e⟩ := C56_exact h.valid hW hH
  exact ⟨applysave_saved h a, applysave_saved h c, applysave_saved h d, applysave_saved h e⟩

theorem C87_outline2file_exact (h : Stored fs ex b W H bits) (hW : 0 < W) (hH : 0 < H) :
    ∃ fs', outline2file fs ex nw = .ok fs' ∧ Saved fs fs' nw (fun b' => Redraws b b' W H bits (fun px py =>
      if px / dxOf bits < W / dxOf bits then
        if py = 0 then (if W * bits % 8 = 0 then 0 else pix b W H bits px py)
        else pix b W H bits px py ^^^ pix b W H bits px (py - 1)
      else pix b W H bits px py)) :=
  applysave_saved h (C81_image_exact h.valid hW hH)

/-- C88 for every depth and every rectangle in the image: flips and mirrors from left to right. -/
theorem C88_horizontal_exact (h : Stored fs ex b W H bits) {x1 y1 x2 y2 : Int} (hi : InImage W H x1 y1 x2 y2) :
    (∃ fs', fliphorizontalregion2file fs ex nw x1 y1 x2 y2 = .ok fs' ∧ Saved fs fs' nw (fun b' =>
      Redraws b b' W H bits (fun x y =>
        if ByteCols bits x1 y1 x2 y2 x y
        then if bits = 1 ∧ x % 8 = 0 then 0 else pix b W H bits (byteMirror bits x1 x2 x) y
        else pix b W H bits x y))) ∧
    (∃ fs', mirrorleftinregion2file fs ex nw x1 y1 x2 y2 = .ok fs' ∧ Saved fs fs' nw (fun b' =>
      Redraws b b' W H bits (leftHalf b W H bits x1 y1 x2 y2))) ∧
    (∃ fs', mirrorrightinregion2file fs ex nw x1 y1 x2 y2 = .ok fs' ∧ Saved fs fs' nw (fun b' =>
      Redraws b b' W H bits (rightHalf b W H bits x1 y1 x2 y2))) := by
  obtain ⟨bf, ef, rf⟩ := C53_exact h.valid hi
  obtain ⟨bl, el, rl⟩ := C54_left_exact h.valid hi
  obtain ⟨br, er, rr⟩ := C54_right_exact h.valid hi
  exact ⟨applysave_saved h ⟨bf, ef, rf.valid, rf.header, fun x y hx hy => by rw [rf.pixels x y hx hy]⟩,
    applysave_saved h ⟨bl, el, rl.valid, rl.header, fun x y hx hy => by rw [rl.pixels x y hx hy]; unfold leftHalf; congr⟩,
    applysave_saved h ⟨br, er, rr.valid, rr.header, fun x y hx hy => by rw [rr.pixels x y hx hy]; unfold rightHalf; congr⟩⟩

theorem C88_corners_exact (h : Stored fs ex b W H bits) {x1 y1 x2 y2 : Int} (hi : InImage W H x1 y1 x2 y2) :
    (∃ fs', mirrortopleftinregion2file fs ex nw x1 y1 x2 y2 = .ok fs' ∧ Saved fs fs' nw (fun b' =>
      Redraws b b' W H bits (rowsOf min (leftHalf b W H bits x1 y1 x2 y2) bits x1 y1 x2 y2))) ∧
    (∃ fs', mirrortoprightinregion2file fs ex nw x1 y1 x2 y2 = .ok fs' ∧ Saved fs fs' nw (fun b' =>
      Redraws b b' W H bits (rowsOf min (rightHalf b W H bits x1 y1 x2 y2) bits x1 y1 x2 y2))) ∧
    (∃ fs', mirrorbottomleftinregion2file fs ex nw x1 y1 x2 y2 = .ok fs' ∧ Saved fs fs' nw (fun b' =>
      Redraws b b' W H bits (rowsOf max (leftHalf b W H bits x1 y1 x2 y2) bits x1 y1 x2 y2))) ∧
    (∃ fs', mirrorbottomrightinregion2file fs ex nw x1 y1 x2 y2 = .ok fs' ∧ Saved fs fs' nw (fun b' =>
      Redraws b b' W H bits (rowsOf max (rightHalf b W H bits x1 y1 x2 y2) bits x1 y1 x2 y2))) := by
  obtain ⟨a, c, d, e⟩ := C56_region_exact h.valid hi
  exact ⟨applysave_saved h a, applysave_saved h c, applysave_saved h d, applysave_saved h e⟩

theorem C88_outlineregion2file_exact (h : Stored fs ex b W H bits) {xa xb ya yb : Nat} (hx : xa ≤ xb) (hy : ya ≤ yb)
    (hW : xb < W) (hH : yb < H) :
    ∃ fs', outlineregion2file fs ex nw xa ya xb yb = .ok fs' ∧ Saved fs fs' nw (fun b' =>
      Redraws b b' W H bits (fun px py =>
        let top : Int := if Aligned bits xa xb then (ya : Int) else (ya : Int) - 1
        if fullCols bits xa xb px ∧ top ≤ (py : Int) ∧ py ≤ yb then
          if (py : Int) = top then 0
          else if py = 0 then pix b W H bits px py
          else pix b W H bits px py ^^^ pix b W H bits px (py - 1)
        else pix b W H bits px py)) :=
  applysave_saved h (C81_exact h.valid hx hy hW hH)

/-- C60: a rectangle that leaves the image, or another depth: nothing happens. -/
theorem C60_rejected (h : Valid b W H bits) (f : Nat → Nat → Int) {x1 y1 x2 y2 : Int}
    (hi : ¬ (bits = 24 ∧ InImage W H x1 y1 x2 y2)) : verticalbrightnessgradto24bitregion f b x1 y1 x2 y2 = .ok b := by
  unfold verticalbrightnessgradto24bitregion
  rw [(C44_rect_guards h _ x1 y1 x2 y2).2.1.2 hi]
  rfl

/-- The file programs that change a rectangle in every depth. -/
def rectPrograms : List (Files → String → String → Int → Int → Int → Int → Py Files) :=
  [flipverticalregion2file, fliphorizontalregion2file, mirrorleftinregion2file, mirrorrightinregion2file,
    mirrortopinregion2file, mirrorbottominregion2file, mirrortopleftinregion2file, mirrortoprightinregion2file,
    mirrorbottomleftinregion2file, mirrorbottomrightinregion2file, invertregion2file, outlineregion2file]

/-- C88: a rectangle that leaves the image gives an exact copy, whichever of the programs is used. -/
theorem C88_rejected_all (h : Stored fs ex b W H bits) {x1 y1 x2 y2 : Int} (hi : ¬ InImage W H x1 y1 x2 y2) :
    (∀ p ∈ rectPrograms, ∃ fs', p fs ex nw x1 y1 x2 y2 = .ok fs' ∧ Saved fs fs' nw (· = b)) ∧
    (∀ n, ∃ fs', eraseeverynthhorilineinregion2file fs ex nw x1 y1 x2 y2 n = .ok fs' ∧ Saved fs fs' nw (· = b)) ∧
    (∀ c, ∃ fs', filledrect2file fs ex nw x1 y1 x2 y2 c = .ok fs' ∧ Saved fs fs' nw (· = b)) := by
  obtain ⟨a1, a2, a3⟩ := C53_rejected h.valid hi
  obtain ⟨c1, c2, c3⟩ := C55_rejected h.valid hi
  obtain ⟨d1, d2, d3, d4⟩ := C56_rejected h.valid hi
  refine ⟨?_, (C88_rejected h hi).2, fun c => applysave_saved h ⟨b, C21_rejected h.valid c (by unfold InImage at hi; omega), rfl⟩⟩
  intro p hp
  simp only [rectPrograms, List.mem_cons, List.not_mem_nil, or_false] at hp
  rcases hp with rfl | rfl | rfl | rfl | rfl | rfl | rfl | rfl | rfl | rfl | rfl | rfl
  · exact applysave_saved h ⟨b, c1, rfl⟩
  · exact applysave_saved h ⟨b, a1, rfl⟩
  · exact applysave_saved h ⟨b, a2, rfl⟩
  · exact applysave_saved h ⟨b, a3, rfl⟩
  · exact applysave_saved h ⟨b, c2, rfl⟩
  · exact applysave_saved h ⟨b, c3, rfl⟩
  · exact applysave_saved h ⟨b, d1, rfl⟩
  · exact applysave_saved h ⟨b, d2, rfl⟩
  · exact applysave_saved h ⟨b, d3, rfl⟩
  · exact applysave_saved h ⟨b, d4, rfl⟩
  · exact applysave_saved h ⟨b, C33_rejected h.valid hi, rfl⟩
  · exact applysave_saved h ⟨b, C81_rejected h.valid hi, rfl⟩

/-- C88: the programs for 24-bit images also copy the file exactly; for a file of another depth they write nothing. -/
theorem C88_rejected_24 (h : Stored fs ex b W H bits) {x1 y1 x2 y2 : Int} (hi : bits = 24 → ¬ InImage W H x1 y1 x2 y2)
    (f : Nat → Int) (t : Nat → Nat → Nat → Int) (l0 l1 : Int) (fr fg fb : Nat → Int) (g f2 : Nat → Nat → Int) :
    ∀ p ∈ [adjustbrightnessinregion2file f fs ex nw x1 y1 x2 y2,
      adjustthresholdinregion2file t fs ex nw x1 y1 x2 y2 l0 l1,
      colorfilterinregion2file fr fg fb fs ex nw x1 y1 x2 y2, monofilterinregion2file fs ex nw x1 y1 x2 y2,
      gammaadjtoregion2file g fs ex nw x1 y1 x2 y2, horizontalbrightnessgradregion2file f2 fs ex nw x1 y1 x2 y2,
      verticalbrightnessgradregion2file f2 fs ex nw x1 y1 x2 y2],
    ∃ fs', p = .ok fs' ∧ if bits = 24 then Saved fs fs' nw (· = b) else fs' = fs := by
  have key : ∀ {F : Bytes → Py Bytes}, (bits = 24 → F b = .ok b) →
      ∃ fs', applysave24 F fs ex nw = .ok fs' ∧ if bits = 24 then Saved fs fs' nw (· = b) else fs' = fs := by
    intro F hF
    by_cases h24 : bits = 24
    · subst h24
      obtain ⟨fs', e, s⟩ := applysave24_saved (nw := nw) h (P := (· = b)) ⟨b, hF rfl, rfl⟩
      exact ⟨fs', e, by rw [if_pos rfl]; exact s⟩
    · exact ⟨fs, by rw [applysave24_run h, if_pos h24], by rw [if_neg h24]⟩
  intro p hp
  have hn : ¬ (bits = 24 ∧ InImage W H x1 y1 x2 y2) := fun c => hi c.1 c.2
  simp only [List.mem_cons, List.not_mem_nil, or_false] at hp
  rcases hp with rfl | rfl | rfl | rfl | rfl | rfl | rfl
  · exact key fun _ => C59_rejected h.valid f hn
  · exact key fun _ => C83_rejected h.valid t l0 l1 hn
  · exact key fun _ => C58_rejected h.valid fr fg fb hn
  · exact key fun _ => C50_rejected h.valid hn
  · exact key fun _ => C84_rejected h.valid g hn
  · exact key fun _ => C85_rejected h.valid f2 hn
  · exact key fun _ => C60_rejected h.valid f2 hn

/-- A rectangle one pixel too wide: the copy is the same. -/
example : (do
    let b ← newBMP 6 2 24; let b ← plotxybit b 1 1 9; let fs ← fliphorizontalregion2file (oneFile b) "a" "n" 1 0 6 1
    pure (decide (fs "n" = some b))) = .ok true := by decide +kernel

/-- C89: a disc that leaves the square decided by the guard gives an exact copy: programs for all depths. -/
theorem C89_rejected_all (h : Stored fs ex b W H bits) {x y r : Int} :
    (¬ SquareInside W W x y r →
      (∀ p ∈ [flipvertcircregion2file, mirrortopincircregion2file, mirrorbottomincircregion2file, flipXYcircregion2file],
        ∃ fs', p fs ex nw x y r = .ok fs' ∧ Saved fs fs' nw (· = b)) ∧
      (∀ n, ∃ fs', eraseeverynthhorilineinccircregion2file fs ex nw x y r n = .ok fs' ∧ Saved fs fs' nw (· = b)) ∧
      (∀ nx ny, ∃ fs', copycircregion2file fs ex nw x y r nx ny = .ok fs' ∧ Saved fs fs' nw (· = b))) ∧
    (¬ ((bits = 8 ∨ bits = 24) ∧ SquareInside W H x y r) →
      (∀ p ∈ [fliphoricircregion2file, mirrorleftincircregion2file, mirrorrightincircregion2file],
        ∃ fs', p fs ex nw x y r = .ok fs' ∧ Saved fs fs' nw (· = b)) ∧
      (¬ SquareInside W W x y r →
        ∀ p ∈ [mirrortopleftincircregion2file, mirrortoprightincircregion2file, mirrorbottomleftincircregion2file,
          mirrorbottomrightincircregion2file],
        ∃ fs', p fs ex nw x y r = .ok fs' ∧ Saved fs fs' nw (· = b))) := by
  refine ⟨fun hg => ⟨?_, fun n => applysave_saved h ⟨b, C80_rejected h.valid hg n 0 0, rfl⟩,
    fun nx ny => applysave_saved h ⟨b, (C71_rejected h.valid (nx := nx) (ny := ny)).1 hg, rfl⟩⟩, fun hn => ⟨?_, fun hg => ?_⟩⟩
  · intro p hp
    simp only [List.mem_cons, List.not_mem_nil, or_false] at hp
    rcases hp with rfl | rfl | rfl | rfl
    · exact applysave_saved h ⟨b, C72_rejected .F h.valid hg, rfl⟩
    · exact applysave_saved h ⟨b, C72_rejected .T h.valid hg, rfl⟩
    · exact applysave_saved h ⟨b, C72_rejected .B h.valid hg, rfl⟩
    · exact applysave_saved h ⟨b, C74_rejected h.valid hg, rfl⟩
  · intro p hp
    simp only [List.mem_cons, List.not_mem_nil, or_false] at hp
    rcases hp with rfl | rfl | rfl
    · exact applysave_saved h ⟨b, C73_rejected .F h.valid hn, rfl⟩
    · exact applysave_saved h ⟨b, C73_rejected .L h.valid hn, rfl⟩
    · exact applysave_saved h ⟨b, C73_rejected .R h.valid hn, rfl⟩
  · have eL : mirrorleftincircregion b x y r = .ok b := C73_rejected .L h.valid hn
    have eR : mirrorrightincircregion b x y r = .ok b := C73_rejected .R h.valid hn
    have eT : mirrortopincircregion b x y r = .ok b := C72_rejected .T h.valid hg
    have eB : mirrorbottomincircregion b x y r = .ok b := C72_rejected .B h.valid hg
    intro p hp
    simp only [List.mem_cons, List.not_mem_nil, or_false] at hp
    rcases hp with rfl | rfl | rfl | rfl
    · exact applysave_saved h ⟨b, by unfold mirrortopleftincircregion; rw [eL]; exact eT, rfl⟩
    · exact applysave_saved h ⟨b, by unfold mirrortoprightincircregion; rw [eR]; exact eT, rfl⟩
    · exact applysave_saved h ⟨b, by unfold mirrorbottomleftincircregion; rw [eL]; exact eB, rfl⟩
    · exact applysave_saved h ⟨b, by unfold mirrorbottomrightincircregion; rw [eR]; exact eB, rfl⟩

/-- The picture after the first pass of a quarter mirror: the columns that the circle reaches are mirrored from left to
right; images of 1 and 4 bits stay as they are, because the decorator turns them away. -/
noncomputable def colPass (th : CircH) (b : Bytes) (W H bits : Nat) (x y r : Int) (px py : Nat) : Nat :=
  open Classical in
  if (bits = 8 ∨ bits = 24) ∧ ColSet x y r px py then pix b W H bits (circColSrc th x px) py else pix b W H bits px py

/-- C77 exactly, in every depth: a pixel of the rows that the circle reaches comes from the upper (lower) row of the
picture after the first pass, every other pixel is the one after the first pass. -/
theorem C77_exact (h : Valid b W H bits) {x y r : Int} (hs : SquareInside W H x y r) (hg : SquareInside W W x y r) :
    ∀ p ∈ [(CircH.L, CircV.T, mirrortopleftincircregion), (.R, .T, mirrortoprightincircregion),
      (.L, .B, mirrorbottomleftincircregion), (.R, .B, mirrorbottomrightincircregion)],
    ∃ b', p.2.2 b x y r = .ok b' ∧ Redraws b b' W H bits (fun px py => open Classical in
      if CircCols W bits x y r px py then colPass p.1 b W H bits x y r px (circRowSrc p.2.1 y py)
      else colPass p.1 b W H bits x y r px py) := by
  have hsq := (square_iff W H x y r).mpr hs
  simp only [entirecircleisinboundary, isinrange, Bool.and_eq_true, decide_eq_true_eq] at hsq
  have key : ∀ th tv, ∃ b', quarter th tv b x y r = .ok b' ∧ Redraws b b' W H bits (fun px py => open Classical in
      if CircCols W bits x y r px py then colPass th b W H bits x y r px (circRowSrc tv y py)
      else colPass th b W H bits x y r px py) := by
    intro th tv
    have p1 : ∃ b1, horitransformincircregion th b x y r = .ok b1 ∧
        Redraws b b1 W H bits (colPass th b W H bits x y r) := by
      by_cases hb : bits = 8 ∨ bits = 24
      · obtain ⟨b1, e1, a1⟩ := C73_hori_exact th h hb hs
        refine ⟨b1, e1, a1.valid, a1.header, fun px py hx hy => ?_⟩
        unfold colPass
        by_cases hc : ColSet x y r px py
        · rw [if_pos ⟨hb, hc⟩, a1.inside px py hx hy hc]
        · rw [if_neg (fun c => hc c.2), a1.outside px py hx hy hc]
      · refine ⟨b, C73_rejected th h (fun c => hb c.1), h, ⟨rfl, fun _ _ => rfl⟩, fun px py hx hy => ?_⟩
        unfold colPass
        rw [if_neg (fun c => hb c.1)]
    obtain ⟨b1, e1, r1⟩ := p1
    obtain ⟨b2, e2, a2⟩ := C72_vert_exact tv r1.valid hs hg
    refine ⟨b2, by unfold quarter; rw [e1, ok_bind, e2], a2.valid,
      ⟨a2.header.1.trans r1.header.1, fun i hi => (a2.header.2 i hi).trans (r1.header.2 i hi)⟩, ?_⟩
    intro px py hpx hpy
    by_cases hc : CircCols W bits x y r px py
    · have hrow : circRowSrc tv y py < H := by
        obtain ⟨hw, on, _⟩ := hc
        have := (C25_circle_accuracy r hw _ ((C25_circle_points _ _ _).mpr on.1)).2.2.2.1
        have hcase := abs_cases ((py : Int) - y)
        unfold circRowSrc
        cases tv <;> dsimp only <;> omega
      rw [if_pos hc, a2.inside px py hpx hpy hc, r1.pixels px _ hpx hrow]
    · rw [if_neg hc, a2.outside px py hpx hpy hc, r1.pixels px py hpx hpy]
  intro p hp
  simp only [List.mem_cons, List.not_mem_nil, or_false] at hp
  rcases hp with rfl | rfl | rfl | rfl
  · exact key .L .T
  · exact key .R .T
  · exact key .L .B
  · exact key .R .B

/-- C89 exactly: the pixels that each program reaches, for every depth it treats. -/
theorem C89_rows_exact (h : Stored fs ex b W H bits) {x y r : Int} :
    (0 ≤ x * bits / 8 + dataOff bits →
      (∃ fs', invertbitsincircregion2file fs ex nw x y r = .ok fs' ∧ Saved fs fs' nw (fun b' =>
        Alters b b' W H bits (CircCols W bits x y r) (fun px py => 2 ^ bits - 1 - pix b W H bits px py))) ∧
      (bits = 8 ∨ bits = 24 → ∃ fs', outlinecircregion2file fs ex nw x y r = .ok fs' ∧ Saved fs fs' nw (fun b' =>
        Alters b b' W H bits (CircCols W bits x y r)
          (fun px py => pix b W H bits px py ^^^ pix b W H bits (px + 1) py)))) ∧
    (SquareInside W H x y r → SquareInside W W x y r →
      (∀ p ∈ [(CircV.F, flipvertcircregion2file), (.T, mirrortopincircregion2file), (.B, mirrorbottomincircregion2file)],
        ∃ fs', p.2 fs ex nw x y r = .ok fs' ∧ Saved fs fs' nw (fun b' =>
          Alters b b' W H bits (CircCols W bits x y r) (fun px py => pix b W H bits px (circRowSrc p.1 y py)))) ∧
      (∀ n, n ≠ 0 → ∃ fs', eraseeverynthhorilineinccircregion2file fs ex nw x y r n = .ok fs' ∧ Saved fs fs' nw (fun b' =>
        Alters b b' W H bits (fun px py => CircCols W bits x y r px py ∧ Chosen n 0 py)
          (fun px _ => patPix bits (lowByte 0) px))) ∧
      (∀ p ∈ [(CircH.L, CircV.T, mirrortopleftincircregion2file), (.R, .T, mirrortoprightincircregion2file),
          (.L, .B, mirrorbottomleftincircregion2file), (.R, .B, mirrorbottomrightincircregion2file)],
        ∃ fs', p.2.2 fs ex nw x y r = .ok fs' ∧ Saved fs fs' nw (fun b' => Redraws b b' W H bits (fun px py =>
          open Classical in
          if CircCols W bits x y r px py then colPass p.1 b W H bits x y r px (circRowSrc p.2.1 y py)
          else colPass p.1 b W H bits x y r px py)))) ∧
    (bits = 8 ∨ bits = 24 → SquareInside W H x y r →
      ∀ p ∈ [(CircH.F, fliphoricircregion2file), (.L, mirrorleftincircregion2file), (.R, mirrorrightincircregion2file)],
        ∃ fs', p.2 fs ex nw x y r = .ok fs' ∧ Saved fs fs' nw (fun b' =>
          Alters b b' W H bits (ColSet x y r) (fun px py => pix b W H bits (circColSrc p.1 x px) py))) := by
  refine ⟨fun hx => ⟨?_, fun hb => applysave_saved h (C75_outline_exact h.valid hb hx)⟩, fun hs hg => ⟨?_,
    fun n hn => applysave_saved h (C80_circ_exact h.valid hs hg hn 0 0), ?_⟩, fun hb hs => ?_⟩
  · obtain ⟨b', e, a, _⟩ := C68_invertcirc_exact h.valid hx
    exact applysave_saved h ⟨b', e, a⟩
  · intro p hp
    simp only [List.mem_cons, List.not_mem_nil, or_false] at hp
    rcases hp with rfl | rfl | rfl
    · exact applysave_saved h (C72_vert_exact .F h.valid hs hg)
    · exact applysave_saved h (C72_vert_exact .T h.valid hs hg)
    · exact applysave_saved h (C72_vert_exact .B h.valid hs hg)
  · have hq := C77_exact h.valid hs hg
    intro p hp
    simp only [List.mem_cons, List.not_mem_nil, or_false] at hp
    rcases hp with rfl | rfl | rfl | rfl
    · exact applysave_saved h (hq (_, _, mirrortopleftincircregion) (by simp))
    · exact applysave_saved h (hq (_, _, mirrortoprightincircregion) (by simp))
    · exact applysave_saved h (hq (_, _, mirrorbottomleftincircregion) (by simp))
    · exact applysave_saved h (hq (_, _, mirrorbottomrightincircregion) (by simp))
  · intro p hp
    simp only [List.mem_cons, List.not_mem_nil, or_false] at hp
    rcases hp with rfl | rfl | rfl
    · exact applysave_saved h (C73_hori_exact .F h.valid hb hs)
    · exact applysave_saved h (C73_hori_exact .L h.valid hb hs)
    · exact applysave_saved h (C73_hori_exact .R h.valid hb hs)

/-- On a 4-bit image only the second pass happens: the left half of the disc is not repeated on the right. -/
example : (do
    let b ← newBMP 8 8 4; let b ← plotxybit b 2 2 9
    let fs ← mirrortopleftincircregion2file (oneFile b) "a" "n" 3 3 2
    pure ((fs "n").map fun c => [pix c 8 8 4 2 2, pix c 8 8 4 4 2, pix c 8 8 4 2 4])) = .ok (some [9, 0, 9]) := by decide +kernel

end Verif.Props
