import Verif.Model.Helpers
import Verif.Lemmas.Header
import Verif.Props.Create
import Verif.Sample
/-! C44 and C45: the decorators that keep an operation inside the image. -/

namespace Verif.Props
open Verif Spec Model

/-- `g` runs `op` exactly when `P` holds, and does nothing otherwise. -/
def RunsIff {α : Type} (g : Py (Option α)) (op : Py α) (P : Prop) : Prop :=
  (P → g = some <$> op) ∧ (¬ P → g = .ok none)

/-- The square around the circle, including its border, is inside the image. -/
def SquareInside (W H : Nat) (x y r : Int) : Prop :=
  ∀ px py : Int, (px - x).natAbs ≤ r.natAbs → (py - y).natAbs ≤ r.natAbs → 0 ≤ px ∧ px < W ∧ 0 ≤ py ∧ py < H

theorem pointinbmp_eq {b : Bytes} {W H bits : Nat} (h : Valid b W H bits) (x y : Int) :
    pointinbmp b x y = .ok (decide (0 ≤ x ∧ x < W ∧ 0 ≤ y ∧ y < H)) := h.inb_eq x y

theorem rectinbmp_eq {b : Bytes} {W H bits : Nat} (h : Valid b W H bits) (x1 y1 x2 y2 : Int) :
    rectinbmp b x1 y1 x2 y2 =
      .ok (decide ((0 ≤ x1 ∧ x1 < W ∧ 0 ≤ y1 ∧ y1 < H) ∧ (0 ≤ x2 ∧ x2 < W ∧ 0 ≤ y2 ∧ y2 < H))) := by
  unfold rectinbmp
  rw [pointinbmp_eq h, pointinbmp_eq h, ok_bind]
  by_cases h1 : 0 ≤ x1 ∧ x1 < W ∧ 0 ≤ y1 ∧ y1 < H
  · simp [h1]
  · rw [if_neg (by simpa using h1), decide_eq_false (by tauto)]; rfl

theorem square_iff (W H : Nat) (x y r : Int) :
    entirecircleisinboundary x y (-1) W (-1) H r = true ↔ SquareInside W H x y r := by
  unfold entirecircleisinboundary isinrange SquareInside
  simp only [Bool.and_eq_true, decide_eq_true_eq]
  constructor
  · intro hc px py hx hy; omega
  · intro hc
    have h1 := hc (x - r) (y - r) (by omega) (by omega)
    have h2 := hc (x + r) (y + r) (by omega) (by omega)
    omega

variable {b : Bytes} {W H bits : Nat} {α : Type}

/-- C44: the depth decorators. -/
theorem C44_depth (h : Valid b W H bits) (op : Py α) :
    RunsIff (guard24 op b) op (bits = 24) ∧ RunsIff (guard8and24 op b) op (bits = 8 ∨ bits = 24) ∧
      RunsIff (guard4and8 op b) op (bits = 4 ∨ bits = 8) := by
  unfold guard24 guard8and24 guard4and8
  rw [h.bits_eq]
  simp only [ok_bind]
  refine ⟨⟨?_, ?_⟩, ⟨?_, ?_⟩, ⟨?_, ?_⟩⟩ <;> intro hc
  · rw [if_neg (by omega)]
  · rw [if_pos hc]; rfl
  · rw [if_neg (by simp; omega)]
  · rw [if_pos (by simp; omega)]; rfl
  · rw [if_neg (by simp; omega)]
  · rw [if_pos (by simp; omega)]; rfl

/-- C44: a function behind a rectangle decorator runs exactly when both corners are inside the image
and the depth is allowed. -/
theorem C44_rect_guards (h : Valid b W H bits) (op : Py α) (x1 y1 x2 y2 : Int) :
    RunsIff (guardrect op b x1 y1 x2 y2) op (InImage W H x1 y1 x2 y2) ∧
    RunsIff (guard24rect op b x1 y1 x2 y2) op (bits = 24 ∧ InImage W H x1 y1 x2 y2) ∧
    RunsIff (guard8and24rect op b x1 y1 x2 y2) op ((bits = 8 ∨ bits = 24) ∧ InImage W H x1 y1 x2 y2) := by
  unfold guardrect guard24rect guard8and24rect InImage
  rw [h.bits_eq, rectinbmp_eq h]
  simp only [ok_bind, decide_eq_true_eq]
  refine ⟨⟨?_, ?_⟩, ⟨?_, ?_⟩, ⟨?_, ?_⟩⟩ <;> intro hc
  · rw [if_neg (by tauto)]
  · rw [if_pos hc]; rfl
  · rw [if_neg (by omega), if_pos hc.2]
  · by_cases hb : bits = 24
    · rw [if_neg (by omega), if_neg (by tauto)]; rfl
    · rw [if_pos hb]; rfl
  · rw [if_neg (by simp; omega), if_pos hc.2]
  · by_cases hb : bits = 8 ∨ bits = 24
    · rw [if_neg (by simp; omega), if_neg (by tauto)]; rfl
    · rw [if_pos (by simp; omega)]; rfl

/-- C44 for functions that change the image: outside the rectangle condition the image is left as it was. -/
theorem C44_unchanged (h : Valid b W H bits) (f : Bytes → Int → Int → Int → Int → Py Bytes) (x1 y1 x2 y2 : Int) :
    (InImage W H x1 y1 x2 y2 → entirerectinboundary f b x1 y1 x2 y2 = f b x1 y1 x2 y2) ∧
    (¬ InImage W H x1 y1 x2 y2 → entirerectinboundary f b x1 y1 x2 y2 = .ok b) := by
  have key : entirerectinboundary f b x1 y1 x2 y2 =
      (rectinbmp b x1 y1 x2 y2 >>= fun r => if ¬ (r = true) then pure b else f b x1 y1 x2 y2) := by
    unfold entirerectinboundary rectinbmp
    rw [h.inb_eq, h.inb_eq, pointinbmp_eq h, pointinbmp_eq h]
    simp only [ok_bind]
    split_ifs with h1 h2 <;> first | rfl | (rw [ok_bind]; simp_all)
  rw [key, rectinbmp_eq h, ok_bind]
  unfold InImage
  simp only [decide_eq_true_eq]
  constructor <;> intro hc
  · rw [if_neg (by tauto)]
  · rw [if_pos hc]; rfl

/-- C45 for the two decorators that also test the depth. -/
theorem C45_circle_guards (h : Valid b W H bits) (op : Py α) (x y r : Int) :
    RunsIff (guard24circle op b x y r) op (bits = 24 ∧ SquareInside W H x y r) ∧
    RunsIff (guard8and24circle op b x y r) op ((bits = 8 ∨ bits = 24) ∧ SquareInside W H x y r) := by
  have hx : readint bmpx 4 b = .ok (W : Int) := h.getmaxx_eq
  have hy : readint bmpy 4 b = .ok (H : Int) := h.getmaxy_eq
  unfold guard24circle guard8and24circle
  rw [h.bits_eq, hx, hy]
  simp only [ok_bind, ← square_iff]
  refine ⟨⟨?_, ?_⟩, ⟨?_, ?_⟩⟩ <;> intro hc
  · rw [if_neg (by omega), if_pos hc.2]
  · by_cases hb : bits = 24
    · rw [if_neg (by omega), if_neg (by tauto)]; rfl
    · rw [if_pos hb]; rfl
  · rw [if_neg (by simp; omega), if_pos hc.2]
  · by_cases hb : bits = 8 ∨ bits = 24
    · rw [if_neg (by simp; omega), if_neg (by tauto)]; rfl
    · rw [if_pos (by simp; omega)]; rfl

/-- C45 for `entirecircleinboundary`: the height of the image plays no part, the width is used twice. -/
theorem C45_entirecircle_exact (h : Valid b W H bits) (op : Py α) (x y r : Int) :
    RunsIff (guardcircle op b x y r) op (SquareInside W W x y r) := by
  have hx : readint bmpx 4 b = .ok (W : Int) := h.getmaxx_eq
  unfold guardcircle
  rw [hx]
  simp only [ok_bind, ← square_iff]
  constructor <;> intro hc
  · rw [if_pos hc]
  · rw [if_neg hc]; rfl

/-- C45 for `entirecircleinboundary` holds on square images. Missing: the other ones. -/
theorem C45_entirecircle_partial (h : Valid b W W bits) (op : Py α) (x y r : Int) :
    RunsIff (guardcircle op b x y r) op (SquareInside W W x y r) := C45_entirecircle_exact h op x y r

/-- C45 is false for `entirecircleinboundary` in both directions: on an image 4 wide and 2 high a
circle below the image is let through, on one 2 wide and 4 high a circle inside is rejected. -/
theorem C45_false : (∃ b, Valid b 4 2 24 ∧ ¬ SquareInside 4 2 1 3 0 ∧ ∀ (α : Type) (op : Py α), guardcircle op b 1 3 0 = some <$> op) ∧
    (∃ b, Valid b 2 4 24 ∧ SquareInside 2 4 1 3 0 ∧ ∀ (α : Type) (op : Py α), guardcircle op b 1 3 0 = .ok none) := by
  constructor
  · obtain ⟨b, _, h, _⟩ := C01_newBMP_valid 4 2 24 (by simp [Depth]) (by omega) (by omega)
    refine ⟨b, h, ?_, fun α op => (C45_entirecircle_exact h op 1 3 0).1 ?_⟩
    · rw [← square_iff]; decide
    · rw [← square_iff]; decide
  · obtain ⟨b, _, h, _⟩ := C01_newBMP_valid 2 4 24 (by simp [Depth]) (by omega) (by omega)
    refine ⟨b, h, ?_, fun α op => (C45_entirecircle_exact h op 1 3 0).2 ?_⟩
    · rw [← square_iff]; decide
    · rw [← square_iff]; decide

example : guard8and24rect (pure 7) sample8 0 0 2 3 = .ok (some 7) ∧ guard8and24rect (pure 7) sample8 0 0 3 3 = .ok none := by
  decide +kernel
example : guard8and24circle (pure 7) sample8 1 2 1 = .ok (some 7) ∧ guard8and24circle (pure 7) sample8 1 0 1 = .ok none := by
  decide +kernel

end Verif.Props
