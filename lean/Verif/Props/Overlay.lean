import Verif.Props.PensFar
import Verif.Props.Vertical
/-! Properties C180 and C181: several figures in one image. What is seen depends only on the figure drawn last at each pixel, so that
the order of separate figures does not matter, and turning the image upside down turns the figures upside down. -/

namespace Verif.Props.Overlay
open Verif Spec Model Verif.Props Verif.Props.Far Verif.Props.Plane

variable {b : Bytes} {W H bits : Nat}

/-- Calls of the drawing functions, without the bitmap and the colour. -/
inductive Figure
  | point (x y : Int)
  | row (y x1 x2 : Int)
  | column (x y1 y2 : Int)
  | segment (p q : Int × Int)
  | border (x1 y1 x2 y2 : Int)
  | box (x1 y1 x2 y2 : Int)
  | ring (x y r : Int)
  | disc (x y r : Int)
  | stroke (p q : Int × Int) (pen : Int)
  | tyre (x y r pen : Int)

/-- The function of BITMAPlib.py that is called. -/
def draw (f : Figure) (color : Int) (b : Bytes) : Py Bytes :=
  match f with
  | .point x y => plotxybit b x y color
  | .row y x1 x2 => horiline b y x1 x2 color
  | .column x y1 y2 => vertline b x y1 y2 color
  | .segment p q => linevec b p q color
  | .border x1 y1 x2 y2 => rectangle b x1 y1 x2 y2 color
  | .box x1 y1 x2 y2 => filledrect b x1 y1 x2 y2 color
  | .ring x y r => circle b x y r color
  | .disc x y r => filledcircle b x y r color
  | .stroke p q pen => thickroundline b p q pen color
  | .tyre x y r pen => thickcircle b x y r pen color

/-- Specification: the pixels of a figure (C19, C20, C21, C24, C26, C27, C94, C95). -/
def area (W H bits : Nat) (f : Figure) (px py : Nat) : Prop :=
  match f with
  | .point x y => (px : Int) = x ∧ (py : Int) = y
  | .row y x1 x2 => RowSet W bits y x1 x2 px py
  | .column x y1 y2 => VSeg x y1 y2 px py
  | .segment p q => LineSet W H bits p q px py
  | .border x1 y1 x2 y2 => Border (clampTo x1 W) (clampTo y1 H) (clampTo x2 W) (clampTo y2 H) px py
  | .box x1 y1 x2 y2 => InImage W H x1 y1 x2 y2 ∧ min y1 y2 ≤ (py : Int) ∧ (py : Int) ≤ max y1 y2 ∧ RowSet W bits py x1 x2 px py
  | .ring x y r => CircleSet x y r px py
  | .disc x y r => Mark W bits x y r px py
  | .stroke p q pen => StrokeSet W bits pen p q px py
  | .tyre x y r pen => ∃ u v, OnCircle r |u - x| |v - y| ∧ Mark W bits u v pen px py

/-- The calls that paint just their area: those that delete bytes, fail or use another colour are left out (C19, C20, C22, C24). -/
def Safe (W H bits : Nat) : Figure → Prop
  | .point _ _ => True
  | .row y x1 x2 => LineSafe W H bits x1 x2 y
  | .column _ y1 y2 => bits = 1 ∨ bits = 4 ∨ min y1 y2 < H
  | .segment p q => 0 < W ∧ 0 < H ∧ LineOK W H bits p q
  | .border _ _ _ _ => 0 < W ∧ 0 < H
  | .box _ _ _ _ => bits ≠ 8
  | .ring _ _ _ => True
  | .disc x y r => DiscSafe W H bits r x y
  | .stroke p q pen => StrokeSafe W H bits pen p q
  | .tyre x y r pen => RingSafe W H bits pen x y r

theorem reduce_colour (hd : Depth bits) {c : Int} (hc : IsColour bits c) : reduce bits c = c.toNat := by
  unfold IsColour at hc
  unfold reduce
  split_ifs with g1 g2
  · subst g1; omega
  · omega
  · rw [Int.emod_eq_of_lt hc.1 hc.2]

theorem nib_row {a z : Int} {px py : Nat} (ha : 0 ≤ a) (hz : z < W) (haz : a ≤ z) (y : Int) :
    Nib y a.toNat z.toNat px py ↔ Row4 W y a z px py := by
  unfold Nib Row4
  rw [min_eq_left haz, max_eq_right haz, max_eq_left ha, min_eq_left (by omega)]
  omega

/-- Every safe call paints its area, and nothing else. -/
theorem drawn (h : Valid b W H bits) {f : Figure} (hs : Safe W H bits f) {color : Int} (hc : IsColour bits color) :
    ∃ b', draw f color b = .ok b' ∧ Paints b b' W H bits (area W H bits f) color.toNat := by
  cases f with
  | point x y =>
    obtain ⟨b', e, p⟩ := plot_paints h x y (c := color) (by rintro rfl; exact hc)
    exact ⟨b', e, reduce_colour h.depth hc ▸ p⟩
  | row y x1 x2 => exact horiline_safe h hc hs
  | column x y1 y2 => exact C20_vertline_partial h hc hs
  | segment p q => exact linevec_paints h hs.1 hs.2.1 hc hs.2.2
  | border x1 y1 x2 y2 => exact C94_rectangle h hs.1 hs.2 hc x1 y1 x2 y2
  | box x1 y1 x2 y2 =>
    by_cases hi : InImage W H x1 y1 x2 y2
    · by_cases h4 : bits = 4
      · subst h4
        obtain ⟨b', e, p⟩ := C21_filledrect_4bit (color := color) h hi.1 hi.2
        refine ⟨b', e, ?_⟩
        rw [reduce_colour h.depth hc] at p
        refine p.congr fun px py _ _ => ?_
        obtain ⟨h1, h2⟩ := hi
        have hr : Nib (py : Int) (min x1 x2).toNat (max x1 x2).toNat px py ↔ RowSet W 4 py x1 x2 px py := by
          rw [nib_row (W := W) (by omega) (by omega) (by omega)]
          unfold RowSet
          rw [if_pos rfl]
          unfold Row4
          rw [min_eq_left (by omega : min x1 x2 ≤ max x1 x2), max_eq_right (by omega : min x1 x2 ≤ max x1 x2)]
        simp only [area, hr]
        constructor
        · rintro ⟨-, g⟩; exact g
        · intro g; exact ⟨⟨h1, h2⟩, g⟩
      · obtain ⟨b', e, p⟩ := C21_filledrect_partial h hi.1 hi.2 hc (by
          have := h.depth; unfold Depth at this; unfold Safe at hs; omega)
        refine ⟨b', e, p.congr fun px py _ _ => ?_⟩
        simp only [area, RowSet, if_neg h4, RectSet, HSeg, hi, true_and]
        tauto
    · refine ⟨b, C21_rejected h color hi, h, ⟨rfl, fun _ _ => rfl⟩, fun x y _ _ g => absurd g.1 hi, fun _ _ _ _ _ => rfl⟩
  | ring x y r => exact C26_circle h x y r hc
  | disc x y r => exact disc_safe h hc hs
  | stroke p q pen => exact C95_thickroundline_safe h hc hs
  | tyre x y r pen => exact C95_thickcircle_safe h hc hs

/-! ### C180: the order of figures -/

/-- Figures with their colours, drawn one after the other. -/
def drawAll (l : List (Figure × Int)) (b : Bytes) : Py Bytes := l.foldlM (fun b t => draw t.1 t.2 b) b

/-- All calls are safe and the colours exist in the image. -/
def AllSafe (W H bits : Nat) (l : List (Figure × Int)) : Prop := ∀ t ∈ l, Safe W H bits t.1 ∧ IsColour bits t.2

/-- The two files show the same picture with the same header and palette. -/
def SamePicture (W H bits : Nat) (n n' : Bytes) : Prop :=
  SameHeader n n' bits ∧ ∀ x y, x < W → y < H → pix n' W H bits x y = pix n W H bits x y

def layer (W H bits : Nat) (t : Figure × Int) : (Nat → Nat → Prop) × Nat := (area W H bits t.1, t.2.toNat)

/-- **C180**: each pixel shows the colour of the last figure that covers it, and is as before if there is none. -/
theorem C180_layers (h : Valid b W H bits) {l : List (Figure × Int)} (hl : AllSafe W H bits l) :
    ∃ b', drawAll l b = .ok b' ∧ Layered b b' W H bits (l.map (layer W H bits)) := by
  have := foldl_layers (W := W) (H := H) (bits := bits) (fun b (t : Figure × Int) => draw t.1 t.2 b) (fun t => [layer W H bits t]) l
    (fun b hb t ht => by
      obtain ⟨b', e, p⟩ := drawn hb (hl t ht).1 (hl t ht).2
      exact ⟨b', e, Layered.one p⟩) h
  rw [← List.map_eq_flatMap] at this
  exact this

theorem header_symm {n n' : Bytes} (h : SameHeader n n' bits) : SameHeader n' n bits := ⟨h.1.symm, fun i hi => (h.2 i hi).symm⟩

theorem top_covered {L : Layers} {x y old new : Nat} (ht : Top L x y old new) :
    (∃ t ∈ L, t.1 x y ∧ new = t.2) ∨ ((∀ t ∈ L, ¬ t.1 x y) ∧ new = old) := by
  rcases ht with ⟨p, S, c, q, rfl, hs, -, e⟩ | g
  · exact Or.inl ⟨(S, c), by simp, hs, e⟩
  · exact Or.inr g

/-- Figures without common pixels, or of the same colour, may be drawn in any order, and any number of times. -/
theorem C180_order (h : Valid b W H bits) {l l' : List (Figure × Int)} (hl : AllSafe W H bits l) (hm : ∀ t, t ∈ l ↔ t ∈ l')
    (hd : ∀ s ∈ l, ∀ t ∈ l, s.2 = t.2 ∨ ∀ x y, x < W → y < H → ¬ (area W H bits s.1 x y ∧ area W H bits t.1 x y)) :
    ∃ n n', drawAll l b = .ok n ∧ drawAll l' b = .ok n' ∧ SamePicture W H bits n n' := by
  obtain ⟨n, e, p⟩ := C180_layers h hl
  obtain ⟨n', e', p'⟩ := C180_layers h (l := l') (fun t ht => hl t ((hm t).mpr ht))
  refine ⟨n, n', e, e', SameHeader.trans (header_symm p.header) p'.header, fun x y hx hy => ?_⟩
  have t1 := top_covered (p.pixels x y hx hy)
  have t2 := top_covered (p'.pixels x y hx hy)
  simp only [List.mem_map, exists_exists_and_eq_and, forall_exists_index, and_imp, forall_apply_eq_imp_iff₂, layer] at t1 t2
  rcases t1 with ⟨s, hs, g1, e1⟩ | ⟨g1, e1⟩ <;> rcases t2 with ⟨t, ht, g2, e2⟩ | ⟨g2, e2⟩
  · rcases hd s hs t ((hm t).mpr ht) with k | k
    · rw [e1, e2, k]
    · exact absurd ⟨g1, g2⟩ (k x y hx hy)
  · exact absurd g1 (g2 s ((hm s).mp hs))
  · exact absurd g2 (g1 t ((hm t).mpr ht))
  · rw [e1, e2]

/-- A picture drawn twice is the picture drawn once, whether its figures overlap or not. -/
theorem C180_twice (h : Valid b W H bits) {l : List (Figure × Int)} (hl : AllSafe W H bits l) :
    ∃ n n', drawAll l b = .ok n ∧ drawAll (l ++ l) b = .ok n' ∧ SamePicture W H bits n n' := by
  obtain ⟨n, e, p⟩ := C180_layers h hl
  obtain ⟨n', e', p'⟩ := C180_layers p.valid hl
  refine ⟨n, n', e, ?_, p'.header, fun x y hx hy => ?_⟩
  · unfold drawAll at *; rw [List.foldlM_append, e]; exact e'
  · rcases p'.pixels x y hx hy with ⟨u, S, c, v, e1, g1, g2, g3⟩ | ⟨-, g⟩
    · exact Top.unique (Or.inl ⟨u, S, c, v, e1, g1, g2, g3⟩) (p.pixels x y hx hy)
    · exact g

/-- A figure that the next one covers might as well be left out. -/
theorem C180_hidden (h : Valid b W H bits) {f g : Figure} {c d : Int} (hf : Safe W H bits f ∧ IsColour bits c) (hg : Safe W H bits g ∧ IsColour bits d)
    (hc : ∀ x y, x < W → y < H → area W H bits f x y → area W H bits g x y) :
    ∃ n n', drawAll [(g, d)] b = .ok n ∧ drawAll [(f, c), (g, d)] b = .ok n' ∧ SamePicture W H bits n n' := by
  obtain ⟨n, e, p⟩ := drawn h hg.1 hg.2
  obtain ⟨n1, e1, p1⟩ := drawn h hf.1 hf.2
  obtain ⟨n', e', p'⟩ := drawn p1.valid hg.1 hg.2
  refine ⟨n, n', ?_, ?_, SameHeader.trans (header_symm p.header) (SameHeader.trans p1.header p'.header), fun x y hx hy => ?_⟩
  · simp only [drawAll, List.foldlM_cons, List.foldlM_nil, e]; rfl
  · simp only [drawAll, List.foldlM_cons, List.foldlM_nil, e1]
    show (draw g d n1 >>= _) = _
    rw [e']; rfl
  · by_cases k : area W H bits g x y
    · rw [p.inside x y hx hy k, p'.inside x y hx hy k]
    · rw [p.outside x y hx hy k, p'.outside x y hx hy k, p1.outside x y hx hy (fun q => k (hc x y hx hy q))]

/-- The pixels named by the caller are not enough on 4-bit images: a row of one pixel in an odd column is painted one column to the left
(C19), so that it matters whether that pixel is set before or after. -/
theorem C180_order_wrong :
    (do let b ← newBMP 4 1 4; let b ← drawAll [(.point 0 0, 5), (.row 0 1 1, 9)] b; pure (← getxybit b 0 0, ← getxybit b 1 0)) = .ok (9, 0) ∧
    (do let b ← newBMP 4 1 4; let b ← drawAll [(.row 0 1 1, 9), (.point 0 0, 5)] b; pure (← getxybit b 0 0, ← getxybit b 1 0)) = .ok (5, 0) := by
  decide +kernel

-- A ring over a box over a column, and the box and the column in the other order
example : (do
    let b ← drawAll [(.column 2 0 3, 3), (.box 1 1 3 3, 5), (.ring 2 2 1, 9)] (← newBMP 5 4 24)
    pure [← getxybit b 2 0, ← getxybit b 2 1, ← getxybit b 1 1, ← getxybit b 2 2, ← getxybit b 0 0]) = .ok [3, 9, 5, 5, 0] := by decide +kernel
example : (do
    let b ← drawAll [(.box 1 1 3 3, 5), (.column 2 0 3, 3), (.ring 2 2 1, 9)] (← newBMP 5 4 24)
    pure [← getxybit b 2 0, ← getxybit b 2 1, ← getxybit b 1 1, ← getxybit b 2 2, ← getxybit b 0 0]) = .ok [3, 9, 5, 3, 0] := by decide +kernel

/-! ### C181: figures upside down -/

/-- The figure upside down in an image of `H` rows. -/
def upsideDown (H : Nat) : Figure → Figure
  | .point x y => .point x (H - 1 - y)
  | .row y x1 x2 => .row (H - 1 - y) x1 x2
  | .column x y1 y2 => .column x (H - 1 - y1) (H - 1 - y2)
  | .segment p q => .segment (p.1, H - 1 - p.2) (q.1, H - 1 - q.2)
  | .border x1 y1 x2 y2 => .border x1 (H - 1 - y1) x2 (H - 1 - y2)
  | .box x1 y1 x2 y2 => .box x1 (H - 1 - y1) x2 (H - 1 - y2)
  | .ring x y r => .ring x (H - 1 - y) r
  | .disc x y r => .disc x (H - 1 - y) r
  | .stroke p q pen => .stroke (p.1, H - 1 - p.2) (q.1, H - 1 - q.2) pen
  | .tyre x y r pen => .tyre x (H - 1 - y) r pen

/-- The mirror image of the figure in an image of `W` columns. -/
def reversed (W : Nat) : Figure → Figure
  | .point x y => .point (W - 1 - x) y
  | .row y x1 x2 => .row y (W - 1 - x1) (W - 1 - x2)
  | .column x y1 y2 => .column (W - 1 - x) y1 y2
  | .segment p q => .segment (W - 1 - p.1, p.2) (W - 1 - q.1, q.2)
  | .border x1 y1 x2 y2 => .border (W - 1 - x1) y1 (W - 1 - x2) y2
  | .box x1 y1 x2 y2 => .box (W - 1 - x1) y1 (W - 1 - x2) y2
  | .ring x y r => .ring (W - 1 - x) y r
  | .disc x y r => .disc (W - 1 - x) y r
  | .stroke p q pen => .stroke (W - 1 - p.1, p.2) (W - 1 - q.1, q.2) pen
  | .tyre x y r pen => .tyre (W - 1 - x) y r pen

theorem clamp_flip (v : Int) {n : Nat} (hn : 0 < n) : clampTo ((n : Int) - 1 - v) n = n - 1 - clampTo v n := by
  unfold clampTo; omega

theorem raster_flipY (x1 y1 x2 y2 k h : Int) :
    rasterPt x1 (h - y1) x2 (h - y2) k = ((rasterPt x1 y1 x2 y2 k).1, h - (rasterPt x1 y1 x2 y2 k).2) := by
  unfold rasterPt
  dsimp only
  rw [show h - y2 - (h - y1) = -(y2 - y1) by ring, abs_neg, Int.sign_neg]
  split_ifs
  · refine Prod.ext rfl ?_; dsimp only; ring
  · refine Prod.ext rfl ?_; dsimp only; ring

theorem raster_flipX (x1 y1 x2 y2 k h : Int) :
    rasterPt (h - x1) y1 (h - x2) y2 k = (h - (rasterPt x1 y1 x2 y2 k).1, (rasterPt x1 y1 x2 y2 k).2) := by
  unfold rasterPt
  dsimp only
  rw [show h - x2 - (h - x1) = -(x2 - x1) by ring, abs_neg, Int.sign_neg]
  split_ifs
  · refine Prod.ext ?_ rfl; dsimp only; ring
  · refine Prod.ext ?_ rfl; dsimp only; ring

theorem mark_flipY {y pen x : Int} {px py : Nat} (hy : py < H) :
    Mark W bits x ((H : Int) - 1 - y) pen px py ↔ Mark W bits x y pen px (H - 1 - py) := by
  have e : |(py : Int) - ((H : Int) - 1 - y)| = |((H - 1 - py : Nat) : Int) - y| := by
    rw [show ((H - 1 - py : Nat) : Int) - y = -((py : Int) - ((H : Int) - 1 - y)) by omega, abs_neg]
  unfold Mark DiscSet Row4
  rw [e]
  simp only [true_and]

theorem mark_flipX (h4 : bits ≠ 4) {y pen x : Int} {px py : Nat} (hx : px < W) :
    Mark W bits ((W : Int) - 1 - x) y pen px py ↔ Mark W bits x y pen (W - 1 - px) py := by
  have e : |(px : Int) - ((W : Int) - 1 - x)| = |((W - 1 - px : Nat) : Int) - x| := by
    rw [show ((W - 1 - px : Nat) : Int) - x = -((px : Int) - ((W : Int) - 1 - x)) by omega, abs_neg]
  rw [mark_of_ne h4, mark_of_ne h4]
  unfold DiscSet
  rw [e]

/-- Diagonals down to the last row of wide images, which have one more pixel in the first row (C24). -/
def Wraps (W H : Nat) : Figure → Prop
  | .segment p q => |clampTo q.1 W - clampTo p.1 W| = |clampTo q.2 H - clampTo p.2 H| ∧ clampTo p.2 H < clampTo q.2 H ∧ clampTo q.2 H = (H : Int) - 1
  | _ => False

theorem segment_flipY {p q : Int × Int} (hH : 0 < H) (hs : LineOK W H bits p q)
    (hs' : LineOK W H bits (p.1, (H : Int) - 1 - p.2) (q.1, (H : Int) - 1 - q.2)) {px py : Nat} (hy : py < H) :
    LineSet W H bits (p.1, (H : Int) - 1 - p.2) (q.1, (H : Int) - 1 - q.2) px py ↔ LineSet W H bits p q px (H - 1 - py) := by
  unfold LineOK at hs hs'
  unfold LineSet
  simp only [clamp_flip _ hH] at hs' ⊢
  have ea : |(H : Int) - 1 - clampTo q.2 H - (H - 1 - clampTo p.2 H)| = |clampTo q.2 H - clampTo p.2 H| := by
    rw [show (H : Int) - 1 - clampTo q.2 H - (H - 1 - clampTo p.2 H) = -(clampTo q.2 H - clampTo p.2 H) by ring, abs_neg]
  have es : ((H : Int) - 1 - clampTo q.2 H - (H - 1 - clampTo p.2 H)).sign = -(clampTo q.2 H - clampTo p.2 H).sign := by
    rw [show (H : Int) - 1 - clampTo q.2 H - (H - 1 - clampTo p.2 H) = -(clampTo q.2 H - clampTo p.2 H) by ring, Int.sign_neg]
  rw [ea, es] at hs'
  rw [ea]
  generalize hX1 : clampTo p.1 W = X1 at *
  generalize hX2 : clampTo q.1 W = X2 at *
  have r1 : 0 ≤ clampTo p.2 H ∧ clampTo p.2 H < H := by unfold clampTo; omega
  have r2 : 0 ≤ clampTo q.2 H ∧ clampTo q.2 H < H := by unfold clampTo; omega
  generalize hY1 : clampTo p.2 H = Y1 at *
  generalize hY2 : clampTo q.2 H = Y2 at *
  have hc : ((H - 1 - py : Nat) : Int) = (H : Int) - 1 - py := by omega
  by_cases g : |X2 - X1| = |Y2 - Y1| ∧ X1 ≠ X2
  · rw [if_pos g, if_pos g]
    have hd : DiagSet X1 ((H : Int) - 1 - Y1) X2 (H - 1 - Y2) px py ↔ DiagSet X1 Y1 X2 Y2 px (H - 1 - py) := by
      unfold DiagSet
      rw [es, hc]
      constructor
      · rintro (⟨k, k1, k2, k3⟩ | k)
        · exact Or.inl ⟨k, k1, k2, by rw [k3]; ring⟩
        · exact Or.inr (by omega)
      · rintro (⟨k, k1, k2, k3⟩ | k)
        · exact Or.inl ⟨k, k1, k2, by linear_combination -k3⟩
        · exact Or.inr (by omega)
    have hne : Y1 ≠ Y2 := by
      intro e
      rw [e, sub_self, abs_zero, abs_eq_zero] at g
      omega
    have w1 : ¬ WrapSet H bits ((H : Int) - 1 - Y1) X2 (H - 1 - Y2) px py := by
      rintro ⟨k1, k2, k3, -, -⟩
      have hsg : (Y2 - Y1).sign = -1 := Int.sign_eq_neg_one_of_neg (by omega)
      rw [hsg] at hs
      have := hs g.1 g.2
      omega
    have w2 : ¬ WrapSet H bits Y1 X2 Y2 px (H - 1 - py) := by
      rintro ⟨k1, k2, k3, -, -⟩
      have hsg : (Y2 - Y1).sign = 1 := Int.sign_eq_one_of_pos (by omega)
      rw [hsg] at hs'
      have := hs' g.1 g.2
      omega
    rw [or_iff_left w1, or_iff_left w2, hd]
  · rw [if_neg g, if_neg g]
    by_cases g4 : bits = 4 ∧ Y1 = Y2 ∧ X1 ≠ X2
    · rw [if_pos (by omega), if_pos g4]
      unfold Nib
      rw [hc]
      constructor <;> rintro ⟨k1, k2⟩ <;> exact ⟨by omega, k2⟩
    · rw [if_neg (by omega), if_neg g4]
      unfold Raster
      rw [ea]
      simp only [raster_flipY, Prod.mk.injEq, hc]
      constructor
      · rintro ⟨k, k1, k2, k3, k4⟩
        exact ⟨k, k1, k2, Prod.ext k3 (by dsimp only; omega)⟩
      · rintro ⟨k, k1, k2, k3⟩
        exact ⟨k, k1, k2, by rw [k3], by rw [k3]; dsimp only; omega⟩

theorem segment_flipX {p q : Int × Int} (hW : 0 < W) (h4 : bits ≠ 4) (hw : ¬ Wraps W H (.segment p q)) {px py : Nat} (hx : px < W) :
    LineSet W H bits ((W : Int) - 1 - p.1, p.2) ((W : Int) - 1 - q.1, q.2) px py ↔ LineSet W H bits p q (W - 1 - px) py := by
  replace hw : ¬ (|clampTo q.1 W - clampTo p.1 W| = |clampTo q.2 H - clampTo p.2 H| ∧ clampTo p.2 H < clampTo q.2 H ∧
    clampTo q.2 H = (H : Int) - 1) := hw
  unfold LineSet
  simp only [clamp_flip _ hW]
  have ea : |(W : Int) - 1 - clampTo q.1 W - (W - 1 - clampTo p.1 W)| = |clampTo q.1 W - clampTo p.1 W| := by
    rw [show (W : Int) - 1 - clampTo q.1 W - (W - 1 - clampTo p.1 W) = -(clampTo q.1 W - clampTo p.1 W) by ring, abs_neg]
  have es : ((W : Int) - 1 - clampTo q.1 W - (W - 1 - clampTo p.1 W)).sign = -(clampTo q.1 W - clampTo p.1 W).sign := by
    rw [show (W : Int) - 1 - clampTo q.1 W - (W - 1 - clampTo p.1 W) = -(clampTo q.1 W - clampTo p.1 W) by ring, Int.sign_neg]
  have en : ((W : Int) - 1 - clampTo q.1 W - (W - 1 - clampTo p.1 W)).natAbs = (clampTo q.1 W - clampTo p.1 W).natAbs := by omega
  rw [ea]
  generalize hX1 : clampTo p.1 W = X1 at *
  generalize hX2 : clampTo q.1 W = X2 at *
  generalize hY1 : clampTo p.2 H = Y1 at *
  generalize hY2 : clampTo q.2 H = Y2 at *
  have hc : ((W - 1 - px : Nat) : Int) = (W : Int) - 1 - px := by omega
  by_cases g : |X2 - X1| = |Y2 - Y1| ∧ X1 ≠ X2
  · rw [if_pos ⟨g.1, by omega⟩, if_pos g]
    have hd : DiagSet ((W : Int) - 1 - X1) Y1 (W - 1 - X2) Y2 px py ↔ DiagSet X1 Y1 X2 Y2 (W - 1 - px) py := by
      unfold DiagSet
      rw [es, hc, en]
      constructor
      · rintro (⟨k, k1, k2, k3⟩ | k)
        · exact Or.inl ⟨k, k1, by rw [k2]; ring, k3⟩
        · exact Or.inr (by omega)
      · rintro (⟨k, k1, k2, k3⟩ | k)
        · exact Or.inl ⟨k, k1, by linear_combination -k2, k3⟩
        · exact Or.inr (by omega)
    have w1 : ¬ WrapSet H bits Y1 ((W : Int) - 1 - X2) Y2 px py := by
      rintro ⟨k1, k2, k3, -, -⟩
      exact hw ⟨g.1, k2, k3⟩
    have w2 : ¬ WrapSet H bits Y1 X2 Y2 (W - 1 - px) py := by
      rintro ⟨k1, k2, k3, -, -⟩
      exact hw ⟨g.1, k2, k3⟩
    rw [or_iff_left w1, or_iff_left w2, hd]
  · rw [if_neg (by intro k; exact g ⟨k.1, by omega⟩), if_neg g, if_neg (by tauto), if_neg (by tauto)]
    unfold Raster
    rw [ea]
    simp only [raster_flipX, Prod.mk.injEq, hc]
    constructor
    · rintro ⟨k, k1, k2, k3, k4⟩
      exact ⟨k, k1, k2, Prod.ext (by dsimp only; omega) k4⟩
    · rintro ⟨k, k1, k2, k3⟩
      exact ⟨k, k1, k2, by rw [k3]; dsimp only; omega, by rw [k3]⟩

theorem area_flipY' {f : Figure} (hs : ∀ p q, f = .segment p q → LineOK W H bits p q ∧
      LineOK W H bits (p.1, (H : Int) - 1 - p.2) (q.1, (H : Int) - 1 - q.2)) {px py : Nat} (hy : py < H) :
    area W H bits (upsideDown H f) px py ↔ area W H bits f px (H - 1 - py) := by
  have hc : ((H - 1 - py : Nat) : Int) = (H : Int) - 1 - py := by omega
  have hH : 0 < H := by omega
  cases f with
  | point x y => simp only [area, upsideDown, hc]; omega
  | row y x1 x2 =>
    simp only [area, upsideDown, RowSet, Row4, HSeg, hc]
    split_ifs
    · constructor <;> rintro ⟨k1, k2⟩ <;> exact ⟨by omega, k2⟩
    · constructor <;> rintro ⟨k1, k2⟩ <;> exact ⟨by omega, k2⟩
  | column x y1 y2 => simp only [area, upsideDown, VSeg, hc]; omega
  | segment p q => exact segment_flipY hH (hs p q rfl).1 (hs p q rfl).2 hy
  | border x1 y1 x2 y2 => simp only [area, upsideDown, Border, HSeg, VSeg, hc, clamp_flip _ hH]; omega
  | box x1 y1 x2 y2 =>
    simp only [area, upsideDown, RowSet, Row4, HSeg, true_and, hc, InImage]
    constructor <;> rintro ⟨k1, k2, k3, k4⟩ <;> exact ⟨by omega, by omega, by omega, k4⟩
  | ring x y r =>
    simp only [area, upsideDown, CircleSet, hc]
    rw [show |(py : Int) - (H - 1 - y)| = |(H : Int) - 1 - py - y| by
      rw [show (H : Int) - 1 - py - y = -((py : Int) - (H - 1 - y)) by ring, abs_neg]]
  | disc x y r => exact mark_flipY hy
  | stroke p q pen =>
    simp only [area, upsideDown, StrokeSet, raster_flipY, mark_flipY hy]
    rw [show |(H : Int) - 1 - q.2 - (H - 1 - p.2)| = |q.2 - p.2| by
      rw [show (H : Int) - 1 - q.2 - (H - 1 - p.2) = -(q.2 - p.2) by ring, abs_neg]]
  | tyre x y r pen =>
    simp only [area, upsideDown]
    constructor
    · rintro ⟨u, v, k1, k2⟩
      refine ⟨u, (H : Int) - 1 - v, ?_, ?_⟩
      · rw [show |(H : Int) - 1 - v - y| = |v - (H - 1 - y)| by
          rw [show (H : Int) - 1 - v - y = -(v - (H - 1 - y)) by ring, abs_neg]]
        exact k1
      · rw [← mark_flipY hy, show (H : Int) - 1 - (H - 1 - v) = v by ring]; exact k2
    · rintro ⟨u, v, k1, k2⟩
      refine ⟨u, (H : Int) - 1 - v, ?_, (mark_flipY hy).mpr k2⟩
      rw [show |(H : Int) - 1 - v - (H - 1 - y)| = |v - y| by
        rw [show (H : Int) - 1 - v - (H - 1 - y) = -(v - y) by ring, abs_neg]]
      exact k1

theorem area_flipY {f : Figure} (hs : Safe W H bits f) (hs' : Safe W H bits (upsideDown H f)) {px py : Nat} (hy : py < H) :
    area W H bits (upsideDown H f) px py ↔ area W H bits f px (H - 1 - py) :=
  area_flipY' (by rintro p q rfl; exact ⟨hs.2.2, hs'.2.2⟩) hy

theorem area_flipX (h4 : bits ≠ 4) {f : Figure} (hw : ¬ Wraps W H f) {px py : Nat} (hx : px < W) :
    area W H bits (reversed W f) px py ↔ area W H bits f (W - 1 - px) py := by
  have hc : ((W - 1 - px : Nat) : Int) = (W : Int) - 1 - px := by omega
  have hW : 0 < W := by omega
  cases f with
  | point x y => simp only [area, reversed, hc]; omega
  | row y x1 x2 => simp only [area, reversed, RowSet, if_neg h4, HSeg, hc]; omega
  | column x y1 y2 => simp only [area, reversed, VSeg, hc]; omega
  | segment p q => exact segment_flipX hW h4 hw hx
  | border x1 y1 x2 y2 => simp only [area, reversed, Border, HSeg, VSeg, hc, clamp_flip _ hW]; omega
  | box x1 y1 x2 y2 =>
    simp only [area, reversed, RowSet, if_neg h4, HSeg, hc, InImage]
    constructor <;> rintro ⟨k1, k2, k3, -, k4, k5⟩ <;> exact ⟨by omega, by omega, by omega, trivial, by omega, by omega⟩
  | ring x y r =>
    simp only [area, reversed, CircleSet, hc]
    rw [show |(px : Int) - (W - 1 - x)| = |(W : Int) - 1 - px - x| by
      rw [show (W : Int) - 1 - px - x = -((px : Int) - (W - 1 - x)) by ring, abs_neg]]
  | disc x y r => exact mark_flipX h4 hx
  | stroke p q pen =>
    simp only [area, reversed, StrokeSet, raster_flipX, mark_flipX h4 hx]
    rw [show |(W : Int) - 1 - q.1 - (W - 1 - p.1)| = |q.1 - p.1| by
      rw [show (W : Int) - 1 - q.1 - (W - 1 - p.1) = -(q.1 - p.1) by ring, abs_neg]]
  | tyre x y r pen =>
    simp only [area, reversed]
    constructor
    · rintro ⟨u, v, k1, k2⟩
      refine ⟨(W : Int) - 1 - u, v, ?_, ?_⟩
      · rw [show |(W : Int) - 1 - u - x| = |u - (W - 1 - x)| by
          rw [show (W : Int) - 1 - u - x = -(u - (W - 1 - x)) by ring, abs_neg]]
        exact k1
      · rw [← mark_flipX h4 hx, show (W : Int) - 1 - (W - 1 - u) = u by ring]; exact k2
    · rintro ⟨u, v, k1, k2⟩
      refine ⟨(W : Int) - 1 - u, v, ?_, (mark_flipX h4 hx).mpr k2⟩
      rw [show |(W : Int) - 1 - u - (W - 1 - x)| = |u - x| by
        rw [show (W : Int) - 1 - u - (W - 1 - x) = -(u - x) by ring, abs_neg]]
      exact k1

theorem top_map {ι : Type} {f g : ι → (Nat → Nat → Prop) × Nat} {x y x' y' old new : Nat} {l : List ι}
    (hfg : ∀ t ∈ l, ((g t).1 x' y' ↔ (f t).1 x y) ∧ (g t).2 = (f t).2) (ht : Top (l.map f) x y old new) : Top (l.map g) x' y' old new := by
  rcases ht with ⟨p, S, c, q, e, k1, k2, k3⟩ | ⟨k1, k2⟩
  · obtain ⟨l1, l2, rfl, rfl, e2⟩ := List.map_eq_append_iff.mp e
    obtain ⟨t, l3, rfl, e3, rfl⟩ := List.map_eq_cons_iff.mp e2
    have ht := hfg t (by simp)
    refine Or.inl ⟨l1.map g, (g t).1, (g t).2, l3.map g, by simp, ht.1.mpr (by rw [e3]; exact k1), ?_, by rw [k3, ht.2, e3]⟩
    intro s hs
    obtain ⟨u, hu, rfl⟩ := List.mem_map.mp hs
    rw [(hfg u (by simp [hu])).1]
    exact k2 (f u) (List.mem_map.mpr ⟨u, hu, rfl⟩)
  · refine Or.inr ⟨?_, k2⟩
    intro s hs
    obtain ⟨u, hu, rfl⟩ := List.mem_map.mp hs
    rw [(hfg u hu).1]
    exact k1 (f u) (List.mem_map.mpr ⟨u, hu, rfl⟩)

/-- **C181**: drawing and turning upside down is the same as turning upside down and drawing the figures upside down, for any list of
figures, in images of any depth. -/
theorem C181_upsidedown (h : Valid b W H bits) {l : List (Figure × Int)} (hl : AllSafe W H bits l)
    (hl' : AllSafe W H bits (l.map fun t => (upsideDown H t.1, t.2))) :
    ∃ n n' m m', drawAll l b = .ok n ∧ flipvertical n = .ok n' ∧ flipvertical b = .ok m ∧
      drawAll (l.map fun t => (upsideDown H t.1, t.2)) m = .ok m' ∧ SamePicture W H bits n' m' := by
  obtain ⟨n, e1, p1⟩ := C180_layers h hl
  obtain ⟨n', e2, p2, -⟩ := C28_flipvertical p1.valid
  obtain ⟨m, e3, p3, -⟩ := C28_flipvertical h
  obtain ⟨m', e4, p4⟩ := C180_layers p3.valid hl'
  refine ⟨n, n', m, m', e1, e2, e3, e4, SameHeader.trans (header_symm (SameHeader.trans p1.header p2.header)) (SameHeader.trans p3.header p4.header),
    fun x y hx hy => ?_⟩
  rw [p2.pixels x y hx hy]
  have k := p1.pixels x (H - 1 - y) hx (by omega)
  have k' := p4.pixels x y hx hy
  rw [p3.pixels x y hx hy, List.map_map] at k'
  refine Top.unique k' (top_map (f := layer W H bits) (g := layer W H bits ∘ fun t => (upsideDown H t.1, t.2)) (fun t ht => ⟨?_, rfl⟩) k)
  exact area_flipY (hl t ht).1 (hl' (upsideDown H t.1, t.2) (List.mem_map.mpr ⟨t, ht, rfl⟩)).1 hy

/-- The same with left and right, in images of 8 and 24 bits. Diagonals that end in the last row of a wide image are left out. -/
theorem C181_reversed (h : Valid b W H bits) (hb : bits = 8 ∨ bits = 24) {l : List (Figure × Int)} (hl : AllSafe W H bits l)
    (hl' : AllSafe W H bits (l.map fun t => (reversed W t.1, t.2))) (hw : ∀ t ∈ l, ¬ Wraps W H t.1) :
    ∃ n n' m m', drawAll l b = .ok n ∧ fliphorizontal n = .ok n' ∧ fliphorizontal b = .ok m ∧
      drawAll (l.map fun t => (reversed W t.1, t.2)) m = .ok m' ∧ SamePicture W H bits n' m' := by
  have hb' : bits = 8 ∨ bits = 24 ∨ (bits = 4 ∧ W % 2 = 0) := by omega
  obtain ⟨n, e1, p1⟩ := C180_layers h hl
  obtain ⟨n', e2, p2, -⟩ := C30_fliphorizontal_partial p1.valid hb'
  obtain ⟨m, e3, p3, -⟩ := C30_fliphorizontal_partial h hb'
  obtain ⟨m', e4, p4⟩ := C180_layers p3.valid hl'
  refine ⟨n, n', m, m', e1, e2, e3, e4, SameHeader.trans (header_symm (SameHeader.trans p1.header p2.header)) (SameHeader.trans p3.header p4.header),
    fun x y hx hy => ?_⟩
  rw [p2.pixels x y hx hy]
  have k := p1.pixels (W - 1 - x) y (by omega) hy
  have k' := p4.pixels x y hx hy
  rw [p3.pixels x y hx hy, List.map_map] at k'
  refine Top.unique k' (top_map (f := layer W H bits) (g := layer W H bits ∘ fun t => (reversed W t.1, t.2)) (fun t ht => ⟨?_, rfl⟩) k)
  exact area_flipX (by omega) (hw t ht) hx

-- A disc over a line, upside down; the line leans the other way.
example : (do
    let b ← newBMP 5 4 24
    let n ← flipvertical (← drawAll [(.segment (0, 0) (4, 2), 7), (.point 2 1, 9)] b)
    let m ← drawAll [(.segment (0, 3) (4, 1), 7), (.point 2 2, 9)] (← flipvertical b)
    pure (decide (n = m), ← getxybit n 0 3, ← getxybit n 2 2, ← getxybit n 4 1)) = .ok (true, 7, 9, 7) := by decide +kernel
/-- Left and right on 4-bit images: a row of a single pixel is not mirrored (C19). -/
theorem C181_reversed_wrong : (do
    let n ← fliphorizontal (← drawAll [(.row 0 1 1, 9)] (← newBMP 4 1 4))
    let m ← drawAll [(.row 0 2 2, 9)] (← newBMP 4 1 4)
    pure (← getxybit n 3 0, ← getxybit m 3 0)) = .ok (9, 0) := by decide +kernel

end Verif.Props.Overlay
