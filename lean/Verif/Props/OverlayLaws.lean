import Verif.Props.Overlay
import Verif.Props.Crop
import Verif.Props.Invert
/-! Properties C182 and C183: figures in inverted and in cropped images. -/

namespace Verif.Props.Overlay
open Verif Spec Model Verif.Props Verif.Props.Far Verif.Props.Plane

variable {b : Bytes} {W H bits : Nat}

theorem top_image {ι : Type} {f g : ι → (Nat → Nat → Prop) × Nat} (φ : Nat → Nat) {x y x' y' old new : Nat} {l : List ι}
    (hfg : ∀ t ∈ l, ((g t).1 x' y' ↔ (f t).1 x y) ∧ (g t).2 = φ (f t).2) (ht : Top (l.map f) x y old new) :
    Top (l.map g) x' y' (φ old) (φ new) := by
  rcases ht with ⟨p, S, c, q, e, k1, k2, k3⟩ | ⟨k1, k2⟩
  · obtain ⟨l1, l2, rfl, rfl, e2⟩ := List.map_eq_append_iff.mp e
    obtain ⟨t, l3, rfl, e3, rfl⟩ := List.map_eq_cons_iff.mp e2
    have ht := hfg t (by simp)
    refine Or.inl ⟨l1.map g, (g t).1, (g t).2, l3.map g, by simp, ht.1.mpr (by rw [e3]; exact k1), ?_, by rw [k3, ht.2, e3]⟩
    intro s hs
    obtain ⟨u, hu, rfl⟩ := List.mem_map.mp hs
    rw [(hfg u (by simp [hu])).1]
    exact k2 (f u) (List.mem_map.mpr ⟨u, hu, rfl⟩)
  · refine Or.inr ⟨?_, by rw [k2]⟩
    intro s hs
    obtain ⟨u, hu, rfl⟩ := List.mem_map.mp hs
    rw [(hfg u hu).1]
    exact k1 (f u) (List.mem_map.mpr ⟨u, hu, rfl⟩)

/-! ### C182: inverted images -/

/-- **C182**: drawing a picture and inverting the image is the same as inverting the image and drawing the picture in the inverted
colours. -/
theorem C182_inverted (h : Valid b W H bits) {l : List (Figure × Int)} (hl : AllSafe W H bits l) :
    ∃ n n' m m', drawAll l b = .ok n ∧ invertimagebits n = .ok n' ∧ invertimagebits b = .ok m ∧
      drawAll (l.map fun t => (t.1, 2 ^ bits - 1 - t.2)) m = .ok m' ∧ SamePicture W H bits n' m' := by
  have hl' : AllSafe W H bits (l.map fun t => (t.1, 2 ^ bits - 1 - t.2)) := by
    intro s hs
    obtain ⟨t, ht, rfl⟩ := List.mem_map.mp hs
    obtain ⟨k1, k2⟩ := hl t ht
    unfold IsColour at k2 ⊢
    exact ⟨k1, by dsimp only; omega⟩
  obtain ⟨n, e1, p1⟩ := C180_layers h hl
  obtain ⟨n', e2, p2, -⟩ := C32_invertimagebits p1.valid
  obtain ⟨m, e3, p3, -⟩ := C32_invertimagebits h
  obtain ⟨m', e4, p4⟩ := C180_layers p3.valid hl'
  refine ⟨n, n', m, m', e1, e2, e3, e4, SameHeader.trans (header_symm (SameHeader.trans p1.header p2.header)) (SameHeader.trans p3.header p4.header),
    fun x y hx hy => ?_⟩
  rw [p2.pixels x y hx hy]
  have k := p1.pixels x y hx hy
  have k' := p4.pixels x y hx hy
  rw [p3.pixels x y hx hy, List.map_map] at k'
  refine Top.unique k' (top_image (f := layer W H bits) (g := layer W H bits ∘ fun t => (t.1, 2 ^ bits - 1 - t.2)) (fun c => 2 ^ bits - 1 - c)
    (fun t ht => ⟨Iff.rfl, ?_⟩) k)
  have k2 := (hl t ht).2
  unfold IsColour at k2
  have e : ((2 : Int) ^ bits) = ((2 ^ bits : Nat) : Int) := by push_cast; rfl
  simp only [Function.comp, layer]
  rw [e] at k2 ⊢
  omega

-- A disc of colour 7 in an inverted image of 4 bits is a disc of colour 8 in the image.
example : (do
    let b ← newBMP 6 5 4
    let n ← invertimagebits (← drawAll [(.disc 2 2 1, 7), (.point 5 0, 3)] b)
    let m ← drawAll [(.disc 2 2 1, 8), (.point 5 0, 12)] (← invertimagebits b)
    pure (decide (n = m), ← getxybit m 1 2, ← getxybit m 5 0, ← getxybit m 0 0)) = .ok (true, 8, 12, 15) := by decide +kernel

/-! ### C183: cropped images -/

/-- The figure moved by `dx` and `dy`. -/
def moved (dx dy : Int) : Figure → Figure
  | .point x y => .point (x + dx) (y + dy)
  | .row y x1 x2 => .row (y + dy) (x1 + dx) (x2 + dx)
  | .column x y1 y2 => .column (x + dx) (y1 + dy) (y2 + dy)
  | .segment p q => .segment (p.1 + dx, p.2 + dy) (q.1 + dx, q.2 + dy)
  | .border x1 y1 x2 y2 => .border (x1 + dx) (y1 + dy) (x2 + dx) (y2 + dy)
  | .box x1 y1 x2 y2 => .box (x1 + dx) (y1 + dy) (x2 + dx) (y2 + dy)
  | .ring x y r => .ring (x + dx) (y + dy) r
  | .disc x y r => .disc (x + dx) (y + dy) r
  | .stroke p q pen => .stroke (p.1 + dx, p.2 + dy) (q.1 + dx, q.2 + dy) pen
  | .tyre x y r pen => .tyre (x + dx) (y + dy) r pen

/-- Lines and rectangles are moved to the edge of the image or refused unless their corners are inside (C174, C21); these have to be
within the part that is cut out. All other figures may be anywhere. -/
def Fits (x0 y0 : Nat) (W H : Nat) : Figure → Prop
  | .segment p q => InImage W H (p.1 - x0) (p.2 - y0) (q.1 - x0) (q.2 - y0)
  | .border x1 y1 x2 y2 => InImage W H (x1 - x0) (y1 - y0) (x2 - x0) (y2 - y0)
  | .box x1 y1 x2 y2 => InImage W H (x1 - x0) (y1 - y0) (x2 - x0) (y2 - y0)
  | _ => True

theorem raster_moved (x1 y1 x2 y2 k dx dy : Int) :
    rasterPt (x1 + dx) (y1 + dy) (x2 + dx) (y2 + dy) k = ((rasterPt x1 y1 x2 y2 k).1 + dx, (rasterPt x1 y1 x2 y2 k).2 + dy) := by
  unfold rasterPt
  dsimp only
  rw [add_sub_add_right_eq_sub, add_sub_add_right_eq_sub]
  split_ifs
  · refine Prod.ext ?_ ?_ <;> dsimp only <;> ring
  · refine Prod.ext ?_ ?_ <;> dsimp only <;> ring

theorem clamp_in {v : Int} {n : Nat} (h : 0 ≤ v ∧ v < n) : clampTo v n = v := by
  unfold clampTo; omega

theorem area_moved {W' H' x0 y0 : Nat} (h4 : bits ≠ 4) (hx0 : x0 + W' ≤ W) (hy0 : y0 + H' ≤ H) {f : Figure} (hf : Fits x0 y0 W' H' f)
    (hw : ¬ Wraps W H f) (hw' : ¬ Wraps W' H' (moved (-x0) (-y0) f)) {px py : Nat} :
    area W' H' bits (moved (-x0) (-y0) f) px py ↔ area W H bits f (x0 + px) (y0 + py) := by
  have hm : ∀ {u v pen : Int}, Mark W' bits (u + -x0) (v + -y0) pen px py ↔ Mark W bits u v pen (x0 + px) (y0 + py) := by
    intro u v pen
    rw [mark_of_ne h4, mark_of_ne h4]
    unfold DiscSet
    rw [show (py : Int) - (v + -y0) = ((y0 + py : Nat) : Int) - v by omega, show (px : Int) - (u + -x0) = ((x0 + px : Nat) : Int) - u by omega]
  cases f with
  | point x y => simp only [area, moved]; omega
  | row y x1 x2 => simp only [area, moved, RowSet, if_neg h4, HSeg]; omega
  | column x y1 y2 => simp only [area, moved, VSeg]; omega
  | segment p q =>
    obtain ⟨⟨a1, a2, a3, a4⟩, c1, c2, c3, c4⟩ : InImage W' H' (p.1 - x0) (p.2 - y0) (q.1 - x0) (q.2 - y0) := hf
    have i1 : clampTo p.1 W = p.1 := clamp_in (by omega)
    have i2 : clampTo p.2 H = p.2 := clamp_in (by omega)
    have i3 : clampTo q.1 W = q.1 := clamp_in (by omega)
    have i4 : clampTo q.2 H = q.2 := clamp_in (by omega)
    have j1 : clampTo (p.1 + -x0) W' = p.1 + -x0 := clamp_in (by omega)
    have j2 : clampTo (p.2 + -y0) H' = p.2 + -y0 := clamp_in (by omega)
    have j3 : clampTo (q.1 + -x0) W' = q.1 + -x0 := clamp_in (by omega)
    have j4 : clampTo (q.2 + -y0) H' = q.2 + -y0 := clamp_in (by omega)
    simp only [Wraps, moved, i1, i2, i3, i4, j1, j2, j3, j4, add_sub_add_right_eq_sub] at hw hw'
    simp only [area, moved, LineSet, i1, i2, i3, i4, j1, j2, j3, j4, add_sub_add_right_eq_sub]
    by_cases g : |q.1 - p.1| = |q.2 - p.2| ∧ p.1 ≠ q.1
    · rw [if_pos ⟨g.1, by omega⟩, if_pos g]
      have w1 : ¬ WrapSet H' bits (p.2 + -y0) (q.1 + -x0) (q.2 + -y0) px py := by
        rintro ⟨-, k2, k3, -, -⟩
        exact hw' ⟨g.1, k2, k3⟩
      have w2 : ¬ WrapSet H bits p.2 q.1 q.2 (x0 + px) (y0 + py) := by
        rintro ⟨-, k2, k3, -, -⟩
        exact hw ⟨g.1, k2, k3⟩
      rw [or_iff_left w1, or_iff_left w2]
      unfold DiagSet
      rw [add_sub_add_right_eq_sub, add_sub_add_right_eq_sub]
      push_cast
      constructor
      · rintro (⟨k, k1, k2, k3⟩ | k)
        · exact Or.inl ⟨k, k1, by rw [k2]; ring, by rw [k3]; ring⟩
        · exact Or.inr (by omega)
      · rintro (⟨k, k1, k2, k3⟩ | k)
        · exact Or.inl ⟨k, k1, by linear_combination k2, by linear_combination k3⟩
        · exact Or.inr (by omega)
    · rw [if_neg (by intro k; exact g ⟨k.1, by omega⟩), if_neg g, if_neg (by tauto), if_neg (by tauto)]
      unfold Raster
      simp only [add_sub_add_right_eq_sub, raster_moved, Prod.ext_iff]
      push_cast
      constructor
      · rintro ⟨k, k1, k2, k3, k4⟩; exact ⟨k, k1, k2, by omega, by omega⟩
      · rintro ⟨k, k1, k2, k3, k4⟩; exact ⟨k, k1, k2, by omega, by omega⟩
  | border x1 y1 x2 y2 =>
    obtain ⟨⟨a1, a2, a3, a4⟩, c1, c2, c3, c4⟩ : InImage W' H' (x1 - x0) (y1 - y0) (x2 - x0) (y2 - y0) := hf
    have i1 : clampTo x1 W = x1 := clamp_in (by omega)
    have i2 : clampTo y1 H = y1 := clamp_in (by omega)
    have i3 : clampTo x2 W = x2 := clamp_in (by omega)
    have i4 : clampTo y2 H = y2 := clamp_in (by omega)
    have j1 : clampTo (x1 + -x0) W' = x1 + -x0 := clamp_in (by omega)
    have j2 : clampTo (y1 + -y0) H' = y1 + -y0 := clamp_in (by omega)
    have j3 : clampTo (x2 + -x0) W' = x2 + -x0 := clamp_in (by omega)
    have j4 : clampTo (y2 + -y0) H' = y2 + -y0 := clamp_in (by omega)
    simp only [area, moved, i1, i2, i3, i4, j1, j2, j3, j4, Border, HSeg, VSeg]
    omega
  | box x1 y1 x2 y2 =>
    obtain ⟨⟨a1, a2, a3, a4⟩, c1, c2, c3, c4⟩ : InImage W' H' (x1 - x0) (y1 - y0) (x2 - x0) (y2 - y0) := hf
    simp only [area, moved, RowSet, if_neg h4, HSeg, InImage]
    constructor <;> rintro ⟨-, k2, k3, -, k4, k5⟩ <;> exact ⟨by omega, by omega, by omega, trivial, by omega, by omega⟩
  | ring x y r =>
    simp only [area, moved, CircleSet]
    rw [show (py : Int) - (y + -y0) = ((y0 + py : Nat) : Int) - y by omega, show (px : Int) - (x + -x0) = ((x0 + px : Nat) : Int) - x by omega]
  | disc x y r => exact hm
  | stroke p q pen =>
    simp only [area, moved, StrokeSet, raster_moved, hm, add_sub_add_right_eq_sub]
  | tyre x y r pen =>
    simp only [area, moved]
    constructor
    · rintro ⟨u, v, k1, k2⟩
      refine ⟨u + x0, v + y0, ?_, ?_⟩
      · rw [show u + x0 - x = u - (x + -x0) by ring, show v + y0 - y = v - (y + -y0) by ring]; exact k1
      · rw [← hm, show u + x0 + -x0 = u by ring, show v + y0 + -y0 = v by ring]; exact k2
    · rintro ⟨u, v, k1, k2⟩
      refine ⟨u + -x0, v + -y0, ?_, hm.mpr k2⟩
      rw [show u + -x0 - (x + -x0) = u - x by ring, show v + -y0 - (y + -y0) = v - y by ring]; exact k1

/-- **C183**: drawing a picture and cutting out a part is the same as cutting out the part and drawing the moved figures, in images of
1, 8 and 24 bits. Missing: 4 bits, where rows depend on the parity of the columns (C19). -/
theorem C183_crop_partial (h : Valid b W H bits) (h4 : bits ≠ 4) {x1 y1 x2 y2 : Nat} (hx : x1 ≤ x2 ∧ x2 < W) (hy : y1 ≤ y2 ∧ y2 < H)
    {l : List (Figure × Int)} (hl : AllSafe W H bits l)
    (hl' : AllSafe (x2 - x1 + 1) (y2 - y1 + 1) bits (l.map fun t => (moved (-x1) (-y1) t.1, t.2)))
    (hf : ∀ t ∈ l, Fits x1 y1 (x2 - x1 + 1) (y2 - y1 + 1) t.1 ∧ ¬ Wraps W H t.1 ∧ ¬ Wraps (x2 - x1 + 1) (y2 - y1 + 1) (moved (-x1) (-y1) t.1)) :
    ∃ n n' m m', drawAll l b = .ok n ∧ crop n x1 y1 x2 y2 = .ok (some n') ∧ crop b x1 y1 x2 y2 = .ok (some m) ∧
      drawAll (l.map fun t => (moved (-x1) (-y1) t.1, t.2)) m = .ok m' ∧ Valid n' (x2 - x1 + 1) (y2 - y1 + 1) bits ∧
      Valid m' (x2 - x1 + 1) (y2 - y1 + 1) bits ∧ ∀ x y, x < x2 - x1 + 1 → y < y2 - y1 + 1 →
        pix m' (x2 - x1 + 1) (y2 - y1 + 1) bits x y = pix n' (x2 - x1 + 1) (y2 - y1 + 1) bits x y := by
  have hi : InImage W H x1 y1 x2 y2 := by unfold InImage; omega
  have ex : (max (x1 : Int) x2 - min (x1 : Int) x2).toNat + 1 = x2 - x1 + 1 := by omega
  have ey : (max (y1 : Int) y2 - min (y1 : Int) y2).toNat + 1 = y2 - y1 + 1 := by omega
  have mx : (min (x1 : Int) x2).toNat = x1 := by omega
  have my : (min (y1 : Int) y2).toNat = y1 := by omega
  obtain ⟨n, e1, p1⟩ := C180_layers h hl
  obtain ⟨n', e2, p2⟩ := C35_crop_partial p1.valid hi
  obtain ⟨m, e3, p3⟩ := C35_crop_partial h hi
  rw [ex, ey] at p2 p3
  obtain ⟨m', e4, p4⟩ := C180_layers p3.valid hl'
  refine ⟨n, n', m, m', e1, e2, e3, e4, p2.valid, p4.valid, fun x y hx' hy' => ?_⟩
  have k := p1.pixels (x1 + x) (y1 + y) (by omega) (by omega)
  have k' := p4.pixels x y hx' hy'
  rw [p3.pixels x y hx' hy', List.map_map, mx, my] at k'
  rw [p2.pixels x y hx' hy', mx, my]
  refine Top.unique k' (top_map (f := layer W H bits)
    (g := layer (x2 - x1 + 1) (y2 - y1 + 1) bits ∘ fun t => (moved (-x1) (-y1) t.1, t.2)) (fun t ht => ⟨?_, rfl⟩) k)
  exact area_moved h4 (by omega) (by omega) (hf t ht).1 (hf t ht).2.1 (hf t ht).2.2

-- A circle that is cut
example : (do
    let b ← newBMP 5 5 24
    let some n ← crop (← drawAll [(.ring 2 2 2, 9), (.segment (2, 1) (3, 3), 4)] b) 2 1 4 4 | pure []
    let some e ← crop b 2 1 4 4 | pure []
    let m ← drawAll [(.ring 0 1 2, 9), (.segment (0, 0) (1, 2), 4)] e
    pure [n == m, (← getxybit m 2 1) == 9, (← getxybit m 1 2) == 4, (← getxybit m 0 3) == 9, (← getxybit m 1 0) == 0]) =
      .ok [true, true, true, true, true] := by decide +kernel

/-- A line that leaves the part: it is bent at the new edge (C174). -/
theorem C183_line_wrong : (do
    let b ← newBMP 4 3 24
    let some n ← crop (← drawAll [(.segment (0, 0) (3, 2), 9)] b) 0 0 1 2 | pure []
    let some e ← crop b 0 0 1 2 | pure []
    let m ← drawAll [(.segment (0, 0) (3, 2), 9)] e
    pure [← getxybit n 1 1, ← getxybit m 1 1, ← getxybit n 1 2, ← getxybit m 1 2]) = .ok [9, 9, 0, 9] := by decide +kernel

/-- A row of two pixels of a 4-bit image from an odd column: only the first one is painted in the image, but both in the part, where the
column is even (C19). -/
theorem C183_nibble_wrong : (do
    let b ← newBMP 4 1 4
    let some n ← crop (← drawAll [(.row 0 1 2, 6)] b) 1 0 3 0 | pure []
    let some e ← crop b 1 0 3 0 | pure []
    let m ← drawAll [(.row 0 0 1, 6)] e
    pure [← getxybit n 0 0, ← getxybit m 0 0, ← getxybit n 1 0, ← getxybit m 1 0]) = .ok [6, 6, 0, 6] := by decide +kernel

end Verif.Props.Overlay
