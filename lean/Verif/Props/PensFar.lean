import Verif.Props.FarLeft
import Verif.Props.Thick
import Verif.Props.Curves
import Verif.Props.Gradient
import Verif.Props.Lens
import Verif.Props.Plane
/-! Pens, strokes, fills and gradients anywhere, also far left of the image and, on 4-bit images, right of the padding:
whenever none of the rows that are drawn deletes bytes or raises an exception (`RowSafe`, see C19), the result is exactly
the union of the marks. This widens C92, C95, C96, C98, C120, C132, C133, C139, C141, C144 and C146. -/

namespace Verif.Props.Far
open Verif Spec Model Verif.Props

variable {b : Bytes} {W H bits : Nat}

/-! ### Where a disc does no harm -/

/-- The row from `x1` to `x2` at height `y` is outside the image or safe. -/
def LineSafe (W H bits : Nat) (x1 x2 y : Int) : Prop :=
  ∀ py : Nat, py < H → (py : Int) = y → RowSafe W H bits (dataOff bits + H * rowLen W bits) x1 x2 py

/-- All rows of the disc of radius `r` around `(x, y)` are safe. -/
def DiscSafe (W H bits : Nat) (r x y : Int) : Prop :=
  ∀ hw : Int, ∀ py : Nat, py < H → HalfWidth r hw |(py : Int) - y| →
    RowSafe W H bits (dataOff bits + H * rowLen W bits) (x - hw) (x + hw) py

/-- All discs along the line from `p` to `q` are safe. -/
def StrokeSafe (W H bits : Nat) (pen : Int) (p q : Int × Int) : Prop :=
  DiscSafe W H bits pen q.1 q.2 ∧ ∀ k, 0 ≤ k → k ≤ max |q.1 - p.1| |q.2 - p.2| →
    DiscSafe W H bits pen (rasterPt p.1 p.2 q.1 q.2 k).1 (rasterPt p.1 p.2 q.1 q.2 k).2

theorem rowSafe_of_rowOK (hd : Depth bits) {x1 x2 : Int} (h : RowOK W bits x1 x2) {y : Nat} (hy : y < H) :
    RowSafe W H bits (dataOff bits + H * rowLen W bits) x1 x2 y := by
  unfold RowSafe
  unfold RowOK at h
  split_ifs with g
  · left
    have : dataOff bits ≤ rowStart W H bits y := by unfold rowStart; omega
    refine le_trans ?_ this
    have d4 : dataOff 4 = 118 := by decide
    have d8 : dataOff 8 = 1078 := by decide
    have d24 : dataOff 24 = 54 := by decide
    unfold backBytes
    rcases hd with rfl | rfl | rfl | rfl
    · omega
    · rw [if_pos rfl]; omega
    · rw [if_neg (by norm_num)]; omega
    · rw [if_neg (by norm_num)]; omega
  · rintro ⟨rfl, h1, h2, h3⟩
    have h4 : min x1 x2 < 2 * rowLen W 4 := by omega
    have e : rowStart W H 4 y + rowLen W 4 ≤ dataOff 4 + H * rowLen W 4 := by
      unfold rowStart
      obtain ⟨k, rfl⟩ : ∃ k, H = y + 1 + k := ⟨H - (y + 1), by omega⟩
      rw [show y + 1 + k - 1 - y = k by omega]
      nlinarith [Nat.zero_le (rowLen W 4)]
    push_cast at h3
    have : ((rowStart W H 4 y : Int)) + rowLen W 4 ≤ dataOff 4 + H * rowLen W 4 := by exact_mod_cast e
    omega

/-- The places of the earlier theorems are safe: on 1-bit images all, on the others those up to 19 pixels left of the image
(237 on 4-bit images, there only up to the end of the padding). -/
theorem discSafe_of_penOK (hd : Depth bits) {x : Int} (h : PenOK W bits x) (r y : Int) : DiscSafe W H bits r x y := by
  intro hw py hpy hh
  have := halfWidth_bounds hh
  apply rowSafe_of_rowOK hd _ hpy
  unfold PenOK at h
  unfold RowOK
  omega

theorem strokeSafe_of_penOK (hd : Depth bits) {p q : Int × Int} (hp : PenOK W bits p.1) (hq : PenOK W bits q.1) (pen : Int) :
    StrokeSafe W H bits pen p q :=
  ⟨discSafe_of_penOK hd hq _ _, fun _ k0 k1 => discSafe_of_penOK hd (penOK_between hp hq (rasterPt_x k0 k1).1 (rasterPt_x k0 k1).2) _ _⟩

/-- A disc that lies further left of the image than twice the length of the file is safe. -/
theorem discSafe_of_far (hd : Depth bits) {r x y : Int} (h : x + max r 0 < -(2 * ((dataOff bits + H * rowLen W bits : Nat) : Int))) :
    DiscSafe W H bits r x y := by
  intro hw py hpy hh
  obtain ⟨h1, h2, -⟩ := halfWidth_bounds hh
  unfold RowSafe
  generalize dataOff bits + H * rowLen W bits = n at *
  by_cases h1b : bits = 1
  · subst h1b
    rw [if_neg (by omega)]; omega
  · have hm : max (x - hw) (x + hw) = x + hw := by omega
    rw [hm, if_pos ⟨h1b, by omega⟩]
    right
    unfold backBytes
    rcases hd with rfl | rfl | rfl | rfl
    · omega
    · rw [if_pos rfl]; omega
    · rw [if_neg (by norm_num)]; omega
    · rw [if_neg (by norm_num)]; omega

theorem horiline_safe (h : Valid b W H bits) {x1 x2 y color : Int} (hc : IsColour bits color) (hs : LineSafe W H bits x1 x2 y) :
    ∃ b', horiline b y x1 x2 color = .ok b' ∧ Paints b b' W H bits (RowSet W bits y x1 x2) color.toNat := by
  by_cases g : 0 ≤ y ∧ y < H
  · obtain ⟨y0, rfl⟩ := Int.eq_ofNat_of_zero_le g.1
    refine (C19_safe_iff h (by omega) hc).mpr ?_
    rw [h.len]
    exact hs y0 (by omega) rfl
  · refine ⟨b, C19_row_outside h (by omega), Paints.refl h _ ?_⟩
    intro px py _ _ g
    unfold RowSet Row4 HSeg at g
    split_ifs at g <;> omega

theorem disc_safe (h : Valid b W H bits) {x y r color : Int} (hc : IsColour bits color) (hs : DiscSafe W H bits r x y) :
    ∃ b', filledcircle b x y r color = .ok b' ∧ Paints b b' W H bits (Mark W bits x y r) color.toNat :=
  C27_safe h hc (by rw [h.len]; exact hs)

/-! ### C92 and C120: pens, splines and Bézier curves -/

/-- C92: a pen leaves exactly its mark. -/
theorem C92_roundpen_safe (h : Valid b W H bits) {x y pen color : Int} (hc : IsColour bits color)
    (hs : pen ≤ 1 ∨ DiscSafe W H bits pen x y) :
    ∃ b', roundpen b (x, y) pen color = .ok b' ∧ Paints b b' W H bits (PenSet W bits pen x y) color.toNat := by
  by_cases hp : pen ≤ 1
  · exact C92_roundpen_partial h hc (.inl hp)
  · unfold roundpen
    rw [if_neg hp]
    obtain ⟨b', e, p⟩ := disc_safe h hc (hs.resolve_left hp)
    refine ⟨b', e, p.congr fun px py _ _ => ?_⟩
    unfold PenSet
    constructor
    · rintro (g | g)
      · omega
      · exact g.2
    · intro g; exact Or.inr ⟨by omega, g⟩

/-- C92: a list of points gets exactly the marks of its points. -/
theorem C92_pointlist_safe (h : Valid b W H bits) {pen color : Int} (hc : IsColour bits color) {vlist : List (Int × Int)}
    (hs : pen ≤ 1 ∨ ∀ v ∈ vlist, DiscSafe W H bits pen v.1 v.2) :
    ∃ b', plotxypointlist b vlist pen color = .ok b' ∧
      Paints b b' W H bits (fun px py => ∃ v ∈ vlist, PenSet W bits pen v.1 v.2 px py) color.toNat :=
  foldl_paints (fun bmp v => roundpen bmp v pen color) (fun v => PenSet W bits pen v.1 v.2) vlist (fun _ hb v hv =>
    C92_roundpen_safe hb hc (x := v.1) (y := v.2) (hs.imp id fun g => g v hv)) h

/-- C120: a spline is the marks of its points. -/
theorem C120_drawn_safe (h : Valid b W H bits) {pen color : Int} (hc : IsColour bits color) {pts : List (ℚ × ℚ)}
    (isclosed curveback : Bool) {l : List (Int × Int)} (hl : iterbspline pts isclosed curveback = .ok l)
    (hs : pen ≤ 1 ∨ ∀ v ∈ l, DiscSafe W H bits pen v.1 v.2) :
    ∃ b', bspline b pts pen color isclosed curveback = .ok b' ∧
      Paints b b' W H bits (fun px py => ∃ v ∈ l, PenSet W bits pen v.1 v.2 px py) color.toNat := by
  unfold bspline
  rw [hl, ok_bind]
  exact C92_pointlist_safe h hc hs

/-- C120: a Bézier curve is the marks of its points. -/
theorem C120_bezier_safe (h : Valid b W H bits) {pen color : Int} (hc : IsColour bits color) {pts : List (ℚ × ℚ)}
    {l : List (Int × Int)} (hl : iterbeziercurve pts = .ok l) (hs : pen ≤ 1 ∨ ∀ v ∈ l, DiscSafe W H bits pen v.1 v.2) :
    ∃ b', beziercurve b pts pen color = .ok b' ∧
      Paints b b' W H bits (fun px py => ∃ v ∈ l, PenSet W bits pen v.1 v.2 px py) color.toNat := by
  unfold beziercurve
  rw [hl, ok_bind]
  exact C92_pointlist_safe h hc hs

/-! ### C95: strokes -/

theorem mem_iterline {x1 y1 x2 y2 : Int} (v : Int × Int) : v ∈ iterline (x1, y1) (x2, y2) ↔
    (∃ k, 0 ≤ k ∧ k ≤ max |x2 - x1| |y2 - y1| ∧ rasterPt x1 y1 x2 y2 k = v) ∨ v = (x2, y2) := by
  rw [iterline_eq, List.mem_append, List.mem_singleton, List.mem_map]
  have : 0 ≤ max |x2 - x1| |y2 - y1| := le_max_of_le_left (abs_nonneg _)
  constructor
  · rintro (⟨k, hk, e⟩ | e)
    · rw [List.mem_range] at hk; exact Or.inl ⟨k, by omega, by omega, e⟩
    · exact Or.inr e
  · rintro (⟨k, k0, k1, e⟩ | e)
    · refine Or.inl ⟨k.toNat, by rw [List.mem_range]; omega, ?_⟩
      rw [Int.toNat_of_nonneg k0]; exact e
    · exact Or.inr e

/-- C95: a thick line is exactly the union of the discs along the line. -/
theorem C95_thickroundline_safe (h : Valid b W H bits) {pen color : Int} (hc : IsColour bits color) {p q : Int × Int}
    (hs : StrokeSafe W H bits pen p q) :
    ∃ b', thickroundline b p q pen color = .ok b' ∧ Paints b b' W H bits (StrokeSet W bits pen p q) color.toNat := by
  obtain ⟨x1, y1⟩ := p
  obtain ⟨x2, y2⟩ := q
  obtain ⟨b', e, g⟩ := foldl_paints (W := W) (H := H) (bits := bits) (c := color.toNat)
    (fun bmp (v : Int × Int) => filledcircle bmp v.1 v.2 pen color) (fun v => Mark W bits v.1 v.2 pen)
    (iterline (x1, y1) (x2, y2)) (by
      intro b hb v hv
      apply disc_safe hb hc
      rcases (mem_iterline v).mp hv with ⟨k, k0, k1, rfl⟩ | rfl
      · exact hs.2 k k0 k1
      · exact hs.1) h
  refine ⟨b', e, g.congr fun px py _ _ => ?_⟩
  unfold StrokeSet
  constructor
  · rintro (⟨k, k0, k1, g⟩ | g)
    · exact ⟨_, (mem_iterline _).mpr (Or.inl ⟨k, k0, k1, rfl⟩), g⟩
    · exact ⟨_, (mem_iterline _).mpr (Or.inr rfl), g⟩
  · rintro ⟨v, hv, g⟩
    rcases (mem_iterline v).mp hv with ⟨k, k0, k1, rfl⟩ | rfl
    · exact Or.inl ⟨k, k0, k1, g⟩
    · exact Or.inr g

/-- C95: polylines with a pen of 2 or more. -/
theorem C95_plotlines_safe (h : Valid b W H bits) {pen color : Int} (hc : IsColour bits color) (hpen : 1 < pen)
    {v : List (Int × Int)} (hs : ∀ p q, Consec v p q → StrokeSafe W H bits pen p q) :
    ∃ b', plotlines b v color pen = .ok b' ∧
      Paints b b' W H bits (fun px py => ∃ p q, Consec v p q ∧ StrokeSet W bits pen p q px py) color.toNat := by
  unfold plotlines
  rw [if_neg (by omega)]
  obtain ⟨b', e, p⟩ := foldl_paints (W := W) (H := H) (bits := bits) (c := color.toNat)
    (fun bmp (s : (Int × Int) × (Int × Int)) => thickroundline bmp s.1 s.2 pen color)
    (fun s => StrokeSet W bits pen s.1 s.2) (v.zip v.tail)
    (fun b hb s hm => C95_thickroundline_safe hb hc (hs _ _ ((mem_zip_tail v s.1 s.2).mp hm))) h
  refine ⟨b', e, p.congr fun px py _ _ => ?_⟩
  constructor
  · rintro ⟨p, q, hm, g⟩; exact ⟨(p, q), (mem_zip_tail v p q).mpr hm, g⟩
  · rintro ⟨s, hm, g⟩; exact ⟨s.1, s.2, (mem_zip_tail v s.1 s.2).mp hm, g⟩

/-- C95: thick polygons. -/
theorem C95_thickplotpoly_safe (h : Valid b W H bits) {pen color : Int} (hc : IsColour bits color) {v : List (Int × Int)}
    {u w : Int × Int} (hu : v.head? = some u) (hw : v.getLast? = some w)
    (hs : ∀ p q, Consec v p q ∨ (p = u ∧ q = w) → StrokeSafe W H bits pen p q) :
    ∃ b', thickplotpoly b v pen color = .ok b' ∧
      Paints b b' W H bits (fun px py => ∃ p q, (Consec v p q ∨ (p = u ∧ q = w)) ∧ StrokeSet W bits pen p q px py)
        color.toNat := by
  obtain ⟨b1, e1, p1⟩ := foldl_paints (W := W) (H := H) (bits := bits) (c := color.toNat)
    (fun bmp (s : (Int × Int) × (Int × Int)) => thickroundline bmp s.1 s.2 pen color)
    (fun s => StrokeSet W bits pen s.1 s.2) (v.zip v.tail)
    (fun b hb s hm => C95_thickroundline_safe hb hc (hs _ _ (.inl ((mem_zip_tail v s.1 s.2).mp hm)))) h
  obtain ⟨b2, e2, p2⟩ := C95_thickroundline_safe p1.valid (pen := pen) hc (hs u w (.inr ⟨rfl, rfl⟩))
  refine ⟨b2, ?_, p1.trans p2 ?_⟩
  · unfold thickplotpoly
    rw [e1, hu, hw]; exact e2
  · intro px py _ _
    constructor
    · rintro ⟨p, q, g | ⟨rfl, rfl⟩, g'⟩
      · exact Or.inl ⟨(p, q), (mem_zip_tail v p q).mpr g, g'⟩
      · exact Or.inr g'
    · rintro (⟨s, g, g'⟩ | g)
      · exact ⟨s.1, s.2, Or.inl ((mem_zip_tail v s.1 s.2).mp g), g'⟩
      · exact ⟨u, w, Or.inr ⟨rfl, rfl⟩, g⟩

/-- All discs around the points of a circle are safe. -/
def RingSafe (W H bits : Nat) (pen x y r : Int) : Prop := ∀ u v, OnCircle r |u - x| |v - y| → DiscSafe W H bits pen u v

theorem mem_itercircle (x y r u v : Int) : (u, v) ∈ itercircle x y r ↔ OnCircle r |u - x| |v - y| := by
  unfold itercircle
  rw [List.mem_flatMap, ← C25_circle_points]
  constructor
  · rintro ⟨w, hw, g⟩
    obtain ⟨n1, n2, _⟩ := Props.part_nonneg hw
    obtain ⟨e1, e2⟩ := (mem_quad x y w n1 n2 _ _).mp g
    rw [e1, e2]; exact hw
  · intro g
    exact ⟨_, g, (mem_quad x y _ (abs_nonneg _) (abs_nonneg _) _ _).mpr ⟨rfl, rfl⟩⟩

/-- C95: a thick circle is exactly the union of the discs around the points of the circle. -/
theorem C95_thickcircle_safe (h : Valid b W H bits) {x y r pen color : Int} (hc : IsColour bits color)
    (hs : RingSafe W H bits pen x y r) :
    ∃ b', thickcircle b x y r pen color = .ok b' ∧
      Paints b b' W H bits (fun px py => ∃ u v, OnCircle r |u - x| |v - y| ∧ Mark W bits u v pen px py) color.toNat := by
  obtain ⟨b', e, g⟩ := foldl_paints (W := W) (H := H) (bits := bits) (c := color.toNat)
    (fun bmp (v : Int × Int) => filledcircle bmp v.1 v.2 pen color) (fun v => Mark W bits v.1 v.2 pen)
    (itercircle x y r) (fun b hb v hv => disc_safe hb hc (hs _ _ ((mem_itercircle x y r v.1 v.2).mp hv))) h
  refine ⟨b', e, g.congr fun px py _ _ => ?_⟩
  constructor
  · rintro ⟨u, v, g1, g2⟩; exact ⟨(u, v), (mem_itercircle x y r u v).mpr g1, g2⟩
  · rintro ⟨v, hv, g⟩; exact ⟨v.1, v.2, (mem_itercircle x y r v.1 v.2).mp hv, g⟩

/-! ### C96 and C98: fills -/

/-- C96: `fillboundary` fills every row from its leftmost to its rightmost boundary. -/
theorem C96_fillboundary_safe (h : Valid b W H bits) {color : Int} (hc : IsColour bits color) {d : List (Int × List Int)}
    (hs : ∀ e ∈ d, ∀ s ∈ e.2.zip e.2.tail, LineSafe W H bits s.1 s.2 e.1) :
    ∃ b', fillboundary b d color = .ok b' ∧
      Paints b b' W H bits (fun px py => ∃ e ∈ d, FillRow W bits e.1 e.2 px py) color.toNat := by
  unfold fillboundary
  refine foldl_paints _ (fun e => FillRow W bits e.1 e.2) d (fun b hb e he => ?_) h
  obtain ⟨y, xs⟩ := e
  match xs, he with
  | [], _ =>
    refine ⟨b, rfl, Paints.refl hb _ ?_⟩
    intro px py _ _ g
    unfold FillRow Hull at g
    simp at g
  | [x], _ =>
    obtain ⟨b', e', p⟩ := plot_paints hb x y (c := color) (by rintro rfl; exact ⟨hc.1, by exact_mod_cast hc.2⟩)
    rw [reduce_of_colour h.depth hc] at p
    refine ⟨b', e', p.congr fun px py _ _ => ?_⟩
    unfold FillRow
    split_ifs with h4
    · simp [eq_comm]
    · simp only [Hull, List.mem_singleton, exists_eq_left]; omega
  | a :: c :: l, he =>
    obtain ⟨b', e', p⟩ := foldl_paints (W := W) (H := H) (bits := bits) (c := color.toNat)
      (fun bmp (s : Int × Int) => horiline bmp y s.1 s.2 color) (fun s => RowSet W bits y s.1 s.2)
      ((a :: c :: l).zip (c :: l)) (fun b hb s hm => horiline_safe hb hc (hs _ he s hm)) hb
    refine ⟨b', e', p.congr fun px py _ _ => ?_⟩
    unfold FillRow RowSet
    split_ifs with h4
    · simp
    · exact hull_zip y a c l px py

/-- All rows of the ellipse with the half axes `b₀` (upright) and `a₀` are safe. -/
def EllipseSafe (W H bits : Nat) (x y b₀ a₀ : Int) : Prop :=
  ∀ v ∈ iterellipsepart b₀ a₀, LineSafe W H bits (x - v.1) (x + v.1) (y - v.2) ∧ LineSafe W H bits (x - v.1) (x + v.1) (y + v.2)

theorem ellipse_safe (h : Valid b W H bits) {x y b₀ a₀ : Int} {color : Int}
    (hnn : ∀ v ∈ iterellipsepart b₀ a₀, 0 ≤ v.1 ∧ 0 ≤ v.2) (hc : IsColour bits color) (hs : EllipseSafe W H bits x y b₀ a₀) :
    ∃ b', filledellipse b x y b₀ a₀ color = .ok b' ∧ Paints b b' W H bits (EllipseFill W bits x y b₀ a₀) color.toNat := by
  refine filledellipse_rows h hnn hc fun b hb v hv y' hy => ?_
  rcases hy with rfl | rfl
  · exact horiline_safe hb hc (hs v hv).1
  · exact horiline_safe hb hc (hs v hv).2

/-- C98: a filled ellipse is exactly the pixels horizontally between points of the ellipse. -/
theorem C98_filledellipse_safe (h : Valid b W H bits) {x y b₀ a₀ : Int} {color : Int} (hb0 : 1 ≤ b₀) (ha0 : a₀ ≠ 0)
    (hc : IsColour bits color) (hs : EllipseSafe W H bits x y b₀ a₀) :
    ∃ b', filledellipse b x y b₀ a₀ color = .ok b' ∧ Paints b b' W H bits (EllipseFill W bits x y b₀ a₀) color.toNat :=
  ellipse_safe h (fun v hv => ⟨((C97_rows hb0 ha0).1 v hv).1, ((C97_rows hb0 ha0).1 v hv).2.1⟩) hc hs

/-! ### C132, C133 and C139: gradients -/

section
open Gradient Pals

/-- C132: a line with a gradient. -/
theorem C132_gradthickroundline_safe (h : Valid b W H bits) {p q : Int × Int} (pen : Int)
    (hs : ∀ i, 1 ≤ i → i ≤ pen → StrokeSafe W H bits i p q) {lum : Int × Int} (hl : Lum lum) {f : ℚ × ℚ × ℚ} (hf : Pals.Unit f) :
    ∃ b', gradthickroundline b p q pen lum f = .ok b' ∧
      Graded b b' W H bits pen (fun i => StrokeSet W bits i p q) (Step b bits lum f pen) := by
  apply graded h
  intro i h1 h2 b' hv hh
  exact layer_ok hv hh hf (lumStep_part hl (by omega) h2 (by omega)) (fun c hc => C95_thickroundline_safe hv hc (hs i h1 h2))

/-- C132: a circle with a gradient. -/
theorem C132_gradthickcircle_safe (h : Valid b W H bits) {x y r : Int} (pen : Int)
    (hs : ∀ i, 1 ≤ i → i ≤ pen → RingSafe W H bits i x y r) {lum : Int × Int} (hl : Lum lum) {f : ℚ × ℚ × ℚ} (hf : Pals.Unit f) :
    ∃ b', gradthickcircle b x y r pen lum f = .ok b' ∧
      Graded b b' W H bits pen (fun i px py => ∃ u v, OnCircle r |u - x| |v - y| ∧ Mark W bits u v i px py) (Step b bits lum f pen) := by
  apply graded h
  intro i h1 h2 b' hv hh
  exact layer_ok hv hh hf (lumStep_part hl (by omega) h2 (by omega)) (fun c hc => C95_thickcircle_safe hv hc (hs i h1 h2))

/-- C132: a polygon with a gradient. -/
theorem C132_gradthickplotpoly_safe (h : Valid b W H bits) {v : List (Int × Int)} {u w : Int × Int} (hu : v.head? = some u)
    (hw : v.getLast? = some w) (pen : Int)
    (hs : ∀ i, 1 ≤ i → i ≤ pen → ∀ p q, Consec v p q ∨ (p = u ∧ q = w) → StrokeSafe W H bits i p q)
    {lum : Int × Int} (hl : Lum lum) {f : ℚ × ℚ × ℚ} (hf : Pals.Unit f) :
    ∃ b', gradthickplotpoly lerpF b v pen lum f = .ok b' ∧
      Graded b b' W H bits pen (fun i px py => ∃ p q, (Consec v p q ∨ (p = u ∧ q = w)) ∧ StrokeSet W bits i p q px py) (Step b bits lum f pen) := by
  apply graded h
  intro i h1 h2 b' hv hh
  exact layer_ok hv hh hf (lumBlend_part hl (by omega) h2 (by omega)) (fun c hc => C95_thickplotpoly_safe hv hc hu hw (hs i h1 h2))

/-- C132: connected lines with a gradient. -/
theorem C132_gradplotlines_safe (h : Valid b W H bits) (hW : 0 < W) (hH : 0 < H) {v : List (Int × Int)} (pen : Int)
    (hs : ∀ i, 1 < i → i ≤ pen → ∀ p q, Consec v p q → StrokeSafe W H bits i p q) (hok' : ∀ p q, Consec v p q → LineOK W H bits p q)
    {lum : Int × Int} (hl : Lum lum) {f : ℚ × ℚ × ℚ} (hf : Pals.Unit f) :
    ∃ b', gradplotlines lerpF b v pen lum f = .ok b' ∧ Graded b b' W H bits pen (PathSet W H bits v) (Step b bits lum f pen) := by
  apply graded h
  intro i h1 h2 b' hv hh
  refine layer_ok hv hh hf (lumBlend_part hl (by omega) h2 (by omega)) (fun c hc => ?_)
  by_cases g : i = 1
  · obtain ⟨b'', e, hp⟩ := C93_plotlines_partial hv hW hH hc (pen := i) (by omega) hok'
    refine ⟨b'', e, hp.congr ?_⟩
    intro x y _ _
    unfold PathSet
    constructor
    · rintro ⟨p, q, h1, h2 | h2⟩
      · exact ⟨p, q, h1, h2.2⟩
      · omega
    · rintro ⟨p, q, h1, h2⟩
      exact ⟨p, q, h1, .inl ⟨g, h2⟩⟩
  · obtain ⟨b'', e, hp⟩ := C95_plotlines_safe hv hc (pen := i) (by omega) (hs i (by omega) h2)
    refine ⟨b'', e, hp.congr ?_⟩
    intro x y _ _
    unfold PathSet
    constructor
    · rintro ⟨p, q, h1, h2 | h2⟩
      · omega
      · exact ⟨p, q, h1, h2.2⟩
    · rintro ⟨p, q, h1, h2⟩
      exact ⟨p, q, h1, .inr ⟨by omega, h2⟩⟩

/-- C132: points with a gradient. -/
theorem C132_gradvert_safe (h : Valid b W H bits) {v : List (Int × Int)} {pen : Int}
    (hs : ∀ i, 1 < i → i ≤ pen → ∀ p ∈ v, DiscSafe W H bits i p.1 p.2) {lum : Int × Int} (hl : Lum lum) {f : ℚ × ℚ × ℚ} (hf : Pals.Unit f) :
    ∃ b', gradvert lerpF b v pen lum f = .ok b' ∧
      Graded b b' W H bits pen (fun i px py => ∃ p ∈ v, PenSet W bits i p.1 p.2 px py) (StepF b bits lum f pen) := by
  apply graded h
  intro i h1 h2 b' hv hh
  obtain ⟨p, ep, hp⟩ := colormix_mixed hf (level_range hl.q.1 hl.q.2 (show 0 ≤ i by omega) h2 (by omega))
    (blend_near hl (by omega) h2 (by omega))
  obtain ⟨k, ek, hk, hs'⟩ := palColour_ok hv (mixed_byte hp)
  obtain ⟨b'', e', hb'⟩ := C92_pointlist_safe hv hk (vlist := v) (pen := i) (by
    by_cases g : i ≤ 1
    · exact .inl g
    · exact .inr (hs i (by omega) h2))
  exact ⟨b'', k, by rw [ep, ek, ok_bind]; exact e', ⟨p, hp, shown_header hh hs'⟩, by simpa using hb'⟩

/-- C133: a disc with a gradient from the centre to the edge. -/
theorem C133_gradcircle_safe (h : Valid b W H bits) {x y r : Int} (hs : ∀ i, 1 ≤ i → i < r → RingSafe W H bits 2 x y i)
    {lum : Int × Int} (hl : Lum lum) {f : ℚ × ℚ × ℚ} (hf : Pals.Unit f) :
    ∃ b', gradcircle lerpF b x y r lum f = .ok b' ∧ Graded b b' W H bits (r - 1) (RingSet W bits x y) (Step b bits lum f r) := by
  apply graded h
  intro i h1 h2 b' hv hh
  exact layer_ok hv hh hf (lumBlend_part hl (by omega) (by omega) (by omega))
    (fun c hc => C95_thickcircle_safe hv hc (hs i h1 (by omega)))

/-- C133: a disc with a gradient between two colours, in true colour. -/
theorem C133_graddichromiccircle_safe (h : Valid b W H 24) {x y r : Int} (hs : ∀ i, 1 ≤ i → i < r → RingSafe W H 24 2 x y i)
    {c1 c2 : Int} (h1 : IsColour 24 c1) (h2 : IsColour 24 c2) :
    ∃ b', graddichromiccircle lerpF b x y r c1 c2 = .ok b' ∧
      Graded b b' W H 24 (r - 1) (RingSet W 24 x y) (fun i => Tint b 24 (parts c1) (parts c2) i r) := by
  unfold graddichromiccircle
  rw [(C44_depth h _).1.1 rfl]
  obtain ⟨b', e, hG⟩ := graded h (N := r - 1) (S := RingSet W 24 x y) (C := fun i => Tint b 24 (parts c1) (parts c2) i r)
    (f := fun bmp (i : Int) =>
      thickcircle bmp x y i 2 (blendInt lerpF (floats (int2RGB c1)) (floats (int2RGB c2)) (fl ((i : ℚ) / r)))) (by
    intro i i1 i2 b' hv hh
    obtain ⟨c, hc, ec, hr⟩ := blend_tint (colour_close h1) (colour_close h2) (i := i) (n := r) (by omega) (by omega) (by omega)
      (share_near (by omega) (by omega) (by omega))
    obtain ⟨e, hk⟩ := rgb_colour hc
    obtain ⟨b'', e'', hb''⟩ := C95_thickcircle_safe hv hk (x := x) (y := y) (r := i) (pen := 2) (hs i i1 (by omega))
    refine ⟨b'', (RGB2int c.1 c.2.1 c.2.2).toNat, by rw [ec]; exact e'', ⟨c, hr, .inl ⟨rfl, ?_⟩⟩, hb''⟩
    rw [Int.toNat_of_nonneg hk.1, e])
  refine ⟨b', ?_, hG⟩
  rw [e]
  rfl

/-- C133: a sphere. -/
theorem C133_sphere_safe (h : Valid b W H 24) {x y r : Int} (hs : ∀ i, 1 ≤ i → i < r → RingSafe W H 24 2 x y i) :
    (∀ f, Pals.Unit f → ∃ b', sphere lerpF b x y r (.factors f) = .ok b' ∧
      Graded b b' W H 24 (r - 1) (RingSet W 24 x y) (Step b 24 (255, 0) f r)) ∧
    (∀ c1 c2, IsColour 24 c1 → IsColour 24 c2 → ∃ b', sphere lerpF b x y r (.two c1 c2) = .ok b' ∧
      Graded b b' W H 24 (r - 1) (RingSet W 24 x y) (fun i => Tint b 24 (parts c1) (parts c2) i r)) :=
  ⟨fun _ hf => C133_gradcircle_safe h hs ⟨by norm_num, by norm_num⟩ hf,
    fun _ _ h1 h2 => C133_graddichromiccircle_safe h hs h1 h2⟩

/-- C133: `orb` is a disc of half the radius in full brightness, with rings around it that go dark. -/
theorem C133_orb_safe (h : Valid b W H bits) {x y r : Int} (hd : DiscSafe W H bits (r / 2) x y)
    (hs : ∀ i, r / 2 < i → i < r → RingSafe W H bits 2 x y i) {f : ℚ × ℚ × ℚ} (hf : Pals.Unit f) :
    ∃ b', orb b x y r f = .ok b' ∧ Valid b' W H bits ∧ SameHeader b b' bits ∧
      ∀ px py, px < W → py < H →
        (∀ i, r / 2 < i → i < r → RingSet W bits x y i px py → (∀ j, r / 2 < j → j < i → ¬ RingSet W bits x y j px py) →
          Lit b bits f (255 * (r - i) / ((r / 2 : Int) : ℚ)) (pix b' W H bits px py)) ∧
        ((∀ i, r / 2 < i → i < r → ¬ RingSet W bits x y i px py) → Mark W bits x y (r / 2) px py →
          Lit b bits f 255 (pix b' W H bits px py)) ∧
        ((∀ i, r / 2 < i → i < r → ¬ RingSet W bits x y i px py) → ¬ Mark W bits x y (r / 2) px py →
          pix b' W H bits px py = pix b W H bits px py) :=
  orb_of h (fun _ hc => disc_safe h hc hd) (fun i h1 h2 _ hb _ hc => C95_thickcircle_safe hb hc (hs i h1 h2)) hf

/-- C133: `gradellipse` paints `max a b` ellipses over each other. -/
theorem C133_gradellipse_safe (h : Valid b W H bits) {x y b₀ a₀ : Int}
    (hs : ∀ i, 1 ≤ i → i ≤ max a₀ b₀ → EllipseSafe W H bits x y (b₀ - max a₀ b₀ + i) (a₀ - max a₀ b₀ + i))
    {lum : Int × Int} (hl : Lum lum) {f : ℚ × ℚ × ℚ} (hf : Pals.Unit f) :
    ∃ b', gradellipse lerpF b x y b₀ a₀ lum f = .ok b' ∧
      Graded b b' W H bits (max a₀ b₀) (fun i => EllipseFill W bits x y (b₀ - max a₀ b₀ + i) (a₀ - max a₀ b₀ + i))
        (Step b bits lum f (max a₀ b₀)) := by
  apply graded h
  intro i h1 h2 b' hv hh
  exact layer_ok hv hh hf (lumBlend_part hl (by omega) h2 (by omega))
    (fun c hc => ellipse_safe hv (Gradient.part_nonneg (by omega)) hc (hs i h1 h2))

/-- C139: the circle around an area. -/
theorem C139_thickencirclearea_safe (h : Valid b W H 24) {x y r : Int} (hs : ∀ i, 1 ≤ i → i ≤ 8 → RingSafe W H 24 i x y r)
    {f : ℚ × ℚ × ℚ} (hf : Pals.Unit f) :
    ∃ b', thickencirclearea b x y r f = .ok b' ∧
      Graded b b' W H 24 8 (fun i px py => ∃ u v, OnCircle r |u - x| |v - y| ∧ Mark W 24 u v i px py) (Step b 24 (255, 0) f 8) :=
  C132_gradthickcircle_safe h 8 hs (by constructor <;> constructor <;> norm_num) hf

end

/-! ### C141, C144 and C146: arrows, scatter plots and rotated ellipses -/

section
open Plane

/-- C141: a thick arrow is the union of its three strokes. -/
theorem C141_thick_safe (h : Valid b W H bits) {color : Int} (hc : IsColour bits color) {u v : Int × Int} {headsize pen : Int}
    (hs : ∀ s ∈ iterdrawvec u v headsize, StrokeSafe W H bits pen s.1 s.2) :
    ∃ b', drawvec b u v headsize color (some pen) = .ok b' ∧
      Paints b b' W H bits (fun px py => ∃ s ∈ iterdrawvec u v headsize, StrokeSet W bits pen s.1 s.2 px py) color.toNat :=
  foldl_paints (fun bmp (s : (Int × Int) × (Int × Int)) => thickroundline bmp s.1 s.2 pen color)
    (fun s => StrokeSet W bits pen s.1 s.2) _ (fun _ hb s hm => C95_thickroundline_safe hb hc (hs s hm)) h

theorem datum_safe (h : Valid b W H bits) {c : CoordInfo} {d : Datum} {p : ℚ × ℚ} (hp : Located c d p) (hc : IsColour bits d.color)
    (hf : 1 < d.r → d.filled = true → DiscSafe W H bits (min d.r 5) (rnd p.1) (rnd p.2)) :
    ∃ b', plotDatum c b d = .ok b' ∧ Paints b b' W H bits (MarkSet W bits p d.r d.filled) d.color.toNat := by
  by_cases hr : 1 < d.r ∧ d.filled = true
  · unfold plotDatum
    rw [show userdef2Dcooordsys2screenxy d.x d.y c = .ok p from hp, ok_bind, if_pos (show d.r > 1 from hr.1)]
    unfold MarkSet
    simp only [if_neg (show ¬ d.r ≤ 1 by omega)]
    unfold circlevec roundvect2 setmax
    dsimp only
    rw [show (if d.r > 5 then 5 else d.r) = min d.r 5 by split_ifs <;> omega]
    simp only [if_pos hr.2]
    exact disc_safe h hc (hf hr.1 hr.2)
  · exact datum_layer h hp hc (fun h1 h2 => absurd ⟨h1, h2⟩ hr)

/-- C144: a scatter plot without a line is one mark for each datum at its position, the later over the earlier. -/
theorem C144_scatter_safe (h : Valid b W H bits) {c : CoordInfo} (hv : c.vsteps.1 ≠ 0 ∧ c.vsteps.2 ≠ 0)
    {data : List Datum} (hc : ∀ d ∈ data, IsColour bits d.color)
    (hf : ∀ d ∈ data, 1 < d.r → d.filled = true → ∀ p, Located c d p → DiscSafe W H bits (min d.r 5) (rnd p.1) (rnd p.2))
    (color : Int) :
    ∃ (pos : Datum → ℚ × ℚ) (b' : Bytes), (∀ d, Located c d (pos d)) ∧ XYscatterplot b data c false color = .ok b' ∧
      Layered b b' W H bits (data.map fun d => (MarkSet W bits (pos d) d.r d.filled, d.color.toNat)) := by
  have ex : ∀ d : Datum, ∃ p, Located c d p := by
    intro d
    unfold Located userdef2Dcooordsys2screenxy
    rw [if_neg (by tauto)]
    dsimp only
    split_ifs
    · exact ⟨_, rfl⟩
    · exact ⟨_, rfl⟩
  choose pos hpos using ex
  obtain ⟨b', e, q⟩ := foldl_layers (plotDatum c) (fun d => [(MarkSet W bits (pos d) d.r d.filled, d.color.toNat)]) data (by
    intro b hb d hd
    obtain ⟨b', e, q⟩ := datum_safe hb (hpos d) (hc d hd) (fun h1 h2 => hf d hd h1 h2 _ (hpos d))
    exact ⟨b', e, Layered.one q⟩) h
  refine ⟨pos, b', hpos, ?_, ?_⟩
  · unfold XYscatterplot
    rw [e, ok_bind]; rfl
  · rwa [← List.flatMap_pure_eq_map] at *

/-- C146: a thick rotated ellipse is the union of the discs around the turned points. -/
theorem C146_thick_safe (h : Valid b W H bits) {x y r s : Int} {deg : ℝ} (pen : Int)
    (hs : ∀ p ∈ iterellipserot x y r s deg, DiscSafe W H bits pen p.1 p.2) {color : Int} (hc : IsColour bits color) :
    ∃ b', thickellipserot b x y r s deg pen color = .ok b' ∧ Paints b b' W H bits (RotSet W bits x y r s deg pen) color.toNat := by
  obtain ⟨b', e, p⟩ := foldl_paints (W := W) (H := H) (bits := bits) (c := color.toNat) (fun bmp (p : Int × Int) => filledcircle bmp p.1 p.2 pen color)
    (fun p => Mark W bits p.1 p.2 pen) (iterellipserot x y r s deg) (fun b hb p hp => disc_safe hb hc (hs p hp)) h
  refine ⟨b', e, p.congr ?_⟩
  intro px py _ _
  unfold RotSet
  constructor
  · rintro ⟨v, -, w, -, hw, g⟩; exact ⟨w, hw, g⟩
  · rintro ⟨w, hw, g⟩
    obtain ⟨i, hi, rfl⟩ := List.mem_iff_getElem.mp hw
    have hf := C146_turned x y s r deg
    have hi' : i < (iterellipse x y r s).length := by rw [hf.length_eq]; exact hi
    exact ⟨_, List.getElem_mem hi', _, hf.get hi' hi, hw, g⟩

/-- C146: the same with a gradient. -/
theorem C146_grad_safe (h : Valid b W H bits) {x y r s : Int} {deg : ℝ} (pen : Int)
    (hs : ∀ i, 1 ≤ i → i ≤ pen → ∀ p ∈ iterellipserot x y r s deg, DiscSafe W H bits i p.1 p.2)
    {lum : Int × Int} (hl : Gradient.Lum lum) {f : ℚ × ℚ × ℚ} (hf : Pals.Unit f) :
    ∃ b', gradthickellipserot b x y r s deg pen lum f = .ok b' ∧
      Gradient.Graded b b' W H bits pen (fun i => RotSet W bits x y r s deg i) (Gradient.Step b bits lum f pen) := by
  apply Gradient.graded h
  intro i h1 h2 b' hv hh
  exact Gradient.layer_ok hv hh hf (Gradient.lumBlend_part hl (by omega) h2 (by omega)) (fun c hc => C146_thick_safe hv i (hs i h1 h2) hc)

end

/-- A stroke 40 pixels left of a small 24-bit image changes nothing, one 20 pixels left of it deletes bytes. -/
example : (do let b ← newBMP 2 2 24
              let b1 ← thickroundline b (-40, 0) (-40, 1) 0 9
              let b2 ← thickroundline b (-20, 0) (-20, 1) 0 9
              pure (decide (b1 = b), decide (b2.length < b.length))) = .ok (true, true) := by decide +kernel

end Verif.Props.Far
