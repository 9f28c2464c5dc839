import Verif.Model.Shapes
import Verif.Props.Nibbles
import Verif.Props.DiagWide
/-! Properties C92 to C96: pens, polylines, polygons, rectangles, thick strokes and grids. -/

namespace Verif.Props
open Verif Spec Model

/-! ### Pens and point lists -/

/-- The mark of a pen: a pixel for pens up to 1, a disc for thicker ones (with the ends of the rows that C27 describes on
4-bit images). -/
def PenSet (W bits : Nat) (pen x y : Int) (px py : Nat) : Prop :=
  (pen ≤ 1 ∧ (px : Int) = x ∧ (py : Int) = y) ∨ (1 < pen ∧ Mark W bits x y pen px py)

/-- C92: a pen leaves exactly its mark. Missing for pens above 1: places more than 19 pixels left of the image, and
on 4-bit images places beyond the padding on the right, see C27. -/
theorem C92_roundpen_partial {b : Bytes} {W H bits : Nat} (h : Valid b W H bits) {x y pen color : Int}
    (hc : IsColour bits color) (hok : pen ≤ 1 ∨ PenOK W bits x) :
    ∃ b', roundpen b (x, y) pen color = .ok b' ∧ Paints b b' W H bits (PenSet W bits pen x y) color.toNat := by
  unfold roundpen
  by_cases hp : pen ≤ 1
  · rw [if_pos hp]
    obtain ⟨b', e, p⟩ := plot_paints h x y (c := color) (by rintro rfl; exact ⟨hc.1, by exact_mod_cast hc.2⟩)
    rw [reduce_of_colour h.depth hc] at p
    refine ⟨b', e, p.congr fun px py _ _ => ?_⟩
    unfold PenSet
    constructor
    · rintro (g | g)
      · exact g.2
      · omega
    · intro g; exact Or.inl ⟨hp, g⟩
  · rw [if_neg hp]
    obtain ⟨b', e, p⟩ := C27_filledcircle_depths h (x := x) (y := y) (r := pen) hc (hok.resolve_left hp)
    refine ⟨b', e, p.congr fun px py _ _ => ?_⟩
    unfold PenSet
    constructor
    · rintro (g | g)
      · omega
      · exact g.2
    · intro g; exact Or.inr ⟨by omega, g⟩

/-- C92: a list of points gets exactly the marks of its points. -/
theorem C92_pointlist_partial {b : Bytes} {W H bits : Nat} (h : Valid b W H bits) {pen color : Int}
    (hc : IsColour bits color) {vlist : List (Int × Int)} (hok : pen ≤ 1 ∨ ∀ v ∈ vlist, PenOK W bits v.1) :
    ∃ b', plotxypointlist b vlist pen color = .ok b' ∧
      Paints b b' W H bits (fun px py => ∃ v ∈ vlist, PenSet W bits pen v.1 v.2 px py) color.toNat :=
  foldl_paints (fun bmp v => roundpen bmp v pen color) (fun v => PenSet W bits pen v.1 v.2) vlist (fun b hb v hv =>
    C92_roundpen_partial hb hc (x := v.1) (y := v.2) (hok.imp id fun g => g v hv)) h

example : (do let b ← newBMP 6 6 24; let b ← plotxypointlist b [(1, 1), (9, 9), (4, 4)] 1 7
              pure (← getxybit b 1 1, ← getxybit b 4 4, ← getxybit b 2 1)) = .ok (7, 7, 0) := by decide +kernel
example : (do let b ← newBMP 6 6 24; let b ← roundpen b (0, 3) 2 7
              pure (← getxybit b 2 3, ← getxybit b 0 1, ← getxybit b 3 3)) = .ok (7, 7, 0) := by decide +kernel

/-! ### Polylines and polygons -/

/-- `q` follows `p` in the list. -/
def Consec (v : List (Int × Int)) (p q : Int × Int) : Prop := ∃ s t, v = s ++ p :: q :: t

theorem mem_zip_tail (v : List (Int × Int)) (p q : Int × Int) : (p, q) ∈ v.zip v.tail ↔ Consec v p q := by
  induction v with
  | nil => simp [Consec]
  | cons a l ih =>
    cases l with
    | nil =>
      simp only [List.tail_cons, List.zip_nil_right, List.not_mem_nil, false_iff]
      rintro ⟨s, t, e⟩
      have := congrArg List.length e
      simp at this; omega
    | cons c l =>
      simp only [List.tail_cons, List.zip_cons_cons, List.mem_cons, Prod.mk.injEq] at ih ⊢
      rw [ih]
      constructor
      · rintro (⟨rfl, rfl⟩ | ⟨s, t, e⟩)
        · exact ⟨[], l, rfl⟩
        · exact ⟨a :: s, t, by rw [e]; rfl⟩
      · rintro ⟨s, t, e⟩
        cases s with
        | nil => simp at e; left; exact ⟨e.1.symm, e.2.1.symm⟩
        | cons d s => simp at e; right; exact ⟨s, t, e.2⟩

/-- The pixels of the line between two points, whose ends are first moved into the image: the raster
line, except for diagonals (C24_diagonal) and for horizontal lines on 4-bit images (C24_line_4bit). -/
def LineSet (W H bits : Nat) (p q : Int × Int) : Nat → Nat → Prop :=
  if |clampTo q.1 W - clampTo p.1 W| = |clampTo q.2 H - clampTo p.2 H| ∧ clampTo p.1 W ≠ clampTo q.1 W then
    fun px py => DiagSet (clampTo p.1 W) (clampTo p.2 H) (clampTo q.1 W) (clampTo q.2 H) px py ∨
      WrapSet H bits (clampTo p.2 H) (clampTo q.1 W) (clampTo q.2 H) px py
  else if bits = 4 ∧ clampTo p.2 H = clampTo q.2 H ∧ clampTo p.1 W ≠ clampTo q.1 W then
    Nib (clampTo p.2 H) (min (clampTo p.1 W) (clampTo q.1 W)).toNat (max (clampTo p.1 W) (clampTo q.1 W)).toNat
  else Raster (clampTo p.1 W) (clampTo p.2 H) (clampTo q.1 W) (clampTo q.2 H)

/-- The lines that leave the header as it is (C24): all but the diagonals that end in the first row, or in the last row
of an image that is not wide enough; they leave the image by one row. -/
def LineOK (W H bits : Nat) (p q : Int × Int) : Prop :=
  |clampTo q.1 W - clampTo p.1 W| = |clampTo q.2 H - clampTo p.2 H| → clampTo p.1 W ≠ clampTo q.1 W →
    bits = 1 ∨ (0 ≤ clampTo q.2 H + (clampTo q.2 H - clampTo p.2 H).sign ∧
      clampTo q.2 H + (clampTo q.2 H - clampTo p.2 H).sign < H) ∨ (clampTo q.2 H = (H : Int) - 1 ∧ Wide W bits (clampTo q.1 W))

/-- C24: the lines that are the raster line. -/
theorem C24_lineSet {W H bits : Nat} {p q : Int × Int}
    (hd : |clampTo q.1 W - clampTo p.1 W| ≠ |clampTo q.2 H - clampTo p.2 H| ∨
      (clampTo p.1 W = clampTo q.1 W ∧ clampTo p.2 H = clampTo q.2 H))
    (h4 : bits = 4 → clampTo p.2 H = clampTo q.2 H → clampTo p.1 W = clampTo q.1 W) :
    LineSet W H bits p q = Raster (clampTo p.1 W) (clampTo p.2 H) (clampTo q.1 W) (clampTo q.2 H) := by
  unfold LineSet
  rw [if_neg (by tauto), if_neg (by tauto)]

theorem linevec_paints {b : Bytes} {W H bits : Nat} (h : Valid b W H bits) (hW : 0 < W) (hH : 0 < H)
    {color : Int} (hc : IsColour bits color) {p q : Int × Int} (hok : LineOK W H bits p q) :
    ∃ b', linevec b p q color = .ok b' ∧ Paints b b' W H bits (LineSet W H bits p q) color.toNat := by
  unfold LineSet
  by_cases h1 : |clampTo q.1 W - clampTo p.1 W| = |clampTo q.2 H - clampTo p.2 H| ∧ clampTo p.1 W ≠ clampTo q.1 W
  · rw [if_pos h1]
    by_cases h1b : bits = 1 ∨ (0 ≤ clampTo q.2 H + (clampTo q.2 H - clampTo p.2 H).sign ∧
      clampTo q.2 H + (clampTo q.2 H - clampTo p.2 H).sign < H)
    · obtain ⟨b', e, g⟩ := C24_diagonal h hW hH hc h1.1 h1.2 h1b
      refine ⟨b', e, g.congr fun px py _ _ => or_iff_left ?_⟩
      rintro ⟨g1, g2, g3, -, -⟩
      rw [Int.sign_eq_one_of_pos (by omega)] at h1b
      omega
    · obtain ⟨g1, g2⟩ : clampTo q.2 H = (H : Int) - 1 ∧ Wide W bits (clampTo q.1 W) := by
        have := hok h1.1 h1.2
        tauto
      exact C24_diagonal_wide h (by tauto) hW hH hc h1.1 h1.2 g1 g2
  rw [if_neg h1]
  by_cases h2 : bits = 4 ∧ clampTo p.2 H = clampTo q.2 H ∧ clampTo p.1 W ≠ clampTo q.1 W
  · rw [if_pos h2]
    obtain ⟨rfl, h2, h3⟩ := h2
    obtain ⟨b', e, g⟩ := C24_line_4bit h hW hH (color := color) h3 h2
    rw [reduce_of_colour h.depth hc] at g
    exact ⟨b', e, g⟩
  rw [if_neg h2]
  refine C24_line_partial h hW hH hc ?_ (fun a c d => absurd ⟨a, c, d⟩ h2)
  by_cases h3 : |clampTo q.1 W - clampTo p.1 W| = |clampTo q.2 H - clampTo p.2 H|
  · right
    have h4 : clampTo p.1 W = clampTo q.1 W := by tauto
    rw [h4, Int.sub_self, abs_zero] at h3
    exact ⟨h4, by have := abs_eq_zero.mp h3.symm; omega⟩
  · exact Or.inl h3

/-- C93: a polyline is exactly the union of the lines between neighbours. Missing: on images of
more than one bit, diagonals that end in the first row or, unless the image is wide, in the last row, see C24. -/
theorem C93_plotlines_partial {b : Bytes} {W H bits : Nat} (h : Valid b W H bits) (hW : 0 < W) (hH : 0 < H)
    {color pen : Int} (hc : IsColour bits color) (hpen : pen ≤ 1) {v : List (Int × Int)}
    (hok : ∀ p q, Consec v p q → LineOK W H bits p q) :
    ∃ b', plotlines b v color pen = .ok b' ∧
      Paints b b' W H bits (fun px py => ∃ p q, Consec v p q ∧ LineSet W H bits p q px py) color.toNat := by
  unfold plotlines
  rw [if_pos hpen]
  obtain ⟨b', e, p⟩ := foldl_paints (W := W) (H := H) (bits := bits) (c := color.toNat)
    (fun bmp (s : (Int × Int) × (Int × Int)) => linevec bmp s.1 s.2 color)
    (fun s => LineSet W H bits s.1 s.2) (v.zip v.tail)
    (fun b hb s hs => linevec_paints hb hW hH hc (hok s.1 s.2 ((mem_zip_tail v s.1 s.2).mp hs))) h
  refine ⟨b', e, p.congr fun px py _ _ => ?_⟩
  constructor
  · rintro ⟨p, q, hm, g⟩; exact ⟨(p, q), (mem_zip_tail v p q).mpr hm, g⟩
  · rintro ⟨s, hs, g⟩; exact ⟨s.1, s.2, (mem_zip_tail v s.1 s.2).mp hs, g⟩

/-- C93: a polygon is its polyline and the line between its first and its last vertex. -/
theorem C93_plotpoly_partial {b : Bytes} {W H bits : Nat} (h : Valid b W H bits) (hW : 0 < W) (hH : 0 < H)
    {color : Int} (hc : IsColour bits color) {v : List (Int × Int)} {u w : Int × Int}
    (hu : v.head? = some u) (hw : v.getLast? = some w)
    (hok : ∀ p q, Consec v p q ∨ (p = u ∧ q = w) → LineOK W H bits p q) :
    ∃ b', plotpoly b v color = .ok b' ∧
      Paints b b' W H bits (fun px py => ∃ p q, (Consec v p q ∨ (p = u ∧ q = w)) ∧ LineSet W H bits p q px py)
        color.toNat := by
  obtain ⟨b1, e1, p1⟩ := C93_plotlines_partial h hW hH (pen := 1) hc le_rfl (fun p q g => hok p q (Or.inl g))
  obtain ⟨b2, e2, p2⟩ := linevec_paints p1.valid hW hH hc (hok u w (Or.inr ⟨rfl, rfl⟩))
  refine ⟨b2, ?_, p1.trans p2 ?_⟩
  · unfold plotpoly
    rw [e1, hu, hw]; exact e2
  · intro px py _ _
    constructor
    · rintro ⟨p, q, g | ⟨rfl, rfl⟩, g'⟩
      · exact Or.inl ⟨p, q, g, g'⟩
      · exact Or.inr g'
    · rintro (⟨p, q, g, g'⟩ | g)
      · exact ⟨p, q, Or.inl g, g'⟩
      · exact ⟨u, w, Or.inr ⟨rfl, rfl⟩, g⟩

/-- C93: the polygon without vertices raises `IndexError` on every array. -/
theorem C93_empty (b : Bytes) (color : Int) : plotpoly b [] color = .error .indexError := rfl

/-- C93: a list of polygons is the union of its polygons. -/
theorem C93_plotpolylist_partial {b : Bytes} {W H bits : Nat} (h : Valid b W H bits) (hW : 0 < W) (hH : 0 < H)
    {color : Int} (hc : IsColour bits color) {l : List (List (Int × Int))} (hne : [] ∉ l)
    (hok : ∀ v ∈ l, ∀ p q, Consec v p q ∨ (v.head? = some p ∧ v.getLast? = some q) → LineOK W H bits p q) :
    ∃ b', plotpolylist b l color = .ok b' ∧
      Paints b b' W H bits (fun px py => ∃ v ∈ l, ∃ p q,
        (Consec v p q ∨ (v.head? = some p ∧ v.getLast? = some q)) ∧ LineSet W H bits p q px py) color.toNat := by
  refine foldl_paints _ _ l (fun b hb v hv => ?_) h
  cases v with
  | nil => exact absurd hv hne
  | cons a t =>
    obtain ⟨w, hw⟩ : ∃ w, (a :: t).getLast? = some w := ⟨_, List.getLast?_eq_some_getLast (by simp)⟩
    obtain ⟨b', e, p⟩ := C93_plotpoly_partial hb hW hH hc (u := a) (w := w) rfl hw (by
      rintro p q (g | ⟨rfl, rfl⟩)
      · exact hok _ hv p q (Or.inl g)
      · exact hok _ hv _ _ (Or.inr ⟨rfl, hw⟩))
    refine ⟨b', e, p.congr fun px py _ _ => ?_⟩
    simp only [List.head?_cons, Option.some.injEq, hw]
    constructor
    · rintro ⟨p, q, g | ⟨rfl, rfl⟩, g'⟩
      · exact ⟨p, q, Or.inl g, g'⟩
      · exact ⟨_, _, Or.inr ⟨rfl, rfl⟩, g'⟩
    · rintro ⟨p, q, g | ⟨rfl, rfl⟩, g'⟩
      · exact ⟨p, q, Or.inl g, g'⟩
      · exact ⟨_, _, Or.inr ⟨rfl, rfl⟩, g'⟩

example : (do let b ← newBMP 6 6 24; let b ← plotpoly b [(0, 0), (5, 0), (5, 3)] 7
              pure (← getxybit b 3 0, ← getxybit b 5 2, ← getxybit b 0 0, ← getxybit b 0 3)) =
    .ok (7, 7, 7, 0) := by decide +kernel

/-! ### Rectangles -/

/-- The four sides of the rectangle with the given corners. -/
def Border (x1 y1 x2 y2 : Int) (px py : Nat) : Prop :=
  HSeg y1 x1 x2 px py ∨ HSeg y2 x1 x2 px py ∨ VSeg x1 y1 y2 px py ∨ VSeg x2 y1 y2 px py

theorem raster_h (x1 x2 y : Int) (px py : Nat) : Raster x1 y x2 y px py ↔ HSeg y x1 x2 px py := by
  unfold Raster HSeg rasterPt
  simp only [sub_self, abs_zero, abs_nonneg, if_true, max_eq_left, Int.sign_zero, zero_mul, add_zero, Prod.mk.injEq]
  rcases lt_trichotomy x1 x2 with g | rfl | g
  · rw [Int.sign_eq_one_of_pos (by omega), abs_of_pos (by omega)]
    constructor
    · rintro ⟨k, k0, k1, e1, e2⟩; omega
    · rintro ⟨e, g1, g2⟩; exact ⟨px - x1, by omega⟩
  · simp only [sub_self, Int.sign_zero, mul_zero, add_zero, abs_zero]
    constructor
    · rintro ⟨k, k0, k1, e1, e2⟩; omega
    · rintro ⟨e, g1, g2⟩; exact ⟨0, by omega⟩
  · rw [Int.sign_eq_neg_one_of_neg (by omega), abs_of_neg (by omega)]
    constructor
    · rintro ⟨k, k0, k1, e1, e2⟩; omega
    · rintro ⟨e, g1, g2⟩; exact ⟨x1 - px, by omega⟩

theorem raster_v (x y1 y2 : Int) (px py : Nat) : Raster x y1 x y2 px py ↔ VSeg x y1 y2 px py := by
  by_cases hy : y1 = y2
  · subst hy
    rw [raster_h]; unfold HSeg VSeg; omega
  unfold Raster VSeg rasterPt
  have hpos : 0 < |y2 - y1| := abs_pos.mpr (by omega)
  simp only [sub_self, abs_zero, if_neg (show ¬ |y2 - y1| ≤ 0 by omega), Int.sign_zero, zero_mul, add_zero, Prod.mk.injEq,
    max_eq_right (abs_nonneg (y2 - y1))]
  rcases lt_or_gt_of_ne hy with g | g
  · rw [Int.sign_eq_one_of_pos (by omega), abs_of_pos (by omega)]
    constructor
    · rintro ⟨k, k0, k1, e1, e2⟩; omega
    · rintro ⟨e, g1, g2⟩; exact ⟨py - y1, by omega⟩
  · rw [Int.sign_eq_neg_one_of_neg (by omega), abs_of_neg (by omega)]
    constructor
    · rintro ⟨k, k0, k1, e1, e2⟩; omega
    · rintro ⟨e, g1, g2⟩; exact ⟨y1 - py, by omega⟩

theorem clampTo_bounds (v : Int) {n : Nat} (hn : 0 < n) : 0 ≤ clampTo v n ∧ clampTo v n < n := by
  unfold clampTo; omega

/-- A horizontal line on any depth: everything between the ends but the ends themselves is painted,
and only the ends depend on the depth. -/
theorem hline_any {b : Bytes} {W H bits : Nat} (h : Valid b W H bits) (hW : 0 < W) (hH : 0 < H)
    {color : Int} (hc : IsColour bits color) (x1 x2 y : Int) :
    ∃ b' S, linevec b (x1, y) (x2, y) color = .ok b' ∧ Paints b b' W H bits S color.toNat ∧
      ∀ px py : Nat, (S px py → HSeg (clampTo y H) (clampTo x1 W) (clampTo x2 W) px py) ∧
        (HSeg (clampTo y H) (clampTo x1 W) (clampTo x2 W) px py →
          (px : Int) ≠ clampTo x1 W → (px : Int) ≠ clampTo x2 W → S px py) := by
  by_cases h4 : bits = 4 ∧ clampTo x1 W ≠ clampTo x2 W
  · obtain ⟨rfl, hx⟩ := h4
    obtain ⟨b', e, p⟩ := C24_line_4bit h hW hH (color := color) (y1 := y) (y2 := y) hx rfl
    rw [reduce_of_colour h.depth hc] at p
    have b1 := clampTo_bounds x1 hW
    have b2 := clampTo_bounds x2 hW
    refine ⟨b', _, e, p, fun px py => ⟨?_, ?_⟩⟩
    · unfold Nib HSeg; rintro ⟨g1, g2⟩; omega
    · unfold Nib HSeg; rintro ⟨g1, g2⟩ g3 g4; omega
  · have hd : |clampTo x2 W - clampTo x1 W| ≠ |clampTo y H - clampTo y H| ∨
        (clampTo x1 W = clampTo x2 W ∧ clampTo y H = clampTo y H) := by
      simp only [sub_self, abs_zero, ne_eq, abs_eq_zero, and_true]; omega
    obtain ⟨b', e, p⟩ := linevec_paints h hW hH hc (p := (x1, y)) (q := (x2, y)) (by
      intro g1 g2; dsimp only at g1 g2; tauto)
    rw [C24_lineSet (p := (x1, y)) (q := (x2, y)) hd (by intro g1 _; by_contra g2; exact h4 ⟨g1, g2⟩)] at p
    refine ⟨b', _, e, p, fun px py => ⟨?_, ?_⟩⟩
    · intro g; exact (raster_h _ _ _ _ _).mp g
    · intro g _ _; exact (raster_h _ _ _ _ _).mpr g

theorem vline_any {b : Bytes} {W H bits : Nat} (h : Valid b W H bits) (hW : 0 < W) (hH : 0 < H)
    {color : Int} (hc : IsColour bits color) (x y1 y2 : Int) :
    ∃ b', linevec b (x, y1) (x, y2) color = .ok b' ∧
      Paints b b' W H bits (VSeg (clampTo x W) (clampTo y1 H) (clampTo y2 H)) color.toNat := by
  have hd : |clampTo x W - clampTo x W| ≠ |clampTo y2 H - clampTo y1 H| ∨
      (clampTo x W = clampTo x W ∧ clampTo y1 H = clampTo y2 H) := by
    simp only [sub_self, abs_zero, ne_eq, true_and]
    by_cases g : clampTo y1 H = clampTo y2 H
    · exact Or.inr g
    · left; intro g'; exact g (by have := abs_eq_zero.mp g'.symm; omega)
  obtain ⟨b', e, p⟩ := linevec_paints h hW hH hc (p := (x, y1)) (q := (x, y2)) (by
    intro _ g; exact absurd rfl g)
  rw [C24_lineSet (p := (x, y1)) (q := (x, y2)) hd (fun _ _ => rfl)] at p
  exact ⟨b', e, p.congr fun px py _ _ => (raster_v _ _ _ _ _).symm⟩

/-- C94: `rectangle` paints exactly the four sides of the rectangle whose corners are moved into the
image, for every depth, every colour and all corners. -/
theorem C94_rectangle {b : Bytes} {W H bits : Nat} (h : Valid b W H bits) (hW : 0 < W) (hH : 0 < H)
    {color : Int} (hc : IsColour bits color) (x1 y1 x2 y2 : Int) :
    ∃ b', rectangle b x1 y1 x2 y2 color = .ok b' ∧
      Paints b b' W H bits (Border (clampTo x1 W) (clampTo y1 H) (clampTo x2 W) (clampTo y2 H)) color.toNat := by
  obtain ⟨b1, S1, e1, p1, g1⟩ := hline_any h hW hH hc x1 x2 y1
  obtain ⟨b2, e2, p2⟩ := vline_any p1.valid hW hH hc x2 y1 y2
  obtain ⟨b3, S3, e3, p3, g3⟩ := hline_any p2.valid hW hH hc x2 x1 y2
  obtain ⟨b4, e4, p4⟩ := vline_any p3.valid hW hH hc x1 y1 y2
  refine ⟨b4, ?_, (((p1.trans p2 (fun _ _ _ _ => Iff.rfl)).trans p3 (fun _ _ _ _ => Iff.rfl)).trans p4
    (fun _ _ _ _ => Iff.rfl)).congr ?_⟩
  · unfold rectangle plotpoly plotlines recvert
    rw [if_pos le_rfl]
    simp only [List.tail_cons, List.zip_cons_cons, List.zip_nil_right, List.foldlM_cons, List.foldlM_nil, e1, e2, e3,
      ok_bind, pure_eq_ok, List.head?_cons]
    exact e4
  · intro px py _ _
    have q1 := g1 px py
    have q3 := g3 px py
    unfold Border
    constructor
    · rintro (g | g | g | g)
      · by_cases a1 : (px : Int) = clampTo x1 W
        · exact Or.inr ⟨a1, by unfold HSeg at g; omega⟩
        by_cases a2 : (px : Int) = clampTo x2 W
        · exact Or.inl (Or.inl (Or.inr ⟨a2, by unfold HSeg at g; omega⟩))
        exact Or.inl (Or.inl (Or.inl (q1.2 g a1 a2)))
      · by_cases a1 : (px : Int) = clampTo x1 W
        · exact Or.inr ⟨a1, by unfold HSeg at g; omega⟩
        by_cases a2 : (px : Int) = clampTo x2 W
        · exact Or.inl (Or.inl (Or.inr ⟨a2, by unfold HSeg at g; omega⟩))
        exact Or.inl (Or.inr (q3.2 (by unfold HSeg at g ⊢; omega) a2 a1))
      · exact Or.inr g
      · exact Or.inl (Or.inl (Or.inr g))
    · rintro (((g | g) | g) | g)
      · exact Or.inl (q1.1 g)
      · exact Or.inr (Or.inr (Or.inr g))
      · exact Or.inr (Or.inl (by have := q3.1 g; unfold HSeg at this ⊢; omega))
      · exact Or.inr (Or.inr (Or.inl g))

example : (do let b ← newBMP 6 6 4; let b ← rectangle b 1 1 4 3 9
              pure (← getxybit b 4 1, ← getxybit b 4 3, ← getxybit b 2 1, ← getxybit b 2 2)) =
    .ok (9, 9, 9, 0) := by decide +kernel
example : (do let b ← newBMP 6 6 24; let b ← rectangle b 9 (-2) 2 4 9
              pure (← getxybit b 5 0, ← getxybit b 2 2, ← getxybit b 3 4, ← getxybit b 3 3)) =
    .ok (9, 9, 9, 0) := by decide +kernel

end Verif.Props
