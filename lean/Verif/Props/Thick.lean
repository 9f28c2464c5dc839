import Verif.Props.Strokes
/-! Properties C95 and C96: strokes made of discs, grids and rows of lines. -/

namespace Verif.Props
open Verif Spec Model

/-! ### Thick lines, circles and polygons -/

theorem rasterPt_x {x1 y1 x2 y2 k : Int} (h0 : 0 ≤ k) (h1 : k ≤ max |x2 - x1| |y2 - y1|) :
    min x1 x2 ≤ (rasterPt x1 y1 x2 y2 k).1 ∧ (rasterPt x1 y1 x2 y2 k).1 ≤ max x1 x2 := by
  have key : ∀ q : Int, 0 ≤ q → q ≤ |x2 - x1| →
      min x1 x2 ≤ x1 + (x2 - x1).sign * q ∧ x1 + (x2 - x1).sign * q ≤ max x1 x2 := by
    intro q q0 q1
    rcases lt_trichotomy x1 x2 with g | g | g
    · rw [Int.sign_eq_one_of_pos (by omega)]; rw [abs_of_pos (by omega)] at q1; omega
    · subst g; simp
    · rw [Int.sign_eq_neg_one_of_neg (by omega)]; rw [abs_of_neg (by omega)] at q1; omega
  unfold rasterPt
  dsimp only
  split_ifs with hd
  · rw [max_eq_left hd] at h1
    rw [mul_comm k]
    exact key k h0 h1
  · rw [max_eq_right (by omega)] at h1
    have hx := abs_nonneg (x2 - x1)
    have hy : 0 < |y2 - y1| := by omega
    refine key _ (Int.ediv_nonneg (by positivity) (by omega)) ?_
    have : (k + 1) * |x2 - x1| / |y2 - y1| < |x2 - x1| + 1 := by
      rw [Int.ediv_lt_iff_lt_mul hy]
      nlinarith
    omega

/-- A stroke with a round pen along a line: the marks around the points that the line visits, and the
mark around its end. -/
def StrokeSet (W bits : Nat) (pen : Int) (p q : Int × Int) (px py : Nat) : Prop :=
  (∃ k, 0 ≤ k ∧ k ≤ max |q.1 - p.1| |q.2 - p.2| ∧
    Mark W bits (rasterPt p.1 p.2 q.1 q.2 k).1 (rasterPt p.1 p.2 q.1 q.2 k).2 pen px py) ∨ Mark W bits q.1 q.2 pen px py

/-- C95: a thick line is exactly the union of the discs along the line, for every line and pen.
Missing: lines that reach more than 19 pixels left of the image, and on 4-bit images beyond the padding on the right, see C27. -/
theorem C95_thickroundline_partial {b : Bytes} {W H bits : Nat} (h : Valid b W H bits) {pen color : Int}
    (hc : IsColour bits color) {p q : Int × Int} (hp : PenOK W bits p.1) (hq : PenOK W bits q.1) :
    ∃ b', thickroundline b p q pen color = .ok b' ∧ Paints b b' W H bits (StrokeSet W bits pen p q) color.toNat := by
  obtain ⟨x1, y1⟩ := p
  obtain ⟨x2, y2⟩ := q
  have hm : ∀ v : Int × Int, v ∈ iterline (x1, y1) (x2, y2) ↔
      (∃ k, 0 ≤ k ∧ k ≤ max |x2 - x1| |y2 - y1| ∧ rasterPt x1 y1 x2 y2 k = v) ∨ v = (x2, y2) := by
    intro v
    rw [iterline_eq, List.mem_append, List.mem_singleton, List.mem_map]
    have : 0 ≤ max |x2 - x1| |y2 - y1| := le_max_of_le_left (abs_nonneg _)
    constructor
    · rintro (⟨k, hk, e⟩ | e)
      · rw [List.mem_range] at hk; exact Or.inl ⟨k, by omega, by omega, e⟩
      · exact Or.inr e
    · rintro (⟨k, k0, k1, e⟩ | e)
      · refine Or.inl ⟨k.toNat, by rw [List.mem_range]; omega, ?_⟩
        rw [Int.toNat_of_nonneg k0]; exact e
      · exact Or.inr e
  obtain ⟨b', e, g⟩ := foldl_paints (W := W) (H := H) (bits := bits) (c := color.toNat)
    (fun bmp (v : Int × Int) => filledcircle bmp v.1 v.2 pen color) (fun v => Mark W bits v.1 v.2 pen)
    (iterline (x1, y1) (x2, y2)) (by
      intro b hb v hv
      apply C27_filledcircle_depths hb hc
      rcases (hm v).mp hv with ⟨k, k0, k1, rfl⟩ | rfl
      · exact penOK_between hp hq (rasterPt_x k0 k1).1 (rasterPt_x k0 k1).2
      · exact hq) h
  refine ⟨b', e, g.congr fun px py _ _ => ?_⟩
  unfold StrokeSet
  constructor
  · rintro (⟨k, k0, k1, g⟩ | g)
    · exact ⟨_, (hm _).mpr (Or.inl ⟨k, k0, k1, rfl⟩), g⟩
    · exact ⟨_, (hm _).mpr (Or.inr rfl), g⟩
  · rintro ⟨v, hv, g⟩
    rcases (hm v).mp hv with ⟨k, k0, k1, rfl⟩ | rfl
    · exact Or.inl ⟨k, k0, k1, g⟩
    · exact Or.inr g

/-- C95: polylines with a pen of 2 or more. -/
theorem C95_plotlines_partial {b : Bytes} {W H bits : Nat} (h : Valid b W H bits) {pen color : Int}
    (hc : IsColour bits color) (hpen : 1 < pen) {v : List (Int × Int)} (hok : ∀ p ∈ v, PenOK W bits p.1) :
    ∃ b', plotlines b v color pen = .ok b' ∧
      Paints b b' W H bits (fun px py => ∃ p q, Consec v p q ∧ StrokeSet W bits pen p q px py) color.toNat := by
  unfold plotlines
  rw [if_neg (by omega)]
  obtain ⟨b', e, p⟩ := foldl_paints (W := W) (H := H) (bits := bits) (c := color.toNat)
    (fun bmp (s : (Int × Int) × (Int × Int)) => thickroundline bmp s.1 s.2 pen color)
    (fun s => StrokeSet W bits pen s.1 s.2) (v.zip v.tail) (by
      intro b hb s hs
      obtain ⟨u, t, e⟩ := (mem_zip_tail v s.1 s.2).mp hs
      exact C95_thickroundline_partial hb hc (hok _ (by rw [e]; simp)) (hok _ (by rw [e]; simp))) h
  refine ⟨b', e, p.congr fun px py _ _ => ?_⟩
  constructor
  · rintro ⟨p, q, hm, g⟩; exact ⟨(p, q), (mem_zip_tail v p q).mpr hm, g⟩
  · rintro ⟨s, hs, g⟩; exact ⟨s.1, s.2, (mem_zip_tail v s.1 s.2).mp hs, g⟩

/-- C95: thick polygons. -/
theorem C95_thickplotpoly_partial {b : Bytes} {W H bits : Nat} (h : Valid b W H bits) {pen color : Int}
    (hc : IsColour bits color) {v : List (Int × Int)} {u w : Int × Int}
    (hu : v.head? = some u) (hw : v.getLast? = some w) (hok : ∀ p ∈ v, PenOK W bits p.1) :
    ∃ b', thickplotpoly b v pen color = .ok b' ∧
      Paints b b' W H bits (fun px py => ∃ p q, (Consec v p q ∨ (p = u ∧ q = w)) ∧ StrokeSet W bits pen p q px py)
        color.toNat := by
  obtain ⟨b1, e1, p1⟩ := foldl_paints (W := W) (H := H) (bits := bits) (c := color.toNat)
    (fun bmp (s : (Int × Int) × (Int × Int)) => thickroundline bmp s.1 s.2 pen color)
    (fun s => StrokeSet W bits pen s.1 s.2) (v.zip v.tail) (by
      intro b hb s hs
      obtain ⟨u, t, e⟩ := (mem_zip_tail v s.1 s.2).mp hs
      exact C95_thickroundline_partial hb hc (hok _ (by rw [e]; simp)) (hok _ (by rw [e]; simp))) h
  obtain ⟨b2, e2, p2⟩ := C95_thickroundline_partial p1.valid (pen := pen) hc
    (hok u (List.mem_of_mem_head? hu)) (hok w (List.mem_of_getLast? hw))
  refine ⟨b2, ?_, p1.trans p2 ?_⟩
  · unfold thickplotpoly
    rw [e1, hu, hw]; exact e2
  · intro px py _ _
    constructor
    · rintro ⟨p, q, g | ⟨rfl, rfl⟩, g'⟩
      · exact Or.inl ⟨(p, q), (mem_zip_tail v p q).mpr g, g'⟩
      · exact Or.inr g'
    · rintro (⟨s, g, g'⟩ | g)
      · exact ⟨s.1, s.2, Or.inl ((mem_zip_tail v s.1 s.2).mp g), g'⟩
      · exact ⟨u, w, Or.inr ⟨rfl, rfl⟩, g⟩

/-- C95: a thick circle is exactly the union of the discs around the points of the circle. -/
theorem C95_thickcircle_partial {b : Bytes} {W H bits : Nat} (h : Valid b W H bits) {x y r pen color : Int}
    (hc : IsColour bits color) (hok : PenOK W bits (x - r)) (hok' : bits = 4 → x + r < 2 * rowLen W 4) :
    ∃ b', thickcircle b x y r pen color = .ok b' ∧
      Paints b b' W H bits (fun px py => ∃ u v, OnCircle r |u - x| |v - y| ∧ Mark W bits u v pen px py) color.toNat := by
  have hm : ∀ u v : Int, (u, v) ∈ itercircle x y r ↔ OnCircle r |u - x| |v - y| := by
    intro u v
    unfold itercircle
    rw [List.mem_flatMap, ← C25_circle_points]
    constructor
    · rintro ⟨w, hw, g⟩
      obtain ⟨n1, n2, _⟩ := part_nonneg hw
      obtain ⟨e1, e2⟩ := (mem_quad x y w n1 n2 _ _).mp g
      rw [e1, e2]; exact hw
    · intro g
      exact ⟨_, g, (mem_quad x y _ (abs_nonneg _) (abs_nonneg _) _ _).mpr ⟨rfl, rfl⟩⟩
  obtain ⟨b', e, g⟩ := foldl_paints (W := W) (H := H) (bits := bits) (c := color.toNat)
    (fun bmp (v : Int × Int) => filledcircle bmp v.1 v.2 pen color) (fun v => Mark W bits v.1 v.2 pen)
    (itercircle x y r) (by
      intro b hb v hv
      apply C27_filledcircle_depths hb hc
      have h1 := part_nonneg ((C25_circle_points _ _ _).mpr ((hm v.1 v.2).mp hv))
      have h2 := neg_abs_le (v.1 - x)
      have h3 := le_abs_self (v.1 - x)
      simp only at h1
      unfold PenOK at *; omega) h
  refine ⟨b', e, g.congr fun px py _ _ => ?_⟩
  constructor
  · rintro ⟨u, v, g1, g2⟩; exact ⟨(u, v), (hm u v).mpr g1, g2⟩
  · rintro ⟨v, hv, g⟩; exact ⟨v.1, v.2, (hm v.1 v.2).mp hv, g⟩

example : (do let b ← newBMP 9 5 24; let b ← thickroundline b (1, 2) (6, 2) 1 7
              pure (← getxybit b 3 1, ← getxybit b 7 2, ← getxybit b 3 0, ← getxybit b 8 2)) =
    .ok (7, 7, 0, 0) := by decide +kernel
example : (do let b ← newBMP 9 9 24; let b ← thickcircle b 4 4 3 1 7
              pure (← getxybit b 0 4, ← getxybit b 2 4, ← getxybit b 4 4)) = .ok (7, 7, 0) := by decide +kernel

/-! ### Grids -/

theorem pyRange3_pos {a z s : Int} (hs : 0 < s) :
    ∃ l, pyRange3 a z s = .ok l ∧ ∀ v, v ∈ l ↔ v < z ∧ ∃ k, 0 ≤ k ∧ v = a + s * k := by
  unfold pyRange3
  rw [if_neg (by omega), if_pos hs]
  refine ⟨_, rfl, fun v => ?_⟩
  rw [List.mem_map]
  have hd : ∀ k : Int, k < (z - a + s - 1) / s ↔ a + s * k < z := by
    intro k
    rw [← Int.add_one_le_iff, Int.le_ediv_iff_mul_le hs]
    constructor <;> intro g <;> nlinarith
  constructor
  · rintro ⟨k, hk, rfl⟩
    rw [List.mem_range] at hk
    exact ⟨(hd k).mp (by omega), k, by omega, rfl⟩
  · rintro ⟨hv, k, k0, rfl⟩
    refine ⟨k.toNat, ?_, ?_⟩
    · rw [List.mem_range]; have := (hd k).mpr hv; omega
    · rw [Int.toNat_of_nonneg k0]

theorem pyRange3_neg {a z s : Int} (hs : s < 0) (haz : a ≤ z) : pyRange3 a z s = .ok [] := by
  unfold pyRange3
  rw [if_neg (by omega), if_neg (by omega)]
  have : (a - z - s - 1) / (-s) < 1 := by rw [Int.ediv_lt_iff_lt_mul (by omega)]; omega
  rw [show ((a - z - s - 1) / (-s)).toNat = 0 by omega]; rfl

/-- The lines of a grid over the given rectangle, the horizontal ones as C19 describes them. -/
def GridSet (W bits : Nat) (x1 y1 x2 y2 sx sy : Int) (px py : Nat) : Prop :=
  (∃ k, 0 ≤ k ∧ x1 + sx * k < x2 ∧ VSeg (x1 + sx * k) y1 y2 px py) ∨
  (∃ k, 0 ≤ k ∧ y1 + sy * k < y2 ∧ RowSet W bits (y1 + sy * k) x1 x2 px py)

/-- C96: `xygrid` paints the lines that start at the lower corner and lie strictly below the upper
one, on 4-bit images with the ends of C19. -/
theorem C96_xygrid_partial {b : Bytes} {W H bits : Nat} (h : Valid b W H bits) {x1 y1 x2 y2 sx sy color : Int}
    (hc : IsColour bits color) (hi : InImage W H x1 y1 x2 y2) (hx : 0 < sx) (hy : 0 < sy) :
    ∃ b', xygrid b x1 y1 x2 y2 (sx, sy) color = .ok b' ∧
      Paints b b' W H bits (GridSet W bits (min x1 x2) (min y1 y2) (max x1 x2) (max y1 y2) sx sy) color.toNat := by
  unfold InImage at hi
  unfold xygrid
  rw [rect_guard h, if_pos (by omega), sortrec_eq]
  dsimp only
  obtain ⟨xs, ex, mx⟩ := pyRange3_pos (a := min x1 x2) (z := max x1 x2) hx
  obtain ⟨ys, ey, my⟩ := pyRange3_pos (a := min y1 y2) (z := max y1 y2) hy
  obtain ⟨b1, e1, p1⟩ := foldl_paints (W := W) (H := H) (bits := bits) (c := color.toNat)
    (fun bmp x => vertline bmp x (min y1 y2) (max y1 y2) color)
    (fun x => VSeg x (min y1 y2) (max y1 y2)) xs
    (fun b hb v _ => C20_vertline_partial hb hc (Or.inr (Or.inr (by omega)))) h
  obtain ⟨b2, e2, p2⟩ := foldl_paints (W := W) (H := H) (bits := bits) (c := color.toNat)
    (fun bmp y => horiline bmp y (min x1 x2) (max x1 x2) color)
    (fun y => RowSet W bits y (min x1 x2) (max x1 x2)) ys
    (fun b hb v _ => C19_horiline_depths hb hc (rowOK_of_meets h.depth (by omega) (by omega))) p1.valid
  refine ⟨b2, ?_, p1.trans p2 ?_⟩
  · rw [ex, ok_bind, e1, ok_bind, ey, ok_bind, e2]
  · intro px py _ _
    unfold GridSet
    constructor
    · rintro (⟨k, k0, k1, g⟩ | ⟨k, k0, k1, g⟩)
      · exact Or.inl ⟨_, (mx _).mpr ⟨k1, k, k0, rfl⟩, g⟩
      · exact Or.inr ⟨_, (my _).mpr ⟨k1, k, k0, rfl⟩, g⟩
    · rintro (⟨v, hv, g⟩ | ⟨v, hv, g⟩)
      · obtain ⟨g1, k, k0, rfl⟩ := (mx v).mp hv
        exact Or.inl ⟨k, k0, g1, g⟩
      · obtain ⟨g1, k, k0, rfl⟩ := (my v).mp hv
        exact Or.inr ⟨k, k0, g1, g⟩

/-- C96: a rectangle beyond the image leaves the file as it is, whatever the steps. -/
theorem C96_outside {b : Bytes} {W H bits : Nat} (h : Valid b W H bits) {x1 y1 x2 y2 : Int} (steps : Int × Int)
    (color : Int) (hi : ¬ InImage W H x1 y1 x2 y2) : xygrid b x1 y1 x2 y2 steps color = .ok b := by
  unfold xygrid
  rw [rect_guard h, if_neg (by unfold InImage at hi; tauto)]

/-- C96: a horizontal step of 0 raises `ValueError`. -/
theorem C96_zero_step {b : Bytes} {W H bits : Nat} (h : Valid b W H bits) {x1 y1 x2 y2 : Int} (sy color : Int)
    (hi : InImage W H x1 y1 x2 y2) : xygrid b x1 y1 x2 y2 (0, sy) color = .error .valueError := by
  unfold InImage at hi
  unfold xygrid
  rw [rect_guard h, if_pos (by omega), sortrec_eq]
  rfl

/-- C96: negative steps draw nothing. -/
theorem C96_negative_steps {b : Bytes} {W H bits : Nat} (h : Valid b W H bits) {x1 y1 x2 y2 sx sy : Int} (color : Int)
    (hx : sx < 0) (hy : sy < 0) : xygrid b x1 y1 x2 y2 (sx, sy) color = .ok b := by
  unfold xygrid
  rw [rect_guard h]
  split_ifs
  · rw [sortrec_eq]
    dsimp only
    rw [pyRange3_neg hx (by omega), pyRange3_neg hy (by omega)]
    rfl
  · rfl

/-- C96: the closing lines are missing although both steps divide the sides: the grid over the square
from 0 to 4 with steps of 2 has no line at 4. -/
theorem C96_closing_wrong :
    (do let b ← newBMP 5 5 24; let b ← xygrid b 0 0 4 4 (2, 2) 9
        pure (← getxybit b 2 1, ← getxybit b 4 1, ← getxybit b 1 4, ← getxybit b 1 2)) = .ok (9, 0, 0, 9) := by
  decide +kernel

/-! ### Rows of lines -/

/-- C96: vertical lines of equal length from every point of a list. Missing: 8- and 24-bit images with
a line wholly below the image, see C20. -/
theorem C96_vertlinevert_partial {b : Bytes} {W H bits : Nat} (h : Valid b W H bits) {len adj color : Int}
    (hc : IsColour bits color) {v : List (Int × Int)}
    (hok : bits = 1 ∨ bits = 4 ∨ ∀ p ∈ v, min p.2 (p.2 + len + adj) < H) :
    ∃ b', vertlinevert b v len adj color = .ok b' ∧
      Paints b b' W H bits (fun px py => ∃ p ∈ v, VSeg p.1 p.2 (p.2 + len + adj) px py) color.toNat :=
  foldl_paints (fun bmp (p : Int × Int) => vertline bmp p.1 p.2 (p.2 + len + adj) color)
    (fun p => VSeg p.1 p.2 (p.2 + len + adj)) v
    (fun b hb p hp => C20_vertline_partial hb hc (hok.imp id fun g => g.imp id fun g => g p hp)) h

/-- C96: horizontal lines of equal length from every point of a list. Missing: lines wholly more than 19 pixels left of the image,
and on 4-bit images beyond the padding on the right, see C19. -/
theorem C96_horilinevert_partial {b : Bytes} {W H bits : Nat} (h : Valid b W H bits) {len adj color : Int}
    (hc : IsColour bits color) {v : List (Int × Int)} (hok : ∀ p ∈ v, RowOK W bits p.1 (p.1 + len + adj)) :
    ∃ b', horilinevert b v len adj color = .ok b' ∧
      Paints b b' W H bits (fun px py => ∃ p ∈ v, RowSet W bits p.2 p.1 (p.1 + len + adj) px py) color.toNat :=
  foldl_paints (fun bmp (p : Int × Int) => horiline bmp p.2 p.1 (p.1 + len + adj) color)
    (fun p => RowSet W bits p.2 p.1 (p.1 + len + adj)) v
    (fun b hb p hp => C19_horiline_depths hb hc (hok p hp)) h

example : (do let b ← newBMP 6 6 24; let b ← vertlinevert b [(1, 1), (4, 3)] 1 1 9
              pure (← getxybit b 1 3, ← getxybit b 4 5, ← getxybit b 1 4)) = .ok (9, 9, 0) := by decide +kernel

/-! ### Filling between boundaries -/

/-- The pixels of row `y` between the smallest and the largest of the columns. -/
def Hull (y : Int) (xs : List Int) (px py : Nat) : Prop :=
  (py : Int) = y ∧ (∃ a ∈ xs, a ≤ px) ∧ ∃ a ∈ xs, (px : Int) ≤ a

/-- Neighbouring segments cover everything between the extremes. -/
theorem hull_zip (y : Int) (a c : Int) (l : List Int) (px py : Nat) :
    Hull y (a :: c :: l) px py ↔ ∃ s ∈ (a :: c :: l).zip (c :: l), HSeg y s.1 s.2 px py := by
  induction l generalizing a c with
  | nil =>
    simp only [Hull, HSeg, List.zip_cons_cons, List.zip_nil_right, List.mem_cons, List.not_mem_nil, or_false,
      exists_eq_or_imp, exists_eq_left]
    omega
  | cons d l ih =>
    rw [List.zip_cons_cons]
    simp only [List.mem_cons (l := (c :: d :: l).zip (d :: l)), exists_eq_or_imp]
    rw [← ih c d]
    simp only [Hull, HSeg, List.mem_cons (l := c :: d :: l), exists_eq_or_imp]
    constructor
    · rintro ⟨e, g1, g2⟩
      rcases g1 with g1 | g1 <;> rcases g2 with g2 | g2
      · left; omega
      · by_cases hc : (px : Int) ≤ c
        · left; omega
        · right; exact ⟨e, ⟨c, by simp, by omega⟩, g2⟩
      · by_cases hc : c ≤ (px : Int)
        · left; omega
        · right; exact ⟨e, g1, ⟨c, by simp, by omega⟩⟩
      · right; exact ⟨e, g1, g2⟩
    · rintro (⟨e, g1, g2⟩ | ⟨e, g1, g2⟩)
      · refine ⟨e, ?_, ?_⟩
        · by_cases hc : a ≤ px
          · exact Or.inl hc
          · exact Or.inr ⟨c, by simp, by omega⟩
        · by_cases hc : (px : Int) ≤ a
          · exact Or.inl hc
          · exact Or.inr ⟨c, by simp, by omega⟩
      · exact ⟨e, Or.inr g1, Or.inr g2⟩

/-- What `fillboundary` paints in a row: everything between the extremes; on 4-bit images a single boundary, and
each gap between two boundaries as C19 describes it. -/
def FillRow (W bits : Nat) (y : Int) (xs : List Int) (px py : Nat) : Prop :=
  if bits = 4 then (∃ x, xs = [x] ∧ (px : Int) = x ∧ (py : Int) = y) ∨ ∃ s ∈ xs.zip xs.tail, Row4 W y s.1 s.2 px py
  else Hull y xs px py

theorem fillRow_of_ne {W bits : Nat} (h4 : bits ≠ 4) (y : Int) (xs : List Int) (px py : Nat) :
    FillRow W bits y xs px py ↔ Hull y xs px py := by
  unfold FillRow; rw [if_neg h4]

/-- C96: `fillboundary` fills every row from its leftmost to its rightmost boundary, in whatever order
the boundaries are listed, on 4-bit images with the gaps of C19. Missing: boundaries more than 19 pixels left of the image, and on
4-bit images beyond the padding on the right. -/
theorem C96_fillboundary_partial {b : Bytes} {W H bits : Nat} (h : Valid b W H bits) {color : Int}
    (hc : IsColour bits color) {d : List (Int × List Int)} (hok : ∀ e ∈ d, ∀ x ∈ e.2, PenOK W bits x) :
    ∃ b', fillboundary b d color = .ok b' ∧
      Paints b b' W H bits (fun px py => ∃ e ∈ d, FillRow W bits e.1 e.2 px py) color.toNat := by
  unfold fillboundary
  refine foldl_paints _ (fun e => FillRow W bits e.1 e.2) d (fun b hb e he => ?_) h
  obtain ⟨y, xs⟩ := e
  match xs, he with
  | [], _ =>
    refine ⟨b, rfl, Paints.refl hb _ ?_⟩
    intro px py _ _ g
    unfold FillRow Hull at g
    simp at g
  | [x], _ =>
    obtain ⟨b', e', p⟩ := plot_paints hb x y (c := color) (by rintro rfl; exact ⟨hc.1, by exact_mod_cast hc.2⟩)
    rw [reduce_of_colour h.depth hc] at p
    refine ⟨b', e', p.congr fun px py _ _ => ?_⟩
    unfold FillRow
    split_ifs with h4
    · simp [eq_comm]
    · simp only [Hull, List.mem_singleton, exists_eq_left]; omega
  | a :: c :: l, he =>
    obtain ⟨b', e', p⟩ := foldl_paints (W := W) (H := H) (bits := bits) (c := color.toNat)
      (fun bmp (s : Int × Int) => horiline bmp y s.1 s.2 color) (fun s => RowSet W bits y s.1 s.2)
      ((a :: c :: l).zip (c :: l)) (by
        intro b hb s hs
        refine C19_horiline_depths hb hc ?_
        have h1 := hok _ he s.1 (List.of_mem_zip hs).1
        have h2 := hok _ he s.2 (List.mem_cons_of_mem _ (List.of_mem_zip hs).2)
        unfold PenOK at h1 h2
        unfold RowOK
        omega) hb
    refine ⟨b', e', p.congr fun px py _ _ => ?_⟩
    unfold FillRow RowSet
    split_ifs with h4
    · simp
    · exact hull_zip y a c l px py

example : (do let b ← newBMP 8 3 24; let b ← fillboundary b [(1, [2, 6, 4]), (0, [3])] 9
              pure (← getxybit b 6 1, ← getxybit b 2 1, ← getxybit b 7 1, ← getxybit b 3 0)) =
    .ok (9, 9, 0, 9) := by decide +kernel

end Verif.Props
