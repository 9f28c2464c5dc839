import Verif.Model.Dots
import Verif.Props.Text
import Verif.Props.Circle
import Verif.Props.Files
/-! C134 to C137: glyphs and texts made of dots, in all directions, and the files made from texts. -/

namespace Verif.Props.Dots
open Verif Spec Model Lemmas

/-! ### What the glyphs look like -/

/-- The eight ways to set a glyph. -/
inductive Style
  | upright | upsidedown | mirrored | sideways | italic | italicdown | italicmirrored | italicside
  deriving DecidableEq

/-- Where the dot of row `i` and column `j` of a glyph of `n` rows is put, for a glyph at `(x, y)`. -/
def place (scale : Int) (n : Nat) (x y : Int) (i j : Nat) : Style → Int × Int
  | .upright => (x + j * scale, y + i * scale)
  | .upsidedown => (x + j * scale, y + ((n - 1 - i : Nat) : Int) * scale)
  | .mirrored => (x + ((7 - j : Nat) : Int) * scale, y + i * scale)
  | .sideways => (x + i * scale, y - j * scale)
  | .italic => (x + slant scale n y i + j * scale, y + i * scale)
  | .italicdown => (x + slant scale n y (n - 1 - i) - slant scale n y 0 + j * scale, y + ((n - 1 - i : Nat) : Int) * scale)
  | .italicmirrored => (x + slant scale n y i + ((7 - j : Nat) : Int) * scale, y + i * scale)
  | .italicside => (x + i * scale, y + sideSlant scale x i - j * scale)

/-- The columns of the glyph that are shown: mirrored glyphs lose the last one (see C63). -/
def Seen (j : Nat) : Style → Prop
  | .mirrored => j < 7
  | .italicmirrored => j < 7
  | _ => j < 8

/-- A glyph is made of squares or of discs. -/
inductive Shape
  | square | dot
  deriving DecidableEq

/-- The radius of the discs: the biggest that fits in the square. -/
def dotRadius (scale pixspace : Int) : Int := (dotSide scale pixspace - 1) / 2

/-- The pixels of a dot put at `(x, y)`. -/
def Mark (W H : Nat) (scale pixspace x y : Int) : Shape → Nat → Nat → Prop
  | .square => Square W H (dotSide scale pixspace) x y
  | .dot => DiscSet (x + dotRadius scale pixspace) (y + dotRadius scale pixspace) (dotRadius scale pixspace)

/-- The cases in which dots come out right; discs must not be far to the left of the image (see C27). -/
def MarkOK (bits : Nat) (scale pixspace c x : Int) : Shape → Prop
  | .square => DotOK bits scale pixspace c
  | .dot => (bits = 24 → 0 ≤ c ∧ c < 2 ^ 24) ∧ (dotSide scale pixspace = 1 ∨ (IsColour bits c ∧
      (bits = 1 ∨ ((bits = 8 ∨ bits = 24) ∧ -19 ≤ x + dotRadius scale pixspace))))

/-- The functions that paint glyphs. -/
def glyphFn (c : Int) : Shape → Style → RenderFn
  | .square, .upright => plot8bitpattern
  | .square, .upsidedown => plot8bitpatternupsidedown
  | .square, .mirrored => fun b x y g scale pixspace _ => plotrotated8bitpattern b x y g scale pixspace c
  | .square, .sideways => plot8bitpatternsideway
  | .square, .italic => plotitalic8bitpattern
  | .square, .italicdown => plotupsidedownitalic8bitpattern
  | .square, .italicmirrored => plotreverseditalic8bitpattern
  | .square, .italicside => plotitalic8bitpatternsideway
  | .dot, .upright => plot8bitpatternasdots
  | .dot, .upsidedown => plot8bitpatternupsidedownasdots
  | .dot, .mirrored => fun b x y g scale pixspace _ => plotrotated8bitpatternasdots b x y g scale pixspace c
  | .dot, .sideways => plot8bitpatternsidewaywithdots
  | .dot, .italic => plotitalic8bitpatternasdots
  | .dot, .italicdown => plotupsidedownitalic8bitpatternasdots
  | .dot, .italicmirrored => plotreverseditalic8bitpatternasdots
  | .dot, .italicside => plotitalic8bitpatternsidewayasdots

/-! ### One dot -/

theorem disc_bounds {x y r : Int} {px py : Nat} (h : DiscSet x y r px py) :
    x - r ≤ px ∧ (px : Int) ≤ x + r ∧ y - r ≤ py ∧ (py : Int) ≤ y + r := by
  obtain ⟨X, on, hX⟩ := h
  have hb := C25_circle_accuracy r X _ ((C25_circle_points _ _ _).mpr on)
  have h1 := hb.2.1
  have h2 := hb.2.2.2.1
  have ha := abs_le.mp (show |(py : Int) - y| ≤ r from h2)
  have hc := abs_le.mp (show |(px : Int) - x| ≤ r by omega)
  omega

theorem disc_point {x y : Int} {px py : Nat} : DiscSet x y 0 px py ↔ (px : Int) = x ∧ (py : Int) = y := by
  constructor
  · intro h
    have := disc_bounds h
    omega
  · rintro ⟨h1, h2⟩
    refine ⟨0, ⟨le_refl _, abs_nonneg _, Or.inl ⟨rfl, rfl, ?_⟩⟩, ?_⟩
    · rw [h2]; simp
    · rw [h1]; simp

def shapeFn : Shape → PatFn
  | .square => patSquare
  | .dot => plotcircinsqr

theorem mark_put {W H bits : Nat} {scale pixspace c x : Int} (sh : Shape) (hd : MarkOK bits scale pixspace c x sh)
    {b : Bytes} (h : Valid b W H bits) (y : Int) :
    ∃ b', patPut (shapeFn sh) scale (scale - 1 - pixspace) c b x y = .ok b' ∧
      Paints b b' W H bits (Mark W H scale pixspace x y sh) (reduce bits c) := by
  cases sh with
  | square => exact patPut_square hd h x y
  | dot =>
    obtain ⟨hc24, hd⟩ := hd
    unfold patPut
    by_cases hs : scale = 1 ∨ scale - 1 - pixspace ≤ 0
    · have h1 : dotSide scale pixspace = 1 := by unfold dotSide; split_ifs <;> omega
      rw [if_pos hs]
      obtain ⟨b', e, p⟩ := plot_paints h x y hc24
      refine ⟨b', e, p.congr ?_⟩
      intro px py hx hy
      unfold Mark dotRadius
      simp only [h1]
      rw [show ((1 : Int) - 1) / 2 = 0 from rfl, disc_point]
      simp
    · have h1 : dotSide scale pixspace = scale - pixspace := by unfold dotSide; rw [if_neg (by omega)]; omega
      obtain ⟨hc, hb⟩ := hd.resolve_left (by omega)
      rw [if_neg hs, reduce_of_colour h.depth hc]
      unfold shapeFn plotcircinsqr
      have hr : pyShr (scale - 1 - pixspace) 1 = dotRadius scale pixspace := by
        unfold dotRadius; rw [pyShr_1, h1]; congr 1; ring
      simp only [hr]
      obtain ⟨b', e, p⟩ := C27_filledcircle_partial (y := y + dotRadius scale pixspace) (r := dotRadius scale pixspace) h hc hb
      exact ⟨b', e, p.congr fun px py _ _ => Iff.rfl⟩

/-! ### One glyph -/

/-- The glyph functions for any way of painting a dot. -/
def withFn (fn : PatFn) (c : Int) : Style → RenderFn
  | .upright => plot8bitpatternwithfn fn
  | .upsidedown => plot8bitpatternupsidedownwithfn fn
  | .mirrored => fun b x y g scale pixspace _ => plotrotated8bitpatternwithfn fn b x y g scale pixspace c
  | .sideways => plot8bitpatternsidewaywithfn fn
  | .italic => plotitalic8bitpatternwithfn fn
  | .italicdown => plotitalic8bitpatternupsidedownwithfn fn
  | .italicmirrored => plotrotateditalic8bitpatternwithfn fn
  | .italicside => plotitalic8bitpatternsidewaywithfn fn

theorem glyphFn_eq (c : Int) (sh : Shape) (st : Style) : glyphFn c sh st = withFn (shapeFn sh) c st := by
  cases sh <;> cases st <;> rfl

section glyphs
variable {W H bits col : Nat} {fn : PatFn} {scale pixspace c : Int} {S : Int → Int → Nat → Nat → Prop} {b : Bytes}

/-- Painting a dot of the glyph works at the place it is put at, on images with the header and palette of `b0`. -/
def Works (b0 : Bytes) (W H bits col : Nat) (fn : PatFn) (scale pixspace c : Int) (S : Int → Int → Nat → Nat → Prop)
    (p : Int × Int) : Prop :=
  ∀ b, Valid b W H bits → SameHeader b0 b bits → ∃ b', patPut fn scale (scale - 1 - pixspace) c b p.1 p.2 = .ok b' ∧ Paints b b' W H bits (S p.1 p.2) col

theorem upright_paints (h : Valid b W H bits) (x y : Int) (pat : List Nat)
    (hput : ∀ i j, i < pat.length → j < 8 → Lit pat i j → Works b W H bits col fn scale pixspace c S (place scale pat.length x y i j .upright)) :
    ∃ b', plot8bitpatternwithfn fn b x y pat scale pixspace (.one c) = .ok b' ∧ Paints b b' W H bits (fun px py =>
      ∃ i j : Nat, i < pat.length ∧ j < 8 ∧ Lit pat i j ∧ S (x + j * scale) (y + i * scale) px py) col := by
  obtain ⟨b', e, p⟩ := patRows_one_at (steps := 1) (dx := scale) (dy := 0) (next := fun p => (p.1, p.2 + scale)) pat
    (fun i => (x, y + i * scale)) (by intro i; simp; ring) col (by
      intro i j hi hj hl b1 hb h0
      have := hput i j hi hj hl b1 hb h0
      simpa [place] using this) h
  refine ⟨b', ?_, p.congr ?_⟩
  · rw [show ((x, y + ((0 : Nat) : Int) * scale) : Int × Int) = (x, y) by simp] at e
    exact e
  · intro px py _ _
    simp

theorem italic_paints (hs : 1 ≤ scale) (h : Valid b W H bits) (x y : Int) (pat : List Nat)
    (hput : ∀ i j, i < pat.length → j < 8 → Lit pat i j → Works b W H bits col fn scale pixspace c S (place scale pat.length x y i j .italic)) :
    ∃ b', plotitalic8bitpatternwithfn fn b x y pat scale pixspace (.one c) = .ok b' ∧ Paints b b' W H bits (fun px py =>
      ∃ i j : Nat, i < pat.length ∧ j < 8 ∧ Lit pat i j ∧
        S (x + slant scale pat.length y i + j * scale) (y + i * scale) px py) col := by
  obtain ⟨b', e, p⟩ := patRows_one_at (steps := 1) (dx := scale) (dy := 0) (next := italicNext scale) pat
    (fun i => (x + slant scale pat.length y i, y + i * scale)) (fun i => (italic_pos hs x y pat.length i).symm)
    col (by
      intro i j hi hj hl b1 hb h0
      have := hput i j hi hj hl b1 hb h0
      simpa [place] using this) h
  refine ⟨b', ?_, p.congr ?_⟩
  · rw [show ((x + slant scale pat.length y 0, y + ((0 : Nat) : Int) * scale) : Int × Int) =
      (italicStart scale pat.length x, y) by rw [italic_start hs x y]; simp] at e
    exact e
  · intro px py _ _
    simp

theorem seen_lt {j : Nat} {st : Style} (h : Seen j st) : j < 8 := by
  cases st <;> simp only [Seen] at h <;> omega

/-- Every style, for any way of painting a dot. -/
theorem style_paints (hs : 1 ≤ scale) (h : Valid b W H bits) (x y : Int) {pat : List Nat} (hp : ∀ v ∈ pat, v < 256) (st : Style)
    (hput : ∀ i j, i < pat.length → Seen j st → Lit pat i j → Works b W H bits col fn scale pixspace c S (place scale pat.length x y i j st)) :
    ∃ b', withFn fn c st b x y pat scale pixspace (.one c) = .ok b' ∧ Paints b b' W H bits (fun px py =>
      ∃ i j : Nat, i < pat.length ∧ Seen j st ∧ Lit pat i j ∧
        S (place scale pat.length x y i j st).1 (place scale pat.length x y i j st).2 px py) col := by
  cases st with
  | upright => exact upright_paints h x y pat hput
  | upsidedown =>
    obtain ⟨b', e, p⟩ := upright_paints (pat := pat.reverse) h x y (by
      intro i j hi hj hl
      rw [List.length_reverse] at hi
      have := hput (pat.length - 1 - i) j (by omega) hj ((lit_reverse hi).mp hl)
      unfold place at this ⊢
      rwa [show pat.length - 1 - (pat.length - 1 - i) = i by omega] at this)
    refine ⟨b', e, p.congr ?_⟩
    intro px py _ _
    rw [List.length_reverse]
    constructor
    · rintro ⟨i, j, hi, hj, hl, hq⟩
      refine ⟨pat.length - 1 - i, j, by omega, hj, ?_, hq⟩
      rw [lit_reverse (by omega), show pat.length - 1 - (pat.length - 1 - i) = i by omega]
      exact hl
    · rintro ⟨i, j, hi, hj, hl, hq⟩
      refine ⟨pat.length - 1 - i, j, by omega, hj, (lit_reverse hi).mp hl, ?_⟩
      unfold place
      rw [show pat.length - 1 - (pat.length - 1 - i) = i by omega]
      exact hq
  | mirrored =>
    obtain ⟨b', e, p⟩ := upright_paints (pat := pat.map rotatebits) h x y (by
      intro i j hi hj hl
      rw [List.length_map] at hi
      obtain ⟨hj0, hl⟩ := (lit_rotate hp hi hj).mp hl
      have := hput i (7 - j) (by omega) (show 7 - j < 7 by omega) hl
      unfold place at this ⊢
      rwa [show 7 - (7 - j) = j by omega] at this)
    refine ⟨b', e, p.congr ?_⟩
    intro px py _ _
    rw [List.length_map]
    constructor
    · rintro ⟨i, j, hi, hj, hl, hq⟩
      have hj : j < 7 := hj
      refine ⟨i, 7 - j, hi, by omega, ?_, hq⟩
      rw [lit_rotate hp hi (by omega), show 7 - (7 - j) = j by omega]
      exact ⟨by omega, hl⟩
    · rintro ⟨i, j, hi, hj, hl, hq⟩
      obtain ⟨h0, hl⟩ := (lit_rotate hp hi hj).mp hl
      refine ⟨i, 7 - j, hi, (show 7 - j < 7 by omega), hl, ?_⟩
      unfold place
      rw [show 7 - (7 - j) = j by omega]
      exact hq
  | sideways =>
    obtain ⟨b', e, p⟩ := patRows_one_at (steps := 8) (dx := 0) (dy := -scale) (next := fun p => (p.1 + scale, p.2)) pat
      (fun i => (x + i * scale, y)) (by intro i; simp; ring) col (by
        intro i j hi hj hl b1 hb h0
        have := hput i j hi hj hl b1 hb h0
        simpa [place, sub_eq_add_neg] using this) h
    refine ⟨b', ?_, p.congr ?_⟩
    · rw [show ((x + ((0 : Nat) : Int) * scale, y) : Int × Int) = (x, y) by simp] at e
      exact e
    · intro px py _ _
      simp [sub_eq_add_neg, place, Seen]
  | italic => exact italic_paints hs h x y pat hput
  | italicdown =>
    obtain ⟨b', e, p⟩ := patRows_one_at (put := patPut fn scale (scale - 1 - pixspace)) (c := c) (S := S) (steps := 1)
      (dx := scale) (dy := 0) (next := italicNext scale) pat.reverse
      (fun i => (x - slant scale pat.length y 0 + slant scale pat.length y i, y + i * scale))
      (fun i => (italic_pos hs _ y pat.length i).symm) col (by
        intro i j hi hj hl b1 hb h0
        rw [List.length_reverse] at hi
        have := hput (pat.length - 1 - i) j (by omega) hj ((lit_reverse hi).mp hl) b1 hb h0
        unfold place at this
        rw [show pat.length - 1 - (pat.length - 1 - i) = i by omega] at this
        have e0 : x - slant scale pat.length y 0 + slant scale pat.length y i =
          x + slant scale pat.length y i - slant scale pat.length y 0 := by ring
        simp only [mul_zero, add_zero, e0]
        exact this) h
    refine ⟨b', ?_, p.congr ?_⟩
    · rw [show ((x - slant scale pat.length y 0 + slant scale pat.length y 0, y + ((0 : Nat) : Int) * scale) : Int × Int) =
        (x, y) by simp] at e
      exact e
    · intro px py _ _
      rw [List.length_reverse]
      simp only [mul_zero, add_zero]
      constructor
      · rintro ⟨i, j, hi, hj, hl, hq⟩
        refine ⟨pat.length - 1 - i, j, by omega, hj, ?_, ?_⟩
        · rw [lit_reverse (by omega), show pat.length - 1 - (pat.length - 1 - i) = i by omega]
          exact hl
        · rw [sub_add_eq_add_sub]
          exact hq
      · rintro ⟨i, j, hi, hj, hl, hq⟩
        refine ⟨pat.length - 1 - i, j, by omega, hj, (lit_reverse hi).mp hl, ?_⟩
        unfold place
        rw [show pat.length - 1 - (pat.length - 1 - i) = i by omega, ← sub_add_eq_add_sub]
        exact hq
  | italicmirrored =>
    obtain ⟨b', e, p⟩ := italic_paints (pat := pat.map rotatebits) hs h x y (by
      intro i j hi hj hl
      rw [List.length_map] at hi ⊢
      obtain ⟨hj0, hl⟩ := (lit_rotate hp hi hj).mp hl
      have := hput i (7 - j) (by omega) (show 7 - j < 7 by omega) hl
      unfold place at this ⊢
      rwa [show 7 - (7 - j) = j by omega] at this)
    refine ⟨b', e, p.congr ?_⟩
    intro px py _ _
    rw [List.length_map]
    constructor
    · rintro ⟨i, j, hi, hj, hl, hq⟩
      have hj : j < 7 := hj
      refine ⟨i, 7 - j, hi, by omega, ?_, hq⟩
      rw [lit_rotate hp hi (by omega), show 7 - (7 - j) = j by omega]
      exact ⟨by omega, hl⟩
    · rintro ⟨i, j, hi, hj, hl, hq⟩
      obtain ⟨h0, hl⟩ := (lit_rotate hp hi hj).mp hl
      refine ⟨i, 7 - j, hi, (show 7 - j < 7 by omega), hl, ?_⟩
      unfold place
      rw [show 7 - (7 - j) = j by omega]
      exact hq
  | italicside =>
    obtain ⟨b', e, p⟩ := patRows_one_at (steps := 1) (dx := 0) (dy := -scale) (next := italicSideNext scale) pat
      (fun i => (x + i * scale, y + sideSlant scale x i)) (fun i => (italicSide_pos x y i).symm) col (by
        intro i j hi hj hl b1 hb h0
        have := hput i j hi hj hl b1 hb h0
        simpa [place, sub_eq_add_neg] using this) h
    refine ⟨b', ?_, p.congr ?_⟩
    · rw [show ((x + ((0 : Nat) : Int) * scale, y + sideSlant scale x 0) : Int × Int) = (x, y) by
        unfold sideSlant; simp] at e
      exact e
    · intro px py _ _
      simp [sub_eq_add_neg, place, Seen]
end glyphs

/-- C134: every glyph function, for squares and for dots, paints the mark of every set bit of the glyph at its place, and
nothing else (mirrored glyphs lose their last column). -/
theorem C134_glyph_exact {b : Bytes} {W H bits : Nat} (h : Valid b W H bits) (x y : Int) {pat : List Nat}
    (hp : ∀ v ∈ pat, v < 256) {scale pixspace c : Int} (hs : 1 ≤ scale) (sh : Shape) (st : Style)
    (hd : ∀ i j, i < pat.length → j < 8 → MarkOK bits scale pixspace c (place scale pat.length x y i j st).1 sh) :
    ∃ b', glyphFn c sh st b x y pat scale pixspace (.one c) = .ok b' ∧ Paints b b' W H bits (fun px py =>
      ∃ i j : Nat, i < pat.length ∧ Seen j st ∧ Lit pat i j ∧ Mark W H scale pixspace
        (place scale pat.length x y i j st).1 (place scale pat.length x y i j st).2 sh px py) (reduce bits c) := by
  rw [glyphFn_eq]
  exact style_paints (S := fun x y => Mark W H scale pixspace x y sh) hs h x y hp st
    (fun i j hi hj _ b hb _ => mark_put sh (hd i j hi (seen_lt hj)) hb _)

/-- C134: the disc lies in the square that would be painted in its place, and is at most one pixel narrower. -/
theorem C134_dot_in_square {scale pixspace : Int} (hp : 0 ≤ pixspace) (hs : 1 ≤ scale) (x y : Int) :
    (∀ px py : Nat, DiscSet (x + dotRadius scale pixspace) (y + dotRadius scale pixspace) (dotRadius scale pixspace) px py →
      FullSquare (dotSide scale pixspace) x y px py) ∧ 0 ≤ dotRadius scale pixspace ∧
      dotSide scale pixspace - 1 ≤ 2 * dotRadius scale pixspace + 1 := by
  have side1 : 1 ≤ dotSide scale pixspace := by unfold dotSide; split_ifs <;> omega
  refine ⟨?_, ?_, ?_⟩
  · intro px py hd
    have := disc_bounds hd
    unfold dotRadius at this
    unfold FullSquare
    omega
  · unfold dotRadius; omega
  · unfold dotRadius; omega

/-! ### Texts -/

/-- The directions of a text: to the right, to the right with the letters in reverse order, down, and up. -/
inductive Flow
  | across | backwards | down | up
  deriving DecidableEq

/-- The letters in the order in which they are set. -/
def letters (str : List Nat) : Flow → List Nat
  | .backwards => str.reverse
  | _ => str

/-- Where the character of column `k` and line `l` is put. -/
def spot (font : Bytes) (scale space x y : Int) (k l : Nat) : Flow → Int × Int
  | .across => (x + k * colStep scale space, y + l * lineStep font scale space)
  | .backwards => (x + k * colStep scale space, y + l * lineStep font scale space)
  | .down => (x + l * colStep scale space, y + k * lineStep font scale space)
  | .up => (x + l * lineStep font scale space, y - k * colStep scale space)

/-- The functions of the library that put a text on an image. -/
inductive TextFn
  | plotstring | plotstringasdots | plotitalicstring | plotitalicstringasdots
  | plotreversestring | plotreversestringasdots | plotreverseditalicstring | plotreverseditalicstringasdots
  | plotstringupsidedown | plotstringupsidedownasdots | plotupsidedownitalicstring | plotupsidedownitalicstringasdots
  | plotstringsideway | plotstringsidewayasdots | plotitalicstringsideway | plotitalicstringsidewayasdots
  | plotstringvertical | plotstringverticalasdots | plotitalicstringvertical | plotitalicstringverticalasdots

/-- What the text is made of. -/
def TextFn.shape : TextFn → Shape
  | .plotstring => .square
  | .plotstringasdots => .dot
  | .plotitalicstring => .square
  | .plotitalicstringasdots => .dot
  | .plotreversestring => .square
  | .plotreversestringasdots => .dot
  | .plotreverseditalicstring => .square
  | .plotreverseditalicstringasdots => .dot
  | .plotstringupsidedown => .square
  | .plotstringupsidedownasdots => .dot
  | .plotupsidedownitalicstring => .square
  | .plotupsidedownitalicstringasdots => .dot
  | .plotstringsideway => .square
  | .plotstringsidewayasdots => .dot
  | .plotitalicstringsideway => .square
  | .plotitalicstringsidewayasdots => .dot
  | .plotstringvertical => .square
  | .plotstringverticalasdots => .dot
  | .plotitalicstringvertical => .square
  | .plotitalicstringverticalasdots => .dot

/-- How the glyphs are set. -/
def TextFn.style : TextFn → Style
  | .plotstring => .upright
  | .plotstringasdots => .upright
  | .plotitalicstring => .italic
  | .plotitalicstringasdots => .italic
  | .plotreversestring => .mirrored
  | .plotreversestringasdots => .mirrored
  | .plotreverseditalicstring => .italicmirrored
  | .plotreverseditalicstringasdots => .italicmirrored
  | .plotstringupsidedown => .upsidedown
  | .plotstringupsidedownasdots => .upsidedown
  | .plotupsidedownitalicstring => .italicdown
  | .plotupsidedownitalicstringasdots => .italicdown
  | .plotstringsideway => .sideways
  | .plotstringsidewayasdots => .sideways
  | .plotitalicstringsideway => .italicside
  | .plotitalicstringsidewayasdots => .italicside
  | .plotstringvertical => .upright
  | .plotstringverticalasdots => .upright
  | .plotitalicstringvertical => .italic
  | .plotitalicstringverticalasdots => .italic

/-- In which direction the text goes. -/
def TextFn.flow : TextFn → Flow
  | .plotstring => .across
  | .plotstringasdots => .across
  | .plotitalicstring => .across
  | .plotitalicstringasdots => .across
  | .plotreversestring => .backwards
  | .plotreversestringasdots => .backwards
  | .plotreverseditalicstring => .backwards
  | .plotreverseditalicstringasdots => .backwards
  | .plotstringupsidedown => .backwards
  | .plotstringupsidedownasdots => .across
  | .plotupsidedownitalicstring => .backwards
  | .plotupsidedownitalicstringasdots => .backwards
  | .plotstringsideway => .up
  | .plotstringsidewayasdots => .up
  | .plotitalicstringsideway => .up
  | .plotitalicstringsidewayasdots => .up
  | .plotstringvertical => .down
  | .plotstringverticalasdots => .down
  | .plotitalicstringvertical => .down
  | .plotitalicstringverticalasdots => .down

/-- The call of the function with an int colour. -/
def TextFn.run (b : Bytes) (x y : Int) (str : List Nat) (scale pixspace space c : Int) (font : Bytes) : TextFn → Py Bytes
  | .plotstring => Model.plotstring b x y str scale pixspace space (.one c) font
  | .plotstringasdots => Model.plotstringasdots b x y str scale pixspace space (.one c) font
  | .plotitalicstring => Model.plotitalicstring b x y str scale pixspace space (.one c) font
  | .plotitalicstringasdots => Model.plotitalicstringasdots b x y str scale pixspace space (.one c) font
  | .plotreversestring => Model.plotreversestring b x y str scale pixspace space c font
  | .plotreversestringasdots => Model.plotreversestringasdots b x y str scale pixspace space c font
  | .plotreverseditalicstring => Model.plotreverseditalicstring b x y str scale pixspace space (.one c) font
  | .plotreverseditalicstringasdots => Model.plotreverseditalicstringasdots b x y str scale pixspace space (.one c) font
  | .plotstringupsidedown => Model.plotstringupsidedown b x y str scale pixspace space (.one c) font
  | .plotstringupsidedownasdots => Model.plotstringupsidedownasdots b x y str scale pixspace space (.one c) font
  | .plotupsidedownitalicstring => Model.plotupsidedownitalicstring b x y str scale pixspace space (.one c) font
  | .plotupsidedownitalicstringasdots => Model.plotupsidedownitalicstringasdots b x y str scale pixspace space (.one c) font
  | .plotstringsideway => Model.plotstringsideway b x y str scale pixspace space (.one c) font
  | .plotstringsidewayasdots => Model.plotstringsidewayasdots b x y str scale pixspace space (.one c) font
  | .plotitalicstringsideway => Model.plotitalicstringsideway b x y str scale pixspace space (.one c) font
  | .plotitalicstringsidewayasdots => Model.plotitalicstringsidewayasdots b x y str scale pixspace space (.one c) font
  | .plotstringvertical => Model.plotstringvertical b x y str scale pixspace space (.one c) font
  | .plotstringverticalasdots => Model.plotstringverticalasdots b x y str scale pixspace space (.one c) font
  | .plotitalicstringvertical => Model.plotitalicstringvertical b x y str scale pixspace space (.one c) font
  | .plotitalicstringverticalasdots => Model.plotitalicstringverticalasdots b x y str scale pixspace space (.one c) font

/-- Where the dot `(i, j)` of the character at index `k` is put. -/
def dotAt (font : Bytes) (scale space x y : Int) (str : List Nat) (fl : Flow) (st : Style) (k i j : Nat) : Int × Int :=
  place scale (byte font 0)
    (spot font scale space x y (columnNo ((letters str fl).take k)) (lineNo ((letters str fl).take k)) fl).1
    (spot font scale space x y (columnNo ((letters str fl).take k)) (lineNo ((letters str fl).take k)) fl).2 i j st

/-- The text functions for any glyph function. -/
def setText (render : RenderFn) (color : PatColor) (b : Bytes) (x y : Int) (str : List Nat) (scale pixspace space : Int)
    (font : Bytes) : Flow → Py Bytes
  | .across => plotstringfunc enumletters render b x y str scale pixspace space color font
  | .backwards => plotstringfunc enumreverseletters render b x y str scale pixspace space color font
  | .down => plotstringverticalwithfn render b x y str scale pixspace space color font
  | .up => plotstringsidewayfn render b x y str scale pixspace space color font

theorem TextFn.run_eq (f : TextFn) (b : Bytes) (x y : Int) (str : List Nat) (scale pixspace space c : Int) (font : Bytes) :
    f.run b x y str scale pixspace space c font =
      setText (glyphFn c f.shape f.style) (.one c) b x y str scale pixspace space font f.flow := by
  cases f <;> rfl

theorem glyph_lt {font : Bytes} (hb : ∀ v ∈ font, v < 256) (c : Nat) : ∀ v ∈ glyph font c, v < 256 := by
  intro v hv
  unfold glyph at hv
  obtain ⟨i, -, rfl⟩ := List.mem_map.mp hv
  exact byte_lt_of_mem hb _

theorem inFont_letters {font : Bytes} {str : List Nat} (hs : InFont font str) (fl : Flow) : InFont font (letters str fl) := by
  intro c hc
  apply hs
  cases fl with
  | backwards => exact List.mem_reverse.mp hc
  | _ => exact hc

/-- The move to the next line. -/
def newline (font : Bytes) (scale space x y : Int) : Flow → Int × Int → Int × Int
  | .across => fun p => (x, p.2 + lineStep font scale space)
  | .backwards => fun p => (x, p.2 + lineStep font scale space)
  | .down => fun p => (p.1 + colStep scale space, y)
  | .up => fun p => (p.1 + lineStep font scale space, y)

/-- The move over `n` characters. -/
def along (font : Bytes) (scale space n : Int) : Flow → Int × Int → Int × Int
  | .across => fun p => (p.1 + colStep scale space * n, p.2)
  | .backwards => fun p => (p.1 + colStep scale space * n, p.2)
  | .down => fun p => (p.1, p.2 + lineStep font scale space * n)
  | .up => fun p => (p.1, p.2 - colStep scale space * n)

/-- The loop over the characters, for each direction. -/
theorem setText_chars {font : Bytes} (hf : font ≠ []) (render : RenderFn) (color : PatColor) (b : Bytes) (x y : Int)
    (str : List Nat) (scale pixspace space : Int) (fl : Flow) :
    (∀ c l, newline font scale space x y fl (spot font scale space x y c l fl) = spot font scale space x y 0 (l + 1) fl) ∧
    (∀ c l n : Nat, along font scale space n fl (spot font scale space x y c l fl) = spot font scale space x y (c + n) l fl) ∧
    setText render color b x y str scale pixspace space font fl =
      plotChars render font scale pixspace color (newline font scale space x y fl) (along font scale space 4 fl)
        (along font scale space 1 fl) (letters str fl) b (spot font scale space x y 0 0 fl) := by
  have e1 : pyShl scale 3 + charSpace space = colStep scale space := by
    unfold colStep charSpace; rw [pyShl_3]; ring
  have e2 : (byte font 0 : Int) * scale + charSpace space = lineStep font scale space := rfl
  refine ⟨?_, ?_, ?_⟩
  · intro c l
    cases fl <;> simp only [spot, newline] <;> push_cast <;> ext <;> dsimp only <;> ring
  · intro c l n
    cases fl <;> simp only [spot, along] <;> push_cast <;> ext <;> dsimp only <;> ring
  · cases fl
    all_goals
      simp only [setText, plotstringfunc, plotstringverticalwithfn, plotstringsidewayfn, height_ok hf, ok_bind, e1, e2,
        spot, Nat.cast_zero, zero_mul, add_zero, sub_zero, newline, along, mul_one, letters, enumletters,
        enumreverseletters, pyShl_2]

theorem setText_paints {b : Bytes} {W H bits : Nat} (h : Valid b W H bits) (x y : Int) {str : List Nat} {font : Bytes}
    (hf : font ≠ []) (hb : ∀ v ∈ font, v < 256) (hi : InFont font str) {scale pixspace c : Int} (space : Int)
    (hs : 1 ≤ scale) (fl : Flow) (sh : Shape) (st : Style)
    (hd : ∀ k ch i j, Stands (letters str fl) k ch → i < byte font 0 → j < 8 →
      MarkOK bits scale pixspace c (dotAt font scale space x y str fl st k i j).1 sh) :
    ∃ b', setText (glyphFn c sh st) (.one c) b x y str scale pixspace space font fl = .ok b' ∧
      Paints b b' W H bits (fun px py => ∃ k ch i j : Nat, Stands (letters str fl) k ch ∧ i < byte font 0 ∧ Seen j st ∧
        Lit (glyph font ch) i j ∧ Mark W H scale pixspace (dotAt font scale space x y str fl st k i j).1
          (dotAt font scale space x y str fl st k i j).2 sh px py) (reduce bits c) := by
  obtain ⟨h1, h2, e⟩ := setText_chars hf (glyphFn c sh st) (.one c) b x y str scale pixspace space fl
  obtain ⟨b', e', p⟩ := plotChars_paints_at (render := glyphFn c sh st) (color := .one c) (scale := scale)
    (pixspace := pixspace) (fun k l => spot font scale space x y k l fl) h1 (fun c l => h2 c l 4)
    (fun c l => h2 c l 1)
    (fun g p px py => ∃ i j : Nat, i < g.length ∧ Seen j st ∧ Lit g i j ∧ Mark W H scale pixspace
        (place scale g.length p.1 p.2 i j st).1 (place scale g.length p.1 p.2 i j st).2 sh px py) hf [] (letters str fl) (b0 := b)
    (by
      intro k ch hk b hv _ _
      refine C134_glyph_exact hv _ _ (glyph_lt hb ch) hs sh st ?_
      intro i j hi hj
      rw [length_glyph] at hi ⊢
      exact hd k ch i j hk hi hj) (inFont_letters hi fl) h ⟨rfl, fun _ _ => rfl⟩
  refine ⟨b', ?_, p.congr ?_⟩
  · rw [e]
    simpa [columnNo, lineNo] using e'
  · intro px py _ _
    simp only [length_glyph, List.nil_append]
    constructor
    · rintro ⟨k, ch, i, j, hk, hi, hj, hl, hq⟩
      exact ⟨k, ch, hk, i, j, hi, hj, hl, hq⟩
    · rintro ⟨k, ch, hk, i, j, hi, hj, hl, hq⟩
      exact ⟨k, ch, i, j, hk, hi, hj, hl, hq⟩

/-- C135: every text function paints exactly the dots of the glyphs of the visible characters, each in its column and
line, in the direction and the style of the function. -/
theorem C135_text_exact {b : Bytes} {W H bits : Nat} (h : Valid b W H bits) (x y : Int) {str : List Nat} {font : Bytes}
    (hf : font ≠ []) (hb : ∀ v ∈ font, v < 256) (hi : InFont font str) {scale pixspace c : Int} (space : Int)
    (hs : 1 ≤ scale) (f : TextFn)
    (hd : ∀ k ch i j, Stands (letters str f.flow) k ch → i < byte font 0 → j < 8 →
      MarkOK bits scale pixspace c (dotAt font scale space x y str f.flow f.style k i j).1 f.shape) :
    ∃ b', f.run b x y str scale pixspace space c font = .ok b' ∧
      Paints b b' W H bits (fun px py => ∃ k ch i j : Nat, Stands (letters str f.flow) k ch ∧ i < byte font 0 ∧
        Seen j f.style ∧ Lit (glyph font ch) i j ∧ Mark W H scale pixspace
          (dotAt font scale space x y str f.flow f.style k i j).1
          (dotAt font scale space x y str f.flow f.style k i j).2 f.shape px py) (reduce bits c) := by
  rw [f.run_eq]
  exact setText_paints h x y hf hb hi space hs f.flow f.shape f.style hd

/-- C135: for all texts that do not start to the left of the image, with any function but the upside down italic ones, the
condition on the places of the discs is met. -/
theorem C135_places {bits : Nat} {x y : Int} {str : List Nat} {font : Bytes} {scale pixspace c space : Int}
    (hs : 1 ≤ scale) (hsp : 0 ≤ space) (hx : 0 ≤ x) (hc : IsColour bits c)
    (hbits : bits = 1 ∨ bits = 8 ∨ bits = 24) (f : TextFn) (hst : f.style ≠ .italicdown) (hsh : f.shape = .dot)
    (k i j : Nat) (hi : i < byte font 0) :
    MarkOK bits scale pixspace c (dotAt font scale space x y str f.flow f.style k i j).1 f.shape := by
  rw [hsh]
  have side1 : 1 ≤ dotSide scale pixspace := by unfold dotSide; split_ifs <;> omega
  have hr : 0 ≤ dotRadius scale pixspace := by unfold dotRadius; omega
  have hcs : 0 ≤ colStep scale space := by unfold colStep; split_ifs <;> omega
  have hls : 0 ≤ lineStep font scale space := by
    have : 0 ≤ (byte font 0 : Int) * scale := mul_nonneg (by omega) (by omega)
    unfold lineStep; split_ifs <;> omega
  have hm : ∀ (n : Nat) (a : Int), 0 ≤ a → 0 ≤ (n : Int) * a := fun n a ha => mul_nonneg (by omega) ha
  have hspot : ∀ n m, 0 ≤ (spot font scale space x y n m f.flow).1 := by
    intro n m
    have a1 := hm n _ hcs
    have a2 := hm m _ hcs
    have a3 := hm n _ hls
    have a4 := hm m _ hls
    unfold spot
    cases f.flow <;> dsimp only <;> omega
  have h0 : 0 ≤ (dotAt font scale space x y str f.flow f.style k i j).1 := by
    have a1 := hm i scale (by omega)
    have a2 := hm j scale (by omega)
    have a3 := hm (7 - j) scale (by omega)
    have a4 := hspot (columnNo ((letters str f.flow).take k)) (lineNo ((letters str f.flow).take k))
    have a5 := fun y => (C65_slant hs (byte font 0) y).1 i hi
    unfold dotAt place
    generalize spot font scale space x y (columnNo ((letters str f.flow).take k)) (lineNo ((letters str f.flow).take k)) f.flow = p at *
    have a6 := a5 p.2
    cases hst' : f.style <;> simp only [hst'] at hst ⊢ <;> first | omega | exact absurd rfl hst
  have h24 : bits = 24 → 0 ≤ c ∧ c < 2 ^ 24 := by
    intro e; subst e; exact hc
  refine ⟨h24, Or.inr ⟨hc, ?_⟩⟩
  rcases hbits with e | e | e
  · exact Or.inl e
  · exact Or.inr ⟨Or.inl e, by omega⟩
  · exact Or.inr ⟨Or.inr e, by omega⟩

/-! ### Texts in files -/

/-- The functions of the library that write a text to a new image file. -/
inductive FileFn
  | plotstring2file | plotstringasdots2file | plotitalicstring2file
  | plotitalicstringasdots2file | plotreversedstring2file | plotreversedstringasdots2file
  | plotreverseditalicstring2file | plotupsidedownstring2file | plotupsidedownstringasdots2file
  | plotverticalstring2file | plotverticalstringasdots2file | plotverticalitalicstring2file
  | plotverticalitalicstringasdots2file

/-- What the text is made of. -/
def FileFn.shape : FileFn → Shape
  | .plotstring2file => .square
  | .plotstringasdots2file => .dot
  | .plotitalicstring2file => .square
  | .plotitalicstringasdots2file => .dot
  | .plotreversedstring2file => .square
  | .plotreversedstringasdots2file => .dot
  | .plotreverseditalicstring2file => .square
  | .plotupsidedownstring2file => .square
  | .plotupsidedownstringasdots2file => .dot
  | .plotverticalstring2file => .square
  | .plotverticalstringasdots2file => .dot
  | .plotverticalitalicstring2file => .square
  | .plotverticalitalicstringasdots2file => .dot

/-- How the glyphs are set. -/
def FileFn.style : FileFn → Style
  | .plotstring2file => .upright
  | .plotstringasdots2file => .upright
  | .plotitalicstring2file => .italic
  | .plotitalicstringasdots2file => .italic
  | .plotreversedstring2file => .mirrored
  | .plotreversedstringasdots2file => .mirrored
  | .plotreverseditalicstring2file => .italicmirrored
  | .plotupsidedownstring2file => .upsidedown
  | .plotupsidedownstringasdots2file => .upsidedown
  | .plotverticalstring2file => .upright
  | .plotverticalstringasdots2file => .upright
  | .plotverticalitalicstring2file => .italic
  | .plotverticalitalicstringasdots2file => .italic

/-- In which direction the text goes. -/
def FileFn.flow : FileFn → Flow
  | .plotstring2file => .across
  | .plotstringasdots2file => .across
  | .plotitalicstring2file => .across
  | .plotitalicstringasdots2file => .across
  | .plotreversedstring2file => .backwards
  | .plotreversedstringasdots2file => .backwards
  | .plotreverseditalicstring2file => .backwards
  | .plotupsidedownstring2file => .backwards
  | .plotupsidedownstringasdots2file => .backwards
  | .plotverticalstring2file => .down
  | .plotverticalstringasdots2file => .down
  | .plotverticalitalicstring2file => .down
  | .plotverticalitalicstringasdots2file => .down

/-- The call of the function with an int colour. -/
def FileFn.run (fs : Files) (file : String) (str : List Nat) (scale pixspace space c : Int) (font : Bytes) (bg bits : Int) :
    FileFn → Py Files
  | .plotstring2file => Model.plotstring2file fs file str scale pixspace space (.one c) font bg bits
  | .plotstringasdots2file => Model.plotstringasdots2file fs file str scale pixspace space (.one c) font bg bits
  | .plotitalicstring2file => Model.plotitalicstring2file fs file str scale pixspace space (.one c) font bg bits
  | .plotitalicstringasdots2file => Model.plotitalicstringasdots2file fs file str scale pixspace space (.one c) font bg bits
  | .plotreversedstring2file => Model.plotreversedstring2file fs file str scale pixspace space c font bg bits
  | .plotreversedstringasdots2file => Model.plotreversedstringasdots2file fs file str scale pixspace space c font bg bits
  | .plotreverseditalicstring2file => Model.plotreverseditalicstring2file fs file str scale pixspace space (.one c) font bg bits
  | .plotupsidedownstring2file => Model.plotupsidedownstring2file fs file str scale pixspace space (.one c) font bg bits
  | .plotupsidedownstringasdots2file => Model.plotupsidedownstringasdots2file fs file str scale pixspace space (.one c) font bg bits
  | .plotverticalstring2file => Model.plotverticalstring2file fs file str scale pixspace space (.one c) font bg bits
  | .plotverticalstringasdots2file => Model.plotverticalstringasdots2file fs file str scale pixspace space (.one c) font bg bits
  | .plotverticalitalicstring2file => Model.plotverticalitalicstring2file fs file str scale pixspace space (.one c) font bg bits
  | .plotverticalitalicstringasdots2file => Model.plotverticalitalicstringasdots2file fs file str scale pixspace space (.one c) font bg bits

/-- The width of a text in columns: no prefix of it ends in a higher column, and one ends there. -/
def IsWidth (str : List Nat) (w : Nat) : Prop :=
  (∀ k, columnNo (str.take k) ≤ w) ∧ ∃ k, columnNo (str.take k) = w

/-- How much wider an image is made for slanted glyphs. -/
def lean (font : Bytes) (scale : Int) : Style → Int
  | .italic => slant scale (byte font 0) 0 0
  | .italicmirrored => slant scale (byte font 0) 0 0
  | _ => 0

/-- The size of the image for a text of `w` columns and `l` lines. -/
def textSize (font : Bytes) (scale space : Int) (w l : Nat) (st : Style) : Flow → Int × Int
  | .down => (l * colStep scale space + 2 * scale + lean font scale st, w * lineStep font scale space + 2 * scale)
  | _ => (w * colStep scale space + 2 * scale + lean font scale st, l * lineStep font scale space + 2 * scale)

/-- The pixels of a dot put at `(x, y)`, without regard to any image. -/
def FullMark (scale pixspace x y : Int) : Shape → Nat → Nat → Prop
  | .square => FullSquare (dotSide scale pixspace) x y
  | .dot => DiscSet (x + dotRadius scale pixspace) (y + dotRadius scale pixspace) (dotRadius scale pixspace)

theorem width_eq {str : List Nat} {w : Nat} (h : IsWidth str w) : (computetextrowandcolcnt str).1 = w := by
  obtain ⟨-, h1, k1, e1⟩ := C67_textsize str
  obtain ⟨h2, k2, e2⟩ := h
  have := h1 k2
  have := h2 k1
  omega

/-- How many columns a string without newlines takes. -/
def breadth (l : List Nat) : Nat := (l.map fun c => if c = 9 then 4 else 1).sum

theorem column_reverse (l : List Nat) : columnNo l.reverse = breadth (l.takeWhile (fun c => decide (c ≠ 10))) := by
  induction l with
  | nil => rfl
  | cons a l ih =>
    rw [List.reverse_cons, column_append, ih, List.takeWhile_cons]
    by_cases h10 : a = 10
    · simp [h10, breadth]
    · by_cases h9 : a = 9
      · simp [h9, breadth]; omega
      · simp [h10, h9, breadth]; omega

theorem column_add (u v : List Nat) (hv : 10 ∉ v) : columnNo (u ++ v) = columnNo u + breadth v := by
  induction v generalizing u with
  | nil => simp [breadth]
  | cons a v ih =>
    rw [List.mem_cons, not_or] at hv
    rw [show u ++ a :: v = u ++ [a] ++ v by simp, ih _ hv.2, column_append, if_neg (fun e => hv.1 e.symm)]
    unfold breadth
    rw [List.map_cons, List.sum_cons]
    split_ifs <;> omega

theorem takeWhile_no (l : List Nat) : 10 ∉ l.takeWhile (fun c => decide (c ≠ 10)) := by
  induction l with
  | nil => simp
  | cons a l ih =>
    rw [List.takeWhile_cons]
    by_cases h : a = 10
    · simp [h]
    · simp only [ne_eq, h, not_false_eq_true, decide_true, if_true, List.mem_cons, not_or]
      exact ⟨fun e => h e.symm, ih⟩

/-- In reverse order, too, no character is beyond the width of the text. -/
theorem reverse_width {str : List Nat} {w k ch : Nat} (hw : IsWidth str w) (hk : Stands str.reverse k ch) :
    columnNo (str.reverse.take k) + 1 ≤ w := by
  obtain ⟨hk, h10, h9⟩ := hk
  obtain ⟨hlt, hch⟩ := List.getElem?_eq_some_iff.mp hk
  have hsplit : str.reverse = str.reverse.take k ++ ch :: str.reverse.drop (k + 1) := by
    rw [← hch, ← List.drop_eq_getElem_cons hlt, List.take_append_drop]
  have hstr : str = (str.reverse.drop (k + 1)).reverse ++ [ch] ++ (str.reverse.take k).reverse := by
    have := congrArg List.reverse hsplit
    simpa using this
  generalize (str.reverse.drop (k + 1)).reverse = A at hstr
  generalize hB : (str.reverse.take k).reverse = B at hstr
  have hB' : str.reverse.take k = B.reverse := by rw [← hB, List.reverse_reverse]
  rw [hB', column_reverse]
  have h1 := hw.1 (A.length + 1 + (B.takeWhile (fun c => decide (c ≠ 10))).length)
  have h2 : str.take (A.length + 1 + (B.takeWhile (fun c => decide (c ≠ 10))).length) =
      A ++ [ch] ++ B.takeWhile (fun c => decide (c ≠ 10)) := by
    rw [hstr]
    conv_lhs => rw [← List.takeWhile_append_dropWhile (p := fun c => decide (c ≠ 10)) (l := B), ← List.append_assoc]
    rw [List.take_left']
    rw [List.takeWhile_append_dropWhile]
    simp only [List.length_append, List.length_cons, List.length_nil]
  rw [h2, column_add _ _ (takeWhile_no B), column_append, if_neg h10, if_neg h9] at h1
  omega

theorem letters_bounds {str : List Nat} {w k ch : Nat} (hw : IsWidth str w) {fl : Flow} (hk : Stands (letters str fl) k ch) :
    columnNo ((letters str fl).take k) + 1 ≤ w ∧ lineNo ((letters str fl).take k) ≤ lineNo str := by
  constructor
  · cases fl with
    | backwards => exact reverse_width hw hk
    | _ => rw [← width_eq hw]; exact textsize_col hk
  · have h1 : lineNo ((letters str fl).take k) ≤ lineNo (letters str fl) := by
      unfold lineNo
      exact (List.take_sublist k _).count_le 10
    refine h1.trans (le_of_eq ?_)
    cases fl with
    | backwards => unfold letters lineNo; rw [List.count_reverse]
    | _ => rfl

theorem slant_bounds {scale : Int} (hs : 1 ≤ scale) {n i : Nat} (hi : i < n) (y : Int) :
    0 ≤ slant scale n y i ∧ slant scale n y i ≤ slant scale n 0 0 := by
  refine ⟨(C65_slant hs n y).1 i hi, ?_⟩
  unfold slant
  split_ifs
  · omega
  · exact mul_le_mul_of_nonneg_left (by omega) (by omega)

/-- The cell of a glyph. -/
theorem place_bounds {font : Bytes} {scale : Int} (hs : 1 ≤ scale) {st : Style} (hst : st = .upright ∨ st = .upsidedown ∨
    st = .mirrored ∨ st = .italic ∨ st = .italicmirrored) {i j : Nat} (hi : i < byte font 0) (hj : j < 8) (x y : Int) :
    (x ≤ (place scale (byte font 0) x y i j st).1 ∧
      (place scale (byte font 0) x y i j st).1 + scale ≤ x + 8 * scale + lean font scale st) ∧
    y ≤ (place scale (byte font 0) x y i j st).2 ∧
      (place scale (byte font 0) x y i j st).2 + scale ≤ y + byte font 0 * scale := by
  have hm : ∀ (a n : Nat), a < n → 0 ≤ (a : Int) * scale ∧ (a : Int) * scale + scale ≤ n * scale := by
    intro a n h
    refine ⟨mul_nonneg (by omega) (by omega), ?_⟩
    have : ((a : Int) + 1) * scale ≤ n * scale := mul_le_mul_of_nonneg_right (by omega) (by omega)
    rw [add_mul, one_mul] at this
    exact this
  have a1 := hm j 8 hj
  have a2 := hm (7 - j) 8 (by omega)
  have a3 := hm i _ hi
  have a4 := hm (byte font 0 - 1 - i) _ (show byte font 0 - 1 - i < byte font 0 by omega)
  have a5 := slant_bounds hs hi y
  rw [Nat.cast_ofNat] at a1 a2
  rcases hst with rfl | rfl | rfl | rfl | rfl <;> simp only [place, lean] <;> omega

/-- A text in a new image: every mark is inside. -/
theorem text_fits {str : List Nat} {w : Nat} (hw : IsWidth str w) {font : Bytes} {scale space : Int} (hs : 1 ≤ scale)
    (hsp : 0 ≤ space) {st : Style} (hst : st = .upright ∨ st = .upsidedown ∨ st = .mirrored ∨ st = .italic ∨ st = .italicmirrored)
    {fl : Flow} (hfl : fl ≠ .up) {k ch i j : Nat} (hk : Stands (letters str fl) k ch) (hi : i < byte font 0) (hj : j < 8) :
    (scale ≤ (dotAt font scale space scale scale str fl st k i j).1 ∧
      (dotAt font scale space scale scale str fl st k i j).1 + scale ≤ (textSize font scale space w (lineNo str + 1) st fl).1) ∧
    scale ≤ (dotAt font scale space scale scale str fl st k i j).2 ∧
      (dotAt font scale space scale scale str fl st k i j).2 + scale ≤ (textSize font scale space w (lineNo str + 1) st fl).2 := by
  have hcs : 8 * scale + 1 ≤ colStep scale space := by unfold colStep; split_ifs <;> omega
  have hl0 : 0 ≤ (byte font 0 : Int) * scale := mul_nonneg (by omega) (by omega)
  have hls : byte font 0 * scale + 1 ≤ lineStep font scale space := by unfold lineStep; split_ifs <;> omega
  obtain ⟨b1, b2⟩ := letters_bounds hw hk
  have hm : ∀ (a n : Nat) (s : Int), 0 ≤ s → a + 1 ≤ n → 0 ≤ (a : Int) * s ∧ (a : Int) * s + s ≤ n * s := by
    intro a n s h0 h
    refine ⟨mul_nonneg (by omega) h0, ?_⟩
    have : ((a : Int) + 1) * s ≤ n * s := mul_le_mul_of_nonneg_right (by omega) h0
    rw [add_mul, one_mul] at this
    exact this
  have a1 := hm _ _ (colStep scale space) (by omega) b1
  have a2 := hm _ _ (lineStep font scale space) (by omega) b1
  have a3 := hm _ (lineNo str + 1) (colStep scale space) (by omega) (Nat.succ_le_succ b2)
  have a4 := hm _ (lineNo str + 1) (lineStep font scale space) (by omega) (Nat.succ_le_succ b2)
  unfold dotAt
  have hp := place_bounds (font := font) hs hst hi hj
    (spot font scale space scale scale (columnNo ((letters str fl).take k)) (lineNo ((letters str fl).take k)) fl).1
    (spot font scale space scale scale (columnNo ((letters str fl).take k)) (lineNo ((letters str fl).take k)) fl).2
  generalize place scale (byte font 0) _ _ i j st = q at hp ⊢
  cases fl <;> simp only [spot, textSize] at hp ⊢ <;> first | omega | exact absurd rfl hfl

/-- The saving functions: a new image with its background, the text, and the file. -/
theorem FileFn.run_eq (f : FileFn) {str : List Nat} {w : Nat} (hw : IsWidth str w) {font : Bytes} (hf : font ≠ [])
    (fs : Files) (file : String) {scale pixspace space c : Int} (hs : 1 ≤ scale) (bg : Int) (bits W H : Nat)
    (hW : (W : Int) = (textSize font scale space w (lineNo str + 1) f.style f.flow).1)
    (hH : (H : Int) = (textSize font scale space w (lineNo str + 1) f.style f.flow).2) :
    f.run fs file str scale pixspace space c font bg bits = (do
      let b ← (do let bmp ← newBMP W H bits
                  (if bg > 0 then filledrect bmp 0 0 ((W : Int) - 1) ((H : Int) - 1) bg else pure bmp : Py Bytes))
      let b ← setText (glyphFn c f.shape f.style) (.one c) b scale scale str scale pixspace space font f.flow
      pure (writeFile fs file b)) := by
  have e1 : pyShl scale 3 + charSpace space = colStep scale space := by
    unfold colStep charSpace; rw [pyShl_3]; ring
  have e2 : (byte font 0 : Int) * scale + charSpace space = lineStep font scale space := rfl
  have e3 : computetextrowandcolcnt str = (w, lineNo str + 1) := Prod.ext (width_eq hw) (C67_textsize str).1
  have e5 : pyShl scale 1 = 2 * scale := by rw [pyShl_1]; ring
  have e6 : ∀ a : Int, (if scale > 1 then a + (byte font 0 : Int) * pyShr scale 1 else a + pyShr (byte font 0 : Int) 1) =
      a + slant scale (byte font 0) 0 0 := by
    intro a
    unfold slant
    rw [pyShr_1, pyShr_1]
    split_ifs
    · omega
    · push_cast; ring
    · push_cast; omega
    · omega
  simp only [bind_assoc]
  cases f
  all_goals
    simp only [FileFn.style, FileFn.flow, textSize, lean, add_zero] at hW hH
    simp only [FileFn.run, FileFn.shape, FileFn.style, FileFn.flow, Model.plotstring2file, Model.plotstringasdots2file,
      Model.plotitalicstring2file, Model.plotitalicstringasdots2file, Model.plotreversedstring2file, Model.plotreversedstringasdots2file,
      Model.plotreverseditalicstring2file, Model.plotupsidedownstring2file, Model.plotupsidedownstringasdots2file, Model.plotverticalstring2file,
      Model.plotverticalstringasdots2file, Model.plotverticalitalicstring2file, Model.plotverticalitalicstringasdots2file,
      plotstringfunc2file, plotstringverticalwithfn2file, textimage, textimagevertical, setText, plotstringfunc,
      plotstringverticalwithfn, height_ok hf, ok_bind, e1, e2, e3, e5, e6, Bool.false_eq_true, if_false, if_true, ← hW, ← hH,
      bind_assoc]
    rfl

/-- C136: the file written for a text shows, over the background, every dot of every visible character, none cut off;
no other file changes. -/
theorem C136_textfile_partial (f : FileFn) {str : List Nat} {w : Nat} (hw : IsWidth str w) {font : Bytes} (hf : font ≠ [])
    (hb : ∀ v ∈ font, v < 256) (hi : InFont font str) (fs : Files) (file : String) {bits : Nat} (hdep : Depth bits)
    {scale pixspace space c bg : Int} (hs : 1 ≤ scale) (hps : 0 ≤ pixspace) (hsp : 0 ≤ space)
    (hd : MarkOK bits scale pixspace c 0 f.shape) (hbg : bg ≤ 0 ∨ (IsColour bits bg ∧ (bits = 1 ∨ bits = 24))) {W H : Nat}
    (hW : (W : Int) = (textSize font scale space w (lineNo str + 1) f.style f.flow).1) (hW' : W < 2 ^ 24)
    (hH : (H : Int) = (textSize font scale space w (lineNo str + 1) f.style f.flow).2) (hH' : H < 2 ^ 24) :
    ∃ fs', f.run fs file str scale pixspace space c font bg bits = .ok fs' ∧ Saved fs fs' file (fun b =>
      Valid b W H bits ∧
      (∀ k ch i j px py : Nat, Stands (letters str f.flow) k ch → i < byte font 0 → Seen j f.style → Lit (glyph font ch) i j →
        FullMark scale pixspace (dotAt font scale space scale scale str f.flow f.style k i j).1
          (dotAt font scale space scale scale str f.flow f.style k i j).2 f.shape px py →
        px < W ∧ py < H ∧ pix b W H bits px py = reduce bits c) ∧
      (∀ px py : Nat, px < W → py < H → (∀ k ch i j : Nat, Stands (letters str f.flow) k ch → i < byte font 0 →
        Seen j f.style → Lit (glyph font ch) i j →
        ¬ FullMark scale pixspace (dotAt font scale space scale scale str f.flow f.style k i j).1
          (dotAt font scale space scale scale str f.flow f.style k i j).2 f.shape px py) →
        pix b W H bits px py = ground bits bg)) := by
  have hst : f.style = .upright ∨ f.style = .upsidedown ∨ f.style = .mirrored ∨ f.style = .italic ∨
      f.style = .italicmirrored := by cases f <;> simp [FileFn.style]
  have hfl : f.flow ≠ .up := by cases f <;> simp [FileFn.flow]
  have side := dotSide_le hs hps
  have side1 : 1 ≤ dotSide scale pixspace := by unfold dotSide; split_ifs <;> omega
  have hrad : 0 ≤ dotRadius scale pixspace ∧ 2 * dotRadius scale pixspace + 1 ≤ dotSide scale pixspace := by
    unfold dotRadius; omega
  have seen : ∀ j, Seen j f.style → j < 8 := by
    intro j hj
    rcases hst with e | e | e | e | e <;> rw [e] at hj <;> unfold Seen at hj <;> dsimp only at hj <;> omega
  have fits := fun k ch i j (hk : Stands (letters str f.flow) k ch) (hi : i < byte font 0) (hj : j < 8) =>
    text_fits (space := space) hw hs hsp hst hfl hk hi hj
  have hpos : 0 < W ∧ 0 < H := by
    have hcs : 0 ≤ colStep scale space := by unfold colStep; split_ifs <;> omega
    have hl0 : 0 ≤ (byte font 0 : Int) * scale := mul_nonneg (by omega) (by omega)
    have hls : 0 ≤ lineStep font scale space := by unfold lineStep; split_ifs <;> omega
    have hsl : 0 ≤ slant scale (byte font 0) 0 0 := by
      unfold slant
      split_ifs
      · omega
      · exact mul_nonneg (by omega) (by omega)
    have hlean : 0 ≤ lean font scale f.style := by unfold lean; cases f.style <;> dsimp only <;> omega
    have hm : ∀ (n : Nat) (a : Int), 0 ≤ a → 0 ≤ (n : Int) * a := fun n a ha => mul_nonneg (by omega) ha
    have a1 := hm w _ hcs
    have a2 := hm (lineNo str + 1) _ hcs
    have a3 := hm w _ hls
    have a4 := hm (lineNo str + 1) _ hls
    rw [textSize.eq_def] at hW hH
    revert hW hH
    cases f.flow <;> dsimp only <;> intro hW hH <;> omega
  obtain ⟨b0, e0, v0, g0⟩ := new_ground (bg := bg) hdep ⟨hpos.1, hW'⟩ ⟨hpos.2, hH'⟩ hbg
  have hmark : ∀ X : Int, 0 ≤ X → MarkOK bits scale pixspace c X f.shape := by
    intro X hX
    cases hsh : f.shape with
    | square => rw [hsh] at hd; exact hd
    | dot =>
      rw [hsh] at hd
      obtain ⟨d1, d2⟩ := hd
      refine ⟨d1, d2.imp_right fun d => ⟨d.1, d.2.imp_right fun d => ⟨d.1, by omega⟩⟩⟩
  obtain ⟨b', e, p⟩ := setText_paints (c := c) (pixspace := pixspace) v0 scale scale hf hb hi space hs f.flow f.shape f.style (by
    intro k ch i j hk hi hj
    apply hmark
    have := (fits k ch i j hk hi hj).1.1
    omega)
  refine ⟨writeFile fs file b', ?_, writeFile_saved fs file ⟨p.valid, ?_, ?_⟩⟩
  · rw [f.run_eq hw hf fs file hs bg bits W H hW hH, e0]
    simp only [ok_bind, e]
    rfl
  · intro k ch i j px py hk hi hj hl hq
    have ft := fits k ch i j hk hi (seen j hj)
    rw [← hW, ← hH] at ft
    have hin : px < W ∧ py < H := by
      cases hsh : f.shape with
      | square =>
        rw [hsh] at hq
        unfold FullMark FullSquare at hq
        dsimp only at hq
        omega
      | dot =>
        rw [hsh] at hq
        have := disc_bounds hq
        omega
    refine ⟨hin.1, hin.2, p.inside px py hin.1 hin.2 ⟨k, ch, i, j, hk, hi, hj, hl, ?_⟩⟩
    cases hsh : f.shape with
    | square =>
      rw [hsh] at hq
      unfold FullMark FullSquare at hq
      dsimp only at hq
      unfold Mark Square
      dsimp only
      omega
    | dot => rw [hsh] at hq; exact hq
  · intro px py hx hy hn
    rw [p.outside px py hx hy, g0 px py hx hy]
    rintro ⟨k, ch, i, j, hk, hi, hj, hl, hq⟩
    refine hn k ch i j hk hi hj hl ?_
    cases hsh : f.shape with
    | square => rw [hsh] at hq; exact hq.2
    | dot => rw [hsh] at hq; exact hq

/-! ### Mirrored and upside down texts -/

theorem breadth_append (u v : List Nat) : breadth (u ++ v) = breadth u + breadth v := by
  unfold breadth; rw [List.map_append, List.sum_append]

theorem takeWhile_all {l : List Nat} (h : 10 ∉ l) : l.takeWhile (fun c => decide (c ≠ 10)) = l := by
  induction l with
  | nil => rfl
  | cons a l ih =>
    rw [List.mem_cons, not_or] at h
    rw [List.takeWhile_cons, ih h.2]
    have h1 : a ≠ 10 := fun e => h.1 e.symm
    simp [h1]

theorem column_line {l : List Nat} (h : 10 ∉ l) : columnNo l = breadth l := by
  have := column_add [] l h
  simpa [columnNo] using this

theorem lineNo_line {l : List Nat} (h : 10 ∉ l) : lineNo l = 0 := List.count_eq_zero.mpr h

/-- Reading a line backwards: the character of column `k` comes in column `width - 1 - k`. -/
theorem backwards_line {str : List Nat} (h10 : 10 ∉ str) {k ch : Nat} (hk : Stands str k ch) :
    Stands str.reverse (str.length - 1 - k) ch ∧ k < str.length ∧
      columnNo (str.reverse.take (str.length - 1 - k)) + columnNo (str.take k) + 1 = columnNo str := by
  obtain ⟨hk, hn⟩ := hk
  obtain ⟨hlt, hch⟩ := List.getElem?_eq_some_iff.mp hk
  have hsplit : str = str.take k ++ ch :: str.drop (k + 1) := by
    rw [← hch, ← List.drop_eq_getElem_cons hlt, List.take_append_drop]
  have hrev : str.reverse.take (str.length - 1 - k) = (str.drop (k + 1)).reverse := by
    rw [List.take_reverse, show str.length - (str.length - 1 - k) = k + 1 by omega]
  have n1 : 10 ∉ str.take k := fun h => h10 (List.mem_of_mem_take h)
  have n2 : 10 ∉ str.drop (k + 1) := fun h => h10 (List.mem_of_mem_drop h)
  refine ⟨⟨?_, hn⟩, hlt, ?_⟩
  · rw [List.getElem?_reverse (by omega), show str.length - 1 - (str.length - 1 - k) = k by omega, hk]
  · rw [hrev, column_reverse, takeWhile_all n2, column_line n1, column_line h10]
    conv_rhs => rw [hsplit]
    rw [breadth_append, show ch :: str.drop (k + 1) = [ch] ++ str.drop (k + 1) from rfl, breadth_append]
    simp [breadth, hn.2]
    omega

/-- The pixels from `x` that a line of text takes. -/
def lineLength (str : List Nat) (scale space : Int) : Int :=
  columnNo str * colStep scale space - (if space = 0 then 1 else space)

/-- The pixels of a mirrored line are the same from the right as those of the line from the left. -/
theorem mirrored_sets {W H : Nat} {x y : Int} {str : List Nat} (h10 : 10 ∉ str) {font : Bytes} {scale space : Int}
    (hlast : ∀ k ch i, Stands str k ch → i < byte font 0 → ¬ Lit (glyph font ch) i 7) {px py qx : Nat}
    (hq : (px : Int) + qx = 2 * x + lineLength str scale space - 1)
    (hfit : 0 ≤ x ∧ x + lineLength str scale space ≤ W) (hs : 1 ≤ scale) (hsp : 0 ≤ space) :
    (∃ k ch i j : Nat, Stands (letters str .backwards) k ch ∧ i < byte font 0 ∧ Seen j .mirrored ∧ Lit (glyph font ch) i j ∧
        Mark W H scale 0 (dotAt font scale space x y str .backwards .mirrored k i j).1
          (dotAt font scale space x y str .backwards .mirrored k i j).2 .square px py) ↔
    (∃ k ch i j : Nat, Stands (letters str .across) k ch ∧ i < byte font 0 ∧ Seen j .upright ∧ Lit (glyph font ch) i j ∧
        Mark W H scale 0 (dotAt font scale space x y str .across .upright k i j).1
          (dotAt font scale space x y str .across .upright k i j).2 .square qx py) := by
  have side : dotSide scale 0 = scale := by unfold dotSide; split_ifs <;> omega
  have h10r : 10 ∉ str.reverse := fun h => h10 (List.mem_reverse.mp h)
  have hcs : colStep scale space = 8 * scale + (if space = 0 then 1 else space) := rfl
  -- one dot, seen from both sides
  have key : ∀ k k' i j : Nat, j < 8 → lineNo (str.take k) = 0 → lineNo (str.reverse.take k') = 0 →
      columnNo (str.reverse.take k') + columnNo (str.take k) + 1 = columnNo str →
      (Mark W H scale 0 (dotAt font scale space x y str .backwards .mirrored k' i j).1
          (dotAt font scale space x y str .backwards .mirrored k' i j).2 .square px py ↔
        Mark W H scale 0 (dotAt font scale space x y str .across .upright k i j).1
          (dotAt font scale space x y str .across .upright k i j).2 .square qx py) := by
    intro k k' i j hj l1 l2 hc
    simp only [Mark, side, dotAt, place, spot, letters, l1, l2]
    have e1 : (columnNo str : Int) * colStep scale space = columnNo (str.reverse.take k') * colStep scale space +
        columnNo (str.take k) * colStep scale space + colStep scale space := by
      rw [← hc]; push_cast; ring
    have e2 : ((7 - j : Nat) : Int) * scale + j * scale + scale = 8 * scale := by
      rw [← add_mul]
      have : ((7 - j : Nat) : Int) + j = 7 := by omega
      rw [this]; ring
    have a1 : 0 ≤ (columnNo (str.reverse.take k') : Int) * colStep scale space :=
      mul_nonneg (by omega) (by rw [hcs]; split_ifs <;> omega)
    have a2 : 0 ≤ (columnNo (str.take k) : Int) * colStep scale space :=
      mul_nonneg (by omega) (by rw [hcs]; split_ifs <;> omega)
    have a3 : 0 ≤ ((7 - j : Nat) : Int) * scale := mul_nonneg (by omega) (by omega)
    have a4 : 0 ≤ (j : Int) * scale := mul_nonneg (by omega) (by omega)
    unfold lineLength at hq hfit
    unfold Square
    generalize (columnNo (str.reverse.take k') : Int) * colStep scale space = u at *
    generalize (columnNo (str.take k) : Int) * colStep scale space = v at *
    generalize ((7 - j : Nat) : Int) * scale = m at *
    generalize (j : Int) * scale = n at *
    generalize (if space = 0 then (1 : Int) else space) = g at *
    constructor <;> (intro h; omega)
  have zero : ∀ {l : List Nat} (k : Nat), 10 ∉ l → lineNo (l.take k) = 0 :=
    fun k h => lineNo_line (fun h' => h (List.mem_of_mem_take h'))
  constructor
  · rintro ⟨k', ch, i, j, hk, hi, hj, hl, hm⟩
    have hj : j < 7 := hj
    have hk : Stands str.reverse k' ch := hk
    obtain ⟨b1, b2, b3⟩ := backwards_line h10r hk
    rw [List.reverse_reverse, List.length_reverse] at b1 b3
    rw [List.length_reverse] at b2
    refine ⟨str.length - 1 - k', ch, i, j, b1, hi, (show j < 8 by omega), hl, ?_⟩
    refine (key _ k' i j (by omega) (zero _ h10) (zero _ h10r) ?_).mp hm
    have : columnNo str.reverse = columnNo str := by
      rw [column_line h10r, column_line h10]; unfold breadth; rw [List.map_reverse, List.sum_reverse]
    omega
  · rintro ⟨k, ch, i, j, hk, hi, hj, hl, hm⟩
    have hj : j < 8 := hj
    have hk : Stands str k ch := hk
    obtain ⟨b1, b2, b3⟩ := backwards_line h10 hk
    have h7 : j ≠ 7 := fun e => hlast k ch i hk hi (e ▸ hl)
    refine ⟨str.length - 1 - k, ch, i, j, b1, hi, (show j < 7 by omega), hl, ?_⟩
    exact (key k _ i j hj (zero _ h10) (zero _ h10r) b3).mpr hm

/-- C137: a line of text set by `plotreversestring` on a plain ground is the mirror image of the same line set by
`plotstring` (for glyphs with an empty last column and no gaps between the squares). -/
theorem C137_mirror_partial {b : Bytes} {W H bits : Nat} (h : Valid b W H bits) {x y : Int} {str : List Nat} (h10 : 10 ∉ str)
    {font : Bytes} (hf : font ≠ []) (hb : ∀ v ∈ font, v < 256) (hi : InFont font str) {scale space c : Int}
    (hs : 1 ≤ scale) (hsp : 0 ≤ space) (hd : DotOK bits scale 0 c)
    (hlast : ∀ k ch i, Stands str k ch → i < byte font 0 → ¬ Lit (glyph font ch) i 7)
    (hfit : 0 ≤ x ∧ x + lineLength str scale space ≤ W) (hplain : ∃ g, ∀ px py, px < W → py < H → pix b W H bits px py = g) :
    ∃ b1 b2, plotstring b x y str scale 0 space (.one c) font = .ok b1 ∧
      plotreversestring b x y str scale 0 space c font = .ok b2 ∧
      ∀ px qx py : Nat, px < W → qx < W → py < H → (px : Int) + qx = 2 * x + lineLength str scale space - 1 →
        pix b2 W H bits px py = pix b1 W H bits qx py := by
  obtain ⟨b1, e1, p1⟩ := C135_text_exact h x y hf hb hi space hs .plotstring (pixspace := 0) (c := c) (fun _ _ _ _ _ _ _ => hd)
  obtain ⟨b2, e2, p2⟩ := C135_text_exact h x y hf hb hi space hs .plotreversestring (pixspace := 0) (c := c)
    (fun _ _ _ _ _ _ _ => hd)
  obtain ⟨g, hg⟩ := hplain
  refine ⟨b1, b2, e1, e2, ?_⟩
  intro px qx py hx hqx hy hq
  have key := mirrored_sets (H := H) (y := y) (py := py) h10 hlast hq hfit hs hsp
  by_cases hin : ∃ k ch i j : Nat, Stands (letters str .backwards) k ch ∧ i < byte font 0 ∧ Seen j .mirrored ∧
      Lit (glyph font ch) i j ∧ Mark W H scale 0 (dotAt font scale space x y str .backwards .mirrored k i j).1
          (dotAt font scale space x y str .backwards .mirrored k i j).2 .square px py
  · rw [p2.inside px py hx hy hin, p1.inside qx py hqx hy (key.mp hin)]
  · rw [p2.outside px py hx hy hin, p1.outside qx py hqx hy (fun h => hin (key.mpr h)), hg _ _ hx hy, hg _ _ hqx hy]

/-- Two characters of `tinyFont` without a last column: the line reads from the right. -/
example : (do let b ← newBMP 17 2 24
              let b1 ← plotstring b 0 0 [0, 1] 1 0 1 (.one 7) tinyFont
              let b2 ← plotreversestring b 0 0 [0, 1] 1 0 1 7 tinyFont
              pure ((List.range 2).map fun y => ((List.range 17).filter (fun x => pix b1 17 2 24 x y = 7),
                (List.range 17).filter (fun x => pix b2 17 2 24 x y = 7)))) =
    .ok [([0, 9, 10], [6, 7, 16]), ([1, 10], [6, 15])] := by decide +kernel

/-- C137 is false for several lines: the last line comes first. -/
theorem C137_lines_wrong :
    (do let b ← newBMP 8 5 24
        let b1 ← plotstring b 0 0 [0, 10, 1] 1 0 1 (.one 7) tinyFont
        let b2 ← plotreversestring b 0 0 [0, 10, 1] 1 0 1 7 tinyFont
        pure ((List.range 5).map fun y => ((List.range 8).filter (fun x => pix b1 8 5 24 x y = 7),
          (List.range 8).filter (fun x => pix b2 8 5 24 x y = 7)))) =
    .ok [([0], [6, 7]), ([1], [6]), ([], []), ([0, 1], [7]), ([1], [6])] := by decide +kernel

/-- C137 is false for upside down texts: with squares the letters are in reverse order, with dots they are not, so at
scale 1, where squares and dots are single pixels, the two functions show different texts. -/
theorem C137_upsidedown_wrong :
    (do let b ← newBMP 17 2 24
        let b1 ← plotstringupsidedown b 0 0 [0, 1] 1 0 1 (.one 7) tinyFont
        let b2 ← plotstringupsidedownasdots b 0 0 [0, 1] 1 0 1 (.one 7) tinyFont
        pure ((List.range 2).map fun y => ((List.range 17).filter (fun x => pix b1 17 2 24 x y = 7),
          (List.range 17).filter (fun x => pix b2 17 2 24 x y = 7)))) =
    .ok [([1, 10], [1, 10]), ([0, 1, 9], [0, 9, 10])] := by decide +kernel

/-- C137: one line of text set by `plotstringupsidedown` is the picture that `plotstring` shows of the reversed line, with
top and bottom exchanged (not of the line itself). -/
theorem C137_upsidedown_exact {b : Bytes} {W H bits : Nat} (h : Valid b W H bits) {x y : Int} {str : List Nat} (h10 : 10 ∉ str)
    {font : Bytes} (hf : font ≠ []) (hb : ∀ v ∈ font, v < 256) (hi : InFont font str) {scale space c : Int}
    (hs : 1 ≤ scale) (hd : DotOK bits scale 0 c)
    (hfit : 0 ≤ y ∧ y + byte font 0 * scale ≤ H) (hplain : ∃ g, ∀ px py, px < W → py < H → pix b W H bits px py = g) :
    ∃ b1 b2, plotstring b x y str.reverse scale 0 space (.one c) font = .ok b1 ∧
      plotstringupsidedown b x y str scale 0 space (.one c) font = .ok b2 ∧
      ∀ px py qy : Nat, px < W → py < H → qy < H → (py : Int) + qy = 2 * y + byte font 0 * scale - 1 →
        pix b2 W H bits px py = pix b1 W H bits px qy := by
  have hi' : InFont font str.reverse := inFont_letters hi .backwards
  have h10r : 10 ∉ str.reverse := fun h => h10 (List.mem_reverse.mp h)
  obtain ⟨b1, e1, p1⟩ := C135_text_exact h x y hf hb hi' space hs .plotstring (pixspace := 0) (c := c) (fun _ _ _ _ _ _ _ => hd)
  obtain ⟨b2, e2, p2⟩ := C135_text_exact h x y hf hb hi space hs .plotstringupsidedown (pixspace := 0) (c := c)
    (fun _ _ _ _ _ _ _ => hd)
  obtain ⟨g, hg⟩ := hplain
  have side : dotSide scale 0 = scale := by unfold dotSide; split_ifs <;> omega
  refine ⟨b1, b2, e1, e2, ?_⟩
  intro px py qy hx hy hqy hq
  have zero : ∀ k, lineNo (str.reverse.take k) = 0 := fun k => lineNo_line (fun h' => h10r (List.mem_of_mem_take h'))
  have dot : ∀ k i j : Nat, i < byte font 0 →
      (Mark W H scale 0 (dotAt font scale space x y str .backwards .upsidedown k i j).1
        (dotAt font scale space x y str .backwards .upsidedown k i j).2 .square px py ↔
      Mark W H scale 0 (dotAt font scale space x y str.reverse .across .upright k i j).1
        (dotAt font scale space x y str.reverse .across .upright k i j).2 .square px qy) := by
    intro k i j hi
    simp only [Mark, side, dotAt, place, spot, letters, zero]
    have e2 : ((byte font 0 - 1 - i : Nat) : Int) * scale + i * scale + scale = byte font 0 * scale := by
      rw [← add_mul]
      have : ((byte font 0 - 1 - i : Nat) : Int) + i = byte font 0 - 1 := by omega
      rw [this]; ring
    have a3 : 0 ≤ ((byte font 0 - 1 - i : Nat) : Int) * scale := mul_nonneg (by omega) (by omega)
    have a4 : 0 ≤ (i : Int) * scale := mul_nonneg (by omega) (by omega)
    unfold Square
    generalize ((byte font 0 - 1 - i : Nat) : Int) * scale = m at *
    generalize (i : Int) * scale = n at *
    generalize (byte font 0 : Int) * scale = t at *
    generalize x + (columnNo (str.reverse.take k) : Int) * colStep scale space + (j : Int) * scale = u at *
    push_cast
    constructor <;> (intro h; omega)
  by_cases hin : ∃ k ch i j : Nat, Stands (letters str .backwards) k ch ∧ i < byte font 0 ∧ Seen j .upsidedown ∧
      Lit (glyph font ch) i j ∧ Mark W H scale 0 (dotAt font scale space x y str .backwards .upsidedown k i j).1
          (dotAt font scale space x y str .backwards .upsidedown k i j).2 .square px py
  · have hin' := hin
    obtain ⟨k, ch, i, j, hk, hi, hj, hl, hm⟩ := hin
    rw [p2.inside px py hx hy hin', p1.inside px qy hx hqy ⟨k, ch, i, j, hk, hi, hj, hl, (dot k i j hi).mp hm⟩]
  · rw [p2.outside px py hx hy hin, p1.outside px qy hx hqy, hg _ _ hx hy, hg _ _ hx hqy]
    rintro ⟨k, ch, i, j, hk, hi, hj, hl, hm⟩
    exact hin ⟨k, ch, i, j, hk, hi, hj, hl, (dot k i j hi).mpr hm⟩

/-! ### Examples -/

/-- Discs of radius 1 in cells of 4 pixels: a plus sign for every set bit. -/
example : (do let b ← newBMP 8 3 24; let b ← plot8bitpatternasdots b 0 0 [192] 4 0 (.one 7)
              pure ((List.range 3).map fun y => (List.range 8).filter (fun x => pix b 8 3 24 x y = 7))) =
    .ok [[1, 5], [0, 1, 2, 4, 5, 6], [1, 5]] := by decide +kernel

/-- Going up, with dots. -/
example : (do let b ← newBMP 2 10 24; let b ← plotstringsidewayasdots b 0 9 [0, 1] 1 0 1 (.one 7) tinyFont
              pure ((List.range 10).map fun y => (List.range 2).filter (fun x => pix b 2 10 24 x y = 7))) =
    .ok [[0], [], [], [], [], [], [], [], [1], [0]] := by decide +kernel

/-- A file with a vertical text. -/
example : (do let fs ← plotverticalstringasdots2file (fun _ => none) "t.bmp" [0, 1] 1 0 0 (.one 7) tinyFont 3 24
              match fs "t.bmp" with
              | some b => pure ((List.range 8).map fun y => (List.range 4).map fun x => pix b 11 8 24 x y)
              | none => .error .keyError) =
    .ok [[3, 3, 3, 3], [3, 7, 3, 3], [3, 3, 7, 3], [3, 3, 3, 3], [3, 7, 7, 3], [3, 3, 7, 3], [3, 3, 3, 3], [3, 3, 3, 3]] := by
  decide +kernel

end Verif.Props.Dots
