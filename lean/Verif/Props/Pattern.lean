import Verif.Lemmas.Pattern
import Verif.Props.Rect
import Verif.Props.Horizontal
import Verif.Props.Create
/-! C48 and C61 to C65: glyphs. -/

namespace Verif.Props
open Verif Spec Model Lemmas

/-- The cases in which the squares come out right: single pixels always; bigger squares on 1-bit and 24-bit images
(`filledrect` is wrong on the others, see C21 and C22). -/
def DotOK (bits : Nat) (scale pixspace c : Int) : Prop :=
  (bits = 24 → 0 ≤ c ∧ c < 2 ^ 24) ∧ (dotSide scale pixspace = 1 ∨ (IsColour bits c ∧ (bits = 1 ∨ bits = 24)))

theorem patPut_square {W H bits : Nat} {scale pixspace c : Int} (hd : DotOK bits scale pixspace c) {b : Bytes}
    (h : Valid b W H bits) (x y : Int) :
    ∃ b', patPut patSquare scale (scale - 1 - pixspace) c b x y = .ok b' ∧
      Paints b b' W H bits (Square W H (dotSide scale pixspace) x y) (reduce bits c) := by
  unfold patPut
  by_cases hs : scale = 1 ∨ scale - 1 - pixspace ≤ 0
  · have h1 : dotSide scale pixspace = 1 := by unfold dotSide; split_ifs <;> omega
    rw [if_pos hs, h1]
    obtain ⟨b', e, p⟩ := plot_paints h x y hd.1
    refine ⟨b', e, p.congr ?_⟩
    intro px py hx hy
    unfold Square
    omega
  · have h1 : dotSide scale pixspace = scale - pixspace := by unfold dotSide; rw [if_neg (by omega)]; omega
    obtain ⟨hc, hb⟩ : IsColour bits c ∧ (bits = 1 ∨ bits = 24) := by
      rcases hd.2 with h2 | h2
      · omega
      · exact h2
    rw [if_neg hs, h1, reduce_of_colour h.depth hc]
    unfold patSquare
    by_cases hin : (0 ≤ x ∧ x < W ∧ 0 ≤ y ∧ y < H) ∧
        (0 ≤ x + (scale - 1 - pixspace) ∧ x + (scale - 1 - pixspace) < W ∧
         0 ≤ y + (scale - 1 - pixspace) ∧ y + (scale - 1 - pixspace) < H)
    · obtain ⟨b', e, p⟩ := C21_filledrect_partial (color := c) h hin.1 hin.2 hc (by omega)
      refine ⟨b', e, p.congr ?_⟩
      intro px py hx hy
      unfold Square RectSet
      omega
    · refine ⟨b, C21_rejected h c hin, Paints.refl h _ ?_⟩
      intro px py hx hy
      unfold Square
      omega

/-- C61: `plot8bitpattern` paints, for every set bit, the square at the scaled position, and nothing else.
Squares that are partly outside the image are not painted at all. -/
theorem C61_pattern_partial {b : Bytes} {W H bits : Nat} (h : Valid b W H bits) (x y : Int) (pat : List Nat)
    {scale pixspace c : Int} (hd : DotOK bits scale pixspace c) :
    ∃ b', plot8bitpattern b x y pat scale pixspace (.one c) = .ok b' ∧ Paints b b' W H bits (fun px py =>
      ∃ i j : Nat, i < pat.length ∧ j < 8 ∧ Lit pat i j ∧
        Square W H (dotSide scale pixspace) (x + j * scale) (y + i * scale) px py) (reduce bits c) := by
  obtain ⟨b', e, p⟩ := patRows_one (steps := 1) (dx := scale) (dy := 0) (next := fun p => (p.1, p.2 + scale)) pat
    (fun i => (x, y + i * scale)) (by intro i; simp; ring) (reduce bits c) (fun b hb x y => patPut_square hd hb x y) h
  refine ⟨b', ?_, p.congr ?_⟩
  · rw [show ((x, y + ((0 : Nat) : Int) * scale) : Int × Int) = (x, y) by simp] at e
    exact e
  · intro px py _ _
    simp

theorem square_one {W H px py : Nat} {x y : Int} (hx : px < W) (hy : py < H) :
    Square W H 1 x y px py ↔ (px : Int) = x ∧ (py : Int) = y := by unfold Square; omega

/-- C48: at scale 1 exactly the pixels `(x + j, y + i)` with the bit set are painted. -/
theorem C48_plot8bitpattern {b : Bytes} {W H bits : Nat} (h : Valid b W H bits) (x y : Int) (pat : List Nat)
    (pixspace : Int) {c : Int} (hc : bits = 24 → 0 ≤ c ∧ c < 2 ^ 24) :
    ∃ b', plot8bitpattern b x y pat 1 pixspace (.one c) = .ok b' ∧ Paints b b' W H bits (fun px py =>
      ∃ i j : Nat, i < pat.length ∧ j < 8 ∧ pat.getD i 0 / 2 ^ (7 - j) % 2 = 1 ∧ (px : Int) = x + j ∧ (py : Int) = y + i)
      (reduce bits c) := by
  obtain ⟨b', e, p⟩ := C61_pattern_partial h x y pat (scale := 1) (pixspace := pixspace) (c := c)
    ⟨hc, Or.inl (by unfold dotSide; simp)⟩
  refine ⟨b', e, p.congr ?_⟩
  intro px py hx hy
  simp only [show dotSide 1 pixspace = 1 by unfold dotSide; simp, square_one hx hy, mul_one]
  rfl

/-- The glyph 0b10000001, 0b00000011, half off the left border. -/
example : (do let b ← newBMP 9 2 24; let b ← plot8bitpattern b (-1) 0 [129, 3] 1 0 (.one 5)
              pure ((List.range 9).map fun x => (pix b 9 2 24 x 0, pix b 9 2 24 x 1))) =
    .ok [(0, 0), (0, 0), (0, 0), (0, 0), (0, 0), (0, 5), (5, 5), (0, 0), (0, 0)] := by decide +kernel

example : (do let b ← newBMP 5 4 1; let b ← plot8bitpattern b 0 0 [64, 192] 2 0 (.one 1)
              pure ((List.range 4).map fun y => (List.range 5).map fun x => pix b 5 4 1 x y)) =
    .ok [[0, 0, 1, 1, 0], [0, 0, 1, 1, 0], [1, 1, 1, 1, 0], [1, 1, 1, 1, 0]] := by decide +kernel

/-- C48: with a list of colours row `i` is painted in colour number `i` of the list, counted round and
round. -/
theorem C48_colours {b : Bytes} {W H bits : Nat} (h : Valid b W H bits) (x y : Int) (pat : List Nat)
    {scale pixspace : Int} {cs : List Int} (hcs : cs ≠ []) (hs : 1 ≤ scale) (hp : 0 ≤ pixspace)
    (hd : ∀ c ∈ cs, DotOK bits scale pixspace c) :
    ∃ b', plot8bitpattern b x y pat scale pixspace (.cycle cs) = .ok b' ∧ Valid b' W H bits ∧ SameHeader b b' bits ∧
      (∀ i j px py : Nat, i < pat.length → j < 8 → px < W → py < H → Lit pat i j →
        Square W H (dotSide scale pixspace) (x + j * scale) (y + i * scale) px py →
        pix b' W H bits px py = reduce bits (cs.getD (i % cs.length) 0)) ∧
      (∀ px py : Nat, px < W → py < H → (∀ i j : Nat, i < pat.length → j < 8 → Lit pat i j →
        ¬ Square W H (dotSide scale pixspace) (x + j * scale) (y + i * scale) px py) →
        pix b' W H bits px py = pix b W H bits px py) := by
  obtain ⟨b', e, v, s, o, k⟩ := patRows_cycle (steps := 1) (dx := scale) (dy := 0)
    (next := fun p => (p.1, p.2 + scale)) hcs pat (fun i => (x, y + i * scale)) (by intro i; simp; ring) (reduce bits)
    (fun c hc b hb x y => patPut_square (hd c hc) hb x y) h
  have hside : dotSide scale pixspace ≤ scale := by unfold dotSide; split_ifs <;> omega
  refine ⟨b', ?_, v, s, ?_, ?_⟩
  · rw [show ((x, y + ((0 : Nat) : Int) * scale) : Int × Int) = (x, y) by simp] at e
    exact e
  · intro i j px py hi hj hx hy hl hq
    rw [k i px py hi hx hy ⟨j, hj, hl, by simpa using hq⟩, one_mul]
    rintro i' h1 h2 ⟨j', hj', hl', hq'⟩
    have hm : (i : Int) * scale + scale ≤ i' * scale := by
      have : ((i : Int) + 1) * scale ≤ i' * scale := Int.mul_le_mul_of_nonneg_right (by omega) (by omega)
      linarith [this, add_mul (i : Int) 1 scale]
    simp only [mul_zero, add_zero] at hq'
    unfold Square at hq hq'
    omega
  · intro px py hx hy hn
    refine o px py hx hy ?_
    rintro i hi ⟨j, hj, hl, hq⟩
    exact hn i j hi hj hl (by simpa using hq)

example : (do let b ← newBMP 2 3 24; let b ← plot8bitpattern b 0 0 [128, 64, 192] 1 0 (.cycle [7, 9])
              pure ((List.range 3).map fun y => (List.range 2).map fun x => pix b 2 3 24 x y)) =
    .ok [[7, 0], [0, 9], [7, 7]] := by decide +kernel

/-- C48: an empty list of colours is an error as soon as there is a row. -/
theorem C48_no_colours (b : Bytes) (x y : Int) (v : Nat) (pat : List Nat) (scale pixspace : Int) :
    plot8bitpattern b x y (v :: pat) scale pixspace (.cycle []) = .error .indexError := rfl

/-! ### Upside down -/

theorem lit_reverse {pat : List Nat} {i j : Nat} (hi : i < pat.length) :
    Lit pat.reverse i j ↔ Lit pat (pat.length - 1 - i) j := by
  unfold Lit
  have h1 : pat.reverse.getD i 0 = pat.getD (pat.length - 1 - i) 0 := by
    rw [List.getD_eq_getElem?_getD, List.getD_eq_getElem?_getD, List.getElem?_reverse hi]
  rw [h1]

/-- C62: `plot8bitpatternupsidedown` paints the glyph with its rows exchanged top to bottom, in the same place. -/
theorem C62_upsidedown_partial {b : Bytes} {W H bits : Nat} (h : Valid b W H bits) (x y : Int) (pat : List Nat)
    {scale pixspace c : Int} (hd : DotOK bits scale pixspace c) :
    ∃ b', plot8bitpatternupsidedown b x y pat scale pixspace (.one c) = .ok b' ∧ Paints b b' W H bits (fun px py =>
      ∃ i j : Nat, i < pat.length ∧ j < 8 ∧ Lit pat i j ∧
        Square W H (dotSide scale pixspace) (x + j * scale) (y + ((pat.length - 1 - i : Nat) : Int) * scale) px py)
      (reduce bits c) := by
  obtain ⟨b', e, p⟩ := C61_pattern_partial h x y pat.reverse hd
  refine ⟨b', e, p.congr ?_⟩
  intro px py _ _
  rw [List.length_reverse]
  constructor
  · rintro ⟨i, j, hi, hj, hl, hq⟩
    refine ⟨pat.length - 1 - i, j, by omega, hj, ?_, hq⟩
    rw [lit_reverse (by omega), show pat.length - 1 - (pat.length - 1 - i) = i by omega]
    exact hl
  · rintro ⟨i, j, hi, hj, hl, hq⟩
    refine ⟨pat.length - 1 - i, j, by omega, hj, (lit_reverse hi).mp hl, ?_⟩
    rw [show pat.length - 1 - (pat.length - 1 - i) = i by omega]
    exact hq

example : (do let b ← newBMP 2 3 24; let b ← plot8bitpatternupsidedown b 0 0 [128, 64, 192] 1 0 (.one 7)
              pure ((List.range 3).map fun y => (List.range 2).map fun x => pix b 2 3 24 x y)) =
    .ok [[7, 7], [0, 7], [7, 0]] := by decide +kernel

/-! ### Mirrored -/

theorem lit_rotate {pat : List Nat} (hp : ∀ v ∈ pat, v < 256) {i j : Nat} (hi : i < pat.length) (hj : j < 8) :
    Lit (pat.map rotatebits) i j ↔ j ≠ 0 ∧ Lit pat i (7 - j) := by
  unfold Lit
  have h1 : (pat.map rotatebits).getD i 0 = rotatebits pat[i] := by
    rw [List.getD_eq_getElem?_getD, List.getElem?_map, List.getElem?_eq_getElem hi]; rfl
  have h2 : pat.getD i 0 = pat[i] := by rw [List.getD_eq_getElem?_getD, List.getElem?_eq_getElem hi]; rfl
  rw [h1, h2, rotatebits_bit _ (hp _ (List.getElem_mem hi)) (7 - j) (by omega)]
  by_cases h0 : j = 0
  · subst h0; simp
  · rw [if_neg (by omega)]
    simp [h0]

/-- C63: what `plotrotated8bitpattern` does: the mirrored glyph without its last column. -/
theorem C63_exact {b : Bytes} {W H bits : Nat} (h : Valid b W H bits) (x y : Int) {pat : List Nat}
    (hp : ∀ v ∈ pat, v < 256) {scale pixspace c : Int} (hd : DotOK bits scale pixspace c) :
    ∃ b', plotrotated8bitpattern b x y pat scale pixspace c = .ok b' ∧ Paints b b' W H bits (fun px py =>
      ∃ i j : Nat, i < pat.length ∧ j < 7 ∧ Lit pat i j ∧
        Square W H (dotSide scale pixspace) (x + ((7 - j : Nat) : Int) * scale) (y + i * scale) px py)
      (reduce bits c) := by
  obtain ⟨b', e, p⟩ := C61_pattern_partial h x y (pat.map rotatebits) hd
  refine ⟨b', e, p.congr ?_⟩
  intro px py _ _
  rw [List.length_map]
  constructor
  · rintro ⟨i, j, hi, hj, hl, hq⟩
    refine ⟨i, 7 - j, hi, by omega, ?_, hq⟩
    rw [lit_rotate hp hi (by omega), show 7 - (7 - j) = j by omega]
    exact ⟨by omega, hl⟩
  · rintro ⟨i, j, hi, hj, hl, hq⟩
    obtain ⟨h0, hl⟩ := (lit_rotate hp hi hj).mp hl
    refine ⟨i, 7 - j, hi, by omega, hl, ?_⟩
    rw [show 7 - (7 - j) = j by omega]
    exact hq

/-- C63 holds for glyphs with an empty last column. -/
theorem C63_mirrored_partial {b : Bytes} {W H bits : Nat} (h : Valid b W H bits) (x y : Int) {pat : List Nat}
    (hp : ∀ v ∈ pat, v < 256) (hlast : ∀ i, i < pat.length → ¬ Lit pat i 7) {scale pixspace c : Int}
    (hd : DotOK bits scale pixspace c) :
    ∃ b', plotrotated8bitpattern b x y pat scale pixspace c = .ok b' ∧ Paints b b' W H bits (fun px py =>
      ∃ i j : Nat, i < pat.length ∧ j < 8 ∧ Lit pat i j ∧
        Square W H (dotSide scale pixspace) (x + ((7 - j : Nat) : Int) * scale) (y + i * scale) px py)
      (reduce bits c) := by
  obtain ⟨b', e, p⟩ := C63_exact h x y hp hd
  refine ⟨b', e, p.congr ?_⟩
  intro px py _ _
  constructor
  · rintro ⟨i, j, hi, hj, hl, hq⟩
    have : j ≠ 7 := fun e => hlast i hi (e ▸ hl)
    exact ⟨i, j, hi, by omega, hl, hq⟩
  · rintro ⟨i, j, hi, hj, hl, hq⟩
    exact ⟨i, j, hi, by omega, hl, hq⟩

/-- C63 is false: the dot in the last column disappears. -/
theorem C63_false : ¬ ∀ (b : Bytes) (W H : Nat), Valid b W H 24 → ∀ (pat : List Nat), (∀ v ∈ pat, v < 256) →
    ∃ b', plotrotated8bitpattern b 0 0 pat 1 0 7 = .ok b' ∧ Paints b b' W H 24 (fun px py =>
      ∃ i j : Nat, i < pat.length ∧ j < 8 ∧ Lit pat i j ∧ px = 7 - j ∧ py = i) 7 := by
  intro hall
  obtain ⟨b, e, hv, -, -, -, -, hz, -⟩ := C01_newBMP_valid 1 1 24 (by unfold Depth; omega) (by norm_num) (by norm_num)
  obtain ⟨b', e', p⟩ := hall b 1 1 hv [1] (by simp)
  have h1 := p.inside 0 0 (by omega) (by omega) ⟨0, 7, by simp, by omega, by decide, rfl, rfl⟩
  obtain ⟨b2, e2, p2⟩ := C63_exact (c := 7) (scale := 1) (pixspace := 0) hv 0 0 (pat := [1]) (by simp)
    ⟨by norm_num, Or.inl (by unfold dotSide; simp)⟩
  rw [e'] at e2
  obtain rfl : b' = b2 := by injection e2
  have h2 := p2.outside 0 0 (by omega) (by omega) (by
    rintro ⟨i, j, hi, hj, hl, -⟩
    simp at hi
    subst hi
    revert hl
    revert j
    decide)
  rw [h1, hz 0 0 (by omega) (by omega)] at h2
  omega

/-! ### Sideways -/

/-- C64: `plot8bitpatternsideway` paints the glyph turned by a quarter: row `i` becomes column `i`, and the
bits go up. -/
theorem C64_sideway_partial {b : Bytes} {W H bits : Nat} (h : Valid b W H bits) (x y : Int) (pat : List Nat)
    {scale pixspace c : Int} (hd : DotOK bits scale pixspace c) :
    ∃ b', plot8bitpatternsideway b x y pat scale pixspace (.one c) = .ok b' ∧ Paints b b' W H bits (fun px py =>
      ∃ i j : Nat, i < pat.length ∧ j < 8 ∧ Lit pat i j ∧
        Square W H (dotSide scale pixspace) (x + i * scale) (y - j * scale) px py) (reduce bits c) := by
  obtain ⟨b', e, p⟩ := patRows_one (steps := 8) (dx := 0) (dy := -scale) (next := fun p => (p.1 + scale, p.2)) pat
    (fun i => (x + i * scale, y)) (by intro i; simp; ring) (reduce bits c) (fun b hb x y => patPut_square hd hb x y) h
  refine ⟨b', ?_, p.congr ?_⟩
  · rw [show ((x + ((0 : Nat) : Int) * scale, y) : Int × Int) = (x, y) by simp] at e
    exact e
  · intro px py _ _
    simp [sub_eq_add_neg]

/-- C64: with a list of colours column `i` gets colour number `8 * i` of the list (not number `i`), counted round
and round. -/
theorem C64_colours_exact {b : Bytes} {W H bits : Nat} (h : Valid b W H bits) (x y : Int) (pat : List Nat)
    {scale pixspace : Int} {cs : List Int} (hcs : cs ≠ []) (hs : 1 ≤ scale) (hp : 0 ≤ pixspace)
    (hd : ∀ c ∈ cs, DotOK bits scale pixspace c) :
    ∃ b', plot8bitpatternsideway b x y pat scale pixspace (.cycle cs) = .ok b' ∧ Valid b' W H bits ∧ SameHeader b b' bits ∧
      (∀ i j px py : Nat, i < pat.length → j < 8 → px < W → py < H → Lit pat i j →
        Square W H (dotSide scale pixspace) (x + i * scale) (y - j * scale) px py →
        pix b' W H bits px py = reduce bits (cs.getD (8 * i % cs.length) 0)) ∧
      (∀ px py : Nat, px < W → py < H → (∀ i j : Nat, i < pat.length → j < 8 → Lit pat i j →
        ¬ Square W H (dotSide scale pixspace) (x + i * scale) (y - j * scale) px py) →
        pix b' W H bits px py = pix b W H bits px py) := by
  obtain ⟨b', e, v, s, o, k⟩ := patRows_cycle (steps := 8) (dx := 0) (dy := -scale)
    (next := fun p => (p.1 + scale, p.2)) hcs pat (fun i => (x + i * scale, y)) (by intro i; simp; ring) (reduce bits)
    (fun c hc b hb x y => patPut_square (hd c hc) hb x y) h
  have hside : dotSide scale pixspace ≤ scale := by unfold dotSide; split_ifs <;> omega
  refine ⟨b', ?_, v, s, ?_, ?_⟩
  · rw [show ((x + ((0 : Nat) : Int) * scale, y) : Int × Int) = (x, y) by simp] at e
    exact e
  · intro i j px py hi hj hx hy hl hq
    rw [k i px py hi hx hy ⟨j, hj, hl, by simpa [sub_eq_add_neg] using hq⟩]
    rintro i' h1 h2 ⟨j', hj', hl', hq'⟩
    have hm : (i : Int) * scale + scale ≤ i' * scale := by
      have : ((i : Int) + 1) * scale ≤ i' * scale := Int.mul_le_mul_of_nonneg_right (by omega) (by omega)
      linarith [this, add_mul (i : Int) 1 scale]
    simp only [mul_zero, add_zero] at hq'
    unfold Square at hq hq'
    omega
  · intro px py hx hy hn
    refine o px py hx hy ?_
    rintro i hi ⟨j, hj, hl, hq⟩
    exact hn i j hi hj hl (by simpa [sub_eq_add_neg] using hq)

/-- C64 is false for lists of two colours: both columns are painted in the first. -/
theorem C64_colours_wrong :
    (do let b ← newBMP 2 1 24; let b ← plot8bitpatternsideway b 0 0 [128, 128] 1 0 (.cycle [7, 9])
        pure (pix b 2 1 24 0 0, pix b 2 1 24 1 0)) = .ok (7, 7) := by decide +kernel

/-! ### Italic -/

theorem italic_pos {scale : Int} (hs : 1 ≤ scale) (x y : Int) (n i : Nat) :
    italicNext scale (x + slant scale n y i, y + i * scale) =
      (x + slant scale n y (i + 1), y + ((i + 1 : Nat) : Int) * scale) := by
  unfold italicNext slant
  rw [pyShr_1]
  dsimp only
  by_cases h1 : scale = 1
  · subst h1
    simp only [if_true, and_true, mul_one]
    ext
    · dsimp only
      push_cast
      split_ifs <;> omega
    · dsimp only; push_cast; ring
  · simp only [h1, if_false, and_false]
    ext
    · dsimp only; push_cast; ring
    · dsimp only; push_cast; ring

theorem italic_start {scale : Int} (hs : 1 ≤ scale) (x y : Int) (n : Nat) :
    italicStart scale n x = x + slant scale n y 0 := by
  unfold italicStart slant
  rw [pyShr_1, pyShr_1]
  split_ifs
  · omega
  · push_cast; ring
  · push_cast; omega
  · omega

/-- C65: `plotitalic8bitpattern` paints the glyph with row `i` moved to the right by `slant`. -/
theorem C65_italic_partial {b : Bytes} {W H bits : Nat} (h : Valid b W H bits) (x y : Int) (pat : List Nat)
    {scale pixspace c : Int} (hs : 1 ≤ scale) (hd : DotOK bits scale pixspace c) :
    ∃ b', plotitalic8bitpattern b x y pat scale pixspace (.one c) = .ok b' ∧ Paints b b' W H bits (fun px py =>
      ∃ i j : Nat, i < pat.length ∧ j < 8 ∧ Lit pat i j ∧ Square W H (dotSide scale pixspace)
        (x + slant scale pat.length y i + j * scale) (y + i * scale) px py) (reduce bits c) := by
  obtain ⟨b', e, p⟩ := patRows_one (steps := 1) (dx := scale) (dy := 0) (next := italicNext scale) pat
    (fun i => (x + slant scale pat.length y i, y + i * scale)) (fun i => (italic_pos hs x y pat.length i).symm)
    (reduce bits c) (fun b hb x y => patPut_square hd hb x y) h
  refine ⟨b', ?_, p.congr ?_⟩
  · rw [show ((x + slant scale pat.length y 0, y + ((0 : Nat) : Int) * scale) : Int × Int) =
      (italicStart scale pat.length x, y) by rw [italic_start hs x y]; simp] at e
    exact e
  · intro px py _ _
    simp

/-- C65: the rows lean to the right: no row is moved to the left of `x`, and each row is moved at least as far as
the next one, by at most half the scale (one pixel at scale 1). -/
theorem C65_slant {scale : Int} (hs : 1 ≤ scale) (n : Nat) (y : Int) :
    (∀ i, i < n → 0 ≤ slant scale n y i) ∧
    (∀ i, i + 1 < n → slant scale n y (i + 1) ≤ slant scale n y i ∧
      slant scale n y i ≤ slant scale n y (i + 1) + max 1 (scale / 2)) := by
  unfold slant
  by_cases h1 : scale = 1
  · subst h1
    simp only [if_true]
    constructor
    · intro i hi; omega
    · intro i hi; push_cast; omega
  · simp only [h1, if_false]
    have h2 : 1 ≤ scale / 2 := by omega
    constructor
    · intro i hi
      exact mul_nonneg (by omega) (by omega)
    · intro i hi
      have e : scale / 2 * ((n : Int) - i) = scale / 2 * ((n : Int) - ((i + 1 : Nat) : Int)) + scale / 2 := by
        push_cast; ring
      rw [e]
      omega

/-- C65: the mirrored italic glyph, again without the last column of the glyph. -/
theorem C65_reversed_exact {b : Bytes} {W H bits : Nat} (h : Valid b W H bits) (x y : Int) {pat : List Nat}
    (hp : ∀ v ∈ pat, v < 256) {scale pixspace c : Int} (hs : 1 ≤ scale) (hd : DotOK bits scale pixspace c) :
    ∃ b', plotreverseditalic8bitpattern b x y pat scale pixspace (.one c) = .ok b' ∧ Paints b b' W H bits (fun px py =>
      ∃ i j : Nat, i < pat.length ∧ j < 7 ∧ Lit pat i j ∧ Square W H (dotSide scale pixspace)
        (x + slant scale pat.length y i + ((7 - j : Nat) : Int) * scale) (y + i * scale) px py) (reduce bits c) := by
  obtain ⟨b', e, p⟩ := C65_italic_partial h x y (pat.map rotatebits) hs hd
  refine ⟨b', e, p.congr ?_⟩
  intro px py _ _
  rw [List.length_map]
  constructor
  · rintro ⟨i, j, hi, hj, hl, hq⟩
    refine ⟨i, 7 - j, hi, by omega, ?_, hq⟩
    rw [lit_rotate hp hi (by omega), show 7 - (7 - j) = j by omega]
    exact ⟨by omega, hl⟩
  · rintro ⟨i, j, hi, hj, hl, hq⟩
    obtain ⟨h0, hl⟩ := (lit_rotate hp hi hj).mp hl
    refine ⟨i, 7 - j, hi, by omega, hl, ?_⟩
    rw [show 7 - (7 - j) = j by omega]
    exact hq

example : (do let b ← newBMP 4 4 24; let b ← plotitalic8bitpattern b 0 0 [128, 192, 128, 128] 1 0 (.one 7)
              pure ((List.range 4).map fun y => (List.range 4).map fun x => pix b 4 4 24 x y)) =
    .ok [[0, 0, 7, 0], [0, 0, 7, 7], [0, 7, 0, 0], [0, 7, 0, 0]] := by decide +kernel

/-- C65: the upside down italic glyph: the rows in reverse order, leaning the same way, but starting at `x`, so that
the lower rows are to the left of `x`. -/
theorem C65_upsidedown_exact {b : Bytes} {W H bits : Nat} (h : Valid b W H bits) (x y : Int) (pat : List Nat)
    {scale pixspace c : Int} (hs : 1 ≤ scale) (hd : DotOK bits scale pixspace c) :
    ∃ b', plotupsidedownitalic8bitpattern b x y pat scale pixspace (.one c) = .ok b' ∧ Paints b b' W H bits (fun px py =>
      ∃ i j : Nat, i < pat.length ∧ j < 8 ∧ Lit pat i j ∧ Square W H (dotSide scale pixspace)
        (x + slant scale pat.length y (pat.length - 1 - i) - slant scale pat.length y 0 + j * scale)
        (y + ((pat.length - 1 - i : Nat) : Int) * scale) px py) (reduce bits c) := by
  obtain ⟨b', e, p⟩ := patRows_one (steps := 1) (dx := scale) (dy := 0) (next := italicNext scale) pat.reverse
    (fun i => (x - slant scale pat.length y 0 + slant scale pat.length y i, y + i * scale))
    (fun i => (italic_pos hs _ y pat.length i).symm)
    (reduce bits c) (fun b hb x y => patPut_square hd hb x y) h
  refine ⟨b', ?_, p.congr ?_⟩
  · rw [show ((x - slant scale pat.length y 0 + slant scale pat.length y 0, y + ((0 : Nat) : Int) * scale) : Int × Int) =
      (x, y) by simp] at e
    exact e
  · intro px py _ _
    rw [List.length_reverse]
    simp only [mul_zero, add_zero]
    constructor
    · rintro ⟨i, j, hi, hj, hl, hq⟩
      refine ⟨pat.length - 1 - i, j, by omega, hj, ?_, ?_⟩
      · rw [lit_reverse (by omega), show pat.length - 1 - (pat.length - 1 - i) = i by omega]
        exact hl
      · rwa [sub_add_eq_add_sub]
    · rintro ⟨i, j, hi, hj, hl, hq⟩
      refine ⟨pat.length - 1 - i, j, by omega, hj, (lit_reverse hi).mp hl, ?_⟩
      rw [show pat.length - 1 - (pat.length - 1 - i) = i by omega, ← sub_add_eq_add_sub]
      exact hq

/-- The lower row is painted one pixel to the left of the requested position. -/
theorem C65_upsidedown_left :
    (do let b ← newBMP 3 2 24; let b ← plotupsidedownitalic8bitpattern b 1 1 [128] 1 0 (.one 7)
        let b ← plotupsidedownitalic8bitpattern b 1 (-1) [128, 0] 1 0 (.one 9)
        pure ((List.range 2).map fun y => (List.range 3).map fun x => pix b 3 2 24 x y)) =
    .ok [[9, 0, 0], [0, 7, 0]] := by decide +kernel

/-! ### Italic and sideways -/

/-- How far down column `i` is moved. -/
def sideSlant (scale x : Int) (i : Nat) : Int := if scale = 1 then -((x + i) / 2 - x / 2) else i * (scale / 2)

theorem italicSide_pos {scale : Int} (x y : Int) (i : Nat) :
    italicSideNext scale (x + i * scale, y + sideSlant scale x i) =
      (x + ((i + 1 : Nat) : Int) * scale, y + sideSlant scale x (i + 1)) := by
  unfold italicSideNext sideSlant
  rw [pyShr_1]
  dsimp only
  by_cases h1 : scale = 1
  · subst h1
    simp only [if_true, and_true, mul_one]
    ext
    · dsimp only; push_cast; ring
    · dsimp only
      push_cast
      split_ifs <;> omega
  · simp only [h1, if_false, and_false]
    ext
    · dsimp only; push_cast; ring
    · dsimp only; push_cast; ring

/-- C64: the italic sideways glyph. -/
theorem C64_italic_exact {b : Bytes} {W H bits : Nat} (h : Valid b W H bits) (x y : Int) (pat : List Nat)
    {scale pixspace c : Int} (hd : DotOK bits scale pixspace c) :
    ∃ b', plotitalic8bitpatternsideway b x y pat scale pixspace (.one c) = .ok b' ∧ Paints b b' W H bits (fun px py =>
      ∃ i j : Nat, i < pat.length ∧ j < 8 ∧ Lit pat i j ∧ Square W H (dotSide scale pixspace)
        (x + i * scale) (y + sideSlant scale x i - j * scale) px py) (reduce bits c) := by
  obtain ⟨b', e, p⟩ := patRows_one (steps := 1) (dx := 0) (dy := -scale) (next := italicSideNext scale) pat
    (fun i => (x + i * scale, y + sideSlant scale x i)) (fun i => (italicSide_pos x y i).symm)
    (reduce bits c) (fun b hb x y => patPut_square hd hb x y) h
  refine ⟨b', ?_, p.congr ?_⟩
  · rw [show ((x + ((0 : Nat) : Int) * scale, y + sideSlant scale x 0) : Int × Int) = (x, y) by
      unfold sideSlant; simp] at e
    exact e
  · intro px py _ _
    simp [sub_eq_add_neg]

/-- C64: the slant of the italic sideways glyph depends on the scale: the later columns are higher at scale 1 and lower
at every bigger scale. -/
theorem C64_italic_directions {scale : Int} (hs : 1 ≤ scale) (x : Int) (i : Nat) :
    (scale = 1 → sideSlant scale x (i + 2) = sideSlant scale x i - 1) ∧
    (scale ≠ 1 → sideSlant scale x i < sideSlant scale x (i + 1)) := by
  unfold sideSlant
  constructor
  · intro h
    rw [if_pos h, if_pos h]
    push_cast
    omega
  · intro h
    rw [if_neg h, if_neg h]
    have : ((i + 1 : Nat) : Int) * (scale / 2) = i * (scale / 2) + scale / 2 := by push_cast; ring
    omega

end Verif.Props
