import Verif.Lemmas.Text
import Verif.Props.Pattern
/-! C66 and C67: text. -/

namespace Verif.Props
open Verif Spec Model Lemmas

theorem pyShl_2 (a : Int) : pyShl a 2 = a * 4 := rfl
theorem pyShl_3 (a : Int) : pyShl a 3 = a * 8 := rfl
theorem pyShl_1 (a : Int) : pyShl a 1 = a * 2 := rfl

/-- The distance between two characters in a line, and between two lines. -/
def colStep (scale space : Int) : Int := 8 * scale + (if space = 0 then 1 else space)
def lineStep (font : Bytes) (scale space : Int) : Int := byte font 0 * scale + (if space = 0 then 1 else space)

theorem height_ok {font : Bytes} (hf : font ≠ []) : getItem font 0 = .ok (byte font 0) :=
  getItem_ok rfl (List.length_pos_iff.mpr hf)

theorem length_glyph (font : Bytes) (c : Nat) : (glyph font c).length = byte font 0 := by simp [glyph]

/-- C66: `plotstring` paints exactly the dots of the glyphs of the visible characters, each in its column and line. -/
theorem C66_plotstring_partial {b : Bytes} {W H bits : Nat} (h : Valid b W H bits) (x y : Int) {str : List Nat}
    {font : Bytes} (hf : font ≠ []) (hs : InFont font str) {scale pixspace c : Int} (space : Int)
    (hd : DotOK bits scale pixspace c) :
    ∃ b', plotstring b x y str scale pixspace space (.one c) font = .ok b' ∧ Paints b b' W H bits (fun px py =>
      ∃ k ch i j : Nat, Stands str k ch ∧ i < byte font 0 ∧ j < 8 ∧ Lit (glyph font ch) i j ∧
        Square W H (dotSide scale pixspace) (x + columnNo (str.take k) * colStep scale space + j * scale)
          (y + lineNo (str.take k) * lineStep font scale space + i * scale) px py) (reduce bits c) := by
  obtain ⟨b', e, p⟩ := plotChars_paints (render := plot8bitpattern) (color := .one c) (scale := scale)
    (pixspace := pixspace) (nl := fun p => (x, p.2 + lineStep font scale space))
    (tab := fun p => (p.1 + pyShl (colStep scale space) 2, p.2)) (adv := fun p => (p.1 + colStep scale space, p.2))
    (fun col l => (x + col * colStep scale space, y + l * lineStep font scale space))
    (by intro col l; simp; ring) (by intro col l; simp [pyShl_2]; ring) (by intro col l; simp; ring)
    (fun g p px py => ∃ i j : Nat, i < g.length ∧ j < 8 ∧ Lit g i j ∧
        Square W H (dotSide scale pixspace) (p.1 + j * scale) (p.2 + i * scale) px py) hf
    (fun b hb x y ch _ => C61_pattern_partial hb x y (glyph font ch) hd) [] str hs h
  refine ⟨b', ?_, p.congr ?_⟩
  · unfold plotstring plotstringfunc charSpace
    rw [height_ok hf]
    simp only [ok_bind, pyShl_3, enumletters]
    simp only [colStep, lineStep, mul_comm 8 scale] at e
    simpa [columnNo, lineNo] using e
  · intro px py _ _
    simp only [length_glyph, List.nil_append]
    constructor
    · rintro ⟨k, ch, i, j, hk, hi, hj, hl, hq⟩
      exact ⟨k, ch, hk, i, j, hi, hj, hl, hq⟩
    · rintro ⟨k, ch, hk, i, j, hi, hj, hl, hq⟩
      exact ⟨k, ch, i, j, hk, hi, hj, hl, hq⟩

/-- A font of two-row glyphs for the codes 0 to 11. -/
def tinyFont : Bytes := [2, 128, 64, 192, 64, 0, 0, 0, 0, 0, 0, 0, 0, 0, 0, 0, 0, 0, 0, 0, 0, 0, 0, 128, 192]

/-- The characters 0, 11, newline, 1. -/
example : (do let b ← newBMP 11 5 24; let b ← plotstring b 0 0 [0, 11, 10, 1] 1 0 0 (.one 7) tinyFont
              pure ((List.range 5).map fun y => (List.range 11).map fun x => pix b 11 5 24 x y)) =
    .ok [[7, 0, 0, 0, 0, 0, 0, 0, 0, 7, 0], [0, 7, 0, 0, 0, 0, 0, 0, 0, 7, 7], [0, 0, 0, 0, 0, 0, 0, 0, 0, 0, 0],
         [7, 7, 0, 0, 0, 0, 0, 0, 0, 0, 0], [0, 7, 0, 0, 0, 0, 0, 0, 0, 0, 0]] := by decide +kernel

/-- C66: vertical text: the characters go down, the lines to the right. -/
theorem C66_vertical_partial {b : Bytes} {W H bits : Nat} (h : Valid b W H bits) (x y : Int) {str : List Nat}
    {font : Bytes} (hf : font ≠ []) (hs : InFont font str) {scale pixspace c : Int} (space : Int)
    (hd : DotOK bits scale pixspace c) :
    ∃ b', plotstringvertical b x y str scale pixspace space (.one c) font = .ok b' ∧ Paints b b' W H bits (fun px py =>
      ∃ k ch i j : Nat, Stands str k ch ∧ i < byte font 0 ∧ j < 8 ∧ Lit (glyph font ch) i j ∧
        Square W H (dotSide scale pixspace) (x + lineNo (str.take k) * colStep scale space + j * scale)
          (y + columnNo (str.take k) * lineStep font scale space + i * scale) px py) (reduce bits c) := by
  obtain ⟨b', e, p⟩ := plotChars_paints (render := plot8bitpattern) (color := .one c) (scale := scale)
    (pixspace := pixspace) (nl := fun p => (p.1 + colStep scale space, y))
    (tab := fun p => (p.1, p.2 + pyShl (lineStep font scale space) 2)) (adv := fun p => (p.1, p.2 + lineStep font scale space))
    (fun col l => (x + l * colStep scale space, y + col * lineStep font scale space))
    (by intro col l; simp; ring) (by intro col l; simp [pyShl_2]; ring) (by intro col l; simp; ring)
    (fun g p px py => ∃ i j : Nat, i < g.length ∧ j < 8 ∧ Lit g i j ∧
        Square W H (dotSide scale pixspace) (p.1 + j * scale) (p.2 + i * scale) px py) hf
    (fun b hb x y ch _ => C61_pattern_partial hb x y (glyph font ch) hd) [] str hs h
  refine ⟨b', ?_, p.congr ?_⟩
  · unfold plotstringvertical plotstringverticalwithfn charSpace
    rw [height_ok hf]
    simp only [ok_bind, pyShl_3, enumletters]
    simp only [colStep, lineStep, mul_comm 8 scale] at e
    simpa [columnNo, lineNo] using e
  · intro px py _ _
    simp only [length_glyph, List.nil_append]
    constructor
    · rintro ⟨k, ch, i, j, hk, hi, hj, hl, hq⟩
      exact ⟨k, ch, hk, i, j, hi, hj, hl, hq⟩
    · rintro ⟨k, ch, hk, i, j, hi, hj, hl, hq⟩
      exact ⟨k, ch, i, j, hk, hi, hj, hl, hq⟩

/-- C66: sideways text: the characters go up, the lines to the right, the glyphs are turned. -/
theorem C66_sideway_partial {b : Bytes} {W H bits : Nat} (h : Valid b W H bits) (x y : Int) {str : List Nat}
    {font : Bytes} (hf : font ≠ []) (hs : InFont font str) {scale pixspace c : Int} (space : Int)
    (hd : DotOK bits scale pixspace c) :
    ∃ b', plotstringsideway b x y str scale pixspace space (.one c) font = .ok b' ∧ Paints b b' W H bits (fun px py =>
      ∃ k ch i j : Nat, Stands str k ch ∧ i < byte font 0 ∧ j < 8 ∧ Lit (glyph font ch) i j ∧
        Square W H (dotSide scale pixspace) (x + lineNo (str.take k) * lineStep font scale space + i * scale)
          (y - columnNo (str.take k) * colStep scale space - j * scale) px py) (reduce bits c) := by
  obtain ⟨b', e, p⟩ := plotChars_paints (render := plot8bitpatternsideway) (color := .one c) (scale := scale)
    (pixspace := pixspace) (nl := fun p => (p.1 + lineStep font scale space, y))
    (tab := fun p => (p.1, p.2 - pyShl (colStep scale space) 2)) (adv := fun p => (p.1, p.2 - colStep scale space))
    (fun col l => (x + l * lineStep font scale space, y - col * colStep scale space))
    (by intro col l; simp; ring) (by intro col l; simp [pyShl_2]; ring) (by intro col l; simp; ring)
    (fun g p px py => ∃ i j : Nat, i < g.length ∧ j < 8 ∧ Lit g i j ∧
        Square W H (dotSide scale pixspace) (p.1 + i * scale) (p.2 - j * scale) px py) hf
    (fun b hb x y ch _ => C64_sideway_partial hb x y (glyph font ch) hd) [] str hs h
  refine ⟨b', ?_, p.congr ?_⟩
  · unfold plotstringsideway plotstringsidewayfn charSpace
    rw [height_ok hf]
    simp only [ok_bind, pyShl_3, enumletters]
    simp only [colStep, lineStep, mul_comm 8 scale] at e
    simpa [columnNo, lineNo] using e
  · intro px py _ _
    simp only [length_glyph, List.nil_append]
    constructor
    · rintro ⟨k, ch, i, j, hk, hi, hj, hl, hq⟩
      exact ⟨k, ch, hk, i, j, hi, hj, hl, hq⟩
    · rintro ⟨k, ch, hk, i, j, hi, hj, hl, hq⟩
      exact ⟨k, ch, i, j, hk, hi, hj, hl, hq⟩

/-- C66: a character that the font does not have is an `IndexError`. -/
theorem C66_unknown {b : Bytes} {W H bits : Nat} (h : Valid b W H bits) (x y : Int) {str : List Nat} {font : Bytes}
    (hf : font ≠ []) (hh : 0 < byte font 0) (hs : ¬ InFont font str) {scale pixspace c : Int} (space : Int)
    (hd : DotOK bits scale pixspace c) :
    plotstring b x y str scale pixspace space (.one c) font = .error .indexError := by
  unfold plotstring plotstringfunc
  rw [height_ok hf]
  simp only [ok_bind, enumletters]
  generalize (fun p : Int × Int => (x, p.2 + ((byte font 0 : Int) * scale + charSpace space))) = nl
  generalize (fun p : Int × Int => (p.1 + pyShl (pyShl scale 3 + charSpace space) 2, p.2)) = tab
  generalize (fun p : Int × Int => (p.1 + (pyShl scale 3 + charSpace space), p.2)) = adv
  generalize (x, y) = p
  induction str generalizing b p with
  | nil => exact absurd (fun c hc => by simp at hc) hs
  | cons a str ih =>
    have hcons : (a ≠ 10 → a ≠ 9 → (a + 1) * byte font 0 < font.length) → ¬ InFont font str := by
      intro h1 h2
      apply hs
      intro ch hch
      rcases List.mem_cons.mp hch with e | e
      · subst e; exact h1
      · exact h2 ch e
    rw [plotChars]
    by_cases h10 : a = 10
    · rw [if_pos h10]; exact ih h (hcons (fun h => absurd h10 h)) _
    rw [if_neg h10]
    by_cases h9 : a = 9
    · rw [if_pos h9]; exact ih h (hcons (fun _ h => absurd h9 h)) _
    rw [if_neg h9]
    by_cases ha : (a + 1) * byte font 0 < font.length
    · obtain ⟨b1, e1, p1⟩ := C61_pattern_partial h p.1 p.2 (glyph font a) hd
      rw [getcharfont_ok hf ha]
      simp only [ok_bind, e1]
      exact ih p1.valid (hcons (fun _ _ => ha)) _
    · rw [getcharfont_err hf hh (by omega)]
      rfl

/-- C66: italic text. -/
theorem C66_italic_partial {b : Bytes} {W H bits : Nat} (h : Valid b W H bits) (x y : Int) {str : List Nat}
    {font : Bytes} (hf : font ≠ []) (hs : InFont font str) {scale pixspace c : Int} (space : Int) (h1 : 1 ≤ scale)
    (hd : DotOK bits scale pixspace c) :
    ∃ b', plotitalicstring b x y str scale pixspace space (.one c) font = .ok b' ∧ Paints b b' W H bits (fun px py =>
      ∃ k ch i j : Nat, Stands str k ch ∧ i < byte font 0 ∧ j < 8 ∧ Lit (glyph font ch) i j ∧
        Square W H (dotSide scale pixspace) (x + columnNo (str.take k) * colStep scale space +
          slant scale (byte font 0) (y + lineNo (str.take k) * lineStep font scale space) i + j * scale)
          (y + lineNo (str.take k) * lineStep font scale space + i * scale) px py) (reduce bits c) := by
  obtain ⟨b', e, p⟩ := plotChars_paints (render := plotitalic8bitpattern) (color := .one c) (scale := scale)
    (pixspace := pixspace) (nl := fun p => (x, p.2 + lineStep font scale space))
    (tab := fun p => (p.1 + pyShl (colStep scale space) 2, p.2)) (adv := fun p => (p.1 + colStep scale space, p.2))
    (fun col l => (x + col * colStep scale space, y + l * lineStep font scale space))
    (by intro col l; simp; ring) (by intro col l; simp [pyShl_2]; ring) (by intro col l; simp; ring)
    (fun g p px py => ∃ i j : Nat, i < g.length ∧ j < 8 ∧ Lit g i j ∧
        Square W H (dotSide scale pixspace) (p.1 + slant scale g.length p.2 i + j * scale) (p.2 + i * scale) px py) hf
    (fun b hb x y ch _ => C65_italic_partial hb x y (glyph font ch) h1 hd) [] str hs h
  refine ⟨b', ?_, p.congr ?_⟩
  · unfold plotitalicstring plotstringfunc charSpace
    rw [height_ok hf]
    simp only [ok_bind, pyShl_3, enumletters]
    simp only [colStep, lineStep, mul_comm 8 scale] at e
    simpa [columnNo, lineNo] using e
  · intro px py _ _
    simp only [length_glyph, List.nil_append]
    constructor
    · rintro ⟨k, ch, i, j, hk, hi, hj, hl, hq⟩
      exact ⟨k, ch, hk, i, j, hi, hj, hl, hq⟩
    · rintro ⟨k, ch, hk, i, j, hi, hj, hl, hq⟩
      exact ⟨k, ch, i, j, hk, hi, hj, hl, hq⟩

/-! ### The image made for a text is big enough -/

theorem splitLines_ne (t : List Nat) : splitLines t ≠ [] := by
  cases t with
  | nil => simp [splitLines]
  | cons c t =>
    rw [splitLines]
    split_ifs
    · simp
    · split <;> simp

theorem splitLines_length (t : List Nat) : (splitLines t).length = t.count 10 + 1 := by
  induction t with
  | nil => rfl
  | cons c t ih =>
    rw [splitLines]
    by_cases h : c = 10
    · rw [if_pos h, List.length_cons, ih, h, List.count_cons_self]
    · rw [if_neg h, List.count_cons_of_ne h]
      cases hs : splitLines t with
      | nil => exact absurd hs (splitLines_ne t)
      | cons l ls => rw [hs] at ih; simpa using ih

def widest (l : List (List Nat)) : Nat := l.foldl (fun m r => max m r.length) 0

theorem foldl_widest (l : List (List Nat)) (m : Nat) : l.foldl (fun m r => max m r.length) m = max m (widest l) := by
  unfold widest
  induction l generalizing m with
  | nil => simp
  | cons r l ih =>
    rw [List.foldl_cons, List.foldl_cons, ih, ih (max 0 r.length)]
    omega

/-- The width of a text whose first line continues a line of width `col`. -/
def wd (col : Nat) : List (List Nat) → Nat
  | [] => col
  | l :: ls => max (col + l.length) (widest ls)

theorem wd_cons {c : Nat} (h : c ≠ 10) (col : Nat) (t : List Nat) :
    wd col (splitLines (c :: t)) = wd (col + 1) (splitLines t) := by
  rw [splitLines, if_neg h]
  cases hs : splitLines t with
  | nil => exact absurd hs (splitLines_ne t)
  | cons l ls => simp only [wd, List.length_cons]; congr 1; omega

theorem le_wd (col : Nat) (t : List (List Nat)) : col ≤ wd col t := by
  cases t with
  | nil => exact Nat.le_refl _
  | cons l ls => simp only [wd]; omega

theorem column_lt_wd (str : List Nat) (col k ch : Nat) (hk : Stands str k ch) :
    (str.take k).foldl (fun col c => if c = 10 then 0 else if c = 9 then col + 4 else col + 1) col + 1 ≤
      wd col (splitLines (expandTabs str)) := by
  induction str generalizing col k with
  | nil => simp [Stands] at hk
  | cons a str ih =>
    by_cases h10 : a = 10
    · subst h10
      rcases k with _ | k
      · obtain ⟨e, h1, -⟩ := hk; simp at e; omega
      · have := ih 0 k hk
        have e : expandTabs (10 :: str) = 10 :: expandTabs str := rfl
        rw [e, splitLines, if_pos rfl]
        rw [List.take_succ_cons, List.foldl_cons, if_pos rfl]
        refine this.trans ?_
        cases hs : splitLines (expandTabs str) with
        | nil => exact absurd hs (splitLines_ne _)
        | cons l ls =>
          have : widest (l :: ls) = max l.length (widest ls) := by
            show List.foldl _ _ _ = _
            rw [List.foldl_cons, foldl_widest]; simp
          simp only [wd, this]; omega
    · by_cases h9 : a = 9
      · subst h9
        rcases k with _ | k
        · obtain ⟨e, h1, h2⟩ := hk; simp at e; omega
        · have := ih (col + 4) k hk
          have e : expandTabs (9 :: str) = 32 :: 32 :: 32 :: 32 :: expandTabs str := rfl
          rw [e, wd_cons (by decide), wd_cons (by decide), wd_cons (by decide), wd_cons (by decide)]
          rw [List.take_succ_cons, List.foldl_cons, if_neg (by decide), if_pos rfl]
          exact this
      · have e : expandTabs (a :: str) = a :: expandTabs str := by simp [expandTabs, h9]
        rw [e, wd_cons h10]
        rcases k with _ | k
        · simp only [List.take_zero, List.foldl_nil]
          exact le_wd _ _
        · have := ih (col + 1) k hk
          rw [List.take_succ_cons, List.foldl_cons, if_neg h10, if_neg h9]
          exact this

theorem textsize_col {str : List Nat} {k ch : Nat} (hk : Stands str k ch) :
    columnNo (str.take k) + 1 ≤ (computetextrowandcolcnt str).1 := by
  refine (column_lt_wd str 0 k ch hk).trans ?_
  show _ ≤ widest _
  cases hs : splitLines (expandTabs str) with
  | nil => exact absurd hs (splitLines_ne _)
  | cons l ls =>
    have : widest (l :: ls) = max l.length (widest ls) := by
      show List.foldl _ _ _ = _
      rw [List.foldl_cons, foldl_widest]; simp
    simp only [wd, this]; omega

theorem count_expandTabs (str : List Nat) : (expandTabs str).count 10 = str.count 10 := by
  induction str with
  | nil => rfl
  | cons a str ih =>
    by_cases h9 : a = 9
    · subst h9
      have e : expandTabs (9 :: str) = 32 :: 32 :: 32 :: 32 :: expandTabs str := rfl
      rw [e]
      simp [List.count_cons, ih]
    · have e : expandTabs (a :: str) = a :: expandTabs str := by simp [expandTabs, h9]
      rw [e, List.count_cons, List.count_cons, ih]

theorem textsize_line {str : List Nat} (k : Nat) : lineNo (str.take k) + 1 ≤ (computetextrowandcolcnt str).2 := by
  show _ ≤ (splitLines (expandTabs str)).length
  rw [splitLines_length, count_expandTabs]
  have : (str.take k).count 10 ≤ str.count 10 := (List.take_sublist k str).count_le 10
  unfold lineNo
  omega

theorem widest_eq (l : List Nat) (ls : List (List Nat)) : widest (l :: ls) = wd 0 (l :: ls) := by
  show List.foldl _ _ _ = _
  rw [List.foldl_cons, foldl_widest]
  simp [wd]

theorem widest_split (t : List Nat) : widest (splitLines t) = wd 0 (splitLines t) := by
  cases hs : splitLines t with
  | nil => exact absurd hs (splitLines_ne _)
  | cons l ls => exact widest_eq l ls

/-- The column reached after `pre`, starting in column `col`. -/
def colFrom (col : Nat) (pre : List Nat) : Nat :=
  pre.foldl (fun col c => if c = 10 then 0 else if c = 9 then col + 4 else col + 1) col

theorem colFrom_wd (str : List Nat) (col : Nat) : (∀ k, colFrom col (str.take k) ≤ wd col (splitLines (expandTabs str))) ∧
    ∃ k, colFrom col (str.take k) = wd col (splitLines (expandTabs str)) := by
  induction str generalizing col with
  | nil => exact ⟨fun k => by simp [colFrom, expandTabs, splitLines, wd], 0, by simp [colFrom, expandTabs, splitLines, wd, widest]⟩
  | cons a str ih =>
    have step : ∀ k, colFrom col ((a :: str).take (k + 1)) =
        colFrom (if a = 10 then 0 else if a = 9 then col + 4 else col + 1) (str.take k) := fun k => rfl
    have zero : colFrom col ((a :: str).take 0) = col := rfl
    by_cases h10 : a = 10
    · subst h10
      have e : expandTabs (10 :: str) = 10 :: expandTabs str := rfl
      have ew : wd col (splitLines (expandTabs (10 :: str))) = max col (wd 0 (splitLines (expandTabs str))) := by
        rw [e, splitLines, if_pos rfl, wd, widest_split]; simp
      rw [ew]
      obtain ⟨h1, k0, h2⟩ := ih 0
      refine ⟨?_, ?_⟩
      · intro k
        rcases k with _ | k
        · rw [zero]; omega
        · rw [step, if_pos rfl]; have := h1 k; omega
      · by_cases hle : wd 0 (splitLines (expandTabs str)) ≤ col
        · exact ⟨0, by rw [zero]; omega⟩
        · exact ⟨k0 + 1, by rw [step, if_pos rfl, h2]; omega⟩
    · by_cases h9 : a = 9
      · subst h9
        have e : expandTabs (9 :: str) = 32 :: 32 :: 32 :: 32 :: expandTabs str := rfl
        rw [e, wd_cons (by decide), wd_cons (by decide), wd_cons (by decide), wd_cons (by decide)]
        obtain ⟨h1, k0, h2⟩ := ih (col + 4)
        refine ⟨?_, k0 + 1, by rw [step, if_neg h10, if_pos rfl]; exact h2⟩
        intro k
        rcases k with _ | k
        · rw [zero]; exact (by omega : col ≤ col + 4).trans (le_wd _ _)
        · rw [step, if_neg h10, if_pos rfl]; exact h1 k
      · have e : expandTabs (a :: str) = a :: expandTabs str := by simp [expandTabs, h9]
        rw [e, wd_cons h10]
        obtain ⟨h1, k0, h2⟩ := ih (col + 1)
        refine ⟨?_, k0 + 1, by rw [step, if_neg h10, if_neg h9]; exact h2⟩
        intro k
        rcases k with _ | k
        · rw [zero]; exact (by omega : col ≤ col + 1).trans (le_wd _ _)
        · rw [step, if_neg h10, if_neg h9]; exact h1 k

/-- C67: `computetextrowandcolcnt` returns the number of lines and the width of the text: no prefix of the
text ends in a higher column, and one ends there. -/
theorem C67_textsize (str : List Nat) :
    (computetextrowandcolcnt str).2 = lineNo str + 1 ∧ (∀ k, columnNo (str.take k) ≤ (computetextrowandcolcnt str).1) ∧
    ∃ k, columnNo (str.take k) = (computetextrowandcolcnt str).1 := by
  have e : (computetextrowandcolcnt str).1 = wd 0 (splitLines (expandTabs str)) := widest_split _
  refine ⟨?_, ?_⟩
  · show (splitLines (expandTabs str)).length = _
    rw [splitLines_length, count_expandTabs]; rfl
  · rw [e]; exact colFrom_wd str 0

example : computetextrowandcolcnt [65, 66, 10, 9, 67, 10] = (5, 3) := by decide

/-- The background of a text image: the requested colour if it is positive, else 0. -/
def ground (bits : Nat) (bg : Int) : Nat := if bg > 0 then reduce bits bg else 0

/-- A new image with its background. -/
theorem new_ground {W H bits : Nat} (hd : Depth bits) (hW : 0 < W ∧ W < 2 ^ 24) (hH : 0 < H ∧ H < 2 ^ 24) {bg : Int}
    (hb : bg ≤ 0 ∨ (IsColour bits bg ∧ (bits = 1 ∨ bits = 24))) :
    ∃ b, (do let bmp ← newBMP W H bits
             (if bg > 0 then filledrect bmp 0 0 ((W : Int) - 1) ((H : Int) - 1) bg else pure bmp : Py Bytes)) = .ok b ∧
      Valid b W H bits ∧ ∀ x y, x < W → y < H → pix b W H bits x y = ground bits bg := by
  obtain ⟨b, e, hv, -, -, -, -, hz, -⟩ := C01_newBMP_valid W H bits hd hW.2 hH.2
  unfold ground
  rw [e]
  simp only [ok_bind]
  by_cases hbg : bg > 0
  · obtain ⟨hc, hbits⟩ : IsColour bits bg ∧ (bits = 1 ∨ bits = 24) := by
      rcases hb with h | h
      · omega
      · exact h
    obtain ⟨b', e', p⟩ := C21_filledrect_partial (color := bg) (x1 := 0) (y1 := 0) (x2 := (W : Int) - 1) (y2 := (H : Int) - 1)
      hv (by omega) (by omega) hc (by omega)
    refine ⟨b', by rw [if_pos hbg]; exact e', p.valid, ?_⟩
    intro x y hx hy
    rw [p.inside x y hx hy (by unfold RectSet; omega), if_pos hbg, reduce_of_colour hd hc]
  · refine ⟨b, by rw [if_neg hbg]; rfl, hv, ?_⟩
    intro x y hx hy
    rw [hz x y hx hy, if_neg hbg]

/-- The square without regard to any image. -/
def FullSquare (s x y : Int) (px py : Nat) : Prop := x ≤ px ∧ (px : Int) < x + s ∧ y ≤ py ∧ (py : Int) < y + s

theorem dotSide_le {scale pixspace : Int} (hs : 1 ≤ scale) (hp : 0 ≤ pixspace) :
    dotSide scale pixspace ≤ scale := by unfold dotSide; split_ifs <;> omega

/-- C67: the image that `plotstring2file` makes for a text shows every dot of every character, over the
background. -/
theorem C67_textimage_partial {str : List Nat} {font : Bytes} (hf : font ≠ []) (hs : InFont font str) {bits : Nat}
    (hdep : Depth bits) {scale pixspace c space bg : Int} (h1 : 1 ≤ scale) (hp : 0 ≤ pixspace) (hsp : 0 ≤ space)
    (hd : DotOK bits scale pixspace c) (hb : bg ≤ 0 ∨ (IsColour bits bg ∧ (bits = 1 ∨ bits = 24))) {W H : Nat}
    (hW : (W : Int) = (computetextrowandcolcnt str).1 * colStep scale space + 2 * scale)
    (hH : (H : Int) = (computetextrowandcolcnt str).2 * lineStep font scale space + 2 * scale)
    (hW' : W < 2 ^ 24) (hH' : H < 2 ^ 24) :
    ∃ b, textimage enumletters plot8bitpattern false str scale pixspace space (.one c) font bg bits = .ok b ∧
      Valid b W H bits ∧
      (∀ k ch i j px py : Nat, Stands str k ch → i < byte font 0 → j < 8 → Lit (glyph font ch) i j →
        FullSquare (dotSide scale pixspace) (scale + columnNo (str.take k) * colStep scale space + j * scale)
          (scale + lineNo (str.take k) * lineStep font scale space + i * scale) px py →
        px < W ∧ py < H ∧ pix b W H bits px py = reduce bits c) ∧
      (∀ px py : Nat, px < W → py < H → (∀ k ch i j : Nat, Stands str k ch → i < byte font 0 → j < 8 →
        Lit (glyph font ch) i j → ¬ FullSquare (dotSide scale pixspace)
          (scale + columnNo (str.take k) * colStep scale space + j * scale)
          (scale + lineNo (str.take k) * lineStep font scale space + i * scale) px py) →
        pix b W H bits px py = ground bits bg) := by
  have hcs : 8 * scale + 1 ≤ colStep scale space := by unfold colStep; split_ifs <;> omega
  have hls : byte font 0 * scale + 1 ≤ lineStep font scale space := by unfold lineStep; split_ifs <;> omega
  have hl0 : 0 ≤ (byte font 0 : Int) * scale := mul_nonneg (by omega) (by omega)
  have hWp : 0 < W := by
    have := mul_nonneg (a := ((computetextrowandcolcnt str).1 : Int)) (b := colStep scale space) (by omega) (by omega)
    omega
  have hHp : 0 < H := by
    have := mul_nonneg (a := ((computetextrowandcolcnt str).2 : Int)) (b := lineStep font scale space) (by omega) (by omega)
    omega
  obtain ⟨b0, e0, v0, g0⟩ := new_ground (bg := bg) hdep ⟨hWp, hW'⟩ ⟨hHp, hH'⟩ hb
  obtain ⟨b', e, p⟩ := C66_plotstring_partial v0 scale scale hf hs space hd
  have side := dotSide_le h1 hp
  have side1 : 1 ≤ dotSide scale pixspace := by unfold dotSide; split_ifs <;> omega
  have fits : ∀ k ch i j : Nat, Stands str k ch → i < byte font 0 → j < 8 →
      (0 ≤ scale + columnNo (str.take k) * colStep scale space + j * scale ∧
       scale + columnNo (str.take k) * colStep scale space + j * scale + dotSide scale pixspace ≤ W) ∧
      (0 ≤ scale + lineNo (str.take k) * lineStep font scale space + i * scale ∧
       scale + lineNo (str.take k) * lineStep font scale space + i * scale + dotSide scale pixspace ≤ H) := by
    intro k ch i j hk hi hj
    have a1 : ((columnNo (str.take k) : Int) + 1) * colStep scale space ≤
        (computetextrowandcolcnt str).1 * colStep scale space :=
      mul_le_mul_of_nonneg_right (by have := textsize_col hk; omega) (by omega)
    have a2 : ((lineNo (str.take k) : Int) + 1) * lineStep font scale space ≤
        (computetextrowandcolcnt str).2 * lineStep font scale space :=
      mul_le_mul_of_nonneg_right (by have := textsize_line (str := str) k; omega) (by omega)
    have a3 : ((j : Int) + 1) * scale ≤ 8 * scale := mul_le_mul_of_nonneg_right (by omega) (by omega)
    have a4 : ((i : Int) + 1) * scale ≤ byte font 0 * scale := mul_le_mul_of_nonneg_right (by omega) (by omega)
    have a5 : 0 ≤ (columnNo (str.take k) : Int) * colStep scale space := mul_nonneg (by omega) (by omega)
    have a6 : 0 ≤ (lineNo (str.take k) : Int) * lineStep font scale space := mul_nonneg (by omega) (by omega)
    have a7 : 0 ≤ (j : Int) * scale := mul_nonneg (by omega) (by omega)
    have a8 : 0 ≤ (i : Int) * scale := mul_nonneg (by omega) (by omega)
    rw [add_mul, one_mul] at a1 a2 a3 a4
    omega
  refine ⟨b', ?_, p.valid, ?_, ?_⟩
  · unfold plotstring plotstringfunc at e
    unfold textimage
    rw [height_ok hf] at e ⊢
    simp only [ok_bind] at e ⊢
    have eW : (computetextrowandcolcnt str).1 * (pyShl scale 3 + charSpace space) + pyShl scale 1 = (W : Int) := by
      rw [hW, pyShl_3, pyShl_1]; unfold colStep charSpace; ring
    have eH : (computetextrowandcolcnt str).2 * ((byte font 0 : Int) * scale + charSpace space) + pyShl scale 1 = (H : Int) := by
      rw [hH, pyShl_1]; unfold lineStep charSpace; ring
    simp only [eW, eH, Bool.false_eq_true, if_false]
    rw [← bind_assoc, e0]
    exact e
  · intro k ch i j px py hk hi hj hl hq
    obtain ⟨f1, f2⟩ := fits k ch i j hk hi hj
    unfold FullSquare at hq
    have hx : px < W := by omega
    have hy : py < H := by omega
    refine ⟨hx, hy, p.inside px py hx hy ⟨k, ch, i, j, hk, hi, hj, hl, ?_⟩⟩
    unfold Square
    omega
  · intro px py hx hy hn
    rw [p.outside px py hx hy, g0 px py hx hy]
    rintro ⟨k, ch, i, j, hk, hi, hj, hl, hq⟩
    exact hn k ch i j hk hi hj hl hq.2

example : (do let b ← textimage enumletters plot8bitpattern false [0, 10, 1] 1 0 0 (.one 7) tinyFont 3 24
              pure ((List.range 8).map fun y => (List.range 4).map fun x => pix b 11 8 24 x y)) =
    .ok [[3, 3, 3, 3], [3, 7, 3, 3], [3, 3, 7, 3], [3, 3, 3, 3], [3, 7, 7, 3], [3, 3, 7, 3], [3, 3, 3, 3], [3, 3, 3, 3]] := by
  decide +kernel

/-- C67: the image that `plotitalicstring2file` makes for a text shows every dot of every character, over the
background. -/
theorem C67_italicimage_partial {str : List Nat} {font : Bytes} (hf : font ≠ []) (hs : InFont font str) {bits : Nat}
    (hdep : Depth bits) {scale pixspace c space bg : Int} (h1 : 1 ≤ scale) (hp : 0 ≤ pixspace) (hsp : 0 ≤ space)
    (hd : DotOK bits scale pixspace c) (hb : bg ≤ 0 ∨ (IsColour bits bg ∧ (bits = 1 ∨ bits = 24))) {W H : Nat}
    (hW : (W : Int) = (computetextrowandcolcnt str).1 * colStep scale space + 2 * scale + slant scale (byte font 0) 0 0)
    (hH : (H : Int) = (computetextrowandcolcnt str).2 * lineStep font scale space + 2 * scale)
    (hW' : W < 2 ^ 24) (hH' : H < 2 ^ 24) :
    ∃ b, textimage enumletters plotitalic8bitpattern true str scale pixspace space (.one c) font bg bits = .ok b ∧
      Valid b W H bits ∧
      (∀ k ch i j px py : Nat, Stands str k ch → i < byte font 0 → j < 8 → Lit (glyph font ch) i j →
        FullSquare (dotSide scale pixspace) (scale + columnNo (str.take k) * colStep scale space +
          slant scale (byte font 0) (scale + lineNo (str.take k) * lineStep font scale space) i + j * scale)
          (scale + lineNo (str.take k) * lineStep font scale space + i * scale) px py →
        px < W ∧ py < H ∧ pix b W H bits px py = reduce bits c) ∧
      (∀ px py : Nat, px < W → py < H → (∀ k ch i j : Nat, Stands str k ch → i < byte font 0 → j < 8 →
        Lit (glyph font ch) i j → ¬ FullSquare (dotSide scale pixspace)
          (scale + columnNo (str.take k) * colStep scale space +
          slant scale (byte font 0) (scale + lineNo (str.take k) * lineStep font scale space) i + j * scale)
          (scale + lineNo (str.take k) * lineStep font scale space + i * scale) px py) →
        pix b W H bits px py = ground bits bg) := by
  have hcs : 8 * scale + 1 ≤ colStep scale space := by unfold colStep; split_ifs <;> omega
  have hls : byte font 0 * scale + 1 ≤ lineStep font scale space := by unfold lineStep; split_ifs <;> omega
  have hl0 : 0 ≤ (byte font 0 : Int) * scale := mul_nonneg (by omega) (by omega)
  have hsl0 : 0 ≤ slant scale (byte font 0) 0 0 := by
    unfold slant
    split_ifs
    · omega
    · exact mul_nonneg (by omega) (by omega)
  have hsl : ∀ (y : Int) (i : Nat), i < byte font 0 → 0 ≤ slant scale (byte font 0) y i ∧
      slant scale (byte font 0) y i ≤ slant scale (byte font 0) 0 0 := by
    intro y i hi
    refine ⟨(C65_slant h1 _ y).1 i hi, ?_⟩
    unfold slant
    split_ifs
    · omega
    · exact mul_le_mul_of_nonneg_left (by omega) (by omega)
  have hWp : 0 < W := by
    have := mul_nonneg (a := ((computetextrowandcolcnt str).1 : Int)) (b := colStep scale space) (by omega) (by omega)
    omega
  have hHp : 0 < H := by
    have := mul_nonneg (a := ((computetextrowandcolcnt str).2 : Int)) (b := lineStep font scale space) (by omega) (by omega)
    omega
  obtain ⟨b0, e0, v0, g0⟩ := new_ground (bg := bg) hdep ⟨hWp, hW'⟩ ⟨hHp, hH'⟩ hb
  obtain ⟨b', e, p⟩ := C66_italic_partial v0 scale scale hf hs space h1 hd
  have side := dotSide_le h1 hp
  have side1 : 1 ≤ dotSide scale pixspace := by unfold dotSide; split_ifs <;> omega
  have fits : ∀ k ch i j : Nat, Stands str k ch → i < byte font 0 → j < 8 →
      (0 ≤ scale + columnNo (str.take k) * colStep scale space +
          slant scale (byte font 0) (scale + lineNo (str.take k) * lineStep font scale space) i + j * scale ∧
       scale + columnNo (str.take k) * colStep scale space +
          slant scale (byte font 0) (scale + lineNo (str.take k) * lineStep font scale space) i + j * scale + dotSide scale pixspace ≤ W) ∧
      (0 ≤ scale + lineNo (str.take k) * lineStep font scale space + i * scale ∧
       scale + lineNo (str.take k) * lineStep font scale space + i * scale + dotSide scale pixspace ≤ H) := by
    intro k ch i j hk hi hj
    have a1 : ((columnNo (str.take k) : Int) + 1) * colStep scale space ≤
        (computetextrowandcolcnt str).1 * colStep scale space :=
      mul_le_mul_of_nonneg_right (by have := textsize_col hk; omega) (by omega)
    have a2 : ((lineNo (str.take k) : Int) + 1) * lineStep font scale space ≤
        (computetextrowandcolcnt str).2 * lineStep font scale space :=
      mul_le_mul_of_nonneg_right (by have := textsize_line (str := str) k; omega) (by omega)
    have a3 : ((j : Int) + 1) * scale ≤ 8 * scale := mul_le_mul_of_nonneg_right (by omega) (by omega)
    have a4 : ((i : Int) + 1) * scale ≤ byte font 0 * scale := mul_le_mul_of_nonneg_right (by omega) (by omega)
    have a5 : 0 ≤ (columnNo (str.take k) : Int) * colStep scale space := mul_nonneg (by omega) (by omega)
    have a6 : 0 ≤ (lineNo (str.take k) : Int) * lineStep font scale space := mul_nonneg (by omega) (by omega)
    have a7 : 0 ≤ (j : Int) * scale := mul_nonneg (by omega) (by omega)
    have a8 : 0 ≤ (i : Int) * scale := mul_nonneg (by omega) (by omega)
    rw [add_mul, one_mul] at a1 a2 a3 a4
    have a9 := hsl (scale + lineNo (str.take k) * lineStep font scale space) i hi
    omega
  refine ⟨b', ?_, p.valid, ?_, ?_⟩
  · unfold plotitalicstring plotstringfunc at e
    unfold textimage
    rw [height_ok hf] at e ⊢
    simp only [ok_bind] at e ⊢
    have eW : (if scale > 1 then (computetextrowandcolcnt str).1 * (pyShl scale 3 + charSpace space) + pyShl scale 1 +
        byte font 0 * pyShr scale 1 else (computetextrowandcolcnt str).1 * (pyShl scale 3 + charSpace space) +
        pyShl scale 1 + pyShr (byte font 0) 1) = (W : Int) := by
      rw [hW, pyShl_3, pyShl_1, pyShr_1, pyShr_1]
      unfold colStep charSpace slant
      by_cases h2 : scale = 1
      · subst h2
        rw [if_neg (by omega), if_pos rfl]
        push_cast
        split_ifs <;> omega
      · rw [if_pos (by omega), if_neg h2]
        push_cast; ring
    have eH : (computetextrowandcolcnt str).2 * ((byte font 0 : Int) * scale + charSpace space) + pyShl scale 1 = (H : Int) := by
      rw [hH, pyShl_1]; unfold lineStep charSpace; ring
    simp only [eH, if_true]
    rw [eW]
    rw [← bind_assoc, e0]
    exact e
  · intro k ch i j px py hk hi hj hl hq
    obtain ⟨f1, f2⟩ := fits k ch i j hk hi hj
    unfold FullSquare at hq
    have hx : px < W := by omega
    have hy : py < H := by omega
    refine ⟨hx, hy, p.inside px py hx hy ⟨k, ch, i, j, hk, hi, hj, hl, ?_⟩⟩
    unfold Square
    omega
  · intro px py hx hy hn
    rw [p.outside px py hx hy, g0 px py hx hy]
    rintro ⟨k, ch, i, j, hk, hi, hj, hl, hq⟩
    exact hn k ch i j hk hi hj hl hq.2

example : (do let b ← textimage enumletters plotitalic8bitpattern true [1] 1 0 0 (.one 7) tinyFont 0 24
              pure ((List.range 5).map fun y => (List.range 5).map fun x => pix b 12 5 24 x y)) =
    .ok [[0, 0, 0, 0, 0], [0, 0, 7, 7, 0], [0, 0, 7, 0, 0], [0, 0, 0, 0, 0], [0, 0, 0, 0, 0]] := by
  decide +kernel

end Verif.Props
