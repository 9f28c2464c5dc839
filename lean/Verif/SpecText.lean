import Verif.Spec
/-! Vocabulary for patterns and text. -/

namespace Verif.Spec
open Verif

/-- The dot in row `i`, column `j` of a glyph: bit `7 - j` of its row `i`. -/
def Lit (pat : List Nat) (i j : Nat) : Prop := pat.getD i 0 / 2 ^ (7 - j) % 2 = 1

instance (pat : List Nat) (i j : Nat) : Decidable (Lit pat i j) := by unfold Lit; infer_instance

/-- The pixels of the square of side `s` with top left corner `(x, y)`, provided the whole square is inside
the image. -/
def Square (W H : Nat) (s x y : Int) (px py : Nat) : Prop :=
  (0 ≤ x ∧ x + s ≤ W ∧ 0 ≤ y ∧ y + s ≤ H) ∧ x ≤ px ∧ (px : Int) < x + s ∧ y ≤ py ∧ (py : Int) < y + s

/-- The side of the squares a pattern is made of. -/
def dotSide (scale pixspace : Int) : Int := if scale = 1 then 1 else max 1 (scale - pixspace)

/-- How far to the right row `i` of an italic glyph of `n` rows is moved, at height `y`. -/
def slant (scale : Int) (n : Nat) (y : Int) (i : Nat) : Int :=
  if scale = 1 then (n / 2 : Nat) - ((y + i) / 2 - y / 2) else scale / 2 * ((n : Int) - i)

end Verif.Spec

namespace Verif.Spec

/-- The column reached after the characters `pre`: a newline starts again, a tab counts four. -/
def columnNo (pre : List Nat) : Nat := pre.foldl (fun col c => if c = 10 then 0 else if c = 9 then col + 4 else col + 1) 0

/-- The line reached: the number of newlines. -/
def lineNo (pre : List Nat) : Nat := pre.count 10

/-- The glyph of character code `c` in a font file: a height byte, then the rows of all glyphs in order. -/
def glyph (font : Bytes) (c : Nat) : List Nat :=
  (List.range (byte font 0)).map fun i => byte font (c * byte font 0 + 1 + i)

/-- The string needs no glyph that the font does not have. -/
def InFont (font : Bytes) (str : List Nat) : Prop :=
  ∀ c ∈ str, c ≠ 10 → c ≠ 9 → (c + 1) * byte font 0 < font.length

/-- The visible characters of the string with their places: the character at index `k` stands in column
`columnNo (first k characters)` of line `lineNo (first k characters)`. -/
def Stands (str : List Nat) (k c : Nat) : Prop := str[k]? = some c ∧ c ≠ 10 ∧ c ≠ 9

end Verif.Spec
