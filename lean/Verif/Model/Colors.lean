import Verif.Model.IntTools
import Verif.Model.StdPal
/-! Model of the integer colour functions of `pythonbmp/colors.py`. -/

namespace Verif.Model
open Verif

/-- An `[r, g, b]` triple. -/
abbrev RGB := Int × Int × Int

/-- colors.py 76-87 `getdefaultbitpal` (`bmpstdpal[bits]`, bmppal.py 20-301). -/
def getdefaultbitpal (bits : Int) : Py (List RGB) :=
  if bits = 1 then .ok stdpal1
  else if bits = 4 then .ok stdpal4
  else if bits = 8 then .ok stdpal8
  else .error .keyError

/-- colors.py 117-129 `int2RGB`, and 132-145 `int2RGBlist` (same values, as a list). -/
def int2RGB (i : Int) : RGB := (pyShr i 16, pyAnd (pyShr i 8) 0xff, pyAnd i 0xff)

/-- colors.py 148-160 `int2BGRarr` -/
def int2BGRarr (i : Int) : Py Bytes := mkArray [pyAnd i 0xff, pyAnd (pyShr i 8) 0xff, pyShr i 16]

/-- colors.py 163-176 `int2RGBarr` -/
def int2RGBarr (i : Int) : Py Bytes := mkArray [pyShr i 16, pyAnd (pyShr i 8) 0xff, pyAnd i 0xff]

/-- colors.py 178-191 `RGB2BGRarr` -/
def RGB2BGRarr (r g b : Int) : Py Bytes := mkArray [b, g, r]

/-- colors.py 225-238 `RGB2int` -/
def RGB2int (r g b : Int) : Int := b + pyShl g 8 + pyShl r 16

/-- colors.py 241-269 `matchRGBtodefault4bitpal` -/
def matchRGBtodefault4bitpal (rgb : RGB) : Int :=
  let r := pyShr rgb.1 6
  let g := pyShr rgb.2.1 6
  let b := pyShr rgb.2.2 6
  let color : Int := if r > 1 ∨ g > 1 ∨ b > 1 then 8 else 0
  let color := if r ≥ 1 then color + 4 else color
  let color := if g ≥ 1 then color + 2 else color
  if b ≥ 1 then color + 1 else color

/-- Square of `math.dist(RGB, p)`. -/
def dist2 (p q : RGB) : Int :=
  (p.1 - q.1) ^ 2 + (p.2.1 - q.2.1) ^ 2 + (p.2.2 - q.2.2) ^ 2

/-- The `for` loop of colors.py 296-302. Distances are compared through their squares. `math.dist`
of byte triples is the rounded square root of an integer below 442^2, and different integers of
that size have clearly different roots, so the comparison is the same except that CPython may
break exact ties differently. -/
def matchLoop (rgb : RGB) (isList : Bool) : List RGB → Int → Int → Int → Int
  | [], _, c, _ => c
  | p :: ps, i, c, d2 =>
    if p ≠ (0, 0, 0) ∧ (isList = false ∨ rgb ≠ (0, 0, 0)) then
      if dist2 rgb p < d2 then matchLoop rgb isList ps (i + 1) i (dist2 rgb p)
      else matchLoop rgb isList ps (i + 1) c d2
    else matchLoop rgb isList ps (i + 1) c d2

/-- colors.py 272-303 `matchRGBtopal`. Palette entries are lists. `isList` says whether the
argument is a list as well; a tuple or an array never compares equal to a list in Python. -/
def matchRGBtopal (rgb : RGB) (isList : Bool) (pal : List RGB) : Int :=
  if isList = true ∧ rgb ∈ pal then ((pal.idxOf rgb : Nat) : Int)
  else matchLoop rgb isList pal 0 0 (442 ^ 2)

end Verif.Model
