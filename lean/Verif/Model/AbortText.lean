import Verif.Model.Abort
import Verif.Model.Pattern
/-! # Patterns and text together with the array that a raised exception leaves behind (see `Verif.Model.Abort`) -/

namespace Verif.Model
open Verif Run

/-- The inner loop of BITMAPlib.py 4178-4186 (and 4194-4203). -/
def patRowR (put : Int → Int → Run Unit) (dx dy : Int) (bits : Nat) : List Nat → Int → Int → Run Unit
  | [], _, _ => pure ()
  | mask :: ms, x, y => do
    (if mask &&& bits > 0 then put x y else pure () : Run Unit)
    patRowR put dx dy bits ms (x + dx) (y + dy)

/-- The outer loop of BITMAPlib.py 4176-4188 and 4192-4208. -/
def patRowsR (put : Int → Int → Int → Run Unit) (dx dy : Int) (next : Int × Int → Int × Int) (steps : Nat) (color : PatColor) :
    List Nat → Nat → Int × Int → Run Unit
  | [], _, _ => pure ()
  | bits :: rest, ci, p => do
    let cl ← look fun _ => rowColor color ci
    patRowR (put cl) dx dy bits patMasks p.1 p.2
    patRowsR put dx dy next steps color rest (rowInd steps color ci) (next p)

/-- BITMAPlib.py 4181-4184 with the function passed in BITMAPlib.py 4380-4382. -/
def patPutR (scale inc : Int) (c x y : Int) : Run Unit :=
  if scale = 1 ∨ inc ≤ 0 then plotxybitR x y c else filledrectR x y (x + inc) (y + inc) c

/-- BITMAPlib.py 4355-4382 `plot8bitpattern` (and 4150-4208 `plot8bitpatternwithfn`) -/
def plot8bitpatternR (x y : Int) (bitpattern : List Nat) (scale pixspace : Int) (color : PatColor) : Run Unit :=
  patRowsR (patPutR scale (scale - 1 - pixspace)) scale 0 (fun p => (p.1, p.2 + scale)) 1 color bitpattern 0 (x, y)

/-- BITMAPlib.py 4767-4795 `plot8bitpatternupsidedown` -/
def plot8bitpatternupsidedownR (x y : Int) (bitpattern : List Nat) (scale pixspace : Int) (color : PatColor) : Run Unit :=
  plot8bitpatternR x y bitpattern.reverse scale pixspace color

/-- BITMAPlib.py 4953-4980 `plot8bitpatternsideway` (and 4825-4884 `plot8bitpatternsidewaywithfn`) -/
def plot8bitpatternsidewayR (x y : Int) (bitpattern : List Nat) (scale pixspace : Int) (color : PatColor) : Run Unit :=
  patRowsR (patPutR scale (scale - 1 - pixspace)) 0 (-scale) (fun p => (p.1 + scale, p.2)) 8 color bitpattern 0 (x, y)

/-- BITMAPlib.py 4385-4413 `plotitalic8bitpattern` (and 4211-4279 `plotitalic8bitpatternwithfn`) -/
def plotitalic8bitpatternR (x y : Int) (bitpattern : List Nat) (scale pixspace : Int) (color : PatColor) : Run Unit :=
  patRowsR (patPutR scale (scale - 1 - pixspace)) scale 0 (italicNext scale) 1 color bitpattern 0
    (italicStart scale bitpattern.length x, y)

/-- A font rendering function. -/
abbrev RenderR := Int → Int → List Nat → Int → Int → PatColor → Run Unit

/-- The loop of BITMAPlib.py 5112-5122 and 6291-6301: the glyph is read from the font before it is drawn. -/
def plotCharsR (render : RenderR) (fontbuf : Bytes) (scale pixspace : Int) (color : PatColor)
    (nl tab adv : Int × Int → Int × Int) : List Nat → Int × Int → Run Unit
  | [], _ => pure ()
  | c :: cs, p =>
    if c = 10 then plotCharsR render fontbuf scale pixspace color nl tab adv cs (nl p)
    else if c = 9 then plotCharsR render fontbuf scale pixspace color nl tab adv cs (tab p)
    else do
      let g ← look fun _ => getcharfont fontbuf c
      render p.1 p.2 g scale pixspace color
      plotCharsR render fontbuf scale pixspace color nl tab adv cs (adv p)

/-- BITMAPlib.py 5069-5122 `plotstringfunc` -/
def plotstringfuncR (order : List Nat → List Nat) (render : RenderR) (x y : Int) (str : List Nat)
    (scale pixspace spacebetweenchar : Int) (color : PatColor) (fontbuf : Bytes) : Run Unit := do
  let sp := charSpace spacebetweenchar
  let xstep := pyShl scale 3 + sp
  let h ← look fun _ => getItem fontbuf 0
  let ystep := (h : Int) * scale + sp
  plotCharsR render fontbuf scale pixspace color (fun p => (x, p.2 + ystep)) (fun p => (p.1 + pyShl xstep 2, p.2))
    (fun p => (p.1 + xstep, p.2)) (order str) (x, y)

/-- BITMAPlib.py 5283-5319 `plotstring` -/
def plotstringR (x y : Int) (str : List Nat) (scale pixspace spacebetweenchar : Int) (color : PatColor) (fontbuf : Bytes) : Run Unit :=
  plotstringfuncR enumletters plot8bitpatternR x y str scale pixspace spacebetweenchar color fontbuf

/-- BITMAPlib.py 5406-5439 `plotitalicstring` -/
def plotitalicstringR (x y : Int) (str : List Nat) (scale pixspace spacebetweenchar : Int) (color : PatColor) (fontbuf : Bytes) :
    Run Unit :=
  plotstringfuncR enumletters plotitalic8bitpatternR x y str scale pixspace spacebetweenchar color fontbuf

/-- BITMAPlib.py 5960-5992 `plotstringupsidedown` -/
def plotstringupsidedownR (x y : Int) (str : List Nat) (scale pixspace spacebetweenchar : Int) (color : PatColor) (fontbuf : Bytes) :
    Run Unit :=
  plotstringfuncR enumreverseletters plot8bitpatternupsidedownR x y str scale pixspace spacebetweenchar color fontbuf

/-- BITMAPlib.py 6304-6335 `plotstringsideway` (and 6257-6301 `plotstringsidewayfn`) -/
def plotstringsidewayR (x y : Int) (str : List Nat) (scale pixspace spacebetweenchar : Int) (color : PatColor) (fontbuf : Bytes) :
    Run Unit := do
  let sp := charSpace spacebetweenchar
  let xstep := pyShl scale 3 + sp
  let h ← look fun _ => getItem fontbuf 0
  let ystep := (h : Int) * scale + sp
  plotCharsR plot8bitpatternsidewayR fontbuf scale pixspace color (fun p => (p.1 + ystep, y)) (fun p => (p.1, p.2 - pyShl xstep 2))
    (fun p => (p.1, p.2 - xstep)) (enumletters str) (x, y)

end Verif.Model
