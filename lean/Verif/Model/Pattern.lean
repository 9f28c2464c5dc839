import Verif.Model.Draw
import Verif.Model.Transform
/-! Model of the 8-bit pattern plotting of `BITMAPlib.py` (the glyphs of the fonts are such patterns)
and of text output. Pattern rows are non-negative numbers, as in the font arrays. -/

namespace Verif.Model
open Verif

/-- The `color` argument: an int or a list/tuple of ints. -/
inductive PatColor
  | one (c : Int)
  | cycle (cs : List Int)

/-- The values of `mask` in the loops of BITMAPlib.py 4178-4186: 128, halved while positive. -/
def patMasks : List Nat := [128, 64, 32, 16, 8, 4, 2, 1]

/-- The inner loop of BITMAPlib.py 4178-4186 (and 4194-4203): one row of the pattern, moving by
`(dx, dy)` after each bit. -/
def patRow (put : Bytes → Int → Int → Py Bytes) (dx dy : Int) (bits : Nat) : List Nat → Bytes → Int → Int → Py Bytes
  | [], bmp, _, _ => pure bmp
  | mask :: ms, bmp, x, y => do
    let bmp ← (if mask &&& bits > 0 then put bmp x y else pure bmp : Py Bytes)
    patRow put dx dy bits ms bmp (x + dx) (y + dy)

/-- `colorind += 1` with the wrap of BITMAPlib.py 4205-4207. -/
def nextInd (cnt ci : Nat) : Nat := if ci + 1 = cnt then 0 else ci + 1

/-- `colorind` advanced `n` times. -/
def advInd (cnt : Nat) : Nat → Nat → Nat
  | 0, ci => ci
  | n + 1, ci => advInd cnt n (nextInd cnt ci)

/-- The colour of a row: the int itself, or `color[colorind]`. -/
def rowColor : PatColor → Nat → Py Int
  | .one c, _ => .ok c
  | .cycle cs, ci => match cs[ci]? with
    | some c => .ok c
    | none => .error .indexError

/-- `colorind` for the next row; `steps` is the number of increments per row. -/
def rowInd (steps : Nat) : PatColor → Nat → Nat
  | .one _, ci => ci
  | .cycle cs, ci => advInd cs.length steps ci

/-- The outer loop of BITMAPlib.py 4176-4188 and 4192-4208. -/
def patRows (put : Int → Bytes → Int → Int → Py Bytes) (dx dy : Int) (next : Int × Int → Int × Int) (steps : Nat)
    (color : PatColor) : List Nat → Nat → Bytes → Int × Int → Py Bytes
  | [], _, bmp, _ => pure bmp
  | bits :: rest, ci, bmp, p => do
    let cl ← rowColor color ci
    let bmp ← patRow (put cl) dx dy bits patMasks bmp p.1 p.2
    patRows put dx dy next steps color rest (rowInd steps color ci) bmp (next p)

/-- A drawing function `fn(bmp, x, y, inc, color)`. -/
abbrev PatFn := Bytes → Int → Int → Int → Int → Py Bytes

/-- BITMAPlib.py 4181-4184 -/
def patPut (fn : PatFn) (scale inc : Int) (c : Int) (bmp : Bytes) (x y : Int) : Py Bytes :=
  if scale = 1 ∨ inc ≤ 0 then plotxybit bmp x y c else fn bmp x y inc c

/-- BITMAPlib.py 4150-4208 `plot8bitpatternwithfn` -/
def plot8bitpatternwithfn (fn : PatFn) (bmp : Bytes) (x y : Int) (bitpattern : List Nat) (scale pixspace : Int)
    (color : PatColor) : Py Bytes :=
  patRows (patPut fn scale (scale - 1 - pixspace)) scale 0 (fun p => (p.1, p.2 + scale)) 1 color bitpattern 0 bmp (x, y)

/-- The function passed in BITMAPlib.py 4380-4382: a filled square. -/
def patSquare : PatFn := fun bmp x y inc color => filledrect bmp x y (x + inc) (y + inc) color

/-- BITMAPlib.py 4355-4382 `plot8bitpattern` -/
def plot8bitpattern (bmp : Bytes) (x y : Int) (bitpattern : List Nat) (scale pixspace : Int) (color : PatColor) : Py Bytes :=
  plot8bitpatternwithfn patSquare bmp x y bitpattern scale pixspace color

/-- BITMAPlib.py 4699-4764 `plot8bitpatternupsidedownwithfn`: the rows from the last to the first. -/
def plot8bitpatternupsidedownwithfn (fn : PatFn) (bmp : Bytes) (x y : Int) (bitpattern : List Nat) (scale pixspace : Int)
    (color : PatColor) : Py Bytes :=
  plot8bitpatternwithfn fn bmp x y bitpattern.reverse scale pixspace color

/-- BITMAPlib.py 4767-4795 `plot8bitpatternupsidedown` -/
def plot8bitpatternupsidedown (bmp : Bytes) (x y : Int) (bitpattern : List Nat) (scale pixspace : Int)
    (color : PatColor) : Py Bytes :=
  plot8bitpatternupsidedownwithfn patSquare bmp x y bitpattern scale pixspace color

/-- BITMAPlib.py 4825-4884 `plot8bitpatternsidewaywithfn`. In the branch for lists `colorind` is advanced
inside the loop over the bits (lines 4880-4882), eight times per row. -/
def plot8bitpatternsidewaywithfn (fn : PatFn) (bmp : Bytes) (x y : Int) (bitpattern : List Nat) (scale pixspace : Int)
    (color : PatColor) : Py Bytes :=
  patRows (patPut fn scale (scale - 1 - pixspace)) 0 (-scale) (fun p => (p.1 + scale, p.2)) 8 color bitpattern 0 bmp (x, y)

/-- BITMAPlib.py 4953-4980 `plot8bitpatternsideway` -/
def plot8bitpatternsideway (bmp : Bytes) (x y : Int) (bitpattern : List Nat) (scale pixspace : Int)
    (color : PatColor) : Py Bytes :=
  plot8bitpatternsidewaywithfn patSquare bmp x y bitpattern scale pixspace color

/-- BITMAPlib.py 4035-4073 `plotrotated8bitpatternwithfn` (int colours only): the rows pass through
`rotatebits`. -/
def plotrotated8bitpatternwithfn (fn : PatFn) (bmp : Bytes) (x y : Int) (bitpattern : List Nat) (scale pixspace : Int)
    (color : Int) : Py Bytes :=
  plot8bitpatternwithfn fn bmp x y (bitpattern.map rotatebits) scale pixspace (.one color)

/-- BITMAPlib.py 4639-4667 `plotrotated8bitpattern` -/
def plotrotated8bitpattern (bmp : Bytes) (x y : Int) (bitpattern : List Nat) (scale pixspace : Int) (color : Int) : Py Bytes :=
  plotrotated8bitpatternwithfn patSquare bmp x y bitpattern scale pixspace color

/-- The step to the next row in BITMAPlib.py 4254-4257. -/
def italicNext (scale : Int) (p : Int × Int) : Int × Int :=
  let y := p.2 + scale
  let x := p.1 - pyShr scale 1
  (if y % 2 = 0 ∧ scale = 1 then x - 1 else x, y)

/-- BITMAPlib.py 4236-4241 -/
def italicStart (scale : Int) (h : Nat) (x : Int) : Int :=
  if scale > 1 then x + pyShr scale 1 * h else x + pyShr h 1

/-- BITMAPlib.py 4211-4279 `plotitalic8bitpatternwithfn` -/
def plotitalic8bitpatternwithfn (fn : PatFn) (bmp : Bytes) (x y : Int) (bitpattern : List Nat) (scale pixspace : Int)
    (color : PatColor) : Py Bytes :=
  patRows (patPut fn scale (scale - 1 - pixspace)) scale 0 (italicNext scale) 1 color bitpattern 0 bmp
    (italicStart scale bitpattern.length x, y)

/-- BITMAPlib.py 4385-4413 `plotitalic8bitpattern` -/
def plotitalic8bitpattern (bmp : Bytes) (x y : Int) (bitpattern : List Nat) (scale pixspace : Int)
    (color : PatColor) : Py Bytes :=
  plotitalic8bitpatternwithfn patSquare bmp x y bitpattern scale pixspace color

/-- BITMAPlib.py 4282-4352 `plotitalic8bitpatternupsidedownwithfn`: the rows from the last to the first; `x` is not
moved to the right beforehand. -/
def plotitalic8bitpatternupsidedownwithfn (fn : PatFn) (bmp : Bytes) (x y : Int) (bitpattern : List Nat)
    (scale pixspace : Int) (color : PatColor) : Py Bytes :=
  patRows (patPut fn scale (scale - 1 - pixspace)) scale 0 (italicNext scale) 1 color bitpattern.reverse 0 bmp (x, y)

/-- BITMAPlib.py 4581-4608 `plotupsidedownitalic8bitpattern` -/
def plotupsidedownitalic8bitpattern (bmp : Bytes) (x y : Int) (bitpattern : List Nat) (scale pixspace : Int)
    (color : PatColor) : Py Bytes :=
  plotitalic8bitpatternupsidedownwithfn patSquare bmp x y bitpattern scale pixspace color

/-- The step to the next row in BITMAPlib.py 4926-4929. -/
def italicSideNext (scale : Int) (p : Int × Int) : Int × Int :=
  let x := p.1 + scale
  let y := p.2 + pyShr scale 1
  (x, if x % 2 = 0 ∧ scale = 1 then y - 1 else y)

/-- BITMAPlib.py 4887-4951 `plotitalic8bitpatternsidewaywithfn` -/
def plotitalic8bitpatternsidewaywithfn (fn : PatFn) (bmp : Bytes) (x y : Int) (bitpattern : List Nat)
    (scale pixspace : Int) (color : PatColor) : Py Bytes :=
  patRows (patPut fn scale (scale - 1 - pixspace)) 0 (-scale) (italicSideNext scale) 1 color bitpattern 0 bmp (x, y)

/-- BITMAPlib.py 4983-5010 `plotitalic8bitpatternsideway` -/
def plotitalic8bitpatternsideway (bmp : Bytes) (x y : Int) (bitpattern : List Nat) (scale pixspace : Int)
    (color : PatColor) : Py Bytes :=
  plotitalic8bitpatternsidewaywithfn patSquare bmp x y bitpattern scale pixspace color

/-- BITMAPlib.py 4076-4147 `plotrotateditalic8bitpatternwithfn` -/
def plotrotateditalic8bitpatternwithfn (fn : PatFn) (bmp : Bytes) (x y : Int) (bitpattern : List Nat)
    (scale pixspace : Int) (color : PatColor) : Py Bytes :=
  plotitalic8bitpatternwithfn fn bmp x y (bitpattern.map rotatebits) scale pixspace color

/-- BITMAPlib.py 4551-4578 `plotreverseditalic8bitpattern` -/
def plotreverseditalic8bitpattern (bmp : Bytes) (x y : Int) (bitpattern : List Nat) (scale pixspace : Int)
    (color : PatColor) : Py Bytes :=
  plotrotateditalic8bitpatternwithfn patSquare bmp x y bitpattern scale pixspace color

/-! ### Text -/

/-- fonts.py 1569-1582 `itergetcharfromfontbuf`, `getcharfont`; a character is its code point. -/
def getcharfont (charbuf : Bytes) (ch : Nat) : Py (List Nat) := do
  let l ← getItem charbuf 0
  (List.range l).mapM fun i => getItem charbuf ((ch * l + 1 + i : Nat) : Int)

/-- A font rendering function `fontrenderfunc(bmp, x, y, glyph, scale, pixspace, color)`. -/
abbrev RenderFn := Bytes → Int → Int → List Nat → Int → Int → PatColor → Py Bytes

/-- The loop of BITMAPlib.py 5112-5122, 6291-6301 and 6481-6491; `\n` is 10 and `\t` is 9. `nl`, `tab` and `adv` are
the moves of the position after a newline, a tab and a character. -/
def plotChars (render : RenderFn) (fontbuf : Bytes) (scale pixspace : Int) (color : PatColor)
    (nl tab adv : Int × Int → Int × Int) : List Nat → Bytes → Int × Int → Py Bytes
  | [], bmp, _ => pure bmp
  | c :: cs, bmp, p =>
    if c = 10 then plotChars render fontbuf scale pixspace color nl tab adv cs bmp (nl p)
    else if c = 9 then plotChars render fontbuf scale pixspace color nl tab adv cs bmp (tab p)
    else do
      let g ← getcharfont fontbuf c
      let bmp ← render bmp p.1 p.2 g scale pixspace color
      plotChars render fontbuf scale pixspace color nl tab adv cs bmp (adv p)

/-- `if spacebetweenchar == 0: spacebetweenchar = 1` -/
def charSpace (spacebetweenchar : Int) : Int := if spacebetweenchar = 0 then 1 else spacebetweenchar

/-- BITMAPlib.py 5069-5122 `plotstringfunc`; `order` is the string in the order of `orderfunc`. -/
def plotstringfunc (order : List Nat → List Nat) (render : RenderFn) (bmp : Bytes) (x y : Int) (str : List Nat)
    (scale pixspace spacebetweenchar : Int) (color : PatColor) (fontbuf : Bytes) : Py Bytes := do
  let sp := charSpace spacebetweenchar
  let xstep := pyShl scale 3 + sp
  let h ← getItem fontbuf 0
  let ystep := (h : Int) * scale + sp
  plotChars render fontbuf scale pixspace color (fun p => (x, p.2 + ystep)) (fun p => (p.1 + pyShl xstep 2, p.2))
    (fun p => (p.1 + xstep, p.2)) (order str) bmp (x, y)

/-- chartools.py 17-29 `enumletters` -/
def enumletters (str : List Nat) : List Nat := str

/-- chartools.py 32-45 `enumreverseletters` -/
def enumreverseletters (str : List Nat) : List Nat := str.reverse

/-- BITMAPlib.py 5283-5319 `plotstring` -/
def plotstring (bmp : Bytes) (x y : Int) (str : List Nat) (scale pixspace spacebetweenchar : Int) (color : PatColor)
    (fontbuf : Bytes) : Py Bytes :=
  plotstringfunc enumletters plot8bitpattern bmp x y str scale pixspace spacebetweenchar color fontbuf

/-- BITMAPlib.py 5406-5439 `plotitalicstring` -/
def plotitalicstring (bmp : Bytes) (x y : Int) (str : List Nat) (scale pixspace spacebetweenchar : Int) (color : PatColor)
    (fontbuf : Bytes) : Py Bytes :=
  plotstringfunc enumletters plotitalic8bitpattern bmp x y str scale pixspace spacebetweenchar color fontbuf

/-- BITMAPlib.py 5960-5992 `plotstringupsidedown` -/
def plotstringupsidedown (bmp : Bytes) (x y : Int) (str : List Nat) (scale pixspace spacebetweenchar : Int)
    (color : PatColor) (fontbuf : Bytes) : Py Bytes :=
  plotstringfunc enumreverseletters plot8bitpatternupsidedown bmp x y str scale pixspace spacebetweenchar color fontbuf

/-- BITMAPlib.py 6257-6301 `plotstringsidewayfn` -/
def plotstringsidewayfn (render : RenderFn) (bmp : Bytes) (x y : Int) (str : List Nat)
    (scale pixspace spacebetweenchar : Int) (color : PatColor) (fontbuf : Bytes) : Py Bytes := do
  let sp := charSpace spacebetweenchar
  let xstep := pyShl scale 3 + sp
  let h ← getItem fontbuf 0
  let ystep := (h : Int) * scale + sp
  plotChars render fontbuf scale pixspace color (fun p => (p.1 + ystep, y)) (fun p => (p.1, p.2 - pyShl xstep 2))
    (fun p => (p.1, p.2 - xstep)) (enumletters str) bmp (x, y)

/-- BITMAPlib.py 6304-6335 `plotstringsideway` -/
def plotstringsideway (bmp : Bytes) (x y : Int) (str : List Nat) (scale pixspace spacebetweenchar : Int)
    (color : PatColor) (fontbuf : Bytes) : Py Bytes :=
  plotstringsidewayfn plot8bitpatternsideway bmp x y str scale pixspace spacebetweenchar color fontbuf

/-- BITMAPlib.py 6444-6491 `plotstringverticalwithfn` -/
def plotstringverticalwithfn (render : RenderFn) (bmp : Bytes) (x y : Int) (str : List Nat)
    (scale pixspace spacebetweenchar : Int) (color : PatColor) (fontbuf : Bytes) : Py Bytes := do
  let sp := charSpace spacebetweenchar
  let xstep := pyShl scale 3 + sp
  let h ← getItem fontbuf 0
  let ystep := (h : Int) * scale + sp
  plotChars render fontbuf scale pixspace color (fun p => (p.1 + xstep, y)) (fun p => (p.1, p.2 + pyShl ystep 2))
    (fun p => (p.1, p.2 + ystep)) (enumletters str) bmp (x, y)

/-- BITMAPlib.py 6494-6525 `plotstringvertical` -/
def plotstringvertical (bmp : Bytes) (x y : Int) (str : List Nat) (scale pixspace spacebetweenchar : Int)
    (color : PatColor) (fontbuf : Bytes) : Py Bytes :=
  plotstringverticalwithfn plot8bitpattern bmp x y str scale pixspace spacebetweenchar color fontbuf

/-- `str.split('\n')` -/
def splitLines : List Nat → List (List Nat)
  | [] => [[]]
  | c :: cs =>
    if c = 10 then [] :: splitLines cs
    else match splitLines cs with
      | [] => [[c]]
      | l :: ls => (c :: l) :: ls

/-- `str.replace('\t', '    ')` -/
def expandTabs (str : List Nat) : List Nat := str.flatMap fun c => if c = 9 then [32, 32, 32, 32] else [c]

/-- textgraphics.py 17-30 `computetextrowandcolcnt`; splitting a text without newline gives the text. -/
def computetextrowandcolcnt (text : List Nat) : Nat × Nat :=
  let l := splitLines (expandTabs text)
  (l.foldl (fun m r => max m r.length) 0, l.length)

/-- BITMAPlib.py 5165-5198: the image that `plotstringfunc2file` saves. `italic` says whether the name of the rendering
function contains "italic" (after its first letter). -/
def textimage (order : List Nat → List Nat) (render : RenderFn) (italic : Bool) (str : List Nat)
    (scale pixspace spacebetweenchar : Int) (color : PatColor) (fontbuf : Bytes) (backgroundcolor bitdepth : Int) : Py Bytes := do
  let sp := charSpace spacebetweenchar
  let xstep := pyShl scale 3 + sp
  let h ← getItem fontbuf 0
  let ystep := (h : Int) * scale + sp
  let (row, col) := computetextrowandcolcnt str
  let pad := pyShl scale 1
  let mx := (row : Int) * xstep + pad
  let my := (col : Int) * ystep + pad
  let mx := if italic then (if scale > 1 then mx + h * pyShr scale 1 else mx + pyShr h 1) else mx
  let bmp ← newBMP mx my bitdepth
  let bmp ← (if backgroundcolor > 0 then filledrect bmp 0 0 (mx - 1) (my - 1) backgroundcolor else pure bmp : Py Bytes)
  plotChars render fontbuf scale pixspace color (fun p => (scale, p.2 + ystep)) (fun p => (p.1 + pyShl xstep 2, p.2))
    (fun p => (p.1 + xstep, p.2)) (order str) bmp (scale, scale)

end Verif.Model
