import Verif.Model.Pattern
import Verif.Model.Files
/-! Model of the glyphs and texts of `BITMAPlib.py` made of round dots, of the remaining text directions and of the
functions that write a text to a file. -/

namespace Verif.Model
open Verif Spec

/-- BITMAPlib.py 4416-4436 `plotcircinsqr` -/
def plotcircinsqr : PatFn := fun bmp x y d color =>
  let d := pyShr d 1
  filledcircle bmp (x + d) (y + d) d color

/-- BITMAPlib.py 4439-4464 `plot8bitpatternasdots` -/
def plot8bitpatternasdots (bmp : Bytes) (x y : Int) (bitpattern : List Nat) (scale pixspace : Int)
    (color : PatColor) : Py Bytes :=
  plot8bitpatternwithfn plotcircinsqr bmp x y bitpattern scale pixspace color

/-- BITMAPlib.py 4467-4492 `plotitalic8bitpatternasdots` -/
def plotitalic8bitpatternasdots (bmp : Bytes) (x y : Int) (bitpattern : List Nat) (scale pixspace : Int)
    (color : PatColor) : Py Bytes :=
  plotitalic8bitpatternwithfn plotcircinsqr bmp x y bitpattern scale pixspace color

/-- BITMAPlib.py 4495-4520 `plotitalic8bitpatternupdsidedownasdots` -/
def plotitalic8bitpatternupdsidedownasdots (bmp : Bytes) (x y : Int) (bitpattern : List Nat) (scale pixspace : Int)
    (color : PatColor) : Py Bytes :=
  plotitalic8bitpatternupsidedownwithfn plotcircinsqr bmp x y bitpattern scale pixspace color

/-- BITMAPlib.py 4523-4548 `plotreverseditalic8bitpatternasdots` -/
def plotreverseditalic8bitpatternasdots (bmp : Bytes) (x y : Int) (bitpattern : List Nat) (scale pixspace : Int)
    (color : PatColor) : Py Bytes :=
  plotrotateditalic8bitpatternwithfn plotcircinsqr bmp x y bitpattern scale pixspace color

/-- BITMAPlib.py 4611-4636 `plotupsidedownitalic8bitpatternasdots` -/
def plotupsidedownitalic8bitpatternasdots (bmp : Bytes) (x y : Int) (bitpattern : List Nat) (scale pixspace : Int)
    (color : PatColor) : Py Bytes :=
  plotitalic8bitpatternupsidedownwithfn plotcircinsqr bmp x y bitpattern scale pixspace color

/-- BITMAPlib.py 4798-4822 `plot8bitpatternupsidedownasdots` -/
def plot8bitpatternupsidedownasdots (bmp : Bytes) (x y : Int) (bitpattern : List Nat) (scale pixspace : Int)
    (color : PatColor) : Py Bytes :=
  plot8bitpatternupsidedownwithfn plotcircinsqr bmp x y bitpattern scale pixspace color

/-- BITMAPlib.py 5013-5038 `plot8bitpatternsidewaywithdots` -/
def plot8bitpatternsidewaywithdots (bmp : Bytes) (x y : Int) (bitpattern : List Nat) (scale pixspace : Int)
    (color : PatColor) : Py Bytes :=
  plot8bitpatternsidewaywithfn plotcircinsqr bmp x y bitpattern scale pixspace color

/-- BITMAPlib.py 5041-5066 `plotitalic8bitpatternsidewayasdots` -/
def plotitalic8bitpatternsidewayasdots (bmp : Bytes) (x y : Int) (bitpattern : List Nat) (scale pixspace : Int)
    (color : PatColor) : Py Bytes :=
  plotitalic8bitpatternsidewaywithfn plotcircinsqr bmp x y bitpattern scale pixspace color

/-- BITMAPlib.py 4670-4696 `plotrotated8bitpatternasdots` (int colours only) -/
def plotrotated8bitpatternasdots (bmp : Bytes) (x y : Int) (bitpattern : List Nat) (scale pixspace : Int) (color : Int) :
    Py Bytes :=
  plotrotated8bitpatternwithfn plotcircinsqr bmp x y bitpattern scale pixspace color

/-! ### Texts -/

/-- BITMAPlib.py 5652-5683 `plotstringasdots` -/
def plotstringasdots (bmp : Bytes) (x y : Int) (str : List Nat) (scale pixspace spacebetweenchar : Int)
    (color : PatColor) (fontbuf : Bytes) : Py Bytes :=
  plotstringfunc enumletters plot8bitpatternasdots bmp x y str scale pixspace spacebetweenchar color fontbuf

/-- BITMAPlib.py 5854-5887 `plotitalicstringasdots` -/
def plotitalicstringasdots (bmp : Bytes) (x y : Int) (str : List Nat) (scale pixspace spacebetweenchar : Int)
    (color : PatColor) (fontbuf : Bytes) : Py Bytes :=
  plotstringfunc enumletters plotitalic8bitpatternasdots bmp x y str scale pixspace spacebetweenchar color fontbuf

/-- BITMAPlib.py 5890-5923 `plotreverseditalicstringasdots` -/
def plotreverseditalicstringasdots (bmp : Bytes) (x y : Int) (str : List Nat) (scale pixspace spacebetweenchar : Int)
    (color : PatColor) (fontbuf : Bytes) : Py Bytes :=
  plotstringfunc enumreverseletters plotreverseditalic8bitpatternasdots bmp x y str scale pixspace spacebetweenchar color fontbuf

/-- BITMAPlib.py 5926-5957 `plotreverseditalicstring` -/
def plotreverseditalicstring (bmp : Bytes) (x y : Int) (str : List Nat) (scale pixspace spacebetweenchar : Int)
    (color : PatColor) (fontbuf : Bytes) : Py Bytes :=
  plotstringfunc enumreverseletters plotreverseditalic8bitpattern bmp x y str scale pixspace spacebetweenchar color fontbuf

/-- BITMAPlib.py 6079-6112 `plotupsidedownitalicstring` -/
def plotupsidedownitalicstring (bmp : Bytes) (x y : Int) (str : List Nat) (scale pixspace spacebetweenchar : Int)
    (color : PatColor) (fontbuf : Bytes) : Py Bytes :=
  plotstringfunc enumreverseletters plotupsidedownitalic8bitpattern bmp x y str scale pixspace spacebetweenchar color fontbuf

/-- BITMAPlib.py 6115-6148 `plotupsidedownitalicstringasdots` -/
def plotupsidedownitalicstringasdots (bmp : Bytes) (x y : Int) (str : List Nat) (scale pixspace spacebetweenchar : Int)
    (color : PatColor) (fontbuf : Bytes) : Py Bytes :=
  plotstringfunc enumreverseletters plotupsidedownitalic8bitpatternasdots bmp x y str scale pixspace spacebetweenchar color fontbuf

/-- BITMAPlib.py 6151-6183 `plotstringupsidedownasdots` -/
def plotstringupsidedownasdots (bmp : Bytes) (x y : Int) (str : List Nat) (scale pixspace spacebetweenchar : Int)
    (color : PatColor) (fontbuf : Bytes) : Py Bytes :=
  plotstringfunc enumletters plot8bitpatternupsidedownasdots bmp x y str scale pixspace spacebetweenchar color fontbuf

/-- BITMAPlib.py 6338-6369 `plotitalicstringsidewayasdots` -/
def plotitalicstringsidewayasdots (bmp : Bytes) (x y : Int) (str : List Nat) (scale pixspace spacebetweenchar : Int)
    (color : PatColor) (fontbuf : Bytes) : Py Bytes :=
  plotstringsidewayfn plotitalic8bitpatternsidewayasdots bmp x y str scale pixspace spacebetweenchar color fontbuf

/-- BITMAPlib.py 6372-6406 `plotitalicstringsideway` -/
def plotitalicstringsideway (bmp : Bytes) (x y : Int) (str : List Nat) (scale pixspace spacebetweenchar : Int)
    (color : PatColor) (fontbuf : Bytes) : Py Bytes :=
  plotstringsidewayfn plotitalic8bitpatternsideway bmp x y str scale pixspace spacebetweenchar color fontbuf

/-- BITMAPlib.py 6409-6441 `plotstringsidewayasdots` -/
def plotstringsidewayasdots (bmp : Bytes) (x y : Int) (str : List Nat) (scale pixspace spacebetweenchar : Int)
    (color : PatColor) (fontbuf : Bytes) : Py Bytes :=
  plotstringsidewayfn plot8bitpatternsidewaywithdots bmp x y str scale pixspace spacebetweenchar color fontbuf

/-- BITMAPlib.py 6528-6561 `plotstringverticalasdots` -/
def plotstringverticalasdots (bmp : Bytes) (x y : Int) (str : List Nat) (scale pixspace spacebetweenchar : Int)
    (color : PatColor) (fontbuf : Bytes) : Py Bytes :=
  plotstringverticalwithfn plot8bitpatternasdots bmp x y str scale pixspace spacebetweenchar color fontbuf

/-- BITMAPlib.py 6564-6597 `plotitalicstringverticalasdots` -/
def plotitalicstringverticalasdots (bmp : Bytes) (x y : Int) (str : List Nat) (scale pixspace spacebetweenchar : Int)
    (color : PatColor) (fontbuf : Bytes) : Py Bytes :=
  plotstringverticalwithfn plotitalic8bitpatternasdots bmp x y str scale pixspace spacebetweenchar color fontbuf

/-- BITMAPlib.py 6600-6633 `plotitalicstringvertical` -/
def plotitalicstringvertical (bmp : Bytes) (x y : Int) (str : List Nat) (scale pixspace spacebetweenchar : Int)
    (color : PatColor) (fontbuf : Bytes) : Py Bytes :=
  plotstringverticalwithfn plotitalic8bitpattern bmp x y str scale pixspace spacebetweenchar color fontbuf

/-- `plotrotated8bitpattern` as a font rendering function, for an int colour. -/
def rotatedRender (color : Int) : RenderFn := fun bmp x y g scale pixspace _ =>
  plotrotated8bitpattern bmp x y g scale pixspace color

/-- `plotrotated8bitpatternasdots` as a font rendering function, for an int colour. -/
def rotatedDotsRender (color : Int) : RenderFn := fun bmp x y g scale pixspace _ =>
  plotrotated8bitpatternasdots bmp x y g scale pixspace color

/-- BITMAPlib.py 6186-6218 `plotreversestring` (int colours only) -/
def plotreversestring (bmp : Bytes) (x y : Int) (str : List Nat) (scale pixspace spacebetweenchar : Int) (color : Int)
    (fontbuf : Bytes) : Py Bytes :=
  plotstringfunc enumreverseletters (rotatedRender color) bmp x y str scale pixspace spacebetweenchar (.one color) fontbuf

/-- BITMAPlib.py 6221-6254 `plotreversestringasdots` (int colours only) -/
def plotreversestringasdots (bmp : Bytes) (x y : Int) (str : List Nat) (scale pixspace spacebetweenchar : Int) (color : Int)
    (fontbuf : Bytes) : Py Bytes :=
  plotstringfunc enumreverseletters (rotatedDotsRender color) bmp x y str scale pixspace spacebetweenchar (.one color)
    fontbuf

/-! ### Texts in files -/

/-- BITMAPlib.py 5242-5279: the image that `plotstringverticalwithfn2file` saves. `italic` says whether the name of the
rendering function contains "italic" (after its first letter). -/
def textimagevertical (order : List Nat → List Nat) (render : RenderFn) (italic : Bool) (str : List Nat)
    (scale pixspace spacebetweenchar : Int) (color : PatColor) (fontbuf : Bytes) (backgroundcolor bitdepth : Int) :
    Py Bytes := do
  let sp := charSpace spacebetweenchar
  let h ← getItem fontbuf 0
  let xstep := pyShl scale 3 + sp
  let ystep := (h : Int) * scale + sp
  let (row, col) := computetextrowandcolcnt str
  let pad := pyShl scale 1
  let mx := (col : Int) * xstep + pad
  let my := (row : Int) * ystep + pad
  let mx := if italic then (if scale > 1 then mx + h * pyShr scale 1 else mx + pyShr h 1) else mx
  let bmp ← newBMP mx my bitdepth
  let bmp ← (if backgroundcolor > 0 then filledrect bmp 0 0 (mx - 1) (my - 1) backgroundcolor else pure bmp : Py Bytes)
  plotChars render fontbuf scale pixspace color (fun p => (p.1 + xstep, scale)) (fun p => (p.1, p.2 + pyShl ystep 2))
    (fun p => (p.1, p.2 + ystep)) (order str) bmp (scale, scale)

/-- BITMAPlib.py 5125-5199 `plotstringfunc2file` -/
def plotstringfunc2file (order : List Nat → List Nat) (render : RenderFn) (italic : Bool) (fs : Files) (file : String)
    (str : List Nat) (scale pixspace spacebetweenchar : Int) (color : PatColor) (fontbuf : Bytes)
    (backgroundcolor bitdepth : Int) : Py Files := do
  let bmp ← textimage order render italic str scale pixspace spacebetweenchar color fontbuf backgroundcolor bitdepth
  pure (writeFile fs file bmp)

/-- BITMAPlib.py 5202-5279 `plotstringverticalwithfn2file` -/
def plotstringverticalwithfn2file (order : List Nat → List Nat) (render : RenderFn) (italic : Bool) (fs : Files)
    (file : String) (str : List Nat) (scale pixspace spacebetweenchar : Int) (color : PatColor) (fontbuf : Bytes)
    (backgroundcolor bitdepth : Int) : Py Files := do
  let bmp ← textimagevertical order render italic str scale pixspace spacebetweenchar color fontbuf backgroundcolor bitdepth
  pure (writeFile fs file bmp)

/-- BITMAPlib.py 5322-5361 `plotstring2file` -/
def plotstring2file (fs : Files) (file : String) (str : List Nat) (scale pixspace spacebetweenchar : Int)
    (color : PatColor) (fontbuf : Bytes) (backgroundcolor bitdepth : Int) : Py Files :=
  plotstringfunc2file enumletters plot8bitpattern false fs file str scale pixspace spacebetweenchar color
    fontbuf backgroundcolor bitdepth

/-- BITMAPlib.py 5364-5403 `plotverticalstring2file` -/
def plotverticalstring2file (fs : Files) (file : String) (str : List Nat) (scale pixspace spacebetweenchar : Int)
    (color : PatColor) (fontbuf : Bytes) (backgroundcolor bitdepth : Int) : Py Files :=
  plotstringverticalwithfn2file enumletters plot8bitpattern false fs file str scale pixspace spacebetweenchar color
    fontbuf backgroundcolor bitdepth

/-- BITMAPlib.py 5442-5481 `plotitalicstring2file` -/
def plotitalicstring2file (fs : Files) (file : String) (str : List Nat) (scale pixspace spacebetweenchar : Int)
    (color : PatColor) (fontbuf : Bytes) (backgroundcolor bitdepth : Int) : Py Files :=
  plotstringfunc2file enumletters plotitalic8bitpattern true fs file str scale pixspace spacebetweenchar color
    fontbuf backgroundcolor bitdepth

/-- BITMAPlib.py 5484-5523 `plotverticalitalicstring2file` -/
def plotverticalitalicstring2file (fs : Files) (file : String) (str : List Nat) (scale pixspace spacebetweenchar : Int)
    (color : PatColor) (fontbuf : Bytes) (backgroundcolor bitdepth : Int) : Py Files :=
  plotstringverticalwithfn2file enumletters plotitalic8bitpattern true fs file str scale pixspace spacebetweenchar color
    fontbuf backgroundcolor bitdepth

/-- BITMAPlib.py 5526-5565 `plotreverseditalicstring2file` -/
def plotreverseditalicstring2file (fs : Files) (file : String) (str : List Nat) (scale pixspace spacebetweenchar : Int)
    (color : PatColor) (fontbuf : Bytes) (backgroundcolor bitdepth : Int) : Py Files :=
  plotstringfunc2file enumreverseletters plotreverseditalic8bitpattern true fs file str scale pixspace spacebetweenchar color
    fontbuf backgroundcolor bitdepth

/-- BITMAPlib.py 5568-5607 `plotverticalstringasdots2file` -/
def plotverticalstringasdots2file (fs : Files) (file : String) (str : List Nat) (scale pixspace spacebetweenchar : Int)
    (color : PatColor) (fontbuf : Bytes) (backgroundcolor bitdepth : Int) : Py Files :=
  plotstringverticalwithfn2file enumletters plot8bitpatternasdots false fs file str scale pixspace spacebetweenchar color
    fontbuf backgroundcolor bitdepth

/-- BITMAPlib.py 5610-5649 `plotverticalitalicstringasdots2file` -/
def plotverticalitalicstringasdots2file (fs : Files) (file : String) (str : List Nat) (scale pixspace spacebetweenchar : Int)
    (color : PatColor) (fontbuf : Bytes) (backgroundcolor bitdepth : Int) : Py Files :=
  plotstringverticalwithfn2file enumletters plotitalic8bitpatternasdots true fs file str scale pixspace spacebetweenchar color
    fontbuf backgroundcolor bitdepth

/-- BITMAPlib.py 5686-5725 `plotstringasdots2file` -/
def plotstringasdots2file (fs : Files) (file : String) (str : List Nat) (scale pixspace spacebetweenchar : Int)
    (color : PatColor) (fontbuf : Bytes) (backgroundcolor bitdepth : Int) : Py Files :=
  plotstringfunc2file enumletters plot8bitpatternasdots false fs file str scale pixspace spacebetweenchar color
    fontbuf backgroundcolor bitdepth

/-- BITMAPlib.py 5728-5767 `plotitalicstringasdots2file` -/
def plotitalicstringasdots2file (fs : Files) (file : String) (str : List Nat) (scale pixspace spacebetweenchar : Int)
    (color : PatColor) (fontbuf : Bytes) (backgroundcolor bitdepth : Int) : Py Files :=
  plotstringfunc2file enumletters plotitalic8bitpatternasdots true fs file str scale pixspace spacebetweenchar color
    fontbuf backgroundcolor bitdepth

/-- BITMAPlib.py 5995-6034 `plotupsidedownstring2file` -/
def plotupsidedownstring2file (fs : Files) (file : String) (str : List Nat) (scale pixspace spacebetweenchar : Int)
    (color : PatColor) (fontbuf : Bytes) (backgroundcolor bitdepth : Int) : Py Files :=
  plotstringfunc2file enumreverseletters plot8bitpatternupsidedown false fs file str scale pixspace spacebetweenchar color
    fontbuf backgroundcolor bitdepth

/-- BITMAPlib.py 6037-6076 `plotupsidedownstringasdots2file` -/
def plotupsidedownstringasdots2file (fs : Files) (file : String) (str : List Nat) (scale pixspace spacebetweenchar : Int)
    (color : PatColor) (fontbuf : Bytes) (backgroundcolor bitdepth : Int) : Py Files :=
  plotstringfunc2file enumreverseletters plot8bitpatternupsidedownasdots false fs file str scale pixspace spacebetweenchar color
    fontbuf backgroundcolor bitdepth

/-- BITMAPlib.py 5770-5809 `plotreversedstring2file` (int colours only) -/
def plotreversedstring2file (fs : Files) (file : String) (str : List Nat) (scale pixspace spacebetweenchar : Int)
    (color : Int) (fontbuf : Bytes) (backgroundcolor bitdepth : Int) : Py Files :=
  plotstringfunc2file enumreverseletters (rotatedRender color) false fs file str scale pixspace spacebetweenchar (.one color)
    fontbuf backgroundcolor bitdepth

/-- BITMAPlib.py 5812-5851 `plotreversedstringasdots2file` (int colours only) -/
def plotreversedstringasdots2file (fs : Files) (file : String) (str : List Nat) (scale pixspace spacebetweenchar : Int)
    (color : Int) (fontbuf : Bytes) (backgroundcolor bitdepth : Int) : Py Files :=
  plotstringfunc2file enumreverseletters (rotatedDotsRender color) false fs file str scale pixspace spacebetweenchar (.one color)
    fontbuf backgroundcolor bitdepth

end Verif.Model
