import Verif.Model.Pals
import Verif.Model.Shapes
import Verif.Model.Helpers
import Verif.Model.Files
/-! Gradients: rectangles, lines, circles and points drawn in changing colours. The parameter `fn` of the
functions is an arbitrary function; its default is `lerpF`. -/

namespace Verif.Model
open Verif Spec

/-- The type of the parameter `fn`. -/
abbrev Blend := ℚ → ℚ → ℚ → ℚ

/-- colors.py 1133-1155 `interpolateRGB` with float arguments followed by `RGB2int(*...)`. -/
def blendInt (fn : Blend) (p q : ℚ × ℚ × ℚ) (v : ℚ) : Int :=
  RGB2int (rnd (fn p.1 q.1 v)) (rnd (fn p.2.1 q.2.1 v)) (rnd (fn p.2.2 q.2.2 v))

/-- colors.py 90-115 `colormix` for a brightness that may be a float. -/
def colormixF (lum : ℚ) (f : ℚ × ℚ × ℚ) : Int :=
  RGB2int (trunc (fl (f.1 * lum))) (trunc (fl (f.2.1 * lum))) (trunc (fl (f.2.2 * lum)))

/-- The lines `if bmp[bmpcolorbits] != 24: c = matchRGBtopal(int2RGBarr(c), getallRGBpal(bmp))` of BITMAPlib.py
2184-2187, 2195-2198, 2454-2457, 3561-3563, 3591-3595, 3641-3644, 3649-3653, 6737-6740, 6773-6776, 7008-7011 and 3864-3867.
An array is never equal to a list, so that black is treated as in a tuple. -/
def palColour (bmp : Bytes) (c : Int) : Py Int := do
  let bits ← getItem bmp bmpcolorbits
  if bits ≠ 24 then do
    let a ← int2RGBarr c
    let pal ← getallRGBpal bmp
    match a with
    | [r, g, b] => pure (matchRGBtopal ((r : Int), (g : Int), (b : Int)) false pal)
    | _ => .error .valueError
  else pure c

/-- mathlib.py 214-231 `scalarmulvect` for a vector of three floats and an integer. -/
def scale3 (f : ℚ × ℚ × ℚ) (l : Int) : ℚ × ℚ × ℚ := (fl (f.1 * l), fl (f.2.1 * l), fl (f.2.2 * l))

/-- `setminmax(a / d, 0.0, 1.0)` -/
def share (a d : Int) : ℚ :=
  let v := fl ((a : ℚ) / d)
  let v := if v > 1 then 1 else v
  if v < 0 then 0 else v

/-- BITMAPlib.py 2139-2199 `filledgradrect` behind its guard. -/
def filledgradrectCore (fn : Blend) (bmp : Bytes) (x1 y1 x2 y2 : Int) (lum : Int × Int) (f : ℚ × ℚ × ℚ) (direction : Int) :
    Py Bytes :=
  let (x1, y1, x2, y2) := sortrecpoints x1 y1 x2 y2
  let dx := x2 - x1 + 1
  let dy := y2 - y1 + 1
  let p := scale3 f lum.1
  let q := scale3 f lum.2
  if direction = 0 then
    (pyRange x1 (x2 + 1)).foldlM (fun bmp x => do
      let c ← palColour bmp (blendInt fn p q (share x dx))
      vertline bmp x y1 y2 c) bmp
  else
    (pyRange y1 (y2 + 1)).foldlM (fun bmp y => do
      let c ← palColour bmp (blendInt fn p q (share y dy))
      horiline bmp y x1 x2 c) bmp

/-- BITMAPlib.py 2138-2199 `filledgradrect` with the guard of paramchecks.py 260-295. -/
def filledgradrect (fn : Blend) (bmp : Bytes) (x1 y1 x2 y2 : Int) (lum : Int × Int) (f : ℚ × ℚ × ℚ) (direction : Int) :
    Py Bytes := do
  let r ← guard8and24rect (filledgradrectCore fn bmp x1 y1 x2 y2 lum f direction) bmp x1 y1 x2 y2
  pure (r.getD bmp)

/-- BITMAPlib.py 2110-2135 `fillbackgroundwithgrad` -/
def fillbackgroundwithgrad (bmp : Bytes) (lum : Int × Int) (f : ℚ × ℚ × ℚ) (direction : Int) : Py Bytes := do
  let x ← getmaxx bmp
  let y ← getmaxy bmp
  filledgradrect lerpF bmp 0 0 (x - 1) (y - 1) lum f direction

/-- The parts of a colour as floats. -/
def floats (p : RGB) : ℚ × ℚ × ℚ := ((p.1 : ℚ), (p.2.1 : ℚ), (p.2.2 : ℚ))

/-- BITMAPlib.py 2204-2247 `filleddichromaticgradrect` behind its guard. -/
def filleddichromaticgradrectCore (fn : Blend) (bmp : Bytes) (x1 y1 x2 y2 c1 c2 direction : Int) : Py Bytes :=
  let (x1, y1, x2, y2) := sortrecpoints x1 y1 x2 y2
  let dx := x2 - x1 + 1
  let dy := y2 - y1 + 1
  let p := floats (int2RGB c1)
  let q := floats (int2RGB c2)
  if direction = 0 then
    (pyRange x1 (x2 + 1)).foldlM (fun bmp x => vertline bmp x y1 y2 (blendInt fn p q (share x dx))) bmp
  else
    (pyRange y1 (y2 + 1)).foldlM (fun bmp y => horiline bmp y x1 x2 (blendInt fn p q (share y dy))) bmp

/-- BITMAPlib.py 2203-2247 `filleddichromaticgradrect` with the guard of paramchecks.py 104-140. -/
def filleddichromaticgradrect (fn : Blend) (bmp : Bytes) (x1 y1 x2 y2 c1 c2 direction : Int) : Py Bytes := do
  let r ← guard24rect (filleddichromaticgradrectCore fn bmp x1 y1 x2 y2 c1 c2 direction) bmp x1 y1 x2 y2
  pure (r.getD bmp)

/-- BITMAPlib.py 2250-2276 `fillbackgroundwithdichromaticgrad` -/
def fillbackgroundwithdichromaticgrad (bmp : Bytes) (c1 c2 direction : Int) : Py Bytes := do
  let x ← getmaxx bmp
  let y ← getmaxy bmp
  filleddichromaticgradrect lerpF bmp 0 0 (x - 1) (y - 1) c1 c2 direction

/-- BITMAPlib.py 14952-14986 `filledgradrect2file` -/
def filledgradrect2file (fn : Blend) (fs : Files) (ex nw : String) (x1 y1 x2 y2 : Int) (lum : Int × Int) (f : ℚ × ℚ × ℚ)
    (direction : Int) : Py Files :=
  applysave (fun bmp => filledgradrect fn bmp x1 y1 x2 y2 lum f direction) fs ex nw

/-- BITMAPlib.py 14989-15017 `filleddichromaticgradrect2file` -/
def filleddichromaticgradrect2file (fn : Blend) (fs : Files) (ex nw : String) (x1 y1 x2 y2 c1 c2 direction : Int) : Py Files :=
  applysave (fun bmp => filleddichromaticgradrect fn bmp x1 y1 x2 y2 c1 c2 direction) fs ex nw

/-- `range(n, 0, -1)` -/
def countdown (n : Int) : List Int := (List.range n.toNat).map fun (k : Nat) => n - (k : Int)

/-- `int(lum1 + (lumrang * i / penradius))` of BITMAPlib.py 2451-2452 and 3559, with mathlib.py 105-117
`range2baseanddelta` -/
def lumStep (lum : Int × Int) (i n : Int) : Int := trunc (fl ((lum.1 : ℚ) + fl ((((lum.2 - lum.1) * i : Int) : ℚ) / n)))

/-- `int(fn(a, b, i / n))` -/
def lumBlend (fn : Blend) (lum : Int × Int) (i n : Int) : Int := trunc (fn lum.1 lum.2 (fl ((i : ℚ) / n)))

/-- BITMAPlib.py 2421-2459 `gradthickroundline` -/
def gradthickroundline (bmp : Bytes) (p1 p2 : Int × Int) (penradius : Int) (lum : Int × Int) (f : ℚ × ℚ × ℚ) : Py Bytes :=
  (countdown penradius).foldlM (fun bmp (i : Int) => do
    let c ← palColour bmp (colormixF (lumStep lum i penradius) f)
    thickroundline bmp p1 p2 i c) bmp

/-- BITMAPlib.py 3534-3564 `gradthickcircle` -/
def gradthickcircle (bmp : Bytes) (x y r penradius : Int) (lum : Int × Int) (f : ℚ × ℚ × ℚ) : Py Bytes :=
  (countdown penradius).foldlM (fun bmp (i : Int) => do
    let c ← palColour bmp (colormixF (lumStep lum i penradius) f)
    thickcircle bmp x y r i c) bmp

/-- BITMAPlib.py 3567-3596 `gradcircle` -/
def gradcircle (fn : Blend) (bmp : Bytes) (x y r : Int) (lum : Int × Int) (f : ℚ × ℚ × ℚ) : Py Bytes :=
  (countdown (r - 1)).foldlM (fun bmp (i : Int) => do
    let c ← palColour bmp (colormixF (lumBlend fn lum i r) f)
    thickcircle bmp x y i 2 c) bmp

/-- BITMAPlib.py 3599-3620 `graddichromiccircle` with the guard of paramchecks.py 83-101. -/
def graddichromiccircle (fn : Blend) (bmp : Bytes) (x y r c1 c2 : Int) : Py Bytes := do
  let o ← guard24 ((countdown (r - 1)).foldlM (fun bmp (i : Int) =>
    thickcircle bmp x y i 2 (blendInt fn (floats (int2RGB c1)) (floats (int2RGB c2)) (fl ((i : ℚ) / r)))) bmp) bmp
  pure (o.getD bmp)

/-- BITMAPlib.py 3623-3654 `orb`; `range(r - 1, j, -1)` is `j` more than `range(r - 1 - j, 0, -1)`, and the
division by `j` is done only if `j` is not 0 or the loop is not empty. -/
def orb (bmp : Bytes) (x y r : Int) (f : ℚ × ℚ × ℚ) : Py Bytes := do
  let j := pyShr r 1
  let c ← palColour bmp (colormixF 255 f)
  let bmp ← filledcircle bmp x y j c
  ((countdown (r - 1 - j)).map (· + j)).foldlM (fun bmp (i : Int) => do
    if j = 0 then .error .zeroDivision
    else do
      let c ← palColour bmp (colormixF (trunc (fl (((255 * (r - i) : Int) : ℚ) / j))) f)
      thickcircle bmp x y i 2 c) bmp

/-- The last parameter of `sphere`: a list of three factors, a list of two colours, or another list. -/
inductive Ink
  | factors (f : ℚ × ℚ × ℚ)
  | two (c1 c2 : Int)
  | other

/-- BITMAPlib.py 13072-13103 `sphere` -/
def sphere (fn : Blend) (bmp : Bytes) (x y r : Int) : Ink → Py Bytes
  | .factors f => gradcircle fn bmp x y r (255, 0) f
  | .two c1 c2 => graddichromiccircle fn bmp x y r c1 c2
  | .other => pure bmp

/-- BITMAPlib.py 15281-15311 `sphere2file` with 13603-13637 `_use24btclrfnwithmultpar2circreg` -/
def sphere2file (fn : Blend) (fs : Files) (ex nw : String) (x y r : Int) (ink : Ink) : Py Files :=
  applysave24 (fun bmp => sphere fn bmp x y r ink) fs ex nw

/-- BITMAPlib.py 3836-3871 `gradellipse`; `ellipse` with `isfilled` is `filledellipse`. -/
def gradellipse (fn : Blend) (bmp : Bytes) (x y b a : Int) (lum : Int × Int) (f : ℚ × ℚ × ℚ) : Py Bytes :=
  let r := max a b
  (countdown r).foldlM (fun bmp (i : Int) => do
    let c ← palColour bmp (colormixF (lumBlend fn lum i r) f)
    filledellipse bmp x y (b - r + i) (a - r + i) c) bmp

/-- BITMAPlib.py 6709-6742 `gradthickplotpoly` -/
def gradthickplotpoly (fn : Blend) (bmp : Bytes) (v : List (Int × Int)) (penradius : Int) (lum : Int × Int) (f : ℚ × ℚ × ℚ) :
    Py Bytes :=
  (countdown penradius).foldlM (fun bmp (i : Int) => do
    let c ← palColour bmp (colormixF (lumBlend fn lum i penradius) f)
    thickplotpoly bmp v i c) bmp

/-- BITMAPlib.py 6745-6778 `gradplotlines` -/
def gradplotlines (fn : Blend) (bmp : Bytes) (v : List (Int × Int)) (penradius : Int) (lum : Int × Int) (f : ℚ × ℚ × ℚ) :
    Py Bytes :=
  (countdown penradius).foldlM (fun bmp (i : Int) => do
    let c ← palColour bmp (colormixF (lumBlend fn lum i penradius) f)
    plotlines bmp v c i) bmp

/-- BITMAPlib.py 6977-7014 `gradvert`; here the brightness is not made an integer. -/
def gradvert (fn : Blend) (bmp : Bytes) (v : List (Int × Int)) (penradius : Int) (lum : Int × Int) (f : ℚ × ℚ × ℚ) : Py Bytes :=
  (countdown penradius).foldlM (fun bmp (i : Int) => do
    let c ← palColour bmp (colormixF (fn lum.1 lum.2 (fl ((i : ℚ) / penradius))) f)
    v.foldlM (fun bmp p => roundpen bmp p i c) bmp) bmp

end Verif.Model
