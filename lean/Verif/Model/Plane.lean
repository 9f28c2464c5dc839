import Verif.Model.MathLib
import Verif.Model.Solids
import Verif.Model.Gradient
import Verif.Model.Pattern
/-! Model of the plane and of space on the screen: arrows, axes with numbers, scatter plots, rotated
ellipses and solids. Angles and lengths are real numbers where the code uses `sin`, `cos`, `atan` and
`sqrt`; the constants `0.3926...` and `0.0174...` stand for an eighth of pi and for pi / 180. -/

namespace Verif.Model
open Verif Spec

/-- Python's `round` of a real number: the nearest integer, the even one of two. -/
noncomputable def rndR (x : ℝ) : Int :=
  if x - ⌊x⌋ < 1 / 2 then ⌊x⌋
  else if 1 / 2 < x - ⌊x⌋ then ⌊x⌋ + 1
  else if ⌊x⌋ % 2 = 0 then ⌊x⌋
  else ⌊x⌋ + 1

/-- `cmath.rect(r, a)` as a pair. -/
noncomputable def rect (r a : ℝ) : ℝ × ℝ := (r * Real.cos a, r * Real.sin a)

/-- primitives2D.py 1291-1294 `_hadd` -/
noncomputable def hadd (v : ℝ × ℝ) (hm a1 a2 : ℝ) : (ℝ × ℝ) × (ℝ × ℝ) := (v + rect hm a1, v + rect hm a2)

/-- primitives2D.py 1296-1299 `_hsub` -/
noncomputable def hsub (v : ℝ × ℝ) (hm a1 a2 : ℝ) : (ℝ × ℝ) × (ℝ × ℝ) := (v - rect hm a1, v - rect hm a2)

/-- A point with whole coordinates as a point of the real plane. -/
def toR (v : Int × Int) : ℝ × ℝ := ((v.1 : ℝ), (v.2 : ℝ))

/-- primitives2D.py 1270-1320 `iterdrawvec` for points with whole coordinates. -/
noncomputable def iterdrawvec (u v : Int × Int) (headsize : Int) : List ((Int × Int) × (Int × Int)) :=
  let vm := vmag (subvect [(u.1 : ℝ), (u.2 : ℝ)] [(v.1 : ℝ), (v.2 : ℝ)])
  let anginc := Real.pi / 8
  let hm : ℝ := if headsize = 0 then vm / 5 else (headsize : ℝ)
  let a := anglebetween2Dlines (toR u) (toR v)
  let a1 := a - anginc
  let a2 := a + anginc
  let pq :=
    if u.1 < v.1 ∧ u.2 < v.2 then hsub (toR v) hm a1 a2
    else if u.1 > v.1 ∧ u.2 > v.2 then hadd (toR v) hm a1 a2
    else if v.2 = u.2 ∧ u.1 < v.1 then hsub (toR v) hm a1 a2
    else if v.2 = u.2 ∧ u.1 > v.1 then hadd (toR v) hm a1 a2
    else if v.1 = u.1 ∧ u.2 > v.2 then hsub (toR v) hm a1 a2
    else if v.1 = u.1 ∧ u.2 < v.2 then hadd (toR v) hm a1 a2
    else if u.1 < v.1 ∧ u.2 > v.2 then hsub (toR v) hm a1 a2
    else hadd (toR v) hm a1 a2
  [(u, v), (v, (rndR pq.1.1, rndR pq.1.2)), (v, (rndR pq.2.1, rndR pq.2.2))]

/-- BITMAPlib.py 2369-2396 `drawvec`; the parameter `penradius` is an integer or `None`. -/
noncomputable def drawvec (bmp : Bytes) (u v : Int × Int) (headsize color : Int) (penradius : Option Int := none) : Py Bytes :=
  (iterdrawvec u v headsize).foldlM (fun bmp s =>
    match penradius with
    | some p => thickroundline bmp s.1 s.2 p color
    | none => linevec bmp s.1 s.2 color) bmp

/-- BITMAPlib.py 1838-1857 `plotvecxypoint` -/
def plotvecxypoint (bmp : Bytes) (v : ℚ × ℚ) (c : Int) : Py Bytes :=
  let p := roundvect2 v
  plotxybit bmp p.1 p.2 c

/-- BITMAPlib.py 3327-3347 `circlevec`; `circle` with `isfilled` true is `filledcircle`. -/
def circlevec (bmp : Bytes) (v : ℚ × ℚ) (r color : Int) (isfilled : Bool) : Py Bytes :=
  let p := roundvect2 v
  if isfilled then filledcircle bmp p.1 p.2 r color else circle bmp p.1 p.2 r color

/-- primitives2D.py 286-308 `iterellipserot`; the code computes `rotvec` with `computerotvec(degrot)`. -/
noncomputable def iterellipserot (x y b a : Int) (degrot : ℝ) : List (Int × Int) :=
  (iterellipsepart b a).flatMap fun p => (mirror1stquad x y p).map fun v =>
    let w := rotvec2D ((v.1 : ℝ) - x, (v.2 : ℝ) - y) (computerotvec degrot)
    (rndR (w.1 + x), rndR (w.2 + y))

/-- BITMAPlib.py 3657-3680 `thickellipserot` -/
noncomputable def thickellipserot (bmp : Bytes) (x y b a : Int) (degrot : ℝ) (penradius color : Int) : Py Bytes :=
  (iterellipserot x y b a degrot).foldlM (fun bmp p => filledcircle bmp p.1 p.2 penradius color) bmp

/-- BITMAPlib.py 3683-3718 `gradthickellipserot`; the parameter `fn` is not used by the code. -/
noncomputable def gradthickellipserot (bmp : Bytes) (x y b a : Int) (degrot : ℝ) (penradius : Int) (lum : Int × Int)
    (f : ℚ × ℚ × ℚ) : Py Bytes :=
  (countdown penradius).foldlM (fun bmp (i : Int) => do
    let c ← palColour bmp (colormixF (lumBlend lerpF lum i penradius) f)
    thickellipserot bmp x y b a degrot i c) bmp

/-- Python's `str` of an integer, as the codes of its characters. -/
def pyStr (n : Int) : List Nat := n.repr.toList.map Char.toNat

/-- BITMAPlib.py 7073-7102 `numbervert` for whole numbers `valstart` and `valstep`. -/
def numbervert (bmp : Bytes) (vlist : List (Int × Int)) (xadj yadj scale valstart valstep pixspace spacebetweenchar color : Int)
    (fontbuf : Bytes) (suppresszero suppresslastnum rightjustify : Bool) : Py Bytes :=
  let maxv : Int := (vlist.length : Int) - 1
  vlist.foldlM (fun bmp v =>
    let i := vlist.idxOf v
    let plot := if i > 0 then true else !suppresszero
    let plot := if (i : Int) = maxv ∧ suppresslastnum = true then false else plot
    let stval := pyStr (valstart + i * valstep)
    let rjust : Int := if rightjustify then pyShl ((stval.length : Int) - 1) 3 else 0
    if plot then
      plotstring bmp (v.1 + xadj - rjust) (v.2 + yadj) stval scale pixspace spacebetweenchar (.one color) fontbuf
    else pure bmp) bmp

/-- The list that `XYaxis` returns. -/
structure CoordInfo where
  origin : Int × Int
  steps : Int × Int
  limits : Int × Int
  starts : ℚ × ℚ
  vsteps : ℚ × ℚ
  vmax : ℚ × ℚ
deriving DecidableEq

/-- BITMAPlib.py 7154-7227 `XYaxis` for whole numbers `xyvalstarts` and `xysteps`. The parameter `font` stands
for `font8x14`. -/
noncomputable def XYaxis (font : Bytes) (bmp : Bytes) (origin steps xylimits xyvalstarts xysteps : Int × Int) (color textcolor : Int)
    (showgrid : Bool) (gridcolor : Int) : Py (Bytes × CoordInfo) := do
  let hvert ← horizontalvert origin.2 origin.1 xylimits.1 steps.1
  let vvert ← verticalvert origin.1 origin.2 xylimits.2 (-steps.2)
  let bmp ← if showgrid then xygridvec bmp origin xylimits steps gridcolor else pure bmp
  let bmp ← drawvec bmp origin (origin.1, xylimits.2) 10 color
  let bmp ← drawvec bmp origin (xylimits.1, origin.2) 10 color
  let bmp ← vertlinevert bmp hvert 5 (-2) color
  let bmp ← horilinevert bmp vvert (-3) 0 color
  let bmp ← numbervert bmp vvert (-15) (-4) 1 xyvalstarts.2 xysteps.2 0 0 textcolor font false false true
  let bmp ← numbervert bmp hvert (-4) 7 1 xyvalstarts.1 xysteps.1 0 0 textcolor font false false false
  let xvalmax := xyvalstarts.1 + ((hvert.length : Int) - 1) * xysteps.1
  let yvalmax := xyvalstarts.2 + ((vvert.length : Int) - 1) * xysteps.2
  pure (bmp, ⟨origin, steps, xylimits, (xyvalstarts.1, xyvalstarts.2), (xysteps.1, xysteps.2), (xvalmax, yvalmax)⟩)

/-- BITMAPlib.py 7230-7261 `userdef2Dcooordsys2screenxy`; every operation is rounded to a float. -/
def userdef2Dcooordsys2screenxy (x y : ℚ) (c : CoordInfo) : Py (ℚ × ℚ) :=
  if c.vsteps.1 = 0 ∨ c.vsteps.2 = 0 then .error .zeroDivision
  else
    let x := fl (c.origin.1 + fl (fl (fl (x - c.starts.1) / c.vsteps.1) * c.steps.1))
    let y := fl (c.origin.2 - fl (fl (fl (y - c.starts.2) / c.vsteps.2) * c.steps.2))
    if x > c.limits.1 ∨ y < c.limits.2 then .ok (-1, -1) else .ok (x, y)

/-- A row of the data of `XYscatterplot`: the point, the radius of its mark, its colour and whether the mark
is filled. -/
structure Datum where
  x : ℚ
  y : ℚ
  r : Int
  color : Int
  filled : Bool

/-- The loop body of BITMAPlib.py 7295-7306. -/
def plotDatum (info : CoordInfo) (bmp : Bytes) (v : Datum) : Py Bytes := do
  let w ← userdef2Dcooordsys2screenxy v.x v.y info
  if v.r > 1 then circlevec bmp w (setmax v.r 5) v.color v.filled
  else plotvecxypoint bmp w v.color

/-- BITMAPlib.py 7307-7332: the regression line. Slope and intercept are computed exactly, and so are the
coordinates that are passed on. -/
def plotRegression (info : CoordInfo) (bmp : Bytes) (XYdata : List Datum) (reglinecolor : Int) : Py Bytes := do
  let m ← LSMslope (XYdata.map fun v => [v.x, v.y])
  let b ← LSMYint (XYdata.map fun v => [v.x, v.y])
  let xmin := info.starts.1
  let xmax := info.vmax.1
  let ymin := xmin * m + b
  let ymax := xmax * m + b
  let u ← userdef2Dcooordsys2screenxy xmin ymin info
  let w ← userdef2Dcooordsys2screenxy xmax ymax info
  let w ← if w = (-1, -1) then
      if m = 0 then .error .zeroDivision
      else userdef2Dcooordsys2screenxy ((info.vmax.2 - b) / m) info.vmax.2 info
    else pure w
  linevec bmp (roundvect2 u) (roundvect2 w) reglinecolor

/-- BITMAPlib.py 7264-7332 `XYscatterplot` -/
def XYscatterplot (bmp : Bytes) (XYdata : List Datum) (info : CoordInfo) (showLinearRegLine : Bool) (reglinecolor : Int) :
    Py Bytes := do
  let bmp ← XYdata.foldlM (plotDatum info) bmp
  if showLinearRegLine then plotRegression info bmp XYdata reglinecolor else pure bmp

/-- Python's `int` of a real number. -/
noncomputable def truncR (x : ℝ) : Int := if 0 ≤ x then ⌊x⌋ else -⌊-x⌋

/-- The brightness of a face in BITMAPlib.py 6877-6884, by its normal vector. -/
noncomputable def faceLum (n : List ℚ) : Py Int :=
  if n ≠ [0, 0, 0] then do
    let c ← cosaffin (n.map fun (q : ℚ) => (q : ℝ)) [0, 0, 1]
    pure (truncR (c * 128) + 127)
  else pure 127

/-- A vertex of two coordinates. -/
def vert2 (v : List ℚ) : Py (ℚ × ℚ) :=
  match v with
  | [x, y] => .ok (x, y)
  | _ => .error .valueError

/-- BITMAPlib.py 6857-6891 `plotpolyfillist` -/
noncomputable def plotpolyfillist (bmp : Bytes) (sides : List (List (List ℚ)) × List (List ℚ)) (f : ℚ × ℚ × ℚ) : Py Bytes :=
  sides.1.zipIdx.foldlM (fun bmp (e : List (List ℚ) × Nat) => do
    let n ← nth sides.2 e.2
    let l ← faceLum n
    let c ← palColour bmp (colormixF l f)
    let poly ← e.1.mapM vert2
    plotpolyfill bmp poly c) bmp

/-- BITMAPlib.py 6894-6925 `plot3d`; the vertices of the outline are rounded by `linevec`. -/
noncomputable def plot3d (bmp : Bytes) (sides : List (List (List ℚ)) × List (List ℚ)) (issolid : Bool) (f : ℚ × ℚ × ℚ)
    (showoutline : Bool) (outlinecolor : Int) : Py Bytes := do
  let bmp ← if issolid then plotpolyfillist bmp sides f else pure bmp
  if showoutline then do
    let polys ← sides.1.mapM fun p => p.mapM vert2
    plotpolylist bmp (polys.map fun p => p.map roundvect2) outlinecolor
  else pure bmp

/-- BITMAPlib.py 6928-6974 `plot3Dsolid`; rotation and translation are given by floats, with which the
coordinates are computed exactly. -/
noncomputable def plot3Dsolid (bmp : Bytes) (vertandsides : List (List ℚ) × List (List Nat)) (issolid : Bool) (f : ℚ × ℚ × ℚ)
    (showoutline : Bool) (outlinecolor : Int) (rotvect : (ℚ × ℚ) × (ℚ × ℚ) × (ℚ × ℚ)) (transvect3D : ℚ × ℚ × ℚ) (d : ℚ)
    (transvect : List ℚ) : Py Bytes := do
  let p ← perspective vertandsides.1 rotvect transvect3D d
  let s ← gensides p transvect vertandsides.2
  plot3d bmp s issolid f showoutline outlinecolor

end Verif.Model
