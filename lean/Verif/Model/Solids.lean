import Verif.Model.MathLib
import Verif.Model.Shapes
import Verif.Model.Float
/-! solids3D.py with exact numbers in place of floats, and the functions of BITMAPlib.py that fill
polygons. A face is the list of the indices of its vertices. -/

namespace Verif.Model
open Verif

/-- solids3D.py 47-79 `getshapesidedict`, the four entries. -/
def tetrahedraSides : List (List Nat) := [[2, 1, 0], [2, 3, 1], [0, 3, 2], [3, 0, 1]]
def cubeSides : List (List Nat) :=
  [[1, 2, 3, 0], [5, 6, 7, 4], [0, 3, 6, 5], [4, 7, 2, 1], [4, 1, 0, 5], [2, 7, 6, 3]]
def hexahedraSides : List (List Nat) := [[2, 3, 1], [0, 3, 2], [3, 0, 1], [1, 4, 2], [2, 4, 0], [1, 0, 4]]
def octahedraSides : List (List Nat) :=
  [[1, 2, 0], [4, 1, 0], [3, 4, 0], [2, 3, 0], [2, 1, 5], [1, 4, 5], [4, 3, 5], [3, 2, 5]]

/-- solids3D.py 203-212, the faces of `decahedvertandsurface`. -/
def decahedSides : List (List Nat) :=
  [[1, 2, 0], [5, 1, 0], [3, 4, 0], [2, 3, 0], [4, 5, 0], [2, 1, 6], [1, 5, 6], [4, 3, 6], [3, 2, 6], [5, 4, 6]]

/-- solids3D.py 245-264, the faces of `icosahedvertandsurface`. -/
def icosahedSides : List (List Nat) :=
  [[1, 2, 0], [5, 1, 0], [3, 4, 0], [2, 3, 0], [4, 5, 0], [2, 1, 6], [1, 5, 10], [4, 3, 8], [3, 2, 7],
   [5, 4, 9], [6, 7, 2], [7, 8, 3], [8, 9, 4], [9, 10, 5], [10, 6, 1], [7, 6, 11], [9, 8, 11], [8, 7, 11],
   [10, 9, 11], [6, 10, 11]]

/-- solids3D.py 82-102 `tetrahedravert`. -/
noncomputable def tetrahedravert (x : ℝ) : List (List ℝ) :=
  [[0, 0, 0], [x / 2, Real.sqrt (x ^ 2 / 2), 0], [x, 0, 0], [x / 2, x / 2, Real.sqrt (3 / 8 * x ^ 2)]]

/-- solids3D.py 105-127 `cubevert`. -/
def cubevert {K : Type} [Field K] (x : K) : List (List K) :=
  [[0, 0, 0], [0, x, 0], [x, x, 0], [x, 0, 0], [0, x, x], [0, 0, x], [x, 0, x], [x, x, x]]

/-- solids3D.py 130-152 `hexahedravert`. -/
noncomputable def hexahedravert (x : ℝ) : List (List ℝ) :=
  let z := Real.sqrt (3 / 8 * x ^ 2)
  [[0, 0, 0], [x / 2, Real.sqrt (x ^ 2 / 2), 0], [x, 0, 0], [x / 2, x / 2, z], [x / 2, x / 2, -z]]

/-- solids3D.py 155-176 `octahedravert`. -/
def octahedravert {K : Type} [Field K] (x : K) : List (List K) :=
  [[x / 2, x / 2, x / 2], [0, 0, 0], [x, 0, 0], [x, x, 0], [0, x, 0], [x / 2, x / 2, -(x / 2)]]

section Projection
variable {K : Type} [Field K]

/-- The loop body of solids3D.py 316-327: the turned and moved point. -/
def turn (rotvec : (K × K) × (K × K) × (K × K)) (dispvec : K × K × K) (p : List K) : Py (List K) :=
  match p with
  | [px, py, pz] =>
    let ((sroll, croll), (spitch, cpitch), (syaw, cyaw)) := rotvec
    let (dx, dy, dz) := dispvec
    let x1 := -cyaw * px - syaw * pz
    let y1 := croll * py - sroll * x1
    let z1 := -syaw * px + cyaw * pz
    let x := croll * x1 + sroll * py
    let y := spitch * z1 + cpitch * y1
    let z := cpitch * z1 - spitch * y1
    .ok [x + dx, y + dy, z + dz]
  | _ => .error .valueError

/-- solids3D.py 328-331: the projection of a point with three coordinates. -/
def project [DecidableEq K] (d : K) (p : List K) : Py (List K) :=
  match p with
  | [x, y, z] => if z = 0 then .error .zeroDivision else .ok [-d * x / z, -d * y / z]
  | _ => .error .valueError

/-- solids3D.py 287-332 `perspective`. -/
def perspective [DecidableEq K] (vlist : List (List K)) (rotvec : (K × K) × (K × K) × (K × K))
    (dispvec : K × K × K) (d : K) : Py (List (List K) × List (List K)) := do
  let r ← vlist.mapM fun p => do
    let t ← turn rotvec dispvec p
    pure (t, ← project d t)
  pure (r.map (·.1), r.map (·.2))

/-- solids3D.py 720-748 `surfacetest`. -/
def surfacetest (p1 p2 p3 : List K) : Py K :=
  match p1, p2, p3 with
  | [p1x, p1y, p1z], [p2x, p2y, p2z], [p3x, p3y, p3z] =>
    .ok (p1x * (p3y * p2z - p2y * p3z) - p2x * (p3y * p1z - p1y * p3z) - p3x * (p1y * p2z - p2y * p1z))
  | _, _, _ => .error .valueError

/-- The loop body of solids3D.py 435-446: the polygon and the normal of a face, or nothing. -/
def genside [LinearOrder K] (pointlists : List (List K) × List (List K)) (transvect : List K)
    (sidepts : List Nat) : Py (Option (List (List K) × List K)) :=
  match sidepts with
  | s0 :: s1 :: s2 :: _ => do
    let u ← nth pointlists.1 s0
    let v ← nth pointlists.1 s1
    let w ← nth pointlists.1 s2
    if (← surfacetest u v w) ≤ 0 then do
      let poly ← sidepts.mapM (nth pointlists.2)
      pure (some (trans poly transvect, getnormvec u v w))
    else pure none
  | _ => .error .valueError

/-- solids3D.py 415-447 `gensides`. -/
def gensides [LinearOrder K] (pointlists : List (List K) × List (List K)) (transvect : List K)
    (sides : List (List Nat)) : Py (List (List (List K)) × List (List K)) := do
  let r ← sides.mapM (genside pointlists transvect)
  let kept := r.filterMap id
  pure (kept.map (·.1), kept.map (·.2))

end Projection

open Classical in
/-- solids3D.py 450-486 `spherevert`. -/
noncomputable def spherevert (vcen : List ℝ) (r : ℝ) (step : Int) : Py (List (List ℝ)) := do
  let thetas ← pyRange3 0 360 step
  let phis ← pyRange3 0 180 step
  let add (plist : List (List ℝ)) (p : List ℝ) : List (List ℝ) := if p ∈ plist then plist else plist ++ [p]
  let plist := thetas.foldl (fun plist (theta : Int) => phis.foldl (fun plist (phi : Int) =>
    let c := spherical2rect (r, (theta : ℝ) * (Real.pi / 180), (phi : ℝ) * (Real.pi / 180))
    add plist (addvect vcen [c.1, c.2.1, c.2.2])) plist) []
  pure (add plist [0, 0, -r])

/-- solids3D.py 540-543: the tiles at the two poles for position `i` of the ring. -/
def poleTiles (northpole southpole : Nat) (npts spts : List Nat) (i : Nat) : Py (List (List Nat)) := do
  let j := if i + 1 = npts.length then 0 else i + 1
  let nj ← nth npts j
  let ni ← nth npts i
  let si ← nth spts i
  let sj ← nth spts j
  pure [[northpole, nj, ni], [southpole, si, sj]]

/-- solids3D.py 550-560: the tiles between a ring `pts` and the next one. -/
def bandTiles (pts adjpts : List Nat) (i : Nat) : Py (List Nat) := do
  let j := if i + 1 = pts.length then 0 else i + 1
  let maxadjpts := adjpts.length
  if maxadjpts = 0 then .error .zeroDivision
  else do
    let aj ← nth adjpts (j % maxadjpts)
    let ai ← nth adjpts (i % maxadjpts)
    let pi ← nth pts i
    let pj ← nth pts j
    pure [aj, ai, pi, pj]

/-- solids3D.py 517-561 `genspheresurfaces`; `rings` are the indices of the points of each level in
the order of the list of levels. With one level the code reads `zl[1]` out of range. -/
def genspheresurfaces (rings : List (List Nat)) : Py (List (List Nat)) := do
  let levels := rings.length - 1
  let northpole ← nth (← nth rings 0) 0
  let southpole ← nth (← nth rings levels) 0
  let npts ← nth rings 1
  let spts ← nth rings (levels - 1)
  let poles ← (List.range npts.length).mapM (poleTiles northpole southpole npts spts)
  let bands ← (List.range (levels - 2)).mapM fun k => do
    let pts ← nth rings (k + 1)
    let adjpts ← nth rings (k + 2)
    (List.range pts.length).mapM (bandTiles pts adjpts)
  pure (poles.flatten ++ bands.flatten)

/-- `range(0, 360 + (deganglestep << 1), deganglestep)` of solids3D.py 621-622 and 669-671. -/
def ringAngles (step : Int) : Py (List Int) := pyRange3 0 (360 + pyShl step 1) step

/-- solids3D.py 591-639 `cylindervertandsurface`. -/
noncomputable def cylindervertandsurface (vcen : List ℝ) (r zlen : ℝ) (step : Int) :
    Py (List (List ℝ) × List (List Nat)) := do
  let z := zlen / 2
  let angles ← ringAngles step
  let pt (theta : Int) (z : ℝ) : List ℝ :=
    let c := cylindrical2rect (r, (theta : ℝ) * (Real.pi / 180), z)
    addvect vcen [c.1, c.2.1, c.2.2]
  let n := angles.length
  let top := (List.range n).map fun k => 2 * k
  let bottom := (List.range n).map fun k => 2 * k + 1
  let side := ((List.range n).map fun k => 2 * k).filter (· > 2) |>.map fun i => [i, i + 1, i - 2 + 1, i - 2]
  pure ((angles.map fun t => [pt t (-z), pt t z]).flatten, [top.reverse] ++ side ++ [bottom])

/-- solids3D.py 642-680 `conevertandsurface`. -/
noncomputable def conevertandsurface (vcen : List ℝ) (r zlen : ℝ) (step : Int) :
    Py (List (List ℝ) × List (List Nat)) := do
  let z := zlen / 2
  let angles ← ringAngles step
  let n := angles.length
  let bottom := (List.range n).map (· + 1)
  let side := (((List.range n).map (· + 1)).filter (· > 2)).map fun i => [0, i, i - 1]
  pure (subvect vcen [0, 0, z] :: angles.map (fun (theta : Int) =>
    let c := cylindrical2rect (r, (theta : ℝ) * (Real.pi / 180), z)
    addvect vcen [c.1, c.2.1, c.2.2]), side ++ [bottom])

/-- solids3D.py 683-717 `surfplot3Dvertandsurface`. A vertex is its three coordinates; `idxOf` is
`vlist.index(v)`. -/
def surfplot3D {α : Type} [DecidableEq α] (x1 y1 x2 y2 step : Int) (fnxy : Int → Int → α) :
    Py (List (Int × Int × α) × List (List Int)) := do
  let ys ← pyRange3 y1 y2 step
  let vlist ← ys.mapM fun y => do
    let xs ← pyRange3 x1 x2 step
    pure (xs.map fun x => (x, y, fnxy x y))
  let vlist := vlist.flatten
  if step = 0 then .error .zeroDivision
  else do
    let dx := Int.fdiv ((x2 - x1).natAbs : Int) step
    let dx1 := dx - 1
    let vl : Int := vlist.length
    let surf ← vlist.mapM fun v => do
      let i : Int := vlist.idxOf v
      let idx := i + dx
      let idx1 := idx + 1
      if vl - idx1 ≥ 0 then
        if dx = 0 then .error .zeroDivision
        else if Int.fmod i dx < dx1 then pure [[idx, idx1, i + 1, i]] else pure []
      else pure []
    pure (vlist, surf.flatten)

/-- The points of solids3D.py 400-407 and 408-411 that are not in the list yet. -/
def addNew (px : List (Int × Int)) (l : List (Int × Int)) : List (Int × Int) :=
  l.foldl (fun px p => if p ∈ px then px else px ++ [p]) px

/-- mathlib.py 120-131 `roundvect` on a vector with two coordinates. -/
def roundvect2 (v : ℚ × ℚ) : Int × Int := (rnd v.1, rnd v.2)

/-- solids3D.py 380-412 `polyboundary`; `vertlist[0]` raises for the empty list. -/
def polyboundary (vertlist : List (ℚ × ℚ)) : Py (List (Int × Int)) := do
  let px := (vertlist.zip vertlist.tail).foldl
    (fun px e => addNew px (iterline (roundvect2 e.1) (roundvect2 e.2))) []
  let first ← nth vertlist 0
  let last ← nth vertlist (vertlist.length - 1)
  pure (addNew px (iterline (roundvect2 last) (roundvect2 first)))

/-- solids3D.py 336-377 `fillpolydata`; the dictionary as the list of its items. -/
def fillpolydata (polybnd : List (Int × Int)) (xlim ylim : Int) : Py (List (Int × List Int)) := do
  let ((minx, miny), (maxx, maxy)) ← rectboundarycoords polybnd
  let maxx := maxx + 1
  let maxy := maxy + 1
  if (minx ≥ 0 ∧ miny ≥ 0) ∧ (maxx ≤ xlim ∧ maxy ≤ ylim) then
    pure ((pyRange miny maxy).map fun y => (y, (pyRange minx maxx).filter fun x => (x, y) ∈ polybnd))
  else pure []

/-- BITMAPlib.py 6659-6677 `plotpolyfill`. -/
def plotpolyfill (bmp : Bytes) (vertlist : List (ℚ × ℚ)) (color : Int) : Py Bytes := do
  let bnd ← polyboundary vertlist
  let d ← fillpolydata bnd (← getmaxx bmp) (← getmaxy bmp)
  fillboundary bmp d color

end Verif.Model
