import Verif.Model.Draw
/-! Model of shapes that are put together from points, lines and circles, and of ellipses.
Coordinates are integers, on which `roundvect` (mathlib.py 120-131) is the identity. -/

namespace Verif.Model
open Verif

/-- Python's `range(a, b, s)`; a step of 0 raises `ValueError`. -/
def pyRange3 (a b s : Int) : Py (List Int) :=
  if s = 0 then .error .valueError
  else if 0 < s then .ok ((List.range ((b - a + s - 1) / s).toNat).map fun (k : Nat) => a + s * (k : Int))
  else .ok ((List.range ((a - b - s - 1) / (-s)).toNat).map fun (k : Nat) => a + s * (k : Int))

/-- BITMAPlib.py 1903-1926 `roundpen`; lines 1925-1926 call `circle` with `isfilled` true, which is
`filledcircle` (lines 3434-3436). -/
def roundpen (bmp : Bytes) (point : Int × Int) (penradius color : Int) : Py Bytes :=
  if penradius ≤ 1 then plotxybit bmp point.1 point.2 color
  else filledcircle bmp point.1 point.2 penradius color

/-- BITMAPlib.py 1878-1900 `plotxypointlist` -/
def plotxypointlist (bmp : Bytes) (vlist : List (Int × Int)) (penradius color : Int) : Py Bytes :=
  vlist.foldlM (fun bmp v => roundpen bmp v penradius color) bmp

/-- BITMAPlib.py 2308-2324 `intlinevec` and 2327-2344 `linevec` -/
def linevec (bmp : Bytes) (u v : Int × Int) (color : Int) : Py Bytes := line bmp u.1 u.2 v.1 v.2 color

/-- BITMAPlib.py 2399-2418 `thickroundline`; the circles are filled. -/
def thickroundline (bmp : Bytes) (p1 p2 : Int × Int) (penradius color : Int) : Py Bytes :=
  (iterline p1 p2).foldlM (fun bmp p => filledcircle bmp p.1 p.2 penradius color) bmp

/-- BITMAPlib.py 3513-3531 `thickcircle`; the circles are filled. -/
def thickcircle (bmp : Bytes) (x y r penradius color : Int) : Py Bytes :=
  (itercircle x y r).foldlM (fun bmp p => filledcircle bmp p.1 p.2 penradius color) bmp

/-- BITMAPlib.py 6782-6815 `plotlines`: each vertex from the second on is joined to the one before. -/
def plotlines (bmp : Bytes) (vertlist : List (Int × Int)) (color : Int) (penradius : Int := 1) : Py Bytes :=
  if penradius ≤ 1 then (vertlist.zip vertlist.tail).foldlM (fun bmp s => linevec bmp s.1 s.2 color) bmp
  else (vertlist.zip vertlist.tail).foldlM (fun bmp s => thickroundline bmp s.1 s.2 penradius color) bmp

/-- BITMAPlib.py 6818-6834 `plotpoly`; `vertlist[0]` of the empty list raises `IndexError`. -/
def plotpoly (bmp : Bytes) (vertlist : List (Int × Int)) (color : Int) : Py Bytes := do
  let bmp ← plotlines bmp vertlist color
  match vertlist.head?, vertlist.getLast? with
  | some u, some v => linevec bmp u v color
  | _, _ => .error .indexError

/-- BITMAPlib.py 6837-6854 `plotpolylist` -/
def plotpolylist (bmp : Bytes) (polylist : List (List (Int × Int))) (color : Int) : Py Bytes :=
  polylist.foldlM (fun bmp poly => plotpoly bmp poly color) bmp

/-- BITMAPlib.py 6680-6706 `thickplotpoly` -/
def thickplotpoly (bmp : Bytes) (vertlist : List (Int × Int)) (penradius color : Int) : Py Bytes := do
  let bmp ← (vertlist.zip vertlist.tail).foldlM (fun bmp s => thickroundline bmp s.1 s.2 penradius color) bmp
  match vertlist.head?, vertlist.getLast? with
  | some u, some v => thickroundline bmp u v penradius color
  | _, _ => .error .indexError

/-- primitives2D.py 460-477 `recvert` -/
def recvert (x1 y1 x2 y2 : Int) : List (Int × Int) := [(x1, y1), (x2, y1), (x2, y2), (x1, y2)]

/-- BITMAPlib.py 3916-3934 `rectangle` -/
def rectangle (bmp : Bytes) (x1 y1 x2 y2 color : Int) : Py Bytes := plotpoly bmp (recvert x1 y1 x2 y2) color

/-- BITMAPlib.py 7017-7045 `xygrid` -/
def xygrid (bmp : Bytes) (x1 y1 x2 y2 : Int) (xysteps : Int × Int) (color : Int) : Py Bytes :=
  entirerectinboundary (fun bmp x1 y1 x2 y2 => do
    let (x1, y1, x2, y2) := sortrecpoints x1 y1 x2 y2
    let xs ← pyRange3 x1 x2 xysteps.1
    let bmp ← xs.foldlM (fun bmp x => vertline bmp x y1 y2 color) bmp
    let ys ← pyRange3 y1 y2 xysteps.2
    ys.foldlM (fun bmp y => horiline bmp y x1 x2 color) bmp) bmp x1 y1 x2 y2

/-- BITMAPlib.py 7048-7070 `xygridvec` -/
def xygridvec (bmp : Bytes) (u v steps : Int × Int) (gridcolor : Int) : Py Bytes :=
  xygrid bmp u.1 u.2 v.1 v.2 steps gridcolor

/-- BITMAPlib.py 7105-7126 `vertlinevert` -/
def vertlinevert (bmp : Bytes) (vlist : List (Int × Int)) (linelen yadj color : Int) : Py Bytes :=
  vlist.foldlM (fun bmp v => vertline bmp v.1 v.2 (v.2 + linelen + yadj) color) bmp

/-- BITMAPlib.py 7129-7151 `horilinevert` -/
def horilinevert (bmp : Bytes) (vlist : List (Int × Int)) (linelen xadj color : Int) : Py Bytes :=
  vlist.foldlM (fun bmp v => horiline bmp v.2 v.1 (v.1 + linelen + xadj) color) bmp

/-- primitives2D.py 199-208 `iterparallelogram` with 211-225 `lineseg` -/
def iterparallelogram (p1 p2 p3 : Int × Int) : List ((Int × Int) × (Int × Int)) :=
  (iterline p1 p3).zip (iterline p2 (p3.1 + (p2.1 - p1.1), p3.2 + (p2.2 - p1.2)))

/-- BITMAPlib.py 2347-2366 `filledparallelogram` -/
def filledparallelogram (bmp : Bytes) (p1 p2 p3 : Int × Int) (color : Int) : Py Bytes :=
  (iterparallelogram p1 p2 p3).foldlM (fun bmp s => linevec bmp s.1 s.2 color) bmp

/-- BITMAPlib.py 6636-6656 `fillboundary`; the dictionary as a list of its items. -/
def fillboundary (bmp : Bytes) (bndfilldic : List (Int × List Int)) (color : Int) : Py Bytes :=
  bndfilldic.foldlM (fun bmp e =>
    match e.2 with
    | [x] => plotxybit bmp x e.1 color
    | b => (b.zip b.tail).foldlM (fun bmp s => horiline bmp e.1 s.1 s.2 color) bmp) bmp

/-- The first `while` loop of primitives2D.py 250-256: the points, and the state `(row, col)` after
the loop. `n` bounds the number of rounds. -/
def ellLoop1 (asqr bsqr : Int) : Nat → Int → Int → Int → List (Int × Int) × (Int × Int)
  | 0, row, col, _ => ([], (row, col))
  | n + 1, row, col, d =>
    if row * asqr ≥ col * bsqr then
      let s : Int × Int := if d ≥ 0 then (row - 1, d - pyShl asqr 2 * (row - 1)) else (row, d)
      let r := ellLoop1 asqr bsqr n s.1 (col + 1) (s.2 + pyShl bsqr 1 * (3 + pyShl col 1))
      ((col, row) :: r.1, r.2)
    else ([], (row, col))

/-- The second `while` loop of primitives2D.py 260-266; `n` bounds the number of rounds. -/
def ellLoop2 (asqr bsqr : Int) : Nat → Int → Int → Int → List (Int × Int)
  | 0, _, _, _ => []
  | n + 1, row, col, d =>
    if row > -1 then
      let s : Int × Int := if d ≥ 0 then (col + 1, d - pyShl bsqr 2 * (col + 1)) else (col, d)
      (col, row) :: ellLoop2 asqr bsqr n (row - 1) s.1 (s.2 + pyShl asqr 1 * (3 + pyShl row 1))
    else []

/-- primitives2D.py 228-266 `iterellipsepart`. The bounds on the rounds are never reached unless
`a = b = 0`, for which the first loop of the code does not end (`C97_endless`). -/
def iterellipsepart (b a : Int) : List (Int × Int) :=
  let asqr := a * a
  let bsqr := b * b
  let d := pyShl asqr 1 * ((b - 1) * b) + asqr + pyShl bsqr 1 * (1 - asqr)
  let r := ellLoop1 asqr bsqr (asqr * b.natAbs + 2).toNat b 0 d
  let row := r.2.1
  let col := r.2.2
  let d := pyShl bsqr 1 * ((col - 1) * col) + pyShl asqr 1 * (row * (row - 2) + 1) + (1 - pyShl asqr 1) * bsqr
  r.1 ++ ellLoop2 asqr bsqr (row + 1).toNat row col d

/-- primitives2D.py 269-283 `iterellipse`, also 879-896 `ellipsevert` -/
def iterellipse (x y b a : Int) : List (Int × Int) := (iterellipsepart b a).flatMap (mirror1stquad x y)

/-- primitives2D.py 852-876 `entireellipseisinboundary` -/
def entireellipseisinboundary (x y minx maxx miny maxy b a : Int) : Bool :=
  (isinrange (x - b) maxx minx && isinrange (x + b) maxx minx) &&
  (isinrange (y - a) maxy miny && isinrange (y + a) maxy miny)

/-- BITMAPlib.py 3783-3833 `ellipse` with `isfilled` false. -/
def ellipse (bmp : Bytes) (x y b a color : Int) : Py Bytes := do
  let m ← getmaxxy bmp
  let bits ← getItem bmp bmpcolorbits
  let dobndcheck := !entireellipseisinboundary x y (-1) m.1 (-1) m.2 b a
  if bits = 24 then
    let buf ← int2BGRarr color
    (iterellipse x y b a).foldlM (fun bmp p => do
      if dobndcheck = true then
        let inb ← isinBMPrectbnd bmp p.1 p.2
        if inb = true then do
          let s ← BMoffsethd bmp p.1 p.2
          pure (setSlice bmp s (s + 3) buf)
        else pure bmp
      else
        let s ← BMoffsethd bmp p.1 p.2
        pure (setSlice bmp s (s + 3) buf)) bmp
  else if bits = 8 then
    (iterellipse x y b a).foldlM (fun bmp p => do
      if dobndcheck = true then
        let inb ← isinBMPrectbnd bmp p.1 p.2
        if inb = true then do
          let s ← BMoffsethd bmp p.1 p.2
          setItem bmp s color
        else pure bmp
      else
        let s ← BMoffsethd bmp p.1 p.2
        setItem bmp s color) bmp
  else
    (iterellipse x y b a).foldlM (fun bmp p => plotxybit bmp p.1 p.2 color) bmp

/-- BITMAPlib.py 3721-3780 `filledellipse` -/
def filledellipse (bmp : Bytes) (x y b a color : Int) : Py Bytes := do
  let bits ← getItem bmp bmpcolorbits
  if bits < 8 then
    (iterellipsepart b a).foldlM (fun bmp v => do
      let xm := mirror x v.1
      let ym := mirror y v.2
      let bmp ← horiline bmp ym.1 xm.1 xm.2 color
      horiline bmp ym.2 xm.1 xm.2 color) bmp
  else
    let m ← getmaxxy bmp
    if bits = 24 then
      (iterellipsepart b a).foldlM (fun bmp v => do
        let xm := mirror x v.1
        let ym := mirror y v.2
        let x1 := setmin xm.1 0
        let x2 := setmax xm.2 (m.1 - 1)
        let dx := x2 - x1 + 1
        let rgb := int2RGB color
        let colorbuf ← mkArray (pyRepeat [rgb.2.2, rgb.2.1, rgb.1] dx)
        let lbuf := dx * 3
        let bmp ← if isinrange ym.2 m.2 (-1) = true then do
            let s ← bmofhd24 bmp x1 ym.2
            pure (setSlice bmp s (s + lbuf) colorbuf)
          else pure bmp
        if isinrange ym.1 m.2 (-1) = true then do
          let s ← bmofhd24 bmp x1 ym.1
          pure (setSlice bmp s (s + lbuf) colorbuf)
        else pure bmp) bmp
    else if bits = 8 then
      (iterellipsepart b a).foldlM (fun bmp v => do
        let xm := mirror x v.1
        let ym := mirror y v.2
        let x1 := setmin xm.1 0
        let x2 := setmax xm.2 (m.1 - 1)
        let dx := x2 - x1 + 1
        let colorbuf ← mkArray (pyRepeat [pyAnd color 0xff] dx)
        let bmp ← if isinrange ym.2 m.2 (-1) = true then do
            let s ← bmofhd8 bmp x1 ym.2
            pure (setSlice bmp s (s + dx) colorbuf)
          else pure bmp
        if isinrange ym.1 m.2 (-1) = true then do
          let s ← bmofhd8 bmp x1 ym.1
          pure (setSlice bmp s (s + dx) colorbuf)
        else pure bmp) bmp
    else pure bmp

/-- primitives2D.py 539-556 `horizontalvert` -/
def horizontalvert (y x1 x2 dx : Int) : Py (List (Int × Int)) := do
  let xs ← pyRange3 x1 x2 dx
  pure (xs.map fun x => (x, y))

/-- primitives2D.py 559-576 `verticalvert` -/
def verticalvert (x y1 y2 dy : Int) : Py (List (Int × Int)) := do
  let ys ← pyRange3 y1 y2 dy
  pure (ys.map fun y => (x, y))

/-- primitives2D.py 633-646 `rectboundarycoords` on points with two coordinates; `pivotlist`
(mathlib.py 303-315) raises `IndexError` for the empty list. -/
def rectboundarycoords (vlist : List (Int × Int)) : Py ((Int × Int) × (Int × Int)) :=
  match vlist with
  | [] => .error .indexError
  | v :: vs => .ok ((vs.foldl (fun m p => min m p.1) v.1, vs.foldl (fun m p => min m p.2) v.2),
      (vs.foldl (fun m p => max m p.1) v.1, vs.foldl (fun m p => max m p.2) v.2))

/-- The `while` loop of primitives2D.py 735-749. -/
def spiralLoop (growth : Int) : Nat → Int → Int → Int → Int → List (Int × Int)
  | 0, _, _, _, _ => []
  | n + 1, x, y, step, inc =>
    let x1 := x + step
    let step1 := step + inc
    let y1 := y + step1
    let step2 := step1 + inc
    let x2 := x1 - step2
    let step3 := step2 + inc
    let y2 := y1 - step3
    (x1, y) :: (x1, y1) :: (x2, y1) :: (x2, y2) :: spiralLoop growth n x2 y2 (step3 + inc) (inc * growth)

/-- primitives2D.py 711-750 `spiralcontrolpointsvert` with a whole growth factor. -/
def spiralcontrolpointsvert (x y step growthfactor turns : Int) : List (Int × Int) :=
  (x, y) :: spiralLoop growthfactor turns.toNat x y step step

end Verif.Model
