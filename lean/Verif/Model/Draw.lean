import Verif.Model.Pixel
/-! Model of the line, rectangle and circle primitives: `pythonbmp/primitives2D.py` (integer part)
and the drawing functions of `pythonbmp/BITMAPlib.py`. Generators are modelled by the list of the
values they yield. -/

namespace Verif.Model
open Verif

/-- mathlib.py 1125-1135 `mirror` -/
def mirror (pt delta : Int) : Int × Int := (pt - delta, pt + delta)

/-- mathlib.py 1225-1246 `mirror1stquad` -/
def mirror1stquad (x y : Int) (v : Int × Int) : List (Int × Int) :=
  let xm := mirror x v.1
  let ym := mirror y v.2
  [(xm.1, ym.2), (xm.2, ym.2), (xm.1, ym.1), (xm.2, ym.1)]

/-- primitives2D.py 753-769 `sortrecpoints` -/
def sortrecpoints (x1 y1 x2 y2 : Int) : Int × Int × Int × Int :=
  let px := swapif x1 x2 (decide (x1 > x2))
  let py := swapif y1 y2 (decide (y1 > y2))
  (px.1, py.1, px.2, py.2)

/-- primitives2D.py 825-849 `entirecircleisinboundary` -/
def entirecircleisinboundary (x y minx maxx miny maxy r : Int) : Bool :=
  (isinrange (x - r) maxx minx && isinrange (x + r) maxx minx) &&
  (isinrange (y - r) maxy miny && isinrange (y + r) maxy miny)

/-- The `for` loop of primitives2D.py 180-186 (major axis first). `n` counts the remaining
iterations, `e` is the error accumulator, `(a, b)` the current point on the major and minor axis. -/
def iterlineLoop (big small sa sb : Int) : Nat → Int → Int → Int → List (Int × Int)
  | 0, _, _, _ => []
  | n + 1, e, a, b =>
    let e := e + small
    if e ≥ big then (a, b + sb) :: iterlineLoop big small sa sb n (e - big) (a + sa) (b + sb)
    else (a, b) :: iterlineLoop big small sa sb n e (a + sa) b

/-- primitives2D.py 157-195 `iterline`. The `else` branch is the same loop with the roles of the
axes exchanged. Both are followed by `yield p2` (line 195). -/
def iterline (p1 p2 : Int × Int) : List (Int × Int) :=
  let dx := p2.1 - p1.1
  let dy := p2.2 - p1.2
  let sdx := sign dx
  let sdy := sign dy
  let dxabs : Int := dx.natAbs
  let dyabs : Int := dy.natAbs
  (if dxabs ≥ dyabs then iterlineLoop dxabs dyabs sdx sdy (dxabs + 1).toNat 0 p1.1 p1.2
  else (iterlineLoop dyabs dxabs sdy sdx (dyabs + 1).toNat 0 p1.2 p1.1).map fun p => (p.2, p.1)) ++ [p2]

/-- Start value of the decision variable, primitives2D.py 67-71. -/
def circleStart (r : Int) : Int :=
  let r_sqr := r * r
  pyShl r_sqr 1 * ((r - 1) * r) + r_sqr + pyShl r_sqr 1 * (1 - r_sqr)

/-- Update of `row` and `d` by primitives2D.py 76-79 (also 110-116 and 150-153). -/
def circleStep (r row col d : Int) : Int × Int :=
  let r_sqr := r * r
  let row' := if d ≥ 0 then row - 1 else row
  let d' := if d ≥ 0 then d - pyShl r_sqr 2 * row' else d
  (row', d' + pyShl r_sqr 1 * (3 + pyShl col 1))

/-- The `while` loop of primitives2D.py 72-80. Each round increases `col` and never increases
`row`, so `row - col + 1` rounds are enough (`circPartLoop_fuel`). -/
def circPartLoop (r : Int) : Nat → Int → Int → Int → List (Int × Int)
  | 0, _, _, _ => []
  | n + 1, row, col, d =>
    if row ≥ col then
      let st := circleStep r row col d
      (col, row) :: ((if row ≠ col then [(row, col)] else []) ++ circPartLoop r n st.1 (col + 1) st.2)
    else []

/-- primitives2D.py 52-80 `itercirclepart` -/
def itercirclepart (r : Int) : List (Int × Int) := circPartLoop r (r + 1).toNat r 0 (circleStart r)

/-- The `while` loop of primitives2D.py 106-117; `seen` is the list `y`. -/
def circEdgeLoop (r : Int) : Nat → Int → Int → Int → List Int → List (Int × Int)
  | 0, _, _, _, _ => []
  | n + 1, row, col, d, seen =>
    if row ≥ col then
      let o1 := if col ∉ seen then [(row, col)] else []
      let seen := if col ∉ seen then seen ++ [col] else seen
      let o2 := if d ≥ 0 ∧ row ∉ seen then [(col, row)] else []
      let seen := if d ≥ 0 ∧ row ∉ seen then seen ++ [row] else seen
      let st := circleStep r row col d
      o1 ++ o2 ++ circEdgeLoop r n st.1 (col + 1) st.2 seen
    else []

/-- primitives2D.py 83-117 `itercirclepartlineedge` -/
def itercirclepartlineedge (r : Int) : List (Int × Int) :=
  circEdgeLoop r (r + 1).toNat r 0 (circleStart r) []

/-- The `while` loop of primitives2D.py 143-154; `seen` is the list `x`. -/
def circVertLoop (r : Int) : Nat → Int → Int → Int → List Int → List (Int × Int)
  | 0, _, _, _, _ => []
  | n + 1, row, col, d, seen =>
    if row ≥ col then
      let o1 := if col ∉ seen then [(col, row)] else []
      let seen := if col ∉ seen then seen ++ [col] else seen
      let o2 := if row ∉ seen then [(row, col)] else []
      let seen := if row ∉ seen then seen ++ [row] else seen
      let st := circleStep r row col d
      o1 ++ o2 ++ circVertLoop r n st.1 (col + 1) st.2 seen
    else []

/-- primitives2D.py 120-154 `itercirclepartvertlineedge` -/
def itercirclepartvertlineedge (r : Int) : List (Int × Int) :=
  circVertLoop r (r + 1).toNat r 0 (circleStart r) []

/-- primitives2D.py 311-326 `itercircle` -/
def itercircle (x y r : Int) : List (Int × Int) := (itercirclepart r).flatMap (mirror1stquad x y)

/-- BITMAPlib.py 2006-2057 `horiline` -/
def horiline (bmp : Bytes) (y x1 x2 color : Int) : Py Bytes := do
  let bits ← getItem bmp bmpcolorbits
  let m ← getmaxxy bmp
  if isinrange y m.2 (-1) = true then
    let p := swapif x1 x2 (decide (x1 > x2))
    let x1 := setmin p.1 0
    let x2 := setmax p.2 (m.1 - 1)
    let dx := x2 - x1 + 1
    let s ← BMoffsethd bmp x1 y
    if bits = 24 then
      let e := s + dx * 3
      let rgb := int2RGB color
      let a ← mkArray (pyRepeat [rgb.2.2, rgb.2.1, rgb.1] dx)
      pure (setSlice bmp s e a)
    else if bits = 8 then
      let e := s + dx
      let a ← mkArray (pyRepeat [pyAnd color 0xff] dx)
      pure (setSlice bmp s e a)
    else if bits = 4 then
      let dx := pyShr dx 1
      let e := s + dx
      let color := pyAnd color 0xf
      let c2 := pyShl color 4 + color
      let c1 ← if pyAnd x1 1 = 1 then do
          let v ← getItem bmp s
          pure (((v &&& 0xf0 : Nat) : Int))
        else pure (-1)
      let a ← mkArray (pyRepeat [c2] dx)
      let bmp := setSlice bmp s e a
      let bmp ← if c1 ≠ -1 then do
          let v ← getItem bmp s
          setItem bmp s (c1 + ((v &&& 0xf : Nat) : Int))
        else pure bmp
      if pyAnd x2 1 = 1 then plotxybit bmp (x2 - 1) y color else pure bmp
    else if bits = 1 then
      (pyRange x1 (x2 + 1)).foldlM (fun bmp x => plotxybit bmp x y color) bmp
    else pure bmp
  else pure bmp

/-- BITMAPlib.py 2060-2107 `vertline` -/
def vertline (bmp : Bytes) (x y1 y2 color : Int) : Py Bytes := do
  let bits ← getItem bmp bmpcolorbits
  if ¬ (bits = 24 ∨ bits = 8) then
    let p := swapif y1 y2 (decide (y1 > y2))
    (pyRange p.1 (p.2 + 1)).foldlM (fun bmp y => plotxybit bmp x y color) bmp
  else
    let r ← xchrcnt bmp
    let m ← getmaxxy bmp
    if isinrange x m.1 (-1) = true then
      let p := swapif y1 y2 (decide (y1 > y2))
      let y1 := setmin p.1 0
      let y2 := setmax p.2 (m.2 - 1)
      let dy := y2 - y1 + 1
      let rgb := int2RGB color
      let s ← BMoffsethd bmp x y2
      let e0 ← BMoffsethd bmp x y1
      let e := e0 + r
      if bits = 24 then
        let a ← mkArray (pyRepeat [rgb.2.2] dy)
        let bmp ← setSliceStep bmp s (e - 2) r.toNat a
        let a ← mkArray (pyRepeat [rgb.2.1] dy)
        let bmp ← setSliceStep bmp (s + 1) (e - 1) r.toNat a
        let a ← mkArray (pyRepeat [rgb.1] dy)
        setSliceStep bmp (s + 2) e r.toNat a
      else
        let a ← mkArray (pyRepeat [color % 256] dy)
        setSliceStep bmp s e r.toNat a
    else pure bmp

/-- BITMAPlib.py 1948-2003 `line` -/
def line (bmp : Bytes) (x1 y1 x2 y2 color : Int) : Py Bytes := do
  let m ← bottomrightcoord bmp
  let x1 := setminmax x1 0 m.1
  let x2 := setminmax x2 0 m.1
  let y1 := setminmax y1 0 m.2
  let y2 := setminmax y2 0 m.2
  if x1 = x2 then vertline bmp x1 y1 y2 color
  else if y1 = y2 then horiline bmp y1 x1 x2 color
  else
    let bits ← getItem bmp bmpcolorbits
    if bits = 24 then
      let buf ← int2BGRarr color
      (iterline (x1, y1) (x2, y2)).foldlM (fun bmp p => do
        let s ← BMoffsethd bmp p.1 p.2
        pure (setSlice bmp s (s + 3) buf)) bmp
    else if bits = 8 then
      let color := pyAnd color 0xff
      (iterline (x1, y1) (x2, y2)).foldlM (fun bmp p => do
        let s ← BMoffsethd bmp p.1 p.2
        setItem bmp s color) bmp
    else if bits = 4 then
      let color := if color > 15 then pyAnd color 0xf else color
      (iterline (x1, y1) (x2, y2)).foldlM (fun bmp p => do
        let s ← BMoffsethd bmp p.1 p.2
        let v ← getItem bmp s
        if pyAnd p.1 1 = 1 then setItem bmp s (((v &&& 0xf0 : Nat) : Int) + color)
        else setItem bmp s (pyShl color 4 + ((v &&& 0xf : Nat) : Int))) bmp
    else if bits = 1 then
      let color := if color > 1 then pyAnd color 1 else color
      (iterline (x1, y1) (x2, y2)).foldlM (fun bmp p => plotxybit bmp p.1 p.2 color) bmp
    else pure bmp

/-- paramchecks.py 298-328 `entirerectinboundary` on integer arguments: the message branch
returns `None` without calling the function, so the array stays as it is. -/
def entirerectinboundary (f : Bytes → Int → Int → Int → Int → Py Bytes) (bmp : Bytes)
    (x1 y1 x2 y2 : Int) : Py Bytes := do
  let a ← isinBMPrectbnd bmp x1 y1
  let b ← if a = true then isinBMPrectbnd bmp x2 y2 else pure false
  if ¬ (b = true) then pure bmp else f bmp x1 y1 x2 y2

/-- The `while` loop of BITMAPlib.py 3980-3983. The fuel `lim - offset + 1` is enough because `r`
is positive for images of positive width. -/
def rectLoop (buf : Bytes) (lim fsize r : Int) : Nat → Bytes → Int → Bytes
  | 0, bmp, _ => bmp
  | n + 1, bmp, offset =>
    if offset ≤ lim ∧ offset + (buf.length : Int) ≤ fsize then
      rectLoop buf lim fsize r n (setSlice bmp offset (offset + (buf.length : Int)) buf) (offset + r)
    else bmp

/-- BITMAPlib.py 3937-3983 `filledrect` -/
def filledrect (bmp : Bytes) (x1 y1 x2 y2 color : Int) : Py Bytes :=
  entirerectinboundary (fun bmp x1 y1 x2 y2 => do
    let bits ← getItem bmp bmpcolorbits
    let (x1, y1, x2, y2) := sortrecpoints x1 y1 x2 y2
    if ¬ (bits = 8 ∨ bits = 24) then
      (pyRange y1 (y2 + 1)).foldlM (fun bmp y => horiline bmp y x1 x2 color) bmp
    else
      let dx := x2 - x1 + 1
      let r ← xchrcnt bmp
      let rgb := int2RGB color
      let buf ← if bits = 24 then mkArray (pyRepeat [rgb.2.2, rgb.2.1, rgb.1] dx)
        else do
          let pal ← getallRGBpal bmp
          mkArray (pyRepeat [matchRGBtopal rgb false pal] dx)
      let offset ← BMoffsethd bmp x1 y2
      let lim ← BMoffsethd bmp x2 y1
      let fsize ← flsz bmp
      pure (rectLoop buf lim fsize r (lim - offset + 1).toNat bmp offset)) bmp x1 y1 x2 y2

/-- BITMAPlib.py 3350-3409 `filledcircle` -/
def filledcircle (bmp : Bytes) (x y r color : Int) : Py Bytes := do
  let bits ← getItem bmp bmpcolorbits
  if bits < 8 then
    (itercirclepartlineedge r).foldlM (fun bmp v => do
      let xm := mirror x v.1
      let ym := mirror y v.2
      let bmp ← horiline bmp ym.1 xm.1 xm.2 color
      horiline bmp ym.2 xm.1 xm.2 color) bmp
  else
    let m ← getmaxxy bmp
    let xmax := m.1 - 1
    if bits = 24 then
      (itercirclepartlineedge r).foldlM (fun bmp v => do
        let xm := mirror x v.1
        let ym := mirror y v.2
        let x1 := setmin xm.1 0
        let x2 := setmax xm.2 xmax
        let dx := x2 - x1 + 1
        let rgb := int2RGB color
        let colorbuf ← mkArray (pyRepeat [rgb.2.2, rgb.2.1, rgb.1] dx)
        let lbuf := dx * 3
        let bmp ← if isinrange ym.2 m.2 (-1) = true then do
            let s ← bmofhd24 bmp x1 ym.2
            pure (setSlice bmp s (s + lbuf) colorbuf)
          else pure bmp
        if isinrange ym.1 m.2 (-1) = true then do
          let s ← bmofhd24 bmp x1 ym.1
          pure (setSlice bmp s (s + lbuf) colorbuf)
        else pure bmp) bmp
    else if bits = 8 then
      (itercirclepartlineedge r).foldlM (fun bmp v => do
        let xm := mirror x v.1
        let ym := mirror y v.2
        let x1 := setmin xm.1 0
        let x2 := setmax xm.2 xmax
        let dx := x2 - x1 + 1
        let colorbuf ← mkArray (pyRepeat [pyAnd color 0xff] dx)
        let bmp ← if isinrange ym.2 m.2 (-1) = true then do
            let s ← bmofhd8 bmp x1 ym.2
            pure (setSlice bmp s (s + dx) colorbuf)
          else pure bmp
        if isinrange ym.1 m.2 (-1) = true then do
          let s ← bmofhd8 bmp x1 ym.1
          pure (setSlice bmp s (s + dx) colorbuf)
        else pure bmp) bmp
    else pure bmp

/-- BITMAPlib.py 3412-3479 `circle` with `isfilled` false. -/
def circle (bmp : Bytes) (x y r color : Int) : Py Bytes := do
  let m ← getmaxxy bmp
  let bits ← getItem bmp bmpcolorbits
  let dobndcheck := !entirecircleisinboundary x y (-1) m.1 (-1) m.2 r
  if bits = 24 then
    let buf ← int2BGRarr color
    let put := fun (bmp : Bytes) (px py : Int) => (do
      let s ← BMoffsethd bmp px py
      pure (setSlice bmp s (s + 3) buf) : Py Bytes)
    if dobndcheck = true then
      (itercircle x y r).foldlM (fun bmp p => do
        let inb ← isinBMPrectbnd bmp p.1 p.2
        if inb = true then put bmp p.1 p.2 else pure bmp) bmp
    else
      (itercirclepart r).foldlM (fun bmp p => do
        let xm := mirror x p.1
        let ym := mirror y p.2
        let s1 ← BMoffsethd bmp xm.1 ym.1
        let s2 ← BMoffsethd bmp xm.2 ym.2
        let s3 ← BMoffsethd bmp xm.1 ym.2
        let s4 ← BMoffsethd bmp xm.2 ym.1
        let bmp := setSlice bmp s1 (s1 + 3) buf
        let bmp := setSlice bmp s2 (s2 + 3) buf
        let bmp := setSlice bmp s3 (s3 + 3) buf
        pure (setSlice bmp s4 (s4 + 3) buf)) bmp
  else if bits = 8 then
    if dobndcheck = true then
      (itercircle x y r).foldlM (fun bmp p => do
        let inb ← isinBMPrectbnd bmp p.1 p.2
        if inb = true then do
          let s ← BMoffsethd bmp p.1 p.2
          setItem bmp s color
        else pure bmp) bmp
    else
      (itercirclepart r).foldlM (fun bmp p => do
        let xm := mirror x p.1
        let ym := mirror y p.2
        let s1 ← BMoffsethd bmp xm.1 ym.1
        let bmp ← setItem bmp s1 color
        let s2 ← BMoffsethd bmp xm.2 ym.2
        let bmp ← setItem bmp s2 color
        let s3 ← BMoffsethd bmp xm.1 ym.2
        let bmp ← setItem bmp s3 color
        let s4 ← BMoffsethd bmp xm.2 ym.1
        setItem bmp s4 color) bmp
  else
    (itercircle x y r).foldlM (fun bmp p => plotxybit bmp p.1 p.2 color) bmp

end Verif.Model
