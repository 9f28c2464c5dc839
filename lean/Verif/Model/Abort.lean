import Verif.Model.Shapes
/-!
# Drawing functions together with the array that a raised exception leaves behind

The other model files describe a call by its result or its exception. Here the same functions of BITMAPlib.py are written
as programs that change one array, statement by statement, so that the array can also be looked at after an exception.
`Verif.Props.Abort` proves that both descriptions agree whenever no exception is raised, and on the exception otherwise.
-/

namespace Verif.Model
open Verif

/-- A program that works on one array: it returns a value or raises an exception, and leaves an array in both cases. -/
def Run (α : Type) := Bytes → Py α × Bytes

namespace Run

/-- A statement that only reads the array. -/
def look {α : Type} (f : Bytes → Py α) : Run α := fun b => (f b, b)

/-- An assignment to (a part of) the array; if it raises an exception then the array stays as it is. -/
def assign (f : Bytes → Py Bytes) : Run Unit := fun b =>
  match f b with
  | .ok b' => (.ok (), b')
  | .error e => (.error e, b)

/-- One statement after another; the second one is not reached after an exception. -/
protected def bind {α β : Type} (p : Run α) (q : α → Run β) : Run β := fun b =>
  match p b with
  | (.ok a, b') => q a b'
  | (.error e, b') => (.error e, b')

instance : Monad Run where
  pure a := fun b => (.ok a, b)
  bind := Run.bind

/-- A `for` loop. -/
def each {α : Type} (f : α → Run Unit) : List α → Run Unit
  | [] => pure ()
  | a :: l => do f a; each f l

end Run
open Run

/-- BITMAPlib.py 1666-1721 `plotxybit`: in each branch the assignment to the array is the last statement. -/
def plotxybitR (x y c : Int) : Run Unit := assign fun bmp => plotxybit bmp x y c

/-- BITMAPlib.py 2006-2057 `horiline` -/
def horilineR (y x1 x2 color : Int) : Run Unit := do
  let bits ← look fun bmp => getItem bmp bmpcolorbits
  let m ← look getmaxxy
  if isinrange y m.2 (-1) = true then do
    let p := swapif x1 x2 (decide (x1 > x2))
    let x1 := setmin p.1 0
    let x2 := setmax p.2 (m.1 - 1)
    let dx := x2 - x1 + 1
    let s ← look fun bmp => BMoffsethd bmp x1 y
    if bits = 24 then do
      let rgb := int2RGB color
      let a ← look fun _ => mkArray (pyRepeat [rgb.2.2, rgb.2.1, rgb.1] dx)
      assign fun bmp => pure (setSlice bmp s (s + dx * 3) a)
    else if bits = 8 then do
      let a ← look fun _ => mkArray (pyRepeat [pyAnd color 0xff] dx)
      assign fun bmp => pure (setSlice bmp s (s + dx) a)
    else if bits = 4 then do
      let dx := pyShr dx 1
      let color := pyAnd color 0xf
      let c2 := pyShl color 4 + color
      let c1 ← look fun bmp => if pyAnd x1 1 = 1 then do
          let v ← getItem bmp s
          pure (((v &&& 0xf0 : Nat) : Int))
        else pure (-1)
      let a ← look fun _ => mkArray (pyRepeat [c2] dx)
      assign fun bmp => pure (setSlice bmp s (s + dx) a)
      assign fun bmp => if c1 ≠ -1 then do
          let v ← getItem bmp s
          setItem bmp s (c1 + ((v &&& 0xf : Nat) : Int))
        else pure bmp
      if pyAnd x2 1 = 1 then plotxybitR (x2 - 1) y color else pure ()
    else if bits = 1 then each (fun x => plotxybitR x y color) (pyRange x1 (x2 + 1))
    else pure ()
  else pure ()

/-- BITMAPlib.py 2060-2107 `vertline`: on 24-bit images the three colour components are assigned one after another, and
each array of components is made just before its assignment. -/
def vertlineR (x y1 y2 color : Int) : Run Unit := do
  let bits ← look fun bmp => getItem bmp bmpcolorbits
  if ¬ (bits = 24 ∨ bits = 8) then
    let p := swapif y1 y2 (decide (y1 > y2))
    each (fun y => plotxybitR x y color) (pyRange p.1 (p.2 + 1))
  else do
    let r ← look xchrcnt
    let m ← look getmaxxy
    if isinrange x m.1 (-1) = true then do
      let p := swapif y1 y2 (decide (y1 > y2))
      let y1 := setmin p.1 0
      let y2 := setmax p.2 (m.2 - 1)
      let dy := y2 - y1 + 1
      let rgb := int2RGB color
      let s ← look fun bmp => BMoffsethd bmp x y2
      let e0 ← look fun bmp => BMoffsethd bmp x y1
      let e := e0 + r
      if bits = 24 then do
        let a ← look fun _ => mkArray (pyRepeat [rgb.2.2] dy)
        assign fun bmp => setSliceStep bmp s (e - 2) r.toNat a
        let a ← look fun _ => mkArray (pyRepeat [rgb.2.1] dy)
        assign fun bmp => setSliceStep bmp (s + 1) (e - 1) r.toNat a
        let a ← look fun _ => mkArray (pyRepeat [rgb.1] dy)
        assign fun bmp => setSliceStep bmp (s + 2) e r.toNat a
      else do
        let a ← look fun _ => mkArray (pyRepeat [color % 256] dy)
        assign fun bmp => setSliceStep bmp s e r.toNat a
    else pure ()

/-- BITMAPlib.py 1948-2003 `line` -/
def lineR (x1 y1 x2 y2 color : Int) : Run Unit := do
  let m ← look bottomrightcoord
  let x1 := setminmax x1 0 m.1
  let x2 := setminmax x2 0 m.1
  let y1 := setminmax y1 0 m.2
  let y2 := setminmax y2 0 m.2
  if x1 = x2 then vertlineR x1 y1 y2 color
  else if y1 = y2 then horilineR y1 x1 x2 color
  else do
    let bits ← look fun bmp => getItem bmp bmpcolorbits
    if bits = 24 then do
      let buf ← look fun _ => int2BGRarr color
      each (fun p => assign fun bmp => do
        let s ← BMoffsethd bmp p.1 p.2
        pure (setSlice bmp s (s + 3) buf)) (iterline (x1, y1) (x2, y2))
    else if bits = 8 then
      let color := pyAnd color 0xff
      each (fun p => assign fun bmp => do
        let s ← BMoffsethd bmp p.1 p.2
        setItem bmp s color) (iterline (x1, y1) (x2, y2))
    else if bits = 4 then
      let color := if color > 15 then pyAnd color 0xf else color
      each (fun p => assign fun bmp => do
        let s ← BMoffsethd bmp p.1 p.2
        let v ← getItem bmp s
        if pyAnd p.1 1 = 1 then setItem bmp s (((v &&& 0xf0 : Nat) : Int) + color)
        else setItem bmp s (pyShl color 4 + ((v &&& 0xf : Nat) : Int))) (iterline (x1, y1) (x2, y2))
    else if bits = 1 then
      let color := if color > 1 then pyAnd color 1 else color
      each (fun p => plotxybitR p.1 p.2 color) (iterline (x1, y1) (x2, y2))
    else pure ()

/-- BITMAPlib.py 6782-6815 `plotlines` with the default pen, on integer vertices. -/
def plotlinesR (vertlist : List (Int × Int)) (color : Int) : Run Unit :=
  each (fun (s : (Int × Int) × Int × Int) => lineR s.1.1 s.1.2 s.2.1 s.2.2 color) (vertlist.zip vertlist.tail)

/-- BITMAPlib.py 6818-6834 `plotpoly` on integer vertices. -/
def plotpolyR (vertlist : List (Int × Int)) (color : Int) : Run Unit := do
  plotlinesR vertlist color
  match vertlist.head?, vertlist.getLast? with
  | some u, some v => lineR u.1 u.2 v.1 v.2 color
  | _, _ => look fun _ => .error .indexError

/-- BITMAPlib.py 3916-3934 `rectangle` -/
def rectangleR (x1 y1 x2 y2 color : Int) : Run Unit := plotpolyR (recvert x1 y1 x2 y2) color

/-- BITMAPlib.py 6837-6854 `plotpolylist` on integer vertices. -/
def plotpolylistR (polylist : List (List (Int × Int))) (color : Int) : Run Unit := each (fun poly => plotpolyR poly color) polylist

/-- paramchecks.py 298-328 `entirerectinboundary` around BITMAPlib.py 3937-3983 `filledrect`. The slice assignments of the
last loop raise no exception, so that `rectLoop` stands for one assignment. -/
def filledrectR (x1 y1 x2 y2 color : Int) : Run Unit := do
  let a ← look fun bmp => isinBMPrectbnd bmp x1 y1
  let b ← look fun bmp => if a = true then isinBMPrectbnd bmp x2 y2 else pure false
  if ¬ (b = true) then pure () else do
    let bits ← look fun bmp => getItem bmp bmpcolorbits
    let (x1, y1, x2, y2) := sortrecpoints x1 y1 x2 y2
    if ¬ (bits = 8 ∨ bits = 24) then each (fun y => horilineR y x1 x2 color) (pyRange y1 (y2 + 1))
    else do
      let dx := x2 - x1 + 1
      let r ← look xchrcnt
      let rgb := int2RGB color
      let buf ← look fun bmp => if bits = 24 then mkArray (pyRepeat [rgb.2.2, rgb.2.1, rgb.1] dx)
        else do
          let pal ← getallRGBpal bmp
          mkArray (pyRepeat [matchRGBtopal rgb false pal] dx)
      let offset ← look fun bmp => BMoffsethd bmp x1 y2
      let lim ← look fun bmp => BMoffsethd bmp x2 y1
      let fsize ← look flsz
      assign fun bmp => pure (rectLoop buf lim fsize r (lim - offset + 1).toNat bmp offset)

/-- BITMAPlib.py 3412-3479 `circle` with `isfilled` false. The assignments of a chain run from left to right. -/
def circleR (x y r color : Int) : Run Unit := do
  let m ← look getmaxxy
  let bits ← look fun bmp => getItem bmp bmpcolorbits
  let dobndcheck := !entirecircleisinboundary x y (-1) m.1 (-1) m.2 r
  if bits = 24 then do
    let buf ← look fun _ => int2BGRarr color
    if dobndcheck = true then
      each (fun p => do
        let inb ← look fun bmp => isinBMPrectbnd bmp p.1 p.2
        if inb = true then do
          let s ← look fun bmp => BMoffsethd bmp p.1 p.2
          assign fun bmp => pure (setSlice bmp s (s + 3) buf)
        else pure ()) (itercircle x y r)
    else
      each (fun p => do
        let xm := mirror x p.1
        let ym := mirror y p.2
        let s1 ← look fun bmp => BMoffsethd bmp xm.1 ym.1
        let s2 ← look fun bmp => BMoffsethd bmp xm.2 ym.2
        let s3 ← look fun bmp => BMoffsethd bmp xm.1 ym.2
        let s4 ← look fun bmp => BMoffsethd bmp xm.2 ym.1
        assign fun bmp => pure (setSlice bmp s1 (s1 + 3) buf)
        assign fun bmp => pure (setSlice bmp s2 (s2 + 3) buf)
        assign fun bmp => pure (setSlice bmp s3 (s3 + 3) buf)
        assign fun bmp => pure (setSlice bmp s4 (s4 + 3) buf)) (itercirclepart r)
  else if bits = 8 then
    if dobndcheck = true then
      each (fun p => do
        let inb ← look fun bmp => isinBMPrectbnd bmp p.1 p.2
        if inb = true then do
          let s ← look fun bmp => BMoffsethd bmp p.1 p.2
          assign fun bmp => setItem bmp s color
        else pure ()) (itercircle x y r)
    else
      each (fun p => do
        let xm := mirror x p.1
        let ym := mirror y p.2
        let s1 ← look fun bmp => BMoffsethd bmp xm.1 ym.1
        assign fun bmp => setItem bmp s1 color
        let s2 ← look fun bmp => BMoffsethd bmp xm.2 ym.2
        assign fun bmp => setItem bmp s2 color
        let s3 ← look fun bmp => BMoffsethd bmp xm.1 ym.2
        assign fun bmp => setItem bmp s3 color
        let s4 ← look fun bmp => BMoffsethd bmp xm.2 ym.1
        assign fun bmp => setItem bmp s4 color) (itercirclepart r)
  else each (fun p => plotxybitR p.1 p.2 color) (itercircle x y r)

/-- One round of the loops of `filledcircleR` for 8 and 24 bits: two rows of a disc, the lower one first. -/
def discRows (off : Bytes → Int → Int → Py Int) (H x1 y1 y2 len : Int) (colorbuf : Bytes) : Run Unit := do
  (if isinrange y2 H (-1) = true then do
    let s ← look fun bmp => off bmp x1 y2
    assign fun bmp => pure (setSlice bmp s (s + len) colorbuf)
  else pure ())
  if isinrange y1 H (-1) = true then do
    let s ← look fun bmp => off bmp x1 y1
    assign fun bmp => pure (setSlice bmp s (s + len) colorbuf)
  else pure ()

/-- BITMAPlib.py 3350-3409 `filledcircle` -/
def filledcircleR (x y r color : Int) : Run Unit := do
  let bits ← look fun bmp => getItem bmp bmpcolorbits
  if bits < 8 then
    each (fun v => do
      let xm := mirror x v.1
      let ym := mirror y v.2
      horilineR ym.1 xm.1 xm.2 color
      horilineR ym.2 xm.1 xm.2 color) (itercirclepartlineedge r)
  else do
    let m ← look getmaxxy
    let xmax := m.1 - 1
    if bits = 24 then
      each (fun v => do
        let xm := mirror x v.1
        let ym := mirror y v.2
        let x1 := setmin xm.1 0
        let dx := setmax xm.2 xmax - x1 + 1
        let rgb := int2RGB color
        let colorbuf ← look fun _ => mkArray (pyRepeat [rgb.2.2, rgb.2.1, rgb.1] dx)
        discRows bmofhd24 m.2 x1 ym.1 ym.2 (dx * 3) colorbuf) (itercirclepartlineedge r)
    else if bits = 8 then
      each (fun v => do
        let xm := mirror x v.1
        let ym := mirror y v.2
        let x1 := setmin xm.1 0
        let dx := setmax xm.2 xmax - x1 + 1
        let colorbuf ← look fun _ => mkArray (pyRepeat [pyAnd color 0xff] dx)
        discRows bmofhd8 m.2 x1 ym.1 ym.2 dx colorbuf) (itercirclepartlineedge r)
    else pure ()

end Verif.Model
