import Verif.Model.Transform
/-! Model of small helpers: row buffer reversal (`bufferflip.py`, `colors.py`), the bounds and
neighbour functions of `primitives2D.py`, the integer clamps of `mathlib.py` and the parameter
checking decorators of `paramchecks.py`. -/

namespace Verif.Model
open Verif

/-- colors.py 1012-1025 `RGB2BGRbuf`: both slices are read, then assigned from left to right. -/
def RGB2BGRbuf (buf : Bytes) : Py Bytes := do
  let m : Int := buf.length
  let a ← sliceStep buf 2 m 3
  let c ← sliceStep buf 0 (m - 2) 3
  let buf ← setSliceStep buf 0 (m - 2) 3 a
  setSliceStep buf 2 m 3 c

/-- bufferflip.py 51-62 `flip24bitbuf`. The caller's buffer is changed as well; the model gives the
returned copy, which has the same contents. -/
def flip24bitbuf (buf : Bytes) : Py Bytes := RGB2BGRbuf buf.reverse

/-- bufferflip.py 65-84 `flipbuf` -/
def flipbuf (buf : Bytes) (bits : Int) : Py Bytes := do
  let buf ← (if bits = 24 then flip24bitbuf buf else pure buf.reverse : Py Bytes)
  let buf ← (if bits = 4 then flipnibbleinbuf buf else pure buf : Py Bytes)
  if bits = 1 then rotatebitsinbuf buf else pure buf

/-- primitives2D.py 772-790 `isinrectbnd` (strict on every side). -/
def isinrectbnd (x y xmin ymin xmax ymax : Int) : Bool :=
  (decide (x < xmax) && decide (y < ymax)) && (decide (x > xmin) && decide (y > ymin))

/-- primitives2D.py 793-822 `listinrecbnd`: the loop breaks on an outside point and the function
returns True in every case. -/
def listinrecbnd (xmin ymin xmax ymax : Int) : List (Int × Int) → Bool
  | [] => true
  | p :: ps => if isinrectbnd p.1 p.2 xmin ymin xmax ymax = false then true else listinrecbnd xmin ymin xmax ymax ps

/-- primitives2D.py 649-688 `itergetneighbors` and 691-708 `getneighborlist`, as the list of the
points yielded. -/
def itergetneighbors (v : Int × Int) (mx my : Int) (includecenter : Bool) : List (Int × Int) :=
  if v.1 > -1 ∧ v.2 > -1 then
    let lx := v.1 - 1
    let ty := v.2 - 1
    let rx := v.1 + 1
    let by' := v.2 + 1
    (if ty > 0 then [(v.1, ty)] else []) ++
    (if includecenter = true then [v] else []) ++
    (if by' < my then [(v.1, by')] else []) ++
    (if lx > 0 then
      (if ty > 0 then [(lx, ty)] else []) ++ [(lx, v.2)] ++ (if by' < my then [(lx, by')] else [])
    else []) ++
    (if rx < mx then
      (if ty > 0 then [(rx, ty)] else []) ++ [(rx, v.2)] ++ (if by' < my then [(rx, by')] else [])
    else [])
  else []

/-- mathlib.py 403-421 `intsetminmax` on integers, where `round` changes nothing. -/
def intsetminmax (val minval maxval : Int) : Int := max (min val maxval) minval

/-- mathlib.py 1717-1737 `clamp`, on integers. -/
def clamp (x a b : Int) : Int :=
  let x := if x < a then a else x
  if x > b then b else x

/-! ### Decorators

The decorated function is any computation; `none` stands for the branches that print a message and
return `None` without calling it. The arguments are integers, so the type checks succeed. -/

/-- paramchecks.py 28-30 `f` -/
def pointinbmp (bmp : Bytes) (x y : Int) : Py Bool := do
  let mx ← readint bmpx 4 bmp
  if x < mx then
    let my ← readint bmpy 4 bmp
    if y < my then pure (decide (x > -1) && decide (y > -1)) else pure false
  else pure false

/-- The tests `f(bmp, x1, y1) and f(bmp, x2, y2)` of paramchecks.py 134, 289 and 322. -/
def rectinbmp (bmp : Bytes) (x1 y1 x2 y2 : Int) : Py Bool := do
  let a ← pointinbmp bmp x1 y1
  if a = true then pointinbmp bmp x2 y2 else pure false

/-- paramchecks.py 83-101 `func24bitonly` -/
def guard24 {α : Type} (op : Py α) (bmp : Bytes) : Py (Option α) := do
  let bits ← getItem bmp bmpcolorbits
  if bits ≠ 24 then pure none else some <$> op

/-- paramchecks.py 218-236 `func8and24bitonly` -/
def guard8and24 {α : Type} (op : Py α) (bmp : Bytes) : Py (Option α) := do
  let bits ← getItem bmp bmpcolorbits
  if bits ∉ [24, 8] then pure none else some <$> op

/-- paramchecks.py 239-257 `func4and8bitonly` -/
def guard4and8 {α : Type} (op : Py α) (bmp : Bytes) : Py (Option α) := do
  let bits ← getItem bmp bmpcolorbits
  if bits ∉ [4, 8] then pure none else some <$> op

/-- paramchecks.py 298-328 `entirerectinboundary`, for a function with any result (the version in
`Model/Draw.lean` is for functions that change the image). -/
def guardrect {α : Type} (op : Py α) (bmp : Bytes) (x1 y1 x2 y2 : Int) : Py (Option α) := do
  let r ← rectinbmp bmp x1 y1 x2 y2
  if ¬ (r = true) then pure none else some <$> op

/-- paramchecks.py 104-140 `func24bitonlyandentirerectinboundary` -/
def guard24rect {α : Type} (op : Py α) (bmp : Bytes) (x1 y1 x2 y2 : Int) : Py (Option α) := do
  let bits ← getItem bmp bmpcolorbits
  if bits ≠ 24 then pure none
  else
    let r ← rectinbmp bmp x1 y1 x2 y2
    if r = true then some <$> op else pure none

/-- paramchecks.py 260-295 `func8and24bitonlyandentirerectinboundary` -/
def guard8and24rect {α : Type} (op : Py α) (bmp : Bytes) (x1 y1 x2 y2 : Int) : Py (Option α) := do
  let bits ← getItem bmp bmpcolorbits
  if bits ∉ [24, 8] then pure none
  else
    let r ← rectinbmp bmp x1 y1 x2 y2
    if r = true then some <$> op else pure none

/-- paramchecks.py 331-361 `entirecircleinboundary`: both upper limits are the width. -/
def guardcircle {α : Type} (op : Py α) (bmp : Bytes) (x y r : Int) : Py (Option α) := do
  let mx ← readint bmpx 4 bmp
  let my ← readint bmpx 4 bmp
  if entirecircleisinboundary x y (-1) mx (-1) my r = true then some <$> op else pure none

/-- paramchecks.py 143-177 `func24bitonlyandentirecircleinboundary` -/
def guard24circle {α : Type} (op : Py α) (bmp : Bytes) (x y r : Int) : Py (Option α) := do
  let bits ← getItem bmp bmpcolorbits
  if bits ≠ 24 then pure none
  else
    let mx ← readint bmpx 4 bmp
    let my ← readint bmpy 4 bmp
    if entirecircleisinboundary x y (-1) mx (-1) my r = true then some <$> op else pure none

/-- paramchecks.py 180-215 `func8and24bitonlyandentirecircleinboundary` -/
def guard8and24circle {α : Type} (op : Py α) (bmp : Bytes) (x y r : Int) : Py (Option α) := do
  let bits ← getItem bmp bmpcolorbits
  if bits ∉ [24, 8] then pure none
  else
    let mx ← readint bmpx 4 bmp
    let my ← readint bmpy 4 bmp
    if entirecircleisinboundary x y (-1) mx (-1) my r = true then some <$> op else pure none

end Verif.Model
