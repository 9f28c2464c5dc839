import Verif.Model.Helpers
/-! Model of the 24-bit region filters: `colors.py` buffer filters and the appliers of
`BITMAPlib.py`. Floating point factors are not modelled: where the code multiplies a byte by a
float and rounds, the model takes an arbitrary function from bytes to integers, so that the
theorems hold whatever the rounding does. -/

namespace Verif.Model
open Verif

/-- The common body of BITMAPlib.py 12241-12269 `_usebyrefnopar24bitfn2reg`, 12272-12302
`_usebyref24btfn2reg`, 12305-12335 `_use24bitfn2reg` and 12338-12370
`verticalbrightnessgradto24bitregion`. A filter that changes its buffer in place is the same as one
that returns the new buffer, because the buffer is a fresh copy of a row. The number of the row
counted from the lowest one is passed to the filter; only the vertical gradient uses it. -/
def filterregion24Core (f : Nat → Bytes → Py Bytes) (bmp : Bytes) (x1 y1 x2 y2 : Int) : Py Bytes := do
  let (x1, y1, x2, y2) := sortrecpoints x1 y1 x2 y2
  let offset ← bmof24 bmp x1 y2
  let r ← xchrcnt bmp
  let st ← foritercopyrect (fun st : Bytes × Int × Nat => st.1) (bmp, offset, 0) x1 y1 x2 y2 (fun st buf => do
    let buf ← f st.2.2 buf
    let bmp ← BMPbitBLTput st.1 st.2.1 buf
    pure (bmp, st.2.1 + r, st.2.2 + 1))
  pure st.1

/-- paramchecks.py 104-140 `func24bitonlyandentirerectinboundary` around a procedure that changes
the image: when the guard rejects, the image stays as it is. -/
def filterregion24 (f : Nat → Bytes → Py Bytes) (bmp : Bytes) (x1 y1 x2 y2 : Int) : Py Bytes := do
  let r ← guard24rect (filterregion24Core f bmp x1 y1 x2 y2) bmp x1 y1 x2 y2
  pure (r.getD bmp)

/-- colors.py 719-750 `applymonochromefiltertoBGRbuf`. `int((b + g + r) / 3)` is the integer quotient: the
sum is at most 765 and a correctly rounded quotient of such numbers does not reach the next integer. -/
def applymonochromefiltertoBGRbuf (buf : Bytes) : Py Bytes := do
  let m : Int := buf.length
  let b ← sliceStep buf 0 (m - 2) 3
  let g ← sliceStep buf 1 (m - 1) 3
  let r ← sliceStep buf 2 m 3
  let v ← mkArray ((b.zip (g.zip r)).map fun p => (((p.1 + p.2.1 + p.2.2) / 3 : Nat) : Int))
  let buf ← setSliceStep buf 0 (m - 2) 3 v
  let buf ← setSliceStep buf 1 (m - 1) 3 v
  setSliceStep buf 2 m 3 v

/-- BITMAPlib.py 8803-8823 `monofilterto24bitregion` -/
def monofilterto24bitregion (bmp : Bytes) (x1 y1 x2 y2 : Int) : Py Bytes :=
  filterregion24 (fun _ => applymonochromefiltertoBGRbuf) bmp x1 y1 x2 y2

/-- BITMAPlib.py 8826-8840 `monofilterto24bitimage` -/
def monofilterto24bitimage (bmp : Bytes) : Py Bytes := do
  monofilterto24bitregion bmp 0 0 ((← getmaxx bmp) - 1) ((← getmaxy bmp) - 1)

/-- colors.py 775-801 `applycolorfiltertoBGRbuf`; `fr v`, `fg v`, `fb v` stand for `round(v * factor)` of
mathlib.py 254-272 `intscalarmulvect` with the three factors. The bound is `len(buf) - 1`. -/
def applycolorfiltertoBGRbuf (fr fg fb : Nat → Int) (buf : Bytes) : Py Bytes := do
  let m : Int := (buf.length : Int) - 1
  let b ← mkArray ((← sliceStep buf 0 (m - 2) 3).map fb)
  let g ← mkArray ((← sliceStep buf 1 (m - 1) 3).map fg)
  let r ← mkArray ((← sliceStep buf 2 m 3).map fr)
  let buf ← setSliceStep buf 0 (m - 2) 3 b
  let buf ← setSliceStep buf 1 (m - 1) 3 g
  setSliceStep buf 2 m 3 r

/-- BITMAPlib.py 8901-8932 `colorfilterto24bitregion` -/
def colorfilterto24bitregion (fr fg fb : Nat → Int) (bmp : Bytes) (x1 y1 x2 y2 : Int) : Py Bytes :=
  filterregion24 (fun _ => applycolorfiltertoBGRbuf fr fg fb) bmp x1 y1 x2 y2

/-- BITMAPlib.py 8935-8957 `colorfilterto24bitimage` -/
def colorfilterto24bitimage (fr fg fb : Nat → Int) (bmp : Bytes) : Py Bytes := do
  colorfilterto24bitregion fr fg fb bmp 0 0 ((← getmaxx bmp) - 1) ((← getmaxy bmp) - 1)

/-- colors.py 948-969 `applybrightnessadjtoBGRbuf`; `f v` stands for `round(v * (1 + percentadj / 100))`. -/
def applybrightnessadjtoBGRbuf (f : Nat → Int) (buf : Bytes) : Py Bytes :=
  mkArray ((buf.map f).map fun v => setminmax v 0 255)

/-- BITMAPlib.py 8960-8982 `brightnesseadjto24bitregion` -/
def brightnesseadjto24bitregion (f : Nat → Int) (bmp : Bytes) (x1 y1 x2 y2 : Int) : Py Bytes :=
  filterregion24 (fun _ => applybrightnessadjtoBGRbuf f) bmp x1 y1 x2 y2

/-- BITMAPlib.py 9032-9050 `brightnesseadjto24bitimage` -/
def brightnesseadjto24bitimage (f : Nat → Int) (bmp : Bytes) : Py Bytes := do
  brightnesseadjto24bitregion f bmp 0 0 ((← getmaxx bmp) - 1) ((← getmaxy bmp) - 1)

/-- BITMAPlib.py 12338-12370 `verticalbrightnessgradto24bitregion`; `f k v` stands for
`round(v * (1 + lum / 100))` with the value of `lum` in the `k`-th pass of the loop. The division by
`y2 - y1` comes first and fails for a region of one row. -/
def verticalbrightnessgradto24bitregion (f : Nat → Nat → Int) (bmp : Bytes) (x1 y1 x2 y2 : Int) : Py Bytes := do
  let r ← guard24rect (if y2 = y1 then .error .zeroDivision
    else filterregion24Core (fun k => applybrightnessadjtoBGRbuf (f k)) bmp x1 y1 x2 y2) bmp x1 y1 x2 y2
  pure (r.getD bmp)

end Verif.Model
