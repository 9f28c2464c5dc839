import Verif.Model.CircRegion
import Verif.Model.Compare
/-! Model of the functions of `pythonbmp/BITMAPlib.py` that erase horizontal lines (7798-8008), of the outline filter
(12586-12637) and of the flips that work pixel by pixel (8212-8273). -/

namespace Verif.Model
open Verif

/-- The `while` loops of BITMAPlib.py 7833-7838 and 7977-7982. The position `s2` shrinks by the length of a row, so
`s2 - s1` rounds are enough for images of positive width. -/
def eraseLoop (n k bufsize step s1 : Int) (blank : Bytes) : Nat → Bytes → Int → Int → Py Bytes
  | 0, bmp, _, _ => pure bmp
  | m + 1, bmp, s2, i =>
    if s2 > s1 then do
      let q ← pyMod i n
      eraseLoop n k bufsize step s1 blank m (if q = k then setSlice bmp s2 (s2 + bufsize) blank else bmp) (s2 - step) (i + 1)
    else pure bmp

/-- BITMAPlib.py 7798-7838 `erasealternatehorizontallines` -/
def erasealternatehorizontallines (bmp : Bytes) (n k bytepat : Int) : Py Bytes := do
  let bufsize ← xchrcnt bmp
  let s1 ← hdsz bmp
  let s2 := (← flsz bmp) - bufsize
  let bytepat := pyAnd bytepat 0xff
  let blank ← mkArray (pyRepeat [bytepat] bufsize)
  eraseLoop n k bufsize bufsize s1 blank (s2 - s1).toNat bmp s2 1

/-- BITMAPlib.py 7841-7854 `eraseeverynthhorizontalline` -/
def eraseeverynthhorizontalline (bmp : Bytes) (n : Int) : Py Bytes :=
  erasealternatehorizontallines bmp n 0 0

/-- BITMAPlib.py 7933-7982 `erasealternatehorizontallinesinregion` -/
def erasealternatehorizontallinesinregion (bmp : Bytes) (x1 y1 x2 y2 n k bytepat : Int) : Py Bytes :=
  entirerectinboundary (fun bmp x1 y1 x2 y2 => do
    let bytepat := pyAnd bytepat 0xff
    let (x1, y1, x2, y2) := sortrecpoints x1 y1 x2 y2
    let bufsize ← adjustxbufsize bmp x1 x2
    let r ← xchrcnt bmp
    let s1 ← BMoffsethd bmp x1 y2
    let s2 ← BMoffsethd bmp x1 y1
    let blank ← mkArray (pyRepeat [bytepat] bufsize)
    eraseLoop n k bufsize r s1 blank (s2 - s1).toNat bmp s2 1) bmp x1 y1 x2 y2

/-- BITMAPlib.py 7985-8008 `eraseeverynthhorilineinregion` -/
def eraseeverynthhorilineinregion (bmp : Bytes) (x1 y1 x2 y2 n : Int) : Py Bytes :=
  erasealternatehorizontallinesinregion bmp x1 y1 x2 y2 n 0 0

/-- The loop body of BITMAPlib.py 7896-7910. -/
def eraseCircStep (x y n k bytepat : Int) (bmp : Bytes) (v : Int × Int) : Py Bytes := do
  let xm := mirror x v.1
  let ym := mirror y v.2
  let s1 ← BMoffsethd bmp xm.1 ym.1
  let e1 ← BMoffsethd bmp xm.2 ym.1
  let s2 ← BMoffsethd bmp xm.1 ym.2
  let e2 ← BMoffsethd bmp xm.2 ym.2
  let q1 ← pyMod ym.1 n
  let bmp ← (if q1 = k then do
      let a ← mkArray (pyRepeat [bytepat] (e1 - s1))
      pure (setSlice bmp s1 e1 a)
    else pure bmp : Py Bytes)
  let q2 ← pyMod ym.2 n
  if q2 = k then do
    let a ← mkArray (pyRepeat [bytepat] (e2 - s2))
    pure (setSlice bmp s2 e2 a)
  else pure bmp

/-- BITMAPlib.py 7857-7910 `erasealternatehorizontallinesincircregion` -/
def erasealternatehorizontallinesincircregion (bmp : Bytes) (x y r n k bytepat : Int) : Py Bytes := do
  let res ← guardcircle ((itercirclepartlineedge r).foldlM (eraseCircStep x y n k (pyAnd bytepat 0xff)) bmp) bmp x y r
  pure (res.getD bmp)

/-- BITMAPlib.py 7913-7930 `eraseeverynthhorizontallineinccircregion` -/
def eraseeverynthhorizontallineinccircregion (bmp : Bytes) (x y r n : Int) : Py Bytes :=
  erasealternatehorizontallinesincircregion bmp x y r n 0 0

/-- The body of the loop of BITMAPlib.py 12586-12602 `_cmpimglines`, where `r` is the length of a row. -/
def cmpLine (func : Bytes → Bytes → List Int) (r : Int) (st : Bytes × Int × Option Bytes) (buf : Bytes) :
    Py (Bytes × Int × Option Bytes) :=
  match st.2.2 with
  | none => pure (st.1, st.2.1, some buf)
  | some oldbuf => do
    let a ← mkArray (func buf oldbuf)
    let bmp ← BMPbitBLTput st.1 st.2.1 a
    pure (bmp, st.2.1 + r, some buf)

/-- BITMAPlib.py 12586-12602 `_cmpimglines`. The state of the loop is the image, the offset and `oldbuf`, with `none`
for the empty list that it starts with; an array never equals a list. After the loop `buf` and `oldbuf` are the same
array. -/
def cmpimglines (func : Bytes → Bytes → List Int) (bmp : Bytes) (x1 y1 x2 y2 : Int) : Py Bytes :=
  entirerectinboundary (fun bmp x1 y1 x2 y2 => do
    let offset ← BMoffset bmp x1 y2
    let r ← xchrcnt bmp
    let st ← foritercopyrect (fun st : Bytes × Int × Option Bytes => st.1) (bmp, offset, none) x1 y1 x2 y2
      (cmpLine func r)
    match st.2.2 with
    | none => .error .unboundLocal
    | some buf => do
      let a ← mkArray (func buf buf)
      BMPbitBLTput st.1 st.2.1 a) bmp x1 y1 x2 y2

/-- BITMAPlib.py 12605-12622 `outlineregion` -/
def outlineregion (bmp : Bytes) (x1 y1 x2 y2 : Int) : Py Bytes := cmpimglines xorvect bmp x1 y1 x2 y2

/-- BITMAPlib.py 12625-12637 `outline` -/
def outline (bmp : Bytes) : Py Bytes := do
  outlineregion bmp 0 0 ((← getmaxx bmp) - 1) ((← getmaxy bmp) - 1)

/-- BITMAPlib.py 8212-8242 `fliphorzontalpixelbased`. In the round for `x1 = x` the other counter is
`x2 = x1 + x2 - x` of the start values. -/
def fliphorzontalpixelbased (bmp : Bytes) (x1 y1 x2 y2 : Int) : Py Bytes :=
  entirerectinboundary (fun bmp x1 y1 x2 y2 =>
    let m := x1 + pyShr (x2 - x1) 1
    (pyRange x1 (m + 1)).foldlM (fun bmp x =>
      (pyRange y1 (y2 + 1)).foldlM (fun bmp y => swapcolors bmp (x, y) (x1 + x2 - x, y)) bmp) bmp) bmp x1 y1 x2 y2

/-- BITMAPlib.py 8245-8273 `fliphverticalalpixelbased`. In the round for `y1 = y` the other counter is
`y2 = y1 + y2 - y` of the start values. -/
def fliphverticalalpixelbased (bmp : Bytes) (x1 y1 x2 y2 : Int) : Py Bytes :=
  entirerectinboundary (fun bmp x1 y1 x2 y2 =>
    let m := y1 + pyShr (y2 - y1) 1
    (pyRange y1 (m + 1)).foldlM (fun bmp y =>
      (pyRange x1 (x2 + 1)).foldlM (fun bmp x => swapcolors bmp (x, y) (x, y1 + y2 - y)) bmp) bmp) bmp x1 y1 x2 y2

end Verif.Model
