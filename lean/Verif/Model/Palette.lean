import Verif.Model.Header
import Verif.Model.Colors
/-! Model of palette access and bitmap creation, `pythonbmp/BITMAPlib.py` lines 951-1437. -/

namespace Verif.Model
open Verif

/-- BITMAPlib.py 1009-1012, the loop of `setbmppal`. -/
def setpalLoop : List RGB → Int → Bytes → Py Bytes
  | [], _, bmp => pure bmp
  | (r, g, b) :: ps, s, bmp => do
    let a ← mkArray [b, g, r]
    setpalLoop ps (s + 4) (setSlice bmp s (s + 3) a)

/-- BITMAPlib.py 994-1012 `setbmppal` -/
def setbmppal (bmp : Bytes) (pallist : List RGB) : Py Bytes := do
  let m ← getmaxcolors bmp
  if (pallist.length : Int) = m then setpalLoop pallist bmppal bmp else pure bmp

/-- BITMAPlib.py 1032-1035, the loop of `setbmppalwithBGRlist` (each `p` is any list of ints). -/
def setpalBGRLoop : List (List Int) → Int → Bytes → Py Bytes
  | [], _, bmp => pure bmp
  | p :: ps, s, bmp => do
    let a ← mkArray p
    setpalBGRLoop ps (s + 4) (setSlice bmp s (s + 3) a)

/-- BITMAPlib.py 1015-1035 `setbmppalwithBGRlist` -/
def setbmppalwithBGRlist (bmp : Bytes) (pallist : List (List Int)) : Py Bytes := do
  let m ← getmaxcolors bmp
  if (pallist.length : Int) = m then setpalBGRLoop pallist bmppal bmp else pure bmp

/-- BITMAPlib.py 1038-1056 `setbmppalwithBGRAlist` (`ravel2D` is list flattening). -/
def setbmppalwithBGRAlist (bmp : Bytes) (pallist : List (List Int)) : Py Bytes := do
  let m ← getmaxcolors bmp
  if (pallist.length : Int) = m then do
    let p := pallist.flatten
    let a ← mkArray p
    pure (setSlice bmp bmppal (bmppal + (p.length : Int)) a)
  else pure bmp

/-- BITMAPlib.py 1075-1089 `getRGBpal` -/
def getRGBpal (bmp : Bytes) (c : Int) : Py RGB := do
  let i := bmppal + pyShl c 2
  let r ← getItem bmp (i + 2)
  let g ← getItem bmp (i + 1)
  let b ← getItem bmp i
  pure ((r : Int), (g : Int), (b : Int))

/-- BITMAPlib.py 1059-1072 `getallRGBpal` -/
def getallRGBpal (bmp : Bytes) : Py (List RGB) := do
  let m ← getmaxcolors bmp
  (pyRange 0 m).mapM (fun c => getRGBpal bmp c)

/-- BITMAPlib.py 1092-1108 `setRGBpal` -/
def setRGBpal (bmp : Bytes) (c r g b : Int) : Py Bytes := do
  let s := bmppal + pyShl c 2
  let a ← mkArray [b, g, r]
  pure (setSlice bmp s (s + 3) a)

/-- BITMAPlib.py 951-963 `isdefaultpal` -/
def isdefaultpal (bmp : Bytes) : Py Bool := do
  let bits ← getclrbits bmp
  let d ← getdefaultbitpal bits
  let p ← getallRGBpal bmp
  pure (decide (d = p))

/-- paramchecks.py 239-257 `func4and8bitonly`, for a function that mutates the bitmap. -/
def func4and8bitonly (f : Bytes → Py Bytes) (bmp : Bytes) : Py Bytes := do
  let bits ← getItem bmp bmpcolorbits
  if bits = 4 ∨ bits = 8 then f bmp else pure bmp

/-- BITMAPlib.py 1111-1128 `palshift`; both right-hand slices are taken before the assignments. -/
def palshift (bmp : Bytes) (shift : Int) : Py Bytes :=
  func4and8bitonly (fun bmp => do
    let m ← getmaxcolors bmp
    let shift ← pyMod (shift.natAbs : Int) m
    let e := (m - shift) * 4 + bmppal
    let shift := shift * 4
    let p := bmppal + shift
    let q := e + shift
    let v1 := slice bmp bmppal p
    let v2 := slice bmp p q
    let bmp := setSlice bmp e q v1
    pure (setSlice bmp bmppal e v2)) bmp

/-- BITMAPlib.py 1131-1147 `itercolorcycle`: the successive states of the (same) array that are
yielded, for a 4- or 8-bit image; other depths yield nothing. -/
def itercolorcycleLoop : Nat → Bytes → Py (List Bytes)
  | 0, _ => pure []
  | n + 1, bmp => do
    let b ← palshift bmp 1
    let rest ← itercolorcycleLoop n b
    pure (b :: rest)

/-- BITMAPlib.py 1131-1147 `itercolorcycle` -/
def itercolorcycle (bmp : Bytes) : Py (List Bytes) := do
  let bits ← getItem bmp bmpcolorbits
  if bits = 4 ∨ bits = 8 then do
    let m ← getmaxcolors bmp
    let rest ← itercolorcycleLoop (m - 1).toNat bmp
    pure (bmp :: rest)
  else pure []

/-- BITMAPlib.py 1226-1240 `copyBMPhdr` -/
def copyBMPhdr (bmp : Bytes) : Py Bytes := do
  let h ← hdsz bmp
  let f ← flsz bmp
  let newbmp := pyRepeat [0] f
  pure (setSlice newbmp 0 h (slice bmp 0 h))

/-- BITMAPlib.py 1243-1259 `copyRGBpal`: returns the new destination. -/
def copyRGBpal (source dest : Bytes) : Py Bytes := do
  let l ← hdsz source
  pure (setSlice dest bmppal l (slice source bmppal l))

/-- BITMAPlib.py 1262-1289 `_setmeta` -/
def setmeta (meta_ : Int × Int × Int × Int × Int) : Py Bytes := do
  let (filesize, hdrsize, x, y, bits) := meta_
  let bmp : Bytes := pyRepeat [0] filesize
  let bmp := setSlice bmp 0 2 bmpheaderid
  let bmp ← setflsz bmp filesize
  let bmp ← sethdsz bmp hdrsize
  let bmp ← setx bmp x
  let bmp ← sety bmp y
  let bmp ← setItem bmp bmpcolorbits bits
  let bmp ← setItem bmp 14 40
  if bits < 24 then do
    let pal ← getdefaultbitpal bits
    setbmppal bmp pal
  else pure bmp

/-- BITMAPlib.py 1407-1421 `newBMP` -/
def newBMP (x y colorbits : Int) : Py Bytes := do
  let m ← bmmeta x y colorbits
  setmeta m

/-- BITMAPlib.py 1424-1439 `CopyBMPxydim2newBMP` -/
def CopyBMPxydim2newBMP (bmp : Bytes) (newbits : Int) : Py Bytes := do
  let x ← getmaxx bmp
  let y ← getmaxy bmp
  newBMP x y newbits

end Verif.Model
