import Verif.Model.Palette
/-! Model of pixel access, file access and block transfer,
`pythonbmp/BITMAPlib.py` lines 1442-1945. -/

namespace Verif.Model
open Verif

/-- BITMAPlib.py 1442-1467 `loadBMP`, on the content of an existing file. The size is read from
eight bytes; `f.read(n)` raises `OverflowError` for `n ≥ 2^63`. Running out of memory (CPython
allocates the declared size) is not modelled. -/
def loadBMP (content : Bytes) : Py Bytes :=
  let hd := content.take 2
  if hd ≠ [66, 77] then pure []
  else
    let fsize := char2int ((content.drop 2).take 8)
    if fsize > 54 then
      if fsize ≥ 2 ^ 63 then .error .overflowError else pure (content.take fsize.toNat)
    else pure []

/-- BITMAPlib.py 1485-1500 `saveBMP`: the content of the file written. -/
def saveBMP (bmp : Bytes) : Bytes := bmp

/-- BITMAPlib.py 1503-1524 `BMPbitBLTput` -/
def BMPbitBLTput (bmp : Bytes) (offset : Int) (buf : Bytes) : Py Bytes := do
  let hdrsize ← hdsz bmp
  let startoff := hdrsize + offset
  let endoff := startoff + (buf.length : Int)
  if offset ≥ 0 then
    let f ← flsz bmp
    if endoff ≤ f then pure (setSlice bmp startoff endoff buf) else pure bmp
  else pure bmp

/-- BITMAPlib.py 1527-1552 `BMPbitBLTget` -/
def BMPbitBLTget (bmp : Bytes) (offset bufsize : Int) : Py Bytes := do
  let hdrsize ← hdsz bmp
  let startoff := hdrsize + offset
  let endoff := startoff + bufsize
  if offset ≥ 0 ∧ bufsize > 0 then
    let f ← flsz bmp
    if endoff ≤ f then pure (slice bmp startoff endoff) else pure []
  else pure []

/-- BITMAPlib.py 1666-1721 `plotxybit` -/
def plotxybit (bmp : Bytes) (x y c : Int) : Py Bytes := do
  let inb ← isinBMPrectbnd bmp x y
  if inb = false then pure bmp
  else
    let bits ← getItem bmp bmpcolorbits
    if bits = 24 then
      let ro ← rowoff bmp y 24
      let offset := x * 3 + ro + 54
      let a ← mkArray [pyAnd c 0xff, pyAnd (pyShr c 8) 0xff, pyShr c 16]
      pure (setSlice bmp offset (offset + 3) a)
    else if bits = 8 then
      let ro ← rowoff bmp y 8
      setItem bmp (x + ro + 1078) (pyAnd c 0xff)
    else if bits = 4 then
      let ro ← rowoff bmp y 4
      let offset := pyShr x 1 + ro + 118
      let c := pyAnd c 0xf
      let v ← getItem bmp offset
      if pyAnd x 1 = 1 then
        setItem bmp offset (((v &&& 0xf0 : Nat) : Int) + c)
      else
        setItem bmp offset (pyShl c 4 + ((v &&& 0xf : Nat) : Int))
    else if bits = 1 then
      let ro ← rowoff bmp y 1
      let offset := pyShr x 3 + ro + 62
      let b ← getItem bmp offset
      let m ← pyMod x 8
      let mask : Nat := 1 <<< (7 - m).toNat
      let c : Int := if c > 0 then 1 else 0
      let b := if c = 1 then b ||| mask else if (b &&& mask) = mask ∧ c = 0 then b ^^^ mask else b
      setItem bmp offset (b : Int)
    else pure bmp

/-- BITMAPlib.py 1724-1756 `getxybit` -/
def getxybit (bmp : Bytes) (x y : Int) : Py Int := do
  let inb ← isinBMPrectbnd bmp x y
  if inb = true then
    let offset ← BMoffsethd bmp x y
    let bits ← getItem bmp bmpcolorbits
    if bits = 1 then
      let m ← pyMod x 8
      let mask : Nat := (7 - m).toNat
      let v ← getItem bmp offset
      pure ((((v &&& (1 <<< mask)) >>> mask : Nat)) : Int)
    else if bits = 4 then
      let v ← getItem bmp offset
      if pyAnd x 1 = 1 then pure ((v &&& 0xf : Nat) : Int)
      else pure (((v &&& 0xf0) >>> 4 : Nat) : Int)
    else if bits = 8 then
      let v ← getItem bmp offset
      pure (v : Int)
    else if bits = 24 then
      let r ← getItem bmp (offset + 2)
      let g ← getItem bmp (offset + 1)
      let b ← getItem bmp offset
      pure (RGB2int r g b)
    else pure 0
  else pure (-1)

/-- BITMAPlib.py 1775-1801 `getRGBxybit`: `none` is the empty list. -/
def getRGBxybit (bmp : Bytes) (x y : Int) : Py (Option RGB) := do
  let inb ← isinBMPrectbnd bmp x y
  if inb = true then
    let bits ← getItem bmp bmpcolorbits
    if bits = 24 then
      let i ← bmofhd24 bmp x y
      let r ← getItem bmp (i + 2)
      let g ← getItem bmp (i + 1)
      let b ← getItem bmp i
      pure (some ((r : Int), (g : Int), (b : Int)))
    else
      let c ← getxybit bmp x y
      let p ← getRGBpal bmp c
      pure (some p)
  else pure none

/-- BITMAPlib.py 1639-1663 `plotRGBxybit` (`rgb` given as a list). -/
def plotRGBxybit (bmp : Bytes) (x y : Int) (rgb : RGB) : Py Bytes := do
  let inb ← isinBMPrectbnd bmp x y
  if inb = true then
    let bits ← getItem bmp bmpcolorbits
    if bits = 24 then
      let offset ← bmofhd24 bmp x y
      let a ← mkArray [rgb.2.2, rgb.2.1, rgb.1]
      pure (setSlice bmp offset (offset + 3) a)
    else
      let pal ← getallRGBpal bmp
      plotxybit bmp x y (matchRGBtopal rgb true pal)
  else pure bmp

/-- BITMAPlib.py 1929-1945 `swapcolors` with 1804-1835 `getxybitvec`, `intplotvecxypoint`. -/
def swapcolors (bmp : Bytes) (p1 p2 : Int × Int) : Py Bytes := do
  let c ← getxybit bmp p1.1 p1.2
  let c2 ← getxybit bmp p2.1 p2.2
  let bmp ← plotxybit bmp p1.1 p1.2 c2
  plotxybit bmp p2.1 p2.2 c

end Verif.Model
