import Verif.Model.IntTools
/-! Model of the header and offset functions of `pythonbmp/BITMAPlib.py` (lines 378-991)
and of `pythonbmp/bmpconstants.py`. -/

namespace Verif.Model
open Verif

/-- bmpconstants.py 20 `bmpheaderid`. -/
def bmpheaderid : Bytes := [66, 77]
/-- bmpconstants.py 21 -/
def bmpfilesize : Int := 2
/-- bmpconstants.py 22 -/
def bmphdrsize : Int := 10
/-- bmpconstants.py 23 -/
def bmpcolorbits : Int := 28
/-- bmpconstants.py 24 -/
def bmpx : Int := 18
/-- bmpconstants.py 25 -/
def bmpy : Int := 22
/-- bmpconstants.py 26 -/
def bmppal : Int := 54

/-- bmpconstants.py 27-31 `bmpheadersizedict[bits]`. -/
def bmpheadersizedict (bits : Int) : Py Int :=
  if bits = 1 then .ok 62
  else if bits = 4 then .ok 118
  else if bits = 8 then .ok 1078
  else if bits = 24 then .ok 54
  else .error .keyError

/-- BITMAPlib.py 366-378 `_setx` -/
def setx (bmp : Bytes) (xmax : Int) : Py Bytes := writeint bmpx 4 bmp xmax
/-- BITMAPlib.py 381-391 `getmaxx` -/
def getmaxx (bmp : Bytes) : Py Int := readint bmpx 4 bmp
/-- BITMAPlib.py 394-405 `_sety` -/
def sety (bmp : Bytes) (ymax : Int) : Py Bytes := writeint bmpy 4 bmp ymax
/-- BITMAPlib.py 408-418 `getmaxy` -/
def getmaxy (bmp : Bytes) : Py Int := readint bmpy 4 bmp

/-- BITMAPlib.py 421-432 `getmaxxy` -/
def getmaxxy (bmp : Bytes) : Py (Int × Int) := do
  let x ← readint bmpx 4 bmp
  let y ← readint bmpy 4 bmp
  pure (x, y)

/-- BITMAPlib.py 435-447 `bottomrightcoord` -/
def bottomrightcoord (bmp : Bytes) : Py (Int × Int) := do
  let x ← readint bmpx 4 bmp
  let y ← readint bmpy 4 bmp
  pure (x - 1, y - 1)

/-- BITMAPlib.py 450-461 `centercoord` -/
def centercoord (bmp : Bytes) : Py (Int × Int) := do
  let x ← readint bmpx 4 bmp
  let y ← readint bmpy 4 bmp
  pure (pyShr (x - 1) 1, pyShr (y - 1) 1)

/-- BITMAPlib.py 464-481 `isinBMPrectbnd`. The Python `and` short-circuits; the second header
read is done only when the first comparison holds (both reads succeed or fail together on
arrays of at least 26 bytes). -/
def isinBMPrectbnd (bmp : Bytes) (x y : Int) : Py Bool := do
  let mx ← readint bmpx 4 bmp
  if x < mx then
    let my ← readint bmpy 4 bmp
    if y < my then pure (decide (x > -1) && decide (y > -1)) else pure false
  else pure false

/-- BITMAPlib.py 484-503 `listinBMPrecbnd`: the loop breaks on an outside point and the
function returns True in every case. -/
def listinBMPrecbnd (bmp : Bytes) : List (Int × Int) → Py Bool
  | [] => pure true
  | p :: ps => do
    let r ← isinBMPrectbnd bmp p.1 p.2
    if r = false then pure true else listinBMPrecbnd bmp ps

/-- BITMAPlib.py 506-517 `_getclrbits` -/
def getclrbits (bmp : Bytes) : Py Int := do
  let v ← getItem bmp bmpcolorbits
  pure (v : Int)

/-- BITMAPlib.py 866-889 `_xbytes`: `xbytes` stays unbound when `bits > 8` and `bits ≠ 24`. -/
def xbytes (x bits : Int) : Py Int := do
  let xb ← (if bits = 24 then pure (x * 3)
    else if bits ≤ 8 then do
      let xperbyte ← pyDiv 8 bits
      let q ← pyDiv x xperbyte
      let rem ← pyMod x xperbyte
      pure (if rem > 0 then q + 1 else q)
    else .error .unboundLocal : Py Int)
  let rem := pyAnd xb 3
  pure (if rem > 0 then xb + (4 - rem) else xb)

/-- BITMAPlib.py 892-913 `_pdbytes` -/
def pdbytes (x bits : Int) : Py Int := do
  let xb ← (if bits = 24 then pure (x * 3)
    else if bits ≤ 8 then do
      let xperbyte ← pyDiv 8 bits
      let q ← pyDiv x xperbyte
      let rem ← pyMod x xperbyte
      pure (if rem > 0 then q + 1 else q)
    else .error .unboundLocal : Py Int)
  let rem := pyAnd xb 3
  pure (iif (decide (rem > 0)) (4 - rem) 0)

/-- BITMAPlib.py 520-533 `_xchrcnt` -/
def xchrcnt (bmp : Bytes) : Py Int := do
  let mx ← readint bmpx 4 bmp
  let bits ← getclrbits bmp
  xbytes mx bits

/-- BITMAPlib.py 536-550 `_setflsz` -/
def setflsz (bmp : Bytes) (size : Int) : Py Bytes := writeint bmpfilesize 8 bmp size
/-- BITMAPlib.py 553-565 `_flsz` -/
def flsz (bmp : Bytes) : Py Int := readint bmpfilesize 8 bmp
/-- BITMAPlib.py 568-582 `_sethdsz` -/
def sethdsz (bmp : Bytes) (hdsize : Int) : Py Bytes := writeint bmphdrsize 4 bmp hdsize
/-- BITMAPlib.py 585-595 `_hdsz` -/
def hdsz (bmp : Bytes) : Py Int := readint bmphdrsize 4 bmp

/-- BITMAPlib.py 598-608 `getmaxcolors` -/
def getmaxcolors (bmp : Bytes) : Py Int := do
  let bits ← getItem bmp bmpcolorbits
  pure (pyShl 1 bits)

/-- The common part of the offset functions: `(readint(bmpy) - y - 1) * _xbytes(readint(bmpx), bits)`. -/
def rowoff (bmp : Bytes) (y bits : Int) : Py Int := do
  let my ← readint bmpy 4 bmp
  let mx ← readint bmpx 4 bmp
  let r ← xbytes mx bits
  pure ((my - y - 1) * r)

/-- BITMAPlib.py 611-627 `_24bmof` -/
def bmof24 (bmp : Bytes) (x y : Int) : Py Int := do pure (x * 3 + (← rowoff bmp y 24))
/-- BITMAPlib.py 630-647 `_24bmofhd` -/
def bmofhd24 (bmp : Bytes) (x y : Int) : Py Int := do pure (x * 3 + (← rowoff bmp y 24) + 54)
/-- BITMAPlib.py 650-668 `_8bmof` -/
def bmof8 (bmp : Bytes) (x y : Int) : Py Int := do pure (x + (← rowoff bmp y 8))
/-- BITMAPlib.py 671-692 `_8bmofhd` -/
def bmofhd8 (bmp : Bytes) (x y : Int) : Py Int := do pure (x + (← rowoff bmp y 8) + 1078)
/-- BITMAPlib.py 695-712 `_4bmof` -/
def bmof4 (bmp : Bytes) (x y : Int) : Py Int := do pure (pyShr x 1 + (← rowoff bmp y 4))
/-- BITMAPlib.py 715-732 `_1bmof` -/
def bmof1 (bmp : Bytes) (x y : Int) : Py Int := do pure (pyShr x 3 + (← rowoff bmp y 1))
/-- BITMAPlib.py 735-755 `_4bmofhd` -/
def bmofhd4 (bmp : Bytes) (x y : Int) : Py Int := do pure (pyShr x 1 + (← rowoff bmp y 4) + 118)
/-- BITMAPlib.py 758-778 `_1bmofhd` -/
def bmofhd1 (bmp : Bytes) (x y : Int) : Py Int := do pure (pyShr x 3 + (← rowoff bmp y 1) + 62)

/-- BITMAPlib.py 781-796, 833-847 `_getBMoffhdfunc`, `_BMoffsethd` -/
def BMoffsethd (bmp : Bytes) (x y : Int) : Py Int := do
  let bits ← getItem bmp bmpcolorbits
  if bits = 24 then bmofhd24 bmp x y
  else if bits = 8 then bmofhd8 bmp x y
  else if bits = 4 then bmofhd4 bmp x y
  else if bits = 1 then bmofhd1 bmp x y
  else .error .keyError

/-- BITMAPlib.py 799-830 `_getBMofffunc`, `_BMoffset` -/
def BMoffset (bmp : Bytes) (x y : Int) : Py Int := do
  let bits ← getItem bmp bmpcolorbits
  if bits = 24 then bmof24 bmp x y
  else if bits = 8 then bmof8 bmp x y
  else if bits = 4 then bmof4 bmp x y
  else if bits = 1 then bmof1 bmp x y
  else .error .keyError

/-- BITMAPlib.py 850-863 `getmaxxyandbits` -/
def getmaxxyandbits (bmp : Bytes) : Py ((Int × Int) × Int) := do
  let x ← readint bmpx 4 bmp
  let y ← readint bmpy 4 bmp
  let bits ← getclrbits bmp
  pure ((x, y), bits)

/-- BITMAPlib.py 916-929 `_getbmflsz` -/
def getbmflsz (x y bits : Int) : Py Int := do
  let r ← xbytes x bits
  let h ← bmpheadersizedict bits
  pure (r * y + h)

/-- BITMAPlib.py 932-948 `_bmmeta`: (filesize, hdrsize, x, y, bits) -/
def bmmeta (x y bits : Int) : Py (Int × Int × Int × Int × Int) := do
  let f ← getbmflsz x y bits
  let h ← bmpheadersizedict bits
  pure (f, h, x, y, bits)

/-- BITMAPlib.py 966-976 `getBMPimgbytes` -/
def getBMPimgbytes (bmp : Bytes) : Py Bytes := do
  let h ← hdsz bmp
  let f ← flsz bmp
  pure (slice bmp h f)

/-- BITMAPlib.py 979-991 `setBMPimgbytes` -/
def setBMPimgbytes (bmp buf : Bytes) : Py Bytes := do
  let h ← hdsz bmp
  let f ← flsz bmp
  pure (setSlice bmp h f buf)

end Verif.Model
