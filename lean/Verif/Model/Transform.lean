import Verif.Model.Draw
/-! Model of the in-place image transforms of `pythonbmp/BITMAPlib.py` (lines 7781-8652, 8763-8800)
with the buffer helpers of `bufferflip.py`, `bufresize.py` and `colors.py` that they use. -/

namespace Verif.Model
open Verif

/-- bufresize.py 32-53 `adjustbufsize` -/
def adjustbufsize (bufsize bits : Int) : Int :=
  if bits = 1 then pyShr bufsize 3
  else if bits = 24 then bufsize * 3
  else if bits = 4 then pyShr bufsize 1
  else bufsize

/-- bufresize.py 56-76 `adjustxbufsize` -/
def adjustxbufsize (bmp : Bytes) (x1 x2 : Int) : Py Int := do
  let bits ← getItem bmp 28
  pure (adjustbufsize (x2 - x1 + 1) (bits : Int))

/-- The letters `'F'`, `'T'`, `'B'` of BITMAPlib.py 8039-8041, 8132-8134. Other strings raise
`KeyError`; all callers use these three. -/
inductive VTrans
  | F
  | T
  | B
  deriving DecidableEq

/-- BITMAPlib.py 8027-8037 and 8120-8130, `_F`, `_T`, `_B`. In `_F` both right-hand slices are
taken before the two assignments, which are done from left to right. -/
def vertOp (t : VTrans) (bmp : Bytes) (s1 s2 bufsize : Int) : Bytes :=
  let e1 := s1 + bufsize
  let e2 := s2 + bufsize
  match t with
  | .F =>
    let v2 := slice bmp s2 e2
    let v1 := slice bmp s1 e1
    setSlice (setSlice bmp s1 e1 v2) s2 e2 v1
  | .T => setSlice bmp s1 e1 (slice bmp s2 e2)
  | .B => setSlice bmp s2 e2 (slice bmp s1 e1)

/-- The `while` loops of BITMAPlib.py 8045-8050 and 8142-8147. The distance `s2 - s1` shrinks by
twice the step, so `s2 - s1` rounds are enough for a positive step. -/
def vertLoop (t : VTrans) (bufsize step : Int) : Nat → Bytes → Int → Int → Bytes
  | 0, bmp, _, _ => bmp
  | n + 1, bmp, s1, s2 =>
    if s1 < s2 then vertLoop t bufsize step n (vertOp t bmp s1 s2 bufsize) (s1 + step) (s2 - step)
    else bmp

/-- BITMAPlib.py 8011-8050 `verttrans` -/
def verttrans (bmp : Bytes) (t : VTrans) : Py Bytes := do
  let bufsize ← xchrcnt bmp
  let s1 ← hdsz bmp
  let f ← flsz bmp
  let s2 := f - bufsize
  pure (vertLoop t bufsize bufsize (s2 - s1).toNat bmp s1 s2)

/-- BITMAPlib.py 8053-8064 `flipvertical` -/
def flipvertical (bmp : Bytes) : Py Bytes := verttrans bmp .F
/-- BITMAPlib.py 8067-8078 `mirrortop` -/
def mirrortop (bmp : Bytes) : Py Bytes := verttrans bmp .T
/-- BITMAPlib.py 8081-8092 `mirrorbottom` -/
def mirrorbottom (bmp : Bytes) : Py Bytes := verttrans bmp .B

/-- BITMAPlib.py 8095-8147 `verttransregion` -/
def verttransregion (bmp : Bytes) (x1 y1 x2 y2 : Int) (t : VTrans) : Py Bytes :=
  entirerectinboundary (fun bmp x1 y1 x2 y2 => do
    let (x1, y1, x2, y2) := sortrecpoints x1 y1 x2 y2
    let bufsize ← adjustxbufsize bmp x1 x2
    let r ← xchrcnt bmp
    let s1 ← BMoffsethd bmp x1 y2
    let s2 ← BMoffsethd bmp x1 y1
    pure (vertLoop t bufsize r (s2 - s1).toNat bmp s1 s2)) bmp x1 y1 x2 y2

/-- BITMAPlib.py 8150-8167 `flipverticalregion` -/
def flipverticalregion (bmp : Bytes) (x1 y1 x2 y2 : Int) : Py Bytes := verttransregion bmp x1 y1 x2 y2 .F
/-- BITMAPlib.py 8170-8188 `mirrorbottominregion` -/
def mirrorbottominregion (bmp : Bytes) (x1 y1 x2 y2 : Int) : Py Bytes := verttransregion bmp x1 y1 x2 y2 .B
/-- BITMAPlib.py 8191-8210 `mirrortopinregion` -/
def mirrortopinregion (bmp : Bytes) (x1 y1 x2 y2 : Int) : Py Bytes := verttransregion bmp x1 y1 x2 y2 .T

/-- mathlib.py 1211-1222 `rotatebits`: `range(7, 0, -1)` leaves out bit 0. -/
def rotatebits (bits : Nat) : Nat :=
  ([7, 6, 5, 4, 3, 2, 1].map fun bit => ((bits &&& (1 <<< bit)) >>> bit) <<< (7 - bit)).sum

/-- bufferflip.py 22-34 `rotatebitsinbuf` (`array` raises when a value does not fit a byte). -/
def rotatebitsinbuf (buf : Bytes) : Py Bytes := mkArray (buf.map fun b => ((rotatebits b : Nat) : Int))

/-- bufferflip.py 37-48 `flipnibbleinbuf` -/
def flipnibbleinbuf (buf : Bytes) : Py Bytes :=
  mkArray (buf.map fun b => (((b >>> 4) + ((b % 16) <<< 4) : Nat) : Int))

/-- Type of the column functions of BITMAPlib.py 8329-8343, 8371-8384, 8411-8424. -/
abbrev SwapFn := Bytes → Int → Int → Int → Int → Nat → Py Bytes

/-- BITMAPlib.py 8329-8331 `_24` of `fliphorizontalregion`: six slices are read, then assigned from
left to right. -/
def hflip24 : SwapFn := fun bmp s1 e1 s2 e2 r => do
  let a ← sliceStep bmp s2 (e2 - 2) r
  let b ← sliceStep bmp s1 (e1 - 2) r
  let c ← sliceStep bmp (s2 + 1) (e2 - 1) r
  let d ← sliceStep bmp (s1 + 1) (e1 - 1) r
  let e ← sliceStep bmp (s2 + 2) e2 r
  let f ← sliceStep bmp (s1 + 2) e1 r
  let bmp ← setSliceStep bmp s1 (e1 - 2) r a
  let bmp ← setSliceStep bmp s2 (e2 - 2) r b
  let bmp ← setSliceStep bmp (s1 + 1) (e1 - 1) r c
  let bmp ← setSliceStep bmp (s2 + 1) (e2 - 1) r d
  let bmp ← setSliceStep bmp (s1 + 2) e1 r e
  setSliceStep bmp (s2 + 2) e2 r f

/-- BITMAPlib.py 8333-8343 `_8`, `_4`, `_1` of `fliphorizontalregion`; `f` is the function applied
to each slice read. -/
def hflipF (f : Bytes → Py Bytes) : SwapFn := fun bmp s1 e1 s2 e2 r => do
  let a ← f (← sliceStep bmp s2 e2 r)
  let b ← f (← sliceStep bmp s1 e1 r)
  let bmp ← setSliceStep bmp s1 e1 r a
  setSliceStep bmp s2 e2 r b

/-- BITMAPlib.py 8371-8373 `_24` of `mirrorleftinregion`, and 8411-8413 of `mirrorrightinregion`
with the two positions exchanged: column `s2` becomes column `s1`. -/
def hcopy24 : SwapFn := fun bmp s1 e1 s2 e2 r => do
  let a ← sliceStep bmp s1 (e1 - 2) r
  let b ← sliceStep bmp (s1 + 1) (e1 - 1) r
  let c ← sliceStep bmp (s1 + 2) e1 r
  let bmp ← setSliceStep bmp s2 (e2 - 2) r a
  let bmp ← setSliceStep bmp (s2 + 1) (e2 - 1) r b
  setSliceStep bmp (s2 + 2) e2 r c

/-- BITMAPlib.py 8375-8384 `_8`, `_4`, `_1` of `mirrorleftinregion`, and 8415-8424 of
`mirrorrightinregion` with the two positions exchanged. -/
def hcopyF (f : Bytes → Py Bytes) : SwapFn := fun bmp s1 e1 s2 e2 r => do
  let a ← f (← sliceStep bmp s1 e1 r)
  setSliceStep bmp s2 e2 r a

/-- The `while` loop of BITMAPlib.py 8303-8308; `x2 - x1` rounds are enough. -/
def hswapLoop (fn : SwapFn) (dx y1 y2 r : Int) : Nat → Bytes → Int → Int → Py Bytes
  | 0, bmp, _, _ => pure bmp
  | n + 1, bmp, x1, x2 =>
    if x1 < x2 then do
      let s1 ← BMoffsethd bmp x1 y2
      let e1 ← BMoffsethd bmp x1 y1
      let s2 ← BMoffsethd bmp x2 y2
      let e2 ← BMoffsethd bmp x2 y1
      let bmp ← fn bmp s1 (e1 + r) s2 (e2 + r) r.toNat
      hswapLoop fn dx y1 y2 r n bmp (x1 + dx) (x2 - dx)
    else pure bmp

/-- BITMAPlib.py 8276-8308 `horizontalbulkswap` -/
def horizontalbulkswap (bmp : Bytes) (x1 y1 x2 y2 : Int) (fn : SwapFn) : Py Bytes :=
  entirerectinboundary (fun bmp x1 y1 x2 y2 => do
    let bits ← getItem bmp bmpcolorbits
    let dx ← (if bits = 24 then pure 1 else if bits = 8 then pure 1 else if bits = 4 then pure 2
      else if bits = 1 then pure 8 else .error .keyError : Py Int)
    let r ← xchrcnt bmp
    let (y1, y2) := swapif y1 y2 (decide (y1 > y2))
    let (x1, x2) := swapif x1 x2 (decide (x1 > x2))
    hswapLoop fn dx y1 y2 r (x2 - x1).toNat bmp x1 x2) bmp x1 y1 x2 y2

/-- The dictionaries of BITMAPlib.py 8348-8351, 8388-8391, 8428-8431. -/
def pickSwap (bits : Nat) (f24 : SwapFn) (g : (Bytes → Py Bytes) → SwapFn) : Py SwapFn :=
  if bits = 24 then pure f24
  else if bits = 8 then pure (g pure)
  else if bits = 4 then pure (g flipnibbleinbuf)
  else if bits = 1 then pure (g rotatebitsinbuf)
  else .error .keyError

/-- BITMAPlib.py 8311-8351 `fliphorizontalregion` -/
def fliphorizontalregion (bmp : Bytes) (x1 y1 x2 y2 : Int) : Py Bytes := do
  let fn ← pickSwap (← getItem bmp bmpcolorbits) hflip24 hflipF
  horizontalbulkswap bmp x1 y1 x2 y2 fn

/-- BITMAPlib.py 8354-8391 `mirrorleftinregion` -/
def mirrorleftinregion (bmp : Bytes) (x1 y1 x2 y2 : Int) : Py Bytes := do
  let fn ← pickSwap (← getItem bmp bmpcolorbits) hcopy24 hcopyF
  horizontalbulkswap bmp x1 y1 x2 y2 fn

/-- A column function with its two positions exchanged. -/
def swapArgs (fn : SwapFn) : SwapFn := fun bmp s1 e1 s2 e2 r => fn bmp s2 e2 s1 e1 r

/-- BITMAPlib.py 8394-8431 `mirrorrightinregion` -/
def mirrorrightinregion (bmp : Bytes) (x1 y1 x2 y2 : Int) : Py Bytes := do
  let fn ← pickSwap (← getItem bmp bmpcolorbits) hcopy24 hcopyF
  horizontalbulkswap bmp x1 y1 x2 y2 (swapArgs fn)

/-- BITMAPlib.py 8434-8448 `mirrorleft` -/
def mirrorleft (bmp : Bytes) : Py Bytes := do
  mirrorleftinregion bmp 0 0 ((← getmaxx bmp) - 1) ((← getmaxy bmp) - 1)

/-- BITMAPlib.py 8451-8465 `mirrorright` -/
def mirrorright (bmp : Bytes) : Py Bytes := do
  mirrorrightinregion bmp 0 0 ((← getmaxx bmp) - 1) ((← getmaxy bmp) - 1)

/-- BITMAPlib.py 8638-8652 `fliphorizontal` -/
def fliphorizontal (bmp : Bytes) : Py Bytes := do
  fliphorizontalregion bmp 0 0 ((← getmaxx bmp) - 1) ((← getmaxy bmp) - 1)

/-- BITMAPlib.py 8468-8489 `mirrortopleftinregion` -/
def mirrortopleftinregion (bmp : Bytes) (x1 y1 x2 y2 : Int) : Py Bytes := do
  let bmp ← mirrorleftinregion bmp x1 y1 x2 y2
  mirrortopinregion bmp x1 y1 x2 y2

/-- BITMAPlib.py 8492-8513 `mirrortoprightinregion` -/
def mirrortoprightinregion (bmp : Bytes) (x1 y1 x2 y2 : Int) : Py Bytes := do
  let bmp ← mirrorrightinregion bmp x1 y1 x2 y2
  mirrortopinregion bmp x1 y1 x2 y2

/-- BITMAPlib.py 8516-8537 `mirrorbottomleftinregion` -/
def mirrorbottomleftinregion (bmp : Bytes) (x1 y1 x2 y2 : Int) : Py Bytes := do
  let bmp ← mirrorleftinregion bmp x1 y1 x2 y2
  mirrorbottominregion bmp x1 y1 x2 y2

/-- BITMAPlib.py 8540-8561 `mirrorbottomrightinregion` -/
def mirrorbottomrightinregion (bmp : Bytes) (x1 y1 x2 y2 : Int) : Py Bytes := do
  let bmp ← mirrorrightinregion bmp x1 y1 x2 y2
  mirrorbottominregion bmp x1 y1 x2 y2

/-- BITMAPlib.py 8564-8579 `mirrortopleft` -/
def mirrortopleft (bmp : Bytes) : Py Bytes := do
  let bmp ← mirrorleftinregion bmp 0 0 ((← getmaxx bmp) - 1) (((← getmaxy bmp) - 1) / 2)
  mirrortop bmp

/-- BITMAPlib.py 8582-8597 `mirrortopright` -/
def mirrortopright (bmp : Bytes) : Py Bytes := do
  let bmp ← mirrorrightinregion bmp 0 0 ((← getmaxx bmp) - 1) (((← getmaxy bmp) - 1) / 2)
  mirrortop bmp

/-- BITMAPlib.py 8600-8616 `mirrorbottomleft` -/
def mirrorbottomleft (bmp : Bytes) : Py Bytes := do
  let ymax := (← getmaxy bmp) - 1
  let bmp ← mirrorleftinregion bmp 0 (ymax / 2) ((← getmaxx bmp) - 1) ymax
  mirrorbottom bmp

/-- BITMAPlib.py 8619-8635 `mirrorbottomright` -/
def mirrorbottomright (bmp : Bytes) : Py Bytes := do
  let ymax := (← getmaxy bmp) - 1
  let bmp ← mirrorrightinregion bmp 0 (ymax / 2) ((← getmaxx bmp) - 1) ymax
  mirrorbottom bmp

/-- The `while` loop of BITMAPlib.py 7793-7795. -/
def invertLoop (maxoffset : Int) : Nat → Bytes → Int → Py Bytes
  | 0, bmp, _ => pure bmp
  | n + 1, bmp, offset =>
    if offset < maxoffset then do
      let v ← getItem bmp offset
      let bmp ← setItem bmp offset ((v ^^^ 255 : Nat) : Int)
      invertLoop maxoffset n bmp (offset + 1)
    else pure bmp

/-- BITMAPlib.py 7781-7795 `invertimagebits` -/
def invertimagebits (bmp : Bytes) : Py Bytes := do
  let offset ← hdsz bmp
  let maxoffset ← flsz bmp
  invertLoop maxoffset (maxoffset - offset).toNat bmp offset

/-- colors.py 933-945 `invertbitsinbuffer` -/
def invertbitsinbuffer (buf : Bytes) : Py Bytes := mkArray (buf.map fun b => ((b ^^^ 0xff : Nat) : Int))

/-- The loop of the generator `itercopyrect`, BITMAPlib.py 2302-2305, run together with the body of
the `for` loop that consumes it: a buffer is read from the state at the moment it is asked for.
`n` bounds the rounds; the offset grows by `r`. -/
def copyrectLoop {σ : Type} (src : σ → Bytes) (body : σ → Bytes → Py σ) (bufsize lim r : Int) :
    Nat → σ → Int → Py σ
  | 0, st, _ => pure st
  | n + 1, st, offset =>
    if offset + bufsize ≤ lim then do
      let buf ← BMPbitBLTget (src st) offset bufsize
      let st ← body st buf
      copyrectLoop src body bufsize lim r n st (offset + r)
    else pure st

/-- paramchecks.py 298-328 `entirerectinboundary` around a function with a result; `none` is the
`None` returned after the message. -/
def rectinboundary {α : Type} (f : Bytes → Int → Int → Int → Int → Py α) (bmp : Bytes)
    (x1 y1 x2 y2 : Int) : Py (Option α) := do
  let a ← isinBMPrectbnd bmp x1 y1
  let b ← if a = true then isinBMPrectbnd bmp x2 y2 else pure false
  if ¬ (b = true) then pure none else some <$> f bmp x1 y1 x2 y2

/-- `for buf in itercopyrect(bmp, x1, y1, x2, y2): body`, BITMAPlib.py 2279-2305 with its decorator:
for a rectangle outside the image the call returns `None`, over which `for` raises `TypeError`. For
images of positive width (`r > 0`) the loop ends after at most `lim - offset - bufsize + 1` rounds. -/
def foritercopyrect {σ : Type} (src : σ → Bytes) (st : σ) (x1 y1 x2 y2 : Int) (body : σ → Bytes → Py σ) : Py σ := do
  let r ← rectinboundary (fun bmp x1 y1 x2 y2 => do
    let (x1, y1, x2, y2) := sortrecpoints x1 y1 x2 y2
    let bufsize ← adjustxbufsize bmp x1 x2
    let r ← xchrcnt bmp
    let offset ← BMoffset bmp x1 y2
    let lim := (← BMoffset bmp x2 y1) + r
    copyrectLoop src body bufsize lim r (lim - offset - bufsize + 1).toNat st offset) (src st) x1 y1 x2 y2
  match r with
  | none => .error .typeError
  | some st => pure st

/-- BITMAPlib.py 8694-8721 `itergetcolorfromrectregion` (coordinates only, row by row from the
top). The colours are read by the consumers at the time of the step. -/
def rectPoints (x1 y1 x2 y2 : Int) : List (Int × Int) :=
  (pyRange y1 (y2 + 1)).flatMap fun y => (pyRange x1 (x2 + 1)).map fun x => (x, y)

/-- Python `a ^ b` for non-negative ints (a negative operand does not occur in the modelled code). -/
def pyXor (a b : Int) : Int := ((a.toNat ^^^ b.toNat : Nat) : Int)

/-- The body of BITMAPlib.py 8763-8800 `invertregion` behind the guard. For packed depths the
generator is guarded again by `entirerectinboundary`, which holds here because the corners are
those already checked, only sorted; the generator's own colour is not used. -/
def invertregionCore (bmp : Bytes) (x1 y1 x2 y2 : Int) : Py Bytes := do
  let (x1, y1, x2, y2) := sortrecpoints x1 y1 x2 y2
  let bits ← getItem bmp bmpcolorbits
  if bits < 8 then
    let c := (← getmaxcolors bmp) - 1
    (rectPoints x1 y1 x2 y2).foldlM (fun bmp p => do
      let v ← getxybit bmp p.1 p.2
      plotxybit bmp p.1 p.2 (pyXor v c)) bmp
  else
    let o24 ← bmof24 bmp x1 y2
    let o8 ← bmof8 bmp x1 y2
    let offset := iif (decide (bits = 24)) o24 o8
    let r ← xchrcnt bmp
    let st ← foritercopyrect (fun st : Bytes × Int => st.1) (bmp, offset) x1 y1 x2 y2 (fun st buf => do
      let inv ← invertbitsinbuffer buf
      let bmp ← BMPbitBLTput st.1 st.2 inv
      pure (bmp, st.2 + r))
    pure st.1

/-- BITMAPlib.py 8763-8800 `invertregion` -/
def invertregion (bmp : Bytes) (x1 y1 x2 y2 : Int) : Py Bytes :=
  entirerectinboundary invertregionCore bmp x1 y1 x2 y2

end Verif.Model
