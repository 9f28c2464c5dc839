import Verif.Model.Transform
import Verif.Model.Blt
/-! Model of the functions of `pythonbmp/BITMAPlib.py` that iterate over whole images, copy
rectangles and create new images (lines 7478-7778, 8655-8760, 8865-8898), with the helpers of
`bufresize.py`, `buffersplit.py` and `mathlib.py` that they use. -/

namespace Verif.Model
open Verif

/-- mathlib.py 1408-1420 `enumbits`; also the `for bit in range(7, -1, -1)` loops of BITMAPlib.py
7592-7594 and 7662-7664. -/
def enumbits (byteval : Nat) : List Nat :=
  [7, 6, 5, 4, 3, 2, 1, 0].map fun bit => (byteval &&& (1 <<< bit)) >>> bit

/-- The colours taken from the buffer in one round of BITMAPlib.py 7660-7681. -/
def roundColors (bits : Nat) (b : Bytes) (offset : Int) : Py (List Int) :=
  if bits = 1 then do
    let c ← getItem b offset
    pure ((enumbits c).map Int.ofNat)
  else if bits = 4 then do
    let c ← getItem b offset
    pure [((c / 16 : Nat) : Int), ((c % 16 : Nat) : Int)]
  else if bits = 8 then do
    let c ← getItem b offset
    pure [(c : Int)]
  else if bits = 24 then do
    let r ← getItem b (offset + 2)
    let g ← getItem b (offset + 1)
    let bb ← getItem b offset
    pure [((r <<< 16) + (g <<< 8) + bb : Int)]
  else pure []

/-- The `if x < mx: yield ((x, y), c)`, `x += 1` of one round for its successive colours. -/
def emit {α : Type} (mx y : Int) : Int → List α → List ((Int × Int) × α)
  | _, [] => []
  | x, c :: cs => (if x < mx then [((x, y), c)] else []) ++ emit mx y (x + 1) cs

/-- The `while` loop of BITMAPlib.py 7659-7688 (and 7589-7620 with another end of row test and
other colours). The offset grows in each round, so `maxoffset - offset` rounds are enough. -/
def iterLoop {α : Type} (colors : Int → Py (List α)) (rowend : Int → Bool) (mx pb doff maxoffset : Int) :
    Nat → Int → Int → Int → Py (List ((Int × Int) × α))
  | 0, _, _, _ => pure []
  | n + 1, offset, x, y =>
    if offset < maxoffset then do
      let cs ← colors offset
      let pts := emit mx y x cs
      let x := x + (cs.length : Int)
      let rest ← if rowend x = true then iterLoop colors rowend mx pb doff maxoffset n (offset + pb + doff) 0 (y - 1)
        else iterLoop colors rowend mx pb doff maxoffset n (offset + doff) x y
      pure (pts ++ rest)
    else pure []

/-- BITMAPlib.py 7626-7691 `iterimagecolor`: the list of values yielded. The image bytes are copied
at the start, so later changes of the array have no effect. Messages are left out. -/
def iterimagecolor (bmp : Bytes) : Py (List ((Int × Int) × Int)) := do
  let y := (← getmaxy bmp) - 1
  let b ← getBMPimgbytes bmp
  let maxoffset : Int := b.length
  let mx ← getmaxx bmp
  let bits ← getItem bmp bmpcolorbits
  let pb ← pdbytes mx (bits : Int)
  let doff : Int := if bits = 24 then 3 else 1
  iterLoop (roundColors bits b) (fun x => decide (mx ≤ x)) mx pb doff maxoffset b.length 0 0 y

/-- The colours taken from the buffer in one round of BITMAPlib.py 7590-7613. -/
def roundRGB (bits : Nat) (p : List RGB) (b : Bytes) (offset : Int) : Py (List RGB) :=
  if bits = 24 then do
    let r ← getItem b (offset + 2)
    let g ← getItem b (offset + 1)
    let bb ← getItem b offset
    pure [((r : Int), (g : Int), (bb : Int))]
  else do
    let cs ← roundColors bits b offset
    cs.mapM fun c => match p[c.toNat]? with
      | some v => pure v
      | none => .error .indexError

/-- BITMAPlib.py 7554-7623 `iterimageRGB`: the list of values yielded. Palette entries of pixels
beyond the row end are looked up here although the code does not; in a well-formed image these
look-ups succeed. -/
def iterimageRGB (bmp : Bytes) : Py (List ((Int × Int) × RGB)) := do
  let y := (← getmaxy bmp) - 1
  let b ← getBMPimgbytes bmp
  let maxoffset : Int := b.length
  let mx ← getmaxx bmp
  let bits ← getItem bmp bmpcolorbits
  let padbytes ← pdbytes mx (bits : Int)
  let p ← (if bits < 24 then getallRGBpal bmp else pure [] : Py (List RGB))
  let doff : Int := if bits < 24 then 1 else 3
  iterLoop (roundRGB bits p b) (fun x => decide (x = mx)) mx padbytes doff maxoffset b.length 0 0 y

/-- Use of a value that may be `None` where a sequence is needed. -/
def orTypeError {α : Type} : Option α → Py α
  | some v => pure v
  | none => .error .typeError

/-- BITMAPlib.py 8655-8691 `flipXY`. `array('B', None)` raises `TypeError`. -/
def flipXY (bmp : Bytes) : Py Bytes := do
  let mx ← getmaxy bmp
  let my ← getmaxx bmp
  let bits ← getItem bmp bmpcolorbits
  let nbmp ← newBMP mx my bits
  if bits = 8 ∨ bits = 24 then do
    let r ← xchrcnt nbmp
    let nbmp ← (if bits < 24 then copyRGBpal bmp nbmp else pure nbmp : Py Bytes)
    let st ← (pyRange 0 my).foldlM (fun (st : Bytes × Int) y => do
      let v ← vertBMPbitBLTget bmp y 0 (mx - 1)
      let buf ← orTypeError v
      let nbmp ← BMPbitBLTput st.1 st.2 buf
      pure (nbmp, st.2 + r)) (nbmp, 0)
    pure st.1
  else do
    let nbmp ← copyRGBpal bmp nbmp
    (← iterimagecolor bmp).foldlM (fun nbmp v => plotxybit nbmp v.1.2 v.1.1 v.2) nbmp

/-- BITMAPlib.py 8724-8760 `crop`; `none` is the `None` returned for a rectangle outside. For packed
depths the coordinates come from `itergetcolorfromrectregion` (8694-8721), whose own guard holds
because the corners are those already checked, only sorted. -/
def crop (bmp : Bytes) (x1 y1 x2 y2 : Int) : Py (Option Bytes) :=
  rectinboundary (fun bmp x1 y1 x2 y2 => do
    let (x1, y1, x2, y2) := sortrecpoints x1 y1 x2 y2
    let bits ← getItem bmp bmpcolorbits
    let nbmp ← newBMP (x2 - x1 + 1) (y2 - y1 + 1) bits
    if bits < 8 then do
      let nbmp ← copyRGBpal bmp nbmp
      (rectPoints x1 y1 x2 y2).foldlM (fun nbmp p => do
        let c ← getxybit bmp p.1 p.2
        plotxybit nbmp (p.1 - x1) (p.2 - y1) c) nbmp
    else do
      let r ← xchrcnt nbmp
      let st ← foritercopyrect (fun _ : Bytes × Int => bmp) (nbmp, 0) x1 y1 x2 y2 (fun st buf => do
        let nbmp ← BMPbitBLTput st.1 st.2 buf
        pure (nbmp, st.2 + r))
      pure st.1) bmp x1 y1 x2 y2

/-- BITMAPlib.py 7694-7717 `copyrect` -/
def copyrect (bmp : Bytes) (x1 y1 x2 y2 : Int) : Py (Option Bytes) :=
  rectinboundary (fun bmp x1 y1 x2 y2 => do
    let bits ← getItem bmp bmpcolorbits
    let retval ← mkArray [(bits : Int)]
    let (x1, y1, x2, y2) := sortrecpoints x1 y1 x2 y2
    let retval := retval ++ (← int2buf 2 (x2 - x1 + 2))
    let retval := retval ++ (← int2buf 2 (y2 - y1 + 1))
    let retval := retval ++ (← int2buf 2 (← adjustxbufsize bmp x1 x2))
    foritercopyrect (fun _ : Bytes => bmp) retval x1 y1 x2 y2 (fun retval buf => pure (retval ++ buf))) bmp x1 y1 x2 y2

/-- The `while` loop of BITMAPlib.py 7748-7754. For `br > 0` the length of `buf` bounds the rounds;
for `br = 0` the code does not end and the model stops when the rounds are used up. -/
def pasteLoop (buf : Bytes) (br r : Int) : Nat → Bytes → Int → Int → Int → Py Bytes
  | 0, bmp, _, _, _ => pure bmp
  | n + 1, bmp, offset, startoff, endoff =>
    if startoff < (buf.length : Int) then do
      let bmp ← BMPbitBLTput bmp offset (slice buf startoff endoff)
      pasteLoop buf br r n bmp (offset + r) endoff (endoff + br)
    else pure bmp

/-- BITMAPlib.py 7720-7756 `pasterect` -/
def pasterect (bmp : Bytes) (buf : Bytes) (x1 y1 : Int) : Py Bytes := do
  let bits ← getItem bmp bmpcolorbits
  let b0 ← getItem buf 0
  if bits ≠ b0 then pure bmp
  else do
    let x2 := x1 + (← buf2int (slice buf 1 3))
    let y2 := y1 + (← buf2int (slice buf 3 5))
    let r ← xchrcnt bmp
    if (← listinBMPrecbnd bmp [(x1, y1), (x2, y2)]) = true then do
      let offset ← BMoffset bmp x1 y2
      let br ← buf2int (slice buf 5 7)
      pasteLoop buf br r buf.length bmp offset 7 (br + 7)
    else pure bmp

/-- colors.py 61-73 `isvalidcolorbit` -/
def isvalidcolorbit (bits : Int) : Bool := decide (bits ∈ [(1 : Int), 4, 8, 24])

/-- BITMAPlib.py 7759-7778 `convertselection2BMP`; `none` is the `-1` of the code. -/
def convertselection2BMP (buf : Bytes) : Py (Option Bytes) := do
  let bits ← getItem buf 0
  if isvalidcolorbit bits = true then do
    let bmp ← newBMP ((← buf2int (slice buf 1 3)) + 1) ((← buf2int (slice buf 3 5)) + 1) bits
    some <$> pasterect bmp buf 0 0
  else pure none

/-- BITMAPlib.py 7478-7488 `getBGRpalbuf` -/
def getBGRpalbuf (bmp : Bytes) : Py Bytes := do
  pure (slice bmp bmppal (← hdsz bmp))

/-- BITMAPlib.py 7491-7520 `convertbufto24bit` (`array` cannot fail: its input are bytes). -/
def convertbufto24bit (buf bgrpalbuf : Bytes) (bits : Nat) : Bytes :=
  buf.flatMap fun b =>
    if bits = 8 then slice bgrpalbuf ((b <<< 2 : Nat) : Int) (((b <<< 2 : Nat) : Int) + 3)
    else if bits = 4 then
      slice bgrpalbuf (((b / 16) <<< 2 : Nat) : Int) ((((b / 16) <<< 2 : Nat) : Int) + 3) ++
      slice bgrpalbuf (((b % 16) <<< 2 : Nat) : Int) ((((b % 16) <<< 2 : Nat) : Int) + 3)
    else if bits = 1 then
      (enumbits b).flatMap fun i => slice bgrpalbuf ((i <<< 2 : Nat) : Int) (((i <<< 2 : Nat) : Int) + 3)
    else []

/-- BITMAPlib.py 7523-7551 `upgradeto24bitimage` -/
def upgradeto24bitimage (bmp : Bytes) : Py Bytes := do
  let bits ← getItem bmp bmpcolorbits
  if bits = 24 then pure bmp
  else do
    let nbmp ← CopyBMPxydim2newBMP bmp 24
    let bgrpal ← getBGRpalbuf bmp
    let mx := (← getmaxx bmp) - 1
    let my := (← getmaxy bmp) - 1
    let offset ← BMoffset nbmp 0 my
    let r ← xchrcnt nbmp
    let st ← foritercopyrect (fun _ : Bytes × Int => bmp) (nbmp, offset) 0 0 mx my (fun st buf => do
      let nbmp ← BMPbitBLTput st.1 st.2 (convertbufto24bit buf bgrpal bits)
      pure (nbmp, st.2 + r))
    pure st.1

/-- bufresize.py 79-102 `packbitlisttobuf`: the loop from index `i` with the byte `b` so far. -/
def packbitLoop : List Nat → Nat → Nat → List Nat
  | [], _, _ => []
  | v :: vs, i, b =>
    let m := i % 8
    let b := b + v <<< (7 - m)
    if m = 0 ∧ i > 1 then b :: packbitLoop vs (i + 1) 0 else packbitLoop vs (i + 1) b

/-- bufresize.py 79-102 `packbitlisttobuf` -/
def packbitlisttobuf (blist : List Nat) : List Nat := packbitLoop blist 1 0

/-- bufresize.py 105-120 `resizebitpattenNtimesbigger` -/
def resizebitpattenNtimesbigger (byteval : Nat) (n : Int) : List Nat :=
  (enumbits byteval).flatMap fun bit => pyRepeat [bit] n

/-- bufresize.py 123-140 `resize1bitbufNtimesbigger` -/
def resize1bitbufNtimesbigger (buf : Bytes) (n : Int) : Py Bytes :=
  mkArray ((buf.flatMap fun b => packbitlisttobuf (resizebitpattenNtimesbigger b n)).map Int.ofNat)

/-- bufresize.py 160-180 `unpack4bitbufresizeNtimesbigger` -/
def unpack4bitbufresizeNtimesbigger (buf : Bytes) (n : Int) : List Nat :=
  buf.flatMap fun b => pyRepeat [b >>> 4] n ++ pyRepeat [b &&& 0xf] n

/-- bufresize.py 182-203 `pack4bitbuf`: pairs from the front; a single last element is dropped. -/
def pack4bitbuf : List Nat → List Nat
  | a :: b :: rest => ((a <<< 4) + b) :: pack4bitbuf rest
  | _ => []

/-- bufresize.py 206-221 `resize4bitbufNtimesbigger` -/
def resize4bitbufNtimesbigger (buf : Bytes) (n : Int) : Py Bytes :=
  mkArray ((pack4bitbuf (unpack4bitbufresizeNtimesbigger buf n)).map Int.ofNat)

/-- bufresize.py 224-240 `resize8bitbufNtimesbigger` -/
def resize8bitbufNtimesbigger (buf : Bytes) (n : Int) : Py Bytes :=
  mkArray ((buf.flatMap fun b => pyRepeat [b] n).map Int.ofNat)

/-- buffersplit.py 35-53 `altsplitbuf3way` -/
def altsplitbuf3way (buf : Bytes) : Py (Bytes × Bytes × Bytes) := do
  let m : Int := buf.length
  let m := if m % 3 = 0 then m - m % 2 else m
  pure (← sliceStep buf 0 (m - 2) 3, ← sliceStep buf 1 (m - 1) 3, ← sliceStep buf 2 m 3)

/-- bufresize.py 266-281 `resize24bitbufNtimesbigger` -/
def resize24bitbufNtimesbigger (buf : Bytes) (n : Int) : Py Bytes := do
  let (b, g, r) ← altsplitbuf3way buf
  pure (makeBGRbuf (← resize8bitbufNtimesbigger b n) (← resize8bitbufNtimesbigger g n)
    (← resize8bitbufNtimesbigger r n))

/-- bufresize.py 284-303 `resizebufNtimesbigger` -/
def resizebufNtimesbigger (buf : Bytes) (n : Int) (bits : Nat) : Py Bytes :=
  if bits = 24 then resize24bitbufNtimesbigger buf n
  else if bits = 8 then resize8bitbufNtimesbigger buf n
  else if bits = 4 then resize4bitbufNtimesbigger buf n
  else if bits = 1 then resize1bitbufNtimesbigger buf n
  else .error .keyError

/-- BITMAPlib.py 8865-8898 `resizeNtimesbigger` -/
def resizeNtimesbigger (bmp : Bytes) (n : Int) : Py Bytes := do
  let bits ← getItem bmp bmpcolorbits
  let m ← getmaxxy bmp
  let mx := m.1
  let my := m.2
  let nx := mx * n
  let ny := my * n
  let nbmp ← newBMP nx ny bits
  let mx := mx - 1
  let my := my - 1
  let ny := ny - 1
  let nbmp ← (if bits < 24 then copyRGBpal bmp nbmp else pure nbmp : Py Bytes)
  let offset ← BMoffset nbmp 0 ny
  let r ← xchrcnt nbmp
  let st ← foritercopyrect (fun _ : Bytes × Int => bmp) (nbmp, offset) 0 0 mx my (fun st buf => do
    let nbuf ← resizebufNtimesbigger buf n bits
    (pyRange 0 n).foldlM (fun (st : Bytes × Int) _ => do
      let nbmp ← BMPbitBLTput st.1 st.2 nbuf
      pure (nbmp, st.2 + r)) st)
  pure st.1

end Verif.Model
