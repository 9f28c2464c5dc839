import Verif.Model.Filters
import Verif.Model.Compare
/-! Model of the operations on circular regions, `BITMAPlib.py` 2463-3325. -/

namespace Verif.Model
open Verif

/-- One statement `bmp[s: e] = func(bmp[s: e])` with `s = c(bmp, x1, y)` and `e = c(bmp, x2, y)`; `f bmp s e`
is the right hand side. -/
def segUpdate (f : Bytes → Int → Int → Py Bytes) (bmp : Bytes) (x1 x2 y : Int) : Py Bytes := do
  let s ← BMoffsethd bmp x1 y
  let e ← BMoffsethd bmp x2 y
  let buf ← f bmp s e
  pure (setSlice bmp s e buf)

/-- The loop for a circle inside the image: BITMAPlib.py 2487-2496, 2543-2554, 2696-2705 and 3163-3189.
The code computes the four offsets first; they depend on the header only, which stays as it is. -/
def circRegionIn (f : Bytes → Int → Int → Py Bytes) (bmp : Bytes) (x y r : Int) : Py Bytes :=
  (itercirclepartlineedge r).foldlM (fun bmp v => do
    let xm := mirror x v.1
    let ym := mirror y v.2
    let bmp ← segUpdate f bmp xm.1 xm.2 ym.1
    if ym.1 ≠ ym.2 then segUpdate f bmp xm.1 xm.2 ym.2 else pure bmp) bmp

/-- The loop for a circle that leaves the image: BITMAPlib.py 2498-2512, 2556-2572, 2707-2721 and
3191-3221. `f2` is the right hand side in the row `y2`, `f` that in the row `y1`. -/
def circRegionClip (f2 f : Bytes → Int → Int → Py Bytes) (bmp : Bytes) (x y r : Int) : Py Bytes := do
  let xmax ← getmaxx bmp
  let ymax ← getmaxy bmp
  (itercirclepartlineedge r).foldlM (fun bmp v => do
    let xm := mirror x v.1
    let ym := mirror y v.2
    let x1 := setmin xm.1 0
    let x2 := setmax xm.2 (xmax - 1)
    let bmp ← (if isinrange ym.2 ymax (-1) = true then segUpdate f2 bmp x1 x2 ym.2 else pure bmp : Py Bytes)
    if isinrange ym.1 ymax (-1) = true ∧ ym.2 ≠ ym.1 then segUpdate f bmp x1 x2 ym.1 else pure bmp) bmp

/-- The two branches together. -/
def circRegion (f2 f : Bytes → Int → Int → Py Bytes) (bmp : Bytes) (x y r : Int) : Py Bytes := do
  let xmax ← getmaxx bmp
  let ymax ← getmaxy bmp
  if entirecircleisinboundary x y (-1) xmax (-1) ymax r = true then circRegionIn f bmp x y r
  else circRegionClip f2 f bmp x y r

/-- BITMAPlib.py 2670-2721 `_usenoparfn2circreg`. The decorator `intcircleparam` (paramchecks.py 33-53)
only checks that the parameters are integers. -/
def usenoparfn2circreg (func : Bytes → Py Bytes) (bmp : Bytes) (x y r : Int) : Py Bytes :=
  circRegion (fun bmp s e => func (slice bmp s e)) (fun bmp s e => func (slice bmp s e)) bmp x y r

/-- BITMAPlib.py 3309-3324 `invertbitsincircregion` -/
def invertbitsincircregion (bmp : Bytes) (x y r : Int) : Py Bytes :=
  usenoparfn2circreg invertbitsinbuffer bmp x y r

/-- BITMAPlib.py 2462-2512 `_usenopar24btfn2circreg`, with the decorator `intcircleparam24bitonly`
(paramchecks.py 56-80). Line 2506 ends in a comma, so that `s2` is a tuple and the slice in line 2508
raises `TypeError`. -/
def usenopar24btfn2circreg (func : Bytes → Py Bytes) (bmp : Bytes) (x y r : Int) : Py Bytes := do
  let v ← guard24 (circRegion (fun _ _ _ => .error .typeError) (fun bmp s e => func (slice bmp s e)) bmp x y r) bmp
  pure (v.getD bmp)

/-- BITMAPlib.py 3224-3239 `monocircle`; its filter `monochromefiltertoBGRbuf` (colors.py 753-772) runs
`applymonochromefiltertoBGRbuf` and returns the buffer. -/
def monocircle (bmp : Bytes) (x y r : Int) : Py Bytes :=
  usenopar24btfn2circreg applymonochromefiltertoBGRbuf bmp x y r

/-- BITMAPlib.py 2515-2572 `_use24btfn2circreg` -/
def use24btfn2circreg (func : Bytes → Py Bytes) (bmp : Bytes) (x y r : Int) : Py Bytes := do
  let v ← guard24 (circRegion (fun bmp s e => func (slice bmp s e)) (fun bmp s e => func (slice bmp s e)) bmp x y r) bmp
  pure (v.getD bmp)

/-- BITMAPlib.py 3242-3262 `colorfiltercircregion`; its filter `colorfiltertoBGRbuf` (colors.py 804-826) runs
`applycolorfiltertoBGRbuf` and returns the buffer; the factors as there. -/
def colorfiltercircregion (fr fg fb : Nat → Int) (bmp : Bytes) (x y r : Int) : Py Bytes :=
  use24btfn2circreg (applycolorfiltertoBGRbuf fr fg fb) bmp x y r

/-- BITMAPlib.py 3287-3306 `brightnessadjcircregion`; the factor as in `applybrightnessadjtoBGRbuf`. -/
def brightnessadjcircregion (f : Nat → Int) (bmp : Bytes) (x y r : Int) : Py Bytes :=
  use24btfn2circreg (applybrightnessadjtoBGRbuf f) bmp x y r

/-- The right hand side in BITMAPlib.py 3142-3221 `outlinecircregion`. -/
def outlineSeg (bmp : Bytes) (s e : Int) : Py Bytes := do
  let bits ← getItem bmp bmpcolorbits
  let d : Int := if bits = 24 then 3 else 1
  mkArray (xorvect (slice bmp s e) (slice bmp (s + d) (e + d)))

/-- BITMAPlib.py 3142-3221 `outlinecircregion`. The colour depth is read before the loop in the code. -/
def outlinecircregion (bmp : Bytes) (x y r : Int) : Py Bytes := circRegion outlineSeg outlineSeg bmp x y r

/-- A circular buffer: the list `[bits, r, [top row, bottom row], …]` of BITMAPlib.py 2593-2599. -/
structure CircBuf where
  bits : Int
  r : Int
  rows : List (Bytes × Bytes)

/-- The body of BITMAPlib.py 2575-2600 `copycircregion2buf` -/
def copycircCore (bmp : Bytes) (x y r : Int) : Py CircBuf := do
  let bits ← getclrbits bmp
  let rows ← (itercirclepartlineedge r).mapM (fun v => (do
    let xm := mirror x v.1
    let ym := mirror y v.2
    let s1 ← BMoffsethd bmp xm.1 ym.1
    let e1 ← BMoffsethd bmp xm.2 ym.1
    let s2 ← BMoffsethd bmp xm.1 ym.2
    let e2 ← BMoffsethd bmp xm.2 ym.2
    pure (slice bmp s1 e1, slice bmp s2 e2) : Py (Bytes × Bytes)))
  pure ⟨bits, r, rows⟩

/-- BITMAPlib.py 2575-2600 `copycircregion2buf`; `none` is the `None` of the rejected call. -/
def copycircregion2buf (bmp : Bytes) (x y r : Int) : Py (Option CircBuf) :=
  guardcircle (copycircCore bmp x y r) bmp x y r

/-- The loop of BITMAPlib.py 2630-2636. -/
def pastecircLoop (bmp : Bytes) (x y : Int) (rows : List ((Int × Int) × (Bytes × Bytes))) : Py Bytes :=
  rows.foldlM (fun bmp p => do
    let xm := mirror x p.1.1
    let ym := mirror y p.1.2
    let bmp ← segUpdate (fun _ _ _ => .ok p.2.1) bmp xm.1 xm.2 ym.1
    segUpdate (fun _ _ _ => .ok p.2.2) bmp xm.1 xm.2 ym.2) bmp

/-- BITMAPlib.py 2603-2640 `pastecirularbuf`. `raise` of a string is a `TypeError`. The buffer holds
one entry for each scan line, as `copycircregion2buf` makes it. -/
def pastecirularbuf (bmp : Bytes) (x y : Int) (buf : Option CircBuf) : Py Bytes :=
  match buf with
  | none => pure bmp
  | some cb => do
    let xmax ← getmaxx bmp
    let ymax ← getmaxy bmp
    if entirecircleisinboundary x y (-1) xmax (-1) ymax cb.r = true then
      let bits ← getclrbits bmp
      if bits = cb.bits then pastecircLoop bmp x y ((itercirclepartlineedge cb.r).zip cb.rows)
      else .error .typeError
    else pure bmp

/-- BITMAPlib.py 2643-2667 `copycircregion` -/
def copycircregion (bmp : Bytes) (x y r nx ny : Int) : Py Bytes := do
  let buf ← copycircregion2buf bmp x y r
  pastecirularbuf bmp nx ny buf

/-- The parameter `trans` of `verttransformincircregion` -/
inductive CircV where
  | T | B | F

/-- The functions `_T`, `_B`, `_F` of BITMAPlib.py 2935-2943. -/
def vtransSeg (t : CircV) (bmp : Bytes) (s1 e1 s2 e2 : Int) : Bytes :=
  match t with
  | .T => setSlice bmp s2 e2 (slice bmp s1 e1)
  | .B => setSlice bmp s1 e1 (slice bmp s2 e2)
  | .F => setSlice (setSlice bmp s1 e1 (slice bmp s2 e2)) s2 e2 (slice bmp s1 e1)

/-- The loop of BITMAPlib.py 2949-2957. -/
def vtransCore (t : CircV) (bmp : Bytes) (x y r : Int) : Py Bytes :=
  (itercirclepartlineedge r).foldlM (fun bmp v => do
    let xm := mirror x v.1
    let ym := mirror y v.2
    let s1 ← BMoffsethd bmp xm.1 ym.1
    let e1 ← BMoffsethd bmp xm.2 ym.1
    let s2 ← BMoffsethd bmp xm.1 ym.2
    let e2 ← BMoffsethd bmp xm.2 ym.2
    pure (vtransSeg t bmp s1 e1 s2 e2)) bmp

/-- BITMAPlib.py 2911-2957 `verttransformincircregion` -/
def verttransformincircregion (t : CircV) (bmp : Bytes) (x y r : Int) : Py Bytes := do
  let v ← guardcircle (vtransCore t bmp x y r) bmp x y r
  pure (v.getD bmp)

/-- BITMAPlib.py 2893-2908 `flipvertcircregion` -/
def flipvertcircregion (bmp : Bytes) (x y r : Int) : Py Bytes := verttransformincircregion .F bmp x y r

/-- BITMAPlib.py 2960-2975 `mirrortopincircregion` -/
def mirrortopincircregion (bmp : Bytes) (x y r : Int) : Py Bytes := verttransformincircregion .T bmp x y r

/-- BITMAPlib.py 2978-2994 `mirrorbottomincircregion` -/
def mirrorbottomincircregion (bmp : Bytes) (x y r : Int) : Py Bytes := verttransformincircregion .B bmp x y r

/-- The parameter `trans` of `horitransformincircregion` -/
inductive CircH where
  | L | R | F

/-- Read the strided slices `(s, e)` and write them in the same order: one tuple assignment. -/
def stridedAssign (bmp : Bytes) (k : Nat) (dst src : List (Int × Int)) : Py Bytes := do
  let bufs ← src.mapM (fun p => sliceStep bmp p.1 p.2 k)
  (dst.zip bufs).foldlM (fun bmp q => setSliceStep bmp q.1.1 q.1.2 k q.2) bmp

/-- The functions `_24F`, `_8F`, `_24R`, `_8R`, `_24L`, `_8L` of BITMAPlib.py 2811-2831. -/
def htransSeg (t : CircH) (bits : Int) (bmp : Bytes) (k : Nat) (s1 e1 s2 e2 : Int) : Py Bytes :=
  if bits = 24 then
    match t with
    | .F => stridedAssign bmp k
        [(s1, e1 - 2), (s2, e2 - 2), (s1 + 1, e1 - 1), (s2 + 1, e2 - 1), (s1 + 2, e1), (s2 + 2, e2)]
        [(s2, e2 - 2), (s1, e1 - 2), (s2 + 1, e2 - 1), (s1 + 1, e1 - 1), (s2 + 2, e2), (s1 + 2, e1)]
    | .R => stridedAssign bmp k [(s1, e1 - 2), (s1 + 1, e1 - 1), (s1 + 2, e1)]
        [(s2, e2 - 2), (s2 + 1, e2 - 1), (s2 + 2, e2)]
    | .L => stridedAssign bmp k [(s2, e2 - 2), (s2 + 1, e2 - 1), (s2 + 2, e2)]
        [(s1, e1 - 2), (s1 + 1, e1 - 1), (s1 + 2, e1)]
  else
    match t with
    | .F => stridedAssign bmp k [(s1, e1), (s2, e2)] [(s2, e2), (s1, e1)]
    | .R => stridedAssign bmp k [(s1, e1)] [(s2, e2)]
    | .L => stridedAssign bmp k [(s2, e2)] [(s1, e1)]

/-- The loop of BITMAPlib.py 2845-2853. -/
def htransCore (t : CircH) (bmp : Bytes) (x y r : Int) : Py Bytes := do
  let bits ← getItem bmp bmpcolorbits
  (itercirclepartvertlineedge r).foldlM (fun bmp v => do
    let xm := mirror x v.1
    let ym := mirror y v.2
    let k ← xchrcnt bmp
    let s1 ← BMoffsethd bmp xm.1 ym.2
    let e1 ← BMoffsethd bmp xm.1 ym.1
    let s2 ← BMoffsethd bmp xm.2 ym.2
    let e2 ← BMoffsethd bmp xm.2 ym.1
    htransSeg t bits bmp k.toNat s1 (e1 + k) s2 (e2 + k)) bmp

/-- BITMAPlib.py 2789-2853 `horitransformincircregion` -/
def horitransformincircregion (t : CircH) (bmp : Bytes) (x y r : Int) : Py Bytes := do
  let v ← guard8and24circle (htransCore t bmp x y r) bmp x y r
  pure (v.getD bmp)

/-- BITMAPlib.py 2770-2786 `fliphoricircregion` -/
def fliphoricircregion (bmp : Bytes) (x y r : Int) : Py Bytes := horitransformincircregion .F bmp x y r

/-- BITMAPlib.py 2856-2871 `mirrorleftincircregion` -/
def mirrorleftincircregion (bmp : Bytes) (x y r : Int) : Py Bytes := horitransformincircregion .L bmp x y r

/-- BITMAPlib.py 2874-2890 `mirrorrightincircregion` -/
def mirrorrightincircregion (bmp : Bytes) (x y r : Int) : Py Bytes := horitransformincircregion .R bmp x y r

/-- BITMAPlib.py 2997-3013 `mirrortopleftincircregion` -/
def mirrortopleftincircregion (bmp : Bytes) (x y r : Int) : Py Bytes := do
  mirrortopincircregion (← mirrorleftincircregion bmp x y r) x y r

/-- BITMAPlib.py 3016-3031 `mirrortoprightincircregion` -/
def mirrortoprightincircregion (bmp : Bytes) (x y r : Int) : Py Bytes := do
  mirrortopincircregion (← mirrorrightincircregion bmp x y r) x y r

/-- BITMAPlib.py 3034-3049 `mirrorbottomleftincircregion` -/
def mirrorbottomleftincircregion (bmp : Bytes) (x y r : Int) : Py Bytes := do
  mirrorbottomincircregion (← mirrorleftincircregion bmp x y r) x y r

/-- BITMAPlib.py 3052-3067 `mirrorbottomrightincircregion` -/
def mirrorbottomrightincircregion (bmp : Bytes) (x y r : Int) : Py Bytes := do
  mirrorbottomincircregion (← mirrorrightincircregion bmp x y r) x y r

/-- BITMAPlib.py 3070-3105 `vertbrightnessgrad2circregion`; `f y v` stands for `round(v * (1 + lum / 100))`
with the `lum` of row `y`. The division by `2 * r` comes first. -/
def vertbrightnessgrad2circregion (f : Int → Nat → Int) (bmp : Bytes) (x y r : Int) : Py Bytes := do
  let v ← guard24circle (if r = 0 then .error .zeroDivision else
    (itercirclepartlineedge r).foldlM (fun bmp v => do
      let xm := mirror x v.1
      let ym := mirror y v.2
      let s1 ← BMoffsethd bmp xm.1 ym.1
      let e1 ← BMoffsethd bmp xm.2 ym.1
      let s2 ← BMoffsethd bmp xm.1 ym.2
      let e2 ← BMoffsethd bmp xm.2 ym.2
      let b1 ← applybrightnessadjtoBGRbuf (f ym.1) (slice bmp s1 e1)
      let b2 ← applybrightnessadjtoBGRbuf (f ym.2) (slice bmp s2 e2)
      pure (setSlice (setSlice bmp s1 e1 b1) s2 e2 b2)) bmp) bmp x y r
  pure (v.getD bmp)

/-- BITMAPlib.py 1589-1634 `_fnwithpar2vertslice`; `func` includes the parameter. The `else` prints a message. -/
def fnwithpar2vertslice (func : Bytes → Py Bytes) (bmp : Bytes) (x y1 y2 : Int) : Py Bytes := do
  let bits ← getItem bmp bmpcolorbits
  let r ← xchrcnt bmp
  let m ← getmaxxy bmp
  if isinrange x m.1 (-1) = true then
    let (y1, y2) := swapif y1 y2 (decide (y1 > y2))
    let y1 := setmin y1 0
    let y2 := setmax y2 (m.2 - 1)
    let s ← BMoffsethd bmp x y2
    let e0 ← BMoffsethd bmp x y1
    let e := e0 + r
    let k := r.toNat
    if bits = 24 then
      let bmp ← setSliceStep bmp s (e - 2) k (← func (← sliceStep bmp s (e - 2) k))
      let bmp ← setSliceStep bmp (s + 1) (e - 1) k (← func (← sliceStep bmp (s + 1) (e - 1) k))
      setSliceStep bmp (s + 2) e k (← func (← sliceStep bmp (s + 2) e k))
    else
      setSliceStep bmp s e k (← func (← sliceStep bmp s e k))
  else pure bmp

/-- BITMAPlib.py 3108-3140 `horibrightnessgrad2circregion`; `f x v` stands for
`round(v * (1 + lum / 100))` with the `lum` of column `x`. -/
def horibrightnessgrad2circregion (f : Int → Nat → Int) (bmp : Bytes) (x y r : Int) : Py Bytes := do
  let v ← guard24circle (if r = 0 then .error .zeroDivision else
    (itercirclepartvertlineedge r).foldlM (fun bmp v => do
      let xm := mirror x v.1
      let ym := mirror y v.2
      let bmp ← fnwithpar2vertslice (applybrightnessadjtoBGRbuf (f xm.1)) bmp xm.1 ym.1 ym.2
      if xm.1 ≠ xm.2 then fnwithpar2vertslice (applybrightnessadjtoBGRbuf (f xm.2)) bmp xm.2 ym.1 ym.2
      else pure bmp) bmp) bmp x y r
  pure (v.getD bmp)

/-- The loop of BITMAPlib.py 2752-2767 in `flipXYcircregion`: all columns are read before the first
row is written. -/
def flipXYcircCore (bmp : Bytes) (x y r : Int) : Py Bytes := do
  let buf ← (itercirclepartlineedge r).mapM (fun v => (do
    let xm := mirror x v.2
    let ym := mirror y v.1
    let b4 ← vertBMPbitBLTget bmp xm.1 ym.1 ym.2
    let b5 ← vertBMPbitBLTget bmp xm.2 ym.1 ym.2
    pure (v, b4, b5) : Py ((Int × Int) × Option Bytes × Option Bytes)))
  buf.foldlM (fun bmp b => do
    let xm := mirror x b.1.1
    let ym := mirror y b.1.2
    let b4 ← orTypeError b.2.1
    let bmp ← segUpdate (fun _ _ _ => .ok b4) bmp xm.1 (xm.2 + 1) ym.1
    let b5 ← orTypeError b.2.2
    segUpdate (fun _ _ _ => .ok b5) bmp xm.1 (xm.2 + 1) ym.2) bmp

/-- The loop of BITMAPlib.py 2741-2750 in `flipXYcircregion`, for 1- and 4-bit images. -/
def flipXYcircPacked (bmp : Bytes) (x y r : Int) : Py Bytes := do
  let n ← flipXY bmp
  (itercirclepartlineedge r).foldlM (fun bmp v => do
    let x34 := mirror y v.1
    let y34 := mirror x v.2
    let xm := mirror x v.1
    let ym := mirror y v.2
    let s3 ← BMoffsethd n x34.1 y34.1
    let e3 ← BMoffsethd n x34.2 y34.1
    let bmp ← segUpdate (fun _ _ _ => .ok (slice n s3 e3)) bmp xm.1 xm.2 ym.1
    let s4 ← BMoffsethd n x34.1 y34.2
    let e4 ← BMoffsethd n x34.2 y34.2
    segUpdate (fun _ _ _ => .ok (slice n s4 e4)) bmp xm.1 xm.2 ym.2) bmp

/-- BITMAPlib.py 2724-2767 `flipXYcircregion` -/
def flipXYcircregion (bmp : Bytes) (x y r : Int) : Py Bytes := do
  let v ← guardcircle (do
    let bits ← getItem bmp bmpcolorbits
    if bits ∉ [24, 8] then flipXYcircPacked bmp x y r else flipXYcircCore bmp x y r) bmp x y r
  pure (v.getD bmp)

end Verif.Model
