import Verif.Model.CircRegion
/-! Model of the luminosity threshold, of gamma correction and of the brightness gradients of 24-bit
images. Floating point factors are arbitrary functions, as in `Verif.Model.Filters`. -/

namespace Verif.Model
open Verif

/-- The loop `for i in range(0, len(buf), 3)` of the two filters below. A round changes the three
bytes of one pixel; `px` is what it makes of them. An incomplete last pixel, which the rows of a
24-bit image never have, is left to `rest`. -/
def forpixels (px : Nat → Nat → Nat → Py Bytes) (rest : Bytes → Py Bytes) : Bytes → Py Bytes
  | b :: g :: r :: t => do
    let p ← px b g r
    let q ← forpixels px rest t
    pure (p ++ q)
  | [] => pure []
  | t => rest t

/-- The luminosity `max(buf[i: i + 3])` -/
def lumof (b g r : Nat) : Nat := max b (max g r)

/-- colors.py 994-1007, one round: `t lim lum v` stands for `int(lim / lum * v)`. The limits are in
order; the code exchanges them in the first round. -/
def thresholdpx (t : Nat → Nat → Nat → Int) (lo hi b g r : Nat) : Py Bytes :=
  let lum := lumof b g r
  if lum > 0 ∧ lum > hi then mkArray [t hi lum b, t hi lum g, t hi lum r]
  else if lum > 0 ∧ lum < lo then mkArray [t lo lum b, t lo lum g, t lo lum r]
  else pure [b, g, r]

/-- colors.py 972-1008 `applythresholdadjtoBGRbuf`; `l0` and `l1` are the entries of `lumrange`. -/
def applythresholdadjtoBGRbuf (t : Nat → Nat → Nat → Int) (l0 l1 : Int) (buf : Bytes) : Py Bytes :=
  let lummin := (pyAnd l0 255).toNat
  let lummax := (pyAnd l1 255).toNat
  forpixels (thresholdpx t (min lummin lummax) (max lummin lummax)) (fun _ => .error .indexError) buf

/-- BITMAPlib.py 8985-9007 `thresholdadjto24bitregion` -/
def thresholdadjto24bitregion (t : Nat → Nat → Nat → Int) (bmp : Bytes) (x1 y1 x2 y2 l0 l1 : Int) : Py Bytes :=
  filterregion24 (fun _ => applythresholdadjtoBGRbuf t l0 l1) bmp x1 y1 x2 y2

/-- BITMAPlib.py 9053-9070 `thresholdadjto24bitimage` -/
def thresholdadjto24bitimage (t : Nat → Nat → Nat → Int) (bmp : Bytes) (l0 l1 : Int) : Py Bytes := do
  thresholdadjto24bitregion t bmp 0 0 ((← getmaxx bmp) - 1) ((← getmaxy bmp) - 1) l0 l1

/-- BITMAPlib.py 9010-9029 `thresholdadjcircregion` -/
def thresholdadjcircregion (t : Nat → Nat → Nat → Int) (bmp : Bytes) (x y r l0 l1 : Int) : Py Bytes :=
  use24btfn2circreg (applythresholdadjtoBGRbuf t l0 l1) bmp x y r

/-- colors.py 847-856, one round; `t lum v` stands for `int(v * f)` with
`f = int(((lum / 255) ** gamma) * 255) / lum`. -/
def gammapx (t : Nat → Nat → Int) (b g r : Nat) : Py Bytes :=
  let lum := if lumof b g r = 0 then 1 else lumof b g r
  mkArray [pyAnd (t lum b) 255, pyAnd (t lum g) 255, pyAnd (t lum r) 255]

/-- colors.py 829-856 `applygammaBGRbuf` and 859-876 `gammaBGRbuf`, which returns the buffer. -/
def applygammaBGRbuf (t : Nat → Nat → Int) (buf : Bytes) : Py Bytes :=
  forpixels (gammapx t) (fun _ => .error .indexError) buf

/-- BITMAPlib.py 12546-12566 `gammaadjto24bitregion` -/
def gammaadjto24bitregion (t : Nat → Nat → Int) (bmp : Bytes) (x1 y1 x2 y2 : Int) : Py Bytes :=
  filterregion24 (fun _ => applygammaBGRbuf t) bmp x1 y1 x2 y2

/-- BITMAPlib.py 12569-12583 `gammaadjto24bitimage` -/
def gammaadjto24bitimage (t : Nat → Nat → Int) (bmp : Bytes) : Py Bytes := do
  gammaadjto24bitregion t bmp 0 0 ((← getmaxx bmp) - 1) ((← getmaxy bmp) - 1)

/-- BITMAPlib.py 3265-3284 `gammacorrectcircregion` -/
def gammacorrectcircregion (t : Nat → Nat → Int) (bmp : Bytes) (x y r : Int) : Py Bytes :=
  use24btfn2circreg (applygammaBGRbuf t) bmp x y r

/-- BITMAPlib.py 12404-12407, one round; `g v` stands for `round(v * (1 + l / 100))`. -/
def hgradcol (g : Nat → Int) (r : Nat) (bmp : Bytes) (x y1 y2 : Int) : Py Bytes := do
  let s ← BMoffsethd bmp x y2
  let e ← BMoffsethd bmp x y1
  let p0 ← applybrightnessadjtoBGRbuf g (← sliceStep bmp s (e - 2) r)
  let p1 ← applybrightnessadjtoBGRbuf g (← sliceStep bmp (s + 1) (e - 1) r)
  let p2 ← applybrightnessadjtoBGRbuf g (← sliceStep bmp (s + 2) e r)
  let bmp ← setSliceStep bmp s (e - 2) r p0
  let bmp ← setSliceStep bmp (s + 1) (e - 1) r p1
  setSliceStep bmp (s + 2) e r p2

/-- BITMAPlib.py 12373-12408 `horizontalbrightnessgradto24bitregion`; `f k v` stands for
`round(v * (1 + l / 100))` with the value of `l` in the `k`-th round. The division by `x2 - x1` comes
first and fails for a region of one column. -/
def horizontalbrightnessgradto24bitregion (f : Nat → Nat → Int) (bmp : Bytes) (x1 y1 x2 y2 : Int) : Py Bytes := do
  let v ← guard24rect (do
    let r ← xchrcnt bmp
    let (x1, y1, x2, y2) := sortrecpoints x1 y1 x2 y2
    if x2 - x1 = 0 then .error .zeroDivision
    else (pyRange x1 (x2 + 1)).foldlM (fun bmp x => hgradcol (f (x - x1).toNat) r.toNat bmp x y1 y2) bmp) bmp x1 y1 x2 y2
  pure (v.getD bmp)

/-- BITMAPlib.py 8843-8862 `horizontalbrightnessgradto24bitimage` -/
def horizontalbrightnessgradto24bitimage (f : Nat → Nat → Int) (bmp : Bytes) : Py Bytes := do
  horizontalbrightnessgradto24bitregion f bmp 0 0 ((← getmaxx bmp) - 1) ((← getmaxy bmp) - 1)

/-- BITMAPlib.py 9073-9089 `verticalbrightnessgradto24bitimage` -/
def verticalbrightnessgradto24bitimage (f : Nat → Nat → Int) (bmp : Bytes) : Py Bytes := do
  verticalbrightnessgradto24bitregion f bmp 0 0 ((← getmaxx bmp) - 1) ((← getmaxy bmp) - 1)

end Verif.Model
