import Verif.Model.Plane
import Verif.Model.Fractal
import Mathlib.Analysis.SpecialFunctions.Trigonometric.Basic
import Mathlib.Analysis.SpecialFunctions.Pow.Real
/-! Model of the curves of primitives2D.py 899-1556 that are given by a formula. Their arithmetic is modelled
by real and complex numbers; the constants `0.0174...` and `1.414...` stand for pi / 180 and the root of 2. -/

namespace Verif.Model
open Verif Spec

/-- `cmath.rect(r, t)` -/
noncomputable def rectC (r t : ℝ) : ℂ := ⟨r * Real.cos t, r * Real.sin t⟩

/-- `(round(z.real), round(z.imag))` -/
noncomputable def roundC (z : ℂ) : Int × Int := (rndR z.re, rndR z.im)

/-- `(int(z.real), int(z.imag))` -/
noncomputable def intC (z : ℂ) : Int × Int := (truncR z.re, truncR z.im)

/-- `complex(x, y)` -/
noncomputable def cplx (x y : Int) : ℂ := ⟨(x : ℝ), (y : ℝ)⟩

/-- The values of `t` in a loop `t = 0; while t < lim: ...; t += delta` with a positive `delta`; the code adds
floats. For other values of `delta` and a positive `lim` the loop has no end. -/
noncomputable def steps (delta lim : ℝ) : List ℝ := (List.range ⌈lim / delta⌉₊).map fun (k : Nat) => (k : ℝ) * delta

/-- `math.radians` -/
noncomputable def radians (d : ℝ) : ℝ := d * (Real.pi / 180)

/-- primitives2D.py 899-932 `iterspirograph`, and 935-959 `spirographvert`; `k` is not 0. -/
noncomputable def iterspirograph (x y r : Int) (l k delta lim : ℝ) : List (Int × Int) :=
  let e := l * k
  let d := 1 - k
  let f := d / k
  let q := cplx x y
  (steps delta lim).map fun a => roundC ((r : ℂ) * (rectC d a + rectC e (a * f)) + q)

/-- primitives2D.py 962-993 `iterlissajouscurve`, and 996-1024 `lissajouscurvevert` -/
noncomputable def iterlissajouscurve (x y : Int) (a b c d e delta lim : ℝ) : List (Int × Int) :=
  (steps delta lim).map fun t => (x + rndR (a * Real.cos (c * t + e)), y + rndR (b * Real.sin (d * t)))

/-- primitives2D.py 1027-1063 `itercircleinvolute`, and 1066-1095 `circleinvolutevert` -/
noncomputable def itercircleinvolute (x y : Int) (a delta lim : ℝ) : List (Int × Int) :=
  let b := cplx x y
  (steps delta lim).map fun t =>
    let z := rectC 1 t
    let z := z * ((a : ℂ) * z * (t : ℂ) * Complex.I)
    roundC (z + b)

/-- primitives2D.py 1098-1130 `iterepicycloid`, and 1133-1157 `epicycloidvert`; `b` is not 0. -/
noncomputable def iterepicycloid (x y : Int) (a b delta lim : ℝ) : List (Int × Int) :=
  let p := a + b
  let c := a / b + 1
  let q := cplx x y
  (steps delta lim).map fun t => roundC (rectC p t - rectC b (c * t) + q)

/-- primitives2D.py 1160-1196 `iterhypotrochoid`, and 1199-1227 `hypotrochoidvert`; `b` is not 0. -/
noncomputable def iterhypotrochoid (x y : Int) (a b c delta lim : ℝ) : List (Int × Int) :=
  let p := a - b
  let d := a / b + 1
  let q := cplx x y
  (steps delta lim).map fun t => roundC (rectC p t - rectC c (d * t) + q)

/-- primitives2D.py 1230-1251 `iterflower`, and 1254-1267 `flowervert` -/
noncomputable def iterflower (cx cy r petals : Int) (angrot : ℝ) : List (Int × Int) :=
  let p : ℝ := (petals : ℝ) / 2
  let angmax := 360 * petals
  let angrot := radians angrot
  (pyRange 0 angmax).map fun (a : Int) =>
    let ang := radians ((a : ℝ) / petals)
    let f := Real.cos (p * ang) ^ 2 * r
    let rang := ang + angrot
    (truncR (cx - f * Real.sin rang), truncR (cy - f * Real.cos rang))

/-- mathlib.py 424-442 `sign` -/
noncomputable def signR (v : ℝ) : ℝ := if v > 0 then 1 else if v = 0 then 0 else -1

/-- primitives2D.py 1359-1380 `itersuperellipse`, and 1383-1399 `superellipsevert`, for positive `m` and `n` -/
noncomputable def itersuperellipse (cx cy : Int) (a b m n : ℝ) : List (Int × Int) :=
  let p := 2 / m
  let q := 2 / n
  (List.range 360).map fun (i : Nat) =>
    let t := radians i
    let w := Real.cos t
    let x := cx + truncR (|w| ^ p * a * signR w)
    let w := Real.sin t
    let y := cy + truncR (|w| ^ q * b * signR w)
    (x, y)

/-- primitives2D.py 1323-1338 `itersquircle`, and 1341-1356 `squirclevert` -/
noncomputable def itersquircle (x y r : Int) : List (Int × Int) := itersuperellipse x y r r 4 4

/-- BITMAPlib.py 3483-3510 `squircle` -/
noncomputable def squircle (bmp : Bytes) (x y r color : Int) : Py Bytes := plotpoly bmp (itersquircle x y r) color

/-- primitives2D.py 1402-1420 `itergearcurve`, and 1423-1437 `gearcurvevert` -/
noncomputable def itergearcurve (cx cy a b n : Int) : List (Int × Int) :=
  let q := cplx cx cy
  (List.range 360).map fun (i : Nat) =>
    let t := radians i
    intC (rectC (a + b * Real.tanh (b * Real.sin (n * t))) t + q)

/-- primitives2D.py 1440-1457 `itercornuspiral`, and 1460-1472 `cornuspiralvert` -/
noncomputable def itercornuspiral (cx cy r : Int) : List (Int × Int) :=
  let c := Real.pi / 180
  let k := r * c
  ((((List.range 360).map fun (i : Nat) => rectC k (i * c * (i * c))).scanl (· + ·) (cplx cx cy)).tail).map intC

/-- primitives2D.py 1475-1493 `iterheartcurve`, and 1496-1508 `heartcurvevert` -/
noncomputable def iterheartcurve (cx cy s : Int) : List (Int × Int) :=
  let c := Real.pi / 180
  (List.range 360).map fun (i : Nat) =>
    let t := i * c
    let x := 16 * Real.sin t ^ 3
    let y := 13 * Real.cos t - 5 * Real.cos (2 * t) - 2 * Real.cos (3 * t) - Real.cos (4 * t)
    (cx + truncR (s * x), cy - truncR (s * y))

/-- primitives2D.py 1511-1537 `itereggcurve`, and 1540-1556 `eggcurvevert`. The real part of the root of a
negative number is 0, as that of `Real.sqrt`. -/
noncomputable def itereggcurve (cx cy a : Int) (b : ℝ) : List (Int × Int) :=
  let k := a - b
  let c := pyShr a 1
  if k > 0 then
    (pyRange 0 a).flatMap fun (x : Int) =>
      let y := truncR (Real.sqrt (k - 2 * x + Real.sqrt (4 * b * x + k)) * Real.sqrt x / Real.sqrt 2)
      if y > 0 then [(cx + x - c, cy - y), (cx + x - c, cy + y)] else []
  else []

/-- The brightness in BITMAPlib.py 10702. -/
noncomputable def flowerLum (cx cy r : Int) (lum : Int × Int) (x y : Int) : Int :=
  setmax |truncR (lum.1 + (lum.2 - lum.1) * (vdist [(x : ℝ), (y : ℝ)] [(cx : ℝ), (cy : ℝ)] / r))| 255

/-- BITMAPlib.py 10674-10705 `plotflower`; the distance is computed exactly. -/
noncomputable def plotflower (bmp : Bytes) (cx cy r petals : Int) (angrot : ℝ) (lum : Int × Int) (f : ℚ × ℚ × ℚ) : Py Bytes := do
  let maxcolors ← getmaxcolors bmp
  let mcolor := maxcolors - 1
  (iterflower cx cy r petals angrot).foldlM (fun bmp (p : Int × Int) => if r = 0 then .error .zeroDivision else do
    let c := colormixF (flowerLum cx cy r lum p.1 p.2) f
    let bits ← getItem bmp bmpcolorbits
    let c := if bits ≠ 24 then mcolor - c.fmod maxcolors else c
    plotxybit bmp p.1 p.2 c) bmp

/-- BITMAPlib.py 12147-12177 `plotfilledflower` -/
noncomputable def plotfilledflower (bmp : Bytes) (cx cy r petals : Int) (angrot : ℝ) (lum : Int × Int) (f : ℚ × ℚ × ℚ) : Py Bytes := do
  (← pyRange3 r 2 (-1)).foldlM (fun bmp nr => plotflower bmp cx cy nr petals angrot lum f) bmp

end Verif.Model
