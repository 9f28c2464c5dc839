import Verif.Model.FloatAttract
import Verif.Model.FractalFiles
/-! Model of the escape time fractals of fractals.py 244-285, 430-451 and 810-850 with the arithmetic of floats, and of the
iterators and files that use them. Exponents are natural numbers up to 100, numbers do not overflow, and a complex number is the
pair of its parts. -/

namespace Verif.Model
open Verif Spec

variable (L : Libm)

/-- `abs(z) > 2` -/
def beyond2F (z : ℚ × ℚ) : Bool := decide (2 < L.hypot z.1 z.2)

/-- fractals.py 265-285 `multibrot` for `d > 0`; the first `z` is the integer 0. -/
def multibrotF (p q : ℚ) (d maxiter : Nat) : Nat := escape (fun z => caddF (cpow z d) (p, q)) (beyond2F L) (0, 0) maxiter

/-- fractals.py 810-829 `multicorn` -/
def multicornF (p q : ℚ) (d maxiter : Nat) : Nat := escape (fun z => caddF (cpow (z.1, -z.2) d) (p, q)) (beyond2F L) (0, 0) maxiter

/-- fractals.py 449: `(z * z.conjugate()).real > 4` -/
def beyond4F (z : ℚ × ℚ) : Bool := decide (4 < (cmulF z (z.1, -z.2)).1)

/-- fractals.py 430-451 `multijulia` -/
def multijuliaF (p q : ℚ) (c : ℚ × ℚ) (d maxiter : Nat) : Nat := escape (fun z => caddF (cpow z d) c) beyond4F (p, q) maxiter

/-- fractals.py 244-262 `lambdafn` -/
def lambdafnF (p q : ℚ) (c : ℚ × ℚ) (maxiter : Nat) : Nat :=
  escape (fun z => cmulF (cmulF c z) (csubF (1, 0) z)) (beyond2F L) (p, q) maxiter

/-- fractals.py 832-850 `barnsleytree` -/
def barnsleytreeF (p q : ℚ) (d : ℚ × ℚ) (maxiter : Nat) : Nat :=
  escape (fun z => cmulF d (csubF z (signQ z.1, 0))) (beyond2F L) (p, q) maxiter

/-- fractals.py 965-985 `itermandelbrot` -/
def itermandelbrot (x1 y1 x2 y2 : Int) (dom : ℚ × ℚ × ℚ × ℚ) (maxiter : Nat) : Py (List (Int × Int × Int)) :=
  itermultifractal x1 y1 x2 y2 (fun p q => multibrotF L p q 2 maxiter) dom

/-- fractals.py 988-1010 `iterjulia` -/
def iterjulia (x1 y1 x2 y2 : Int) (c : ℚ × ℚ) (dom : ℚ × ℚ × ℚ × ℚ) (maxiter : Nat) : Py (List (Int × Int × Int)) :=
  itermultifractal x1 y1 x2 y2 (fun p q => multijuliaF p q c 2 maxiter) dom

/-- fractals.py 1013-1033 `itertricorn` -/
def itertricorn (x1 y1 x2 y2 : Int) (dom : ℚ × ℚ × ℚ × ℚ) (maxiter : Nat) : Py (List (Int × Int × Int)) :=
  itermultifractal x1 y1 x2 y2 (fun p q => multicornF L p q 2 maxiter) dom

/-- BITMAPlib.py 10817-10854 `savemandelbrotfractal2file` -/
def savemandelbrotfractal2fileF (fs : Files) (file : String) (x y : Int) (dom : ℚ × ℚ × ℚ × ℚ) (f : PalSpec) (bits : Int)
    (maxiter : Nat) : Py Files :=
  savefractal2file fs file x y (fun p q => multibrotF L p q 2 maxiter) dom f bits

/-- BITMAPlib.py 10857-10897 `savemultibrotfractal2file` -/
def savemultibrotfractal2fileF (fs : Files) (file : String) (x y : Int) (d : Nat) (dom : ℚ × ℚ × ℚ × ℚ) (f : PalSpec) (bits : Int)
    (maxiter : Nat) : Py Files :=
  savefractal2file fs file x y (fun p q => multibrotF L p q d maxiter) dom f bits

/-- BITMAPlib.py 11115-11152 `savetricornfractal2file` -/
def savetricornfractal2fileF (fs : Files) (file : String) (x y : Int) (dom : ℚ × ℚ × ℚ × ℚ) (f : PalSpec) (bits : Int)
    (maxiter : Nat) : Py Files :=
  savefractal2file fs file x y (fun p q => multicornF L p q 2 maxiter) dom f bits

/-- BITMAPlib.py 11155-11195 `savemulticornfractal2file` -/
def savemulticornfractal2fileF (fs : Files) (file : String) (x y : Int) (d : Nat) (dom : ℚ × ℚ × ℚ × ℚ) (f : PalSpec) (bits : Int)
    (maxiter : Nat) : Py Files :=
  savefractal2file fs file x y (fun p q => multicornF L p q d maxiter) dom f bits

/-- BITMAPlib.py 11379-11417 `savejuliafractal2file` -/
def savejuliafractal2fileF (fs : Files) (file : String) (x y : Int) (c : ℚ × ℚ) (dom : ℚ × ℚ × ℚ × ℚ) (f : PalSpec) (bits : Int)
    (maxiter : Nat) : Py Files :=
  savefractal2file fs file x y (fun p q => multijuliaF p q c 2 maxiter) dom f bits

/-- BITMAPlib.py 11420-11460 `savemultijuliafractal2file` -/
def savemultijuliafractal2fileF (fs : Files) (file : String) (x y : Int) (c : ℚ × ℚ) (d : Nat) (dom : ℚ × ℚ × ℚ × ℚ) (f : PalSpec)
    (bits : Int) (maxiter : Nat) : Py Files :=
  savefractal2file fs file x y (fun p q => multijuliaF p q c d maxiter) dom f bits

/-- BITMAPlib.py 9705-9745 `savelambdafractal2file` -/
def savelambdafractal2fileF (fs : Files) (file : String) (x y : Int) (c : ℚ × ℚ) (dom : ℚ × ℚ × ℚ × ℚ) (f : PalSpec) (bits : Int)
    (maxiter : Nat) : Py Files :=
  savefractal2file fs file x y (fun p q => lambdafnF L p q c maxiter) dom f bits

/-- BITMAPlib.py 11198-11238 `savebarnsleytreefractal2file` -/
def savebarnsleytreefractal2fileF (fs : Files) (file : String) (x y : Int) (d : ℚ × ℚ) (dom : ℚ × ℚ × ℚ × ℚ) (f : PalSpec) (bits : Int)
    (maxiter : Nat) : Py Files :=
  savefractal2file fs file x y (fun p q => barnsleytreeF L p q d maxiter) dom f bits

/-- `x % m` for a float `x` that is not negative; the result is exact. -/
def modQ (x : ℚ) (m : Nat) : ℚ := x - m * ⌊x / m⌋

/-- fractals.py 322-336 `multisuperellipse`; `pw x d` is `x ** d` of the C library. The result is not rounded to a whole number. -/
def multisuperellipseF (pw : ℚ → Nat → ℚ) (p q : ℚ) (d maxiter : Nat) : ℚ := modQ |fl (pw p d + pw q d)| maxiter

/-- fractals.py 905-930 `itermultifractal` for a function with float values; 1109-1130 `itermultisuperellipse` -/
def itermultifractalQ (x1 y1 x2 y2 : Int) (func : ℚ → ℚ → ℚ) (dom : ℚ × ℚ × ℚ × ℚ) : Py (List (Int × Int × ℚ)) := do
  let (mp, mq) ← mapfractaldomain x1 y1 x2 y2 dom
  pure (mq.flatMap fun (q, y) => mp.map fun (p, x) => (x, y, func p q))

/-- colors.py 90-115 `colormix` for a float `lum` -/
def colormixQ (lum : ℚ) (f : List ℚ) : Py Int :=
  match f with
  | [r, g, b] => pure (RGB2int (trunc (fl (r * lum))) (trunc (fl (g * lum))) (trunc (fl (b * lum))))
  | _ => .error .valueError

/-- BITMAPlib.py 9092-9145 `plotmultifractal` for values that are floats between 0 and 255. With 4 or 8 bits storing a float, or
its `&` with an integer, raises `TypeError`; with 1 bit `plotxybit` compares it with 0 only. -/
def plotmultifractalQ (bmp : Bytes) (pts : List (Int × Int × ℚ)) (f : List ℚ) : Py Bytes := do
  let bits ← getItem bmp bmpcolorbits
  if bits = 24 then
    pts.foldlM (fun bmp (x, y, c) => do plotxybit bmp x y (← colormixQ (modQ (fl (fl (255 - c) * 20)) 256) f)) bmp
  else if bits = 8 ∧ f.length = 3 then
    pts.foldlM (fun bmp (x, y, _) => do
      let _ ← bmofhd8 bmp x y
      .error .typeError) bmp
  else if bits = 1 then
    pts.foldlM (fun bmp (x, y, c) => plotxybit bmp x y (if 0 < modQ c 2 then 1 else 0)) bmp
  else
    pts.foldlM (fun bmp (x, y, _) => do
      if !(← isinBMPrectbnd bmp x y) then pure bmp else .error .typeError) bmp

/-- BITMAPlib.py 10986-11026 `savemultisuperellipsefractal2file` with 9385-9414 `multisuperellipse` -/
def savemultisuperellipsefractal2file (pw : ℚ → Nat → ℚ) (fs : Files) (file : String) (x y : Int) (d : Nat) (dom : ℚ × ℚ × ℚ × ℚ) (f : PalSpec)
    (bits : Int) (maxiter : Nat) : Py Files := do
  let bmp ← newBMPwithPAL x y bits f
  let pts ← itermultifractalQ 0 0 x y (fun p q => multisuperellipseF pw p q d maxiter) dom
  let bmp ← plotmultifractalQ bmp pts (factorList f)
  pure (writeFile fs file bmp)

end Verif.Model
