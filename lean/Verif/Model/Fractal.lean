import Verif.Model.Float
import Verif.Model.Draw
import Mathlib.Analysis.Complex.Norm
/-! Escape time fractals: fractals.py and the plotting in BITMAPlib.py 9092-9145. -/

namespace Verif.Model
open Verif

/-- fractals.py 898 and 900: the value that belongs to pixel `x` of `x1 .. x2 - 1`. -/
def domainAt (hi lo : ℚ) (x1 x2 x : Int) : ℚ :=
  fl (lo + fl ((x - x1 : Int) * fl (fl (hi - lo) / (x2 - x1 : Int))))

/-- fractals.py 877-902 `mapfractaldomain`; the domain is `(Pmax, Pmin, Qmax, Qmin)`, all floats. -/
def mapfractaldomain (x1 y1 x2 y2 : Int) (dom : ℚ × ℚ × ℚ × ℚ) : Py (List (ℚ × Int) × List (ℚ × Int)) :=
  let (pmax, pmin, qmax, qmin) := dom
  let (x1, y1, x2, y2) := sortrecpoints x1 y1 x2 y2
  if x2 - x1 = 0 ∨ y2 - y1 = 0 then .error .zeroDivision
  else pure ((pyRange x1 x2).map fun x => (domainAt pmax pmin x1 x2 x, x),
    (pyRange y1 y2).map fun y => (domainAt qmax qmin y1 y2 y, y))

/-- fractals.py 905-930 `itermultifractal` and 933-962 `itermultifractalcomplexpar`; `func P Q` stands
for the value of the given function with its other parameters. -/
def itermultifractal (x1 y1 x2 y2 : Int) (func : ℚ → ℚ → Int) (dom : ℚ × ℚ × ℚ × ℚ) : Py (List (Int × Int × Int)) := do
  let (mp, mq) ← mapfractaldomain x1 y1 x2 y2 dom
  pure (mq.flatMap fun (q, y) => mp.map fun (p, x) => (x, y, func p q))

/-- The loop of fractals.py 265-285 `multibrot`, 223-241 `spiraljulia`, 244-262 `lambdafn`, 430-451
`multijulia`, 810-829 `multicorn`, 832-850 `barnsleytree`: `step` is the iteration and `out` the test. -/
def escapeFrom {α : Type} (step : α → α) (out : α → Bool) (maxiter : Nat) : Nat → Nat → α → Nat
  | 0, _, _ => maxiter
  | fuel + 1, i, z =>
    let z := step z
    if out z then i else escapeFrom step out maxiter fuel (i + 1) z

def escape {α : Type} (step : α → α) (out : α → Bool) (z : α) (maxiter : Nat) : Nat := escapeFrom step out maxiter maxiter 0 z

open Classical in
/-- `abs(z) > 2`, over exact complex numbers. -/
noncomputable def beyond2 (z : ℂ) : Bool := decide (2 < ‖z‖)

/-- fractals.py 265-285 `multibrot`, for a natural `d` and with exact complex numbers in place of pairs of
floats. -/
noncomputable def multibrot (c : ℂ) (d : Nat) (maxiter : Nat) : Nat := escape (fun z => z ^ d + c) beyond2 0 maxiter

/-- fractals.py 810-829 `multicorn`, for a natural `d` and exact complex numbers. -/
noncomputable def multicorn (c : ℂ) (d : Nat) (maxiter : Nat) : Nat :=
  escape (fun z => (starRingEnd ℂ z) ^ d + c) beyond2 0 maxiter

open Classical in
/-- fractals.py 430-451 `multijulia`, for a natural `d` and exact complex numbers. -/
noncomputable def multijulia (z c : ℂ) (d : Nat) (maxiter : Nat) : Nat :=
  escape (fun z => z ^ d + c) (fun z => decide (4 < (z * starRingEnd ℂ z).re)) z maxiter

/-- fractals.py 454-480 `biomorphfunc`: `re z` and `im z` stand for `abs(z.real) > a` and `abs(z.imag) > a`. -/
def biomorphFrom {α : Type} (f : α → α) (re im : α → Bool) (maxiter : Nat) : Nat → Nat → α → Nat
  | 0, _, _ => maxiter
  | fuel + 1, i, z =>
    let z := f z
    if re z && im z then i
    else if re z || im z then maxiter
    else biomorphFrom f re im maxiter fuel (i + 1) z

def biomorphfunc {α : Type} (f : α → α) (re im : α → Bool) (z : α) (maxiter : Nat) : Nat := biomorphFrom f re im maxiter maxiter 0 z

/-- mathlib.py 1435-1469 `newtonmethod`: `quot x` is `f(x) / fprime(x)`, or `none` when `fprime(x)` is 0;
`small` stands for `abs(dx) < tol`. `none` is the pair `(None, None)`. -/
def newtonFrom {α : Type} (quot : α → Option α) (sub : α → α → α) (small : α → Bool) : Nat → Nat → α → Option (α × Nat)
  | 0, _, _ => none
  | fuel + 1, i, x =>
    match quot x with
    | none => none
    | some dx => if small dx then some (x, i) else newtonFrom quot sub small fuel (i + 1) (sub x dx)

def newtonmethod {α : Type} (quot : α → Option α) (sub : α → α → α) (small : α → Bool) (x0 : α) (maxiter : Nat) : Option (α × Nat) :=
  newtonFrom quot sub small maxiter 0 x0

/-- colors.py 90-115 `colormix`; a list of factors that has not three elements raises `ValueError`. -/
def colormix (lum : Int) (f : List ℚ) : Py Int :=
  match f with
  | [r, g, b] => pure (RGB2int (trunc (fl (r * lum))) (trunc (fl (g * lum))) (trunc (fl (b * lum))))
  | _ => .error .valueError

/-- BITMAPlib.py 9092-9145 `plotmultifractal` (and 9148-9203 `plotmultifractalcomplexpar`, which differs in
the parameters of `func` only) for the triples `pts` that `func` yields. -/
def plotmultifractal (bmp : Bytes) (pts : List (Int × Int × Int)) (f : List ℚ) : Py Bytes := do
  let maxcolors ← getmaxcolors bmp
  let mcolor := maxcolors - 1
  let bits ← getItem bmp bmpcolorbits
  if bits = 24 then
    pts.foldlM (fun bmp (x, y, c) => do plotxybit bmp x y (← colormix (((255 - c) * 20).fmod 256) f)) bmp
  else if bits = 8 ∧ f.length = 3 then
    pts.foldlM (fun bmp (x, y, c) => do setItem bmp (← bmofhd8 bmp x y) c) bmp
  else if bits = 4 ∧ f.length = 3 then
    pts.foldlM (fun bmp (x, y, c) => plotxybit bmp x y c) bmp
  else if bits = 1 then
    pts.foldlM (fun bmp (x, y, c) => plotxybit bmp x y (c.fmod maxcolors)) bmp
  else
    pts.foldlM (fun bmp (x, y, c) => plotxybit bmp x y ((mcolor - c).fmod maxcolors)) bmp

end Verif.Model
