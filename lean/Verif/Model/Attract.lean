import Verif.Model.Escape
import Verif.Model.Curves
/-! Model of fractals.py 1969-2201 (the lists of points of attractors) and BITMAPlib.py 12640-13066 (their pictures).
The lists are computed in real and complex numbers without rounding. -/

namespace Verif.Model
open Verif Spec

/-- The loop of fractals.py 1969-2201: `n` steps, the state after each one is kept. -/
def trail {α : Type} (step : α → α) : Nat → α → List α
  | 0, _ => []
  | n + 1, s =>
    let s := step s
    s :: trail step n s

/-- fractals.py 1969-1984 `ikedaattractorlist` -/
noncomputable def ikedaattractorlist (a b k p : ℝ) (n : Nat) : List ℂ :=
  trail (fun z : ℂ => a + b * z * Complex.exp (Complex.I * k - Complex.I * p / ((1 + ‖z * z‖ : ℝ) : ℂ))) n 0

/-- fractals.py 1987-2003 `nattractorlist`: the second formula uses the new `x`. -/
noncomputable def nattractorlist (a b c d : ℝ) (n : Nat) : List (ℝ × ℝ) :=
  trail (fun s : ℝ × ℝ =>
    let x := a * Real.sin (a * s.2) + b * Real.cos (b * s.1)
    let y := c * Real.sin (c * x) + d * Real.cos (d * s.2)
    (x, y)) n (0, 0)

/-- fractals.py 2028 -/
noncomputable def gumowskimira (a x : ℝ) : ℝ :=
  let k := 2 * (1 - a)
  a * x + k * x * x * ((1 + x * x) ^ 2)⁻¹

/-- fractals.py 2006-2036 `gumowskimiraattractorlist`; the last number of the state is `g`. -/
noncomputable def gumowskimiraattractorlist (x y a b : ℝ) (n : Nat) : List (ℝ × ℝ) :=
  (trail (fun s : ℝ × ℝ × ℝ =>
    let z := s.1
    let x := b * s.2.1 + s.2.2
    let g := gumowskimira a x
    let y := g - z
    (x, y, g)) n (x, y, gumowskimira a x)).map fun s => (s.1, s.2.1)

/-- fractals.py 2039-2060 `peterdejongattractorlist` -/
noncomputable def peterdejongattractorlist (a b c d : ℝ) (n : Nat) : List (ℝ × ℝ) :=
  trail (fun s : ℝ × ℝ => (Real.sin (a * s.2) - Real.cos (b * s.1), Real.sin (c * s.1) - Real.cos (d * s.2))) n (0, 0)

/-- fractals.py 2063-2084 `cliffordattractorlist` -/
noncomputable def cliffordattractorlist (a b c d : ℝ) (n : Nat) : List (ℝ × ℝ) :=
  trail (fun s : ℝ × ℝ => (Real.sin (a * s.2) + c * Real.cos (a * s.1), Real.sin (b * s.1) + d * Real.cos (b * s.2))) n (0, 0)

/-- fractals.py 2087-2114 `fractaldreamattractorlist` -/
noncomputable def fractaldreamattractorlist (a b c d : ℝ) (n : Nat) : List (ℝ × ℝ) :=
  trail (fun s : ℝ × ℝ => (Real.sin (b * s.2) + c * Real.sin (b * s.1), Real.sin (a * s.1) + d * Real.sin (a * s.2))) n (1 / 10, 1 / 10)

/-- fractals.py 2117-2138 `hopalongattractorlist` -/
noncomputable def hopalongattractorlist (a b c : ℝ) (n : Nat) : List (ℝ × ℝ) :=
  trail (fun s : ℝ × ℝ => (s.2 - signR s.1 * Real.sqrt |b * s.1 - c|, a - s.1)) n (0, 0)

/-- fractals.py 2163-2170: the step of `symmetriciconattractorlist`, for a positive `d` -/
noncomputable def iconStep (a b g o l : ℝ) (d : Nat) (z : ℂ) : ℂ :=
  let p := z ^ (d - 1)
  let c := starRingEnd ℂ z
  ((a * ‖z * c‖ + l + b * (z.re * p.re - z.im * p.im) : ℝ) : ℂ) * z + starRingEnd ℂ (g * p) - o * c * Complex.I

/-- fractals.py 2141-2171 `symmetriciconattractorlist` -/
noncomputable def symmetriciconattractorlist (x y a b g o l : ℝ) (d n : Nat) : List ℂ := trail (iconStep a b g o l d) n ⟨x, y⟩

/-- fractals.py 2174-2201 `duffingattractorlist`; the last number of the state is the time. -/
noncomputable def duffingattractorlist (x y t dt a b w : ℝ) (n : Nat) : List (ℝ × ℝ) :=
  (trail (fun s : ℝ × ℝ × ℝ =>
    let dx := s.2.1 * dt
    let dy := (s.1 - s.1 ^ 3 - a * s.2.1 + b * Real.cos (w * s.2.2)) * dt
    (s.1 + dx, s.2.1 + dy, s.2.2 + dt)) n (x, y, t)).map fun s => (s.1, s.2.1)

/-- BITMAPlib.py 12657 and 12660: the colour for the count `c`, with counts from `lo` to `hi` -/
def attractColor (maxcolors : Int) (lo hi c : Nat) : Int :=
  trunc (fl ((c - lo : Int) * fl ((maxcolors - 1 : Int) / (hi - lo : Int))))

/-- BITMAPlib.py 12664-12685 `plotattractor`, and 12640-12661 `plotattractorcomplex` with 1576-1588
`getcomplexdomainbounds` and 1639-1658 `histogram2Dcomplex` of mathlib.py, which differ in the names of the
coordinates. `v` are floats. -/
def plotattractor (v : List (ℚ × ℚ)) (x y bits : Int) : Py Bytes := do
  let h ← histogram2D v x y
  match h.flatten with
  | [] => .error .valueError
  | c :: fh => do
    let lo := fh.foldl min c
    let hi := fh.foldl max c
    let bmp ← newBMP x y bits
    let maxcolors ← getmaxcolors bmp
    if (hi - lo : Int) = 0 then .error .zeroDivision
    else
      let pts := (pyRange 0 y).flatMap fun q => (pyRange 0 x).map fun p => (p, q)
      pts.foldlM (fun (bmp : Bytes) (p : Int × Int) =>
        plotxybit bmp p.1 p.2 (attractColor maxcolors lo hi ((h.getD p.2.toNat []).getD p.1.toNat 0))) bmp

/-- BITMAPlib.py 12868-13066 `saveikedaattractor2file` .. `savefractaldreamattractor2file` -/
def saveattractor2file (fs : Files) (file : String) (v : List (ℚ × ℚ)) (x y bits : Int) : Py Files := do
  pure (writeFile fs file (← plotattractor v x y bits))

end Verif.Model
