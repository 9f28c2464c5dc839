import Verif.Model.Solids
import Verif.Model.Utils
import Verif.Model.Files
import Verif.Model.Fractal
import Verif.Model.Curves
/-! Remaining small functions: proctimer.py, tables of fractals.py, and functions of mathlib.py, solids3D.py and BITMAPlib.py. -/

namespace Verif.Model

/-- `str(n).zfill(2)` for a natural number. -/
def zfill2 (n : Nat) : String := if (toString n).length < 2 then "0" ++ toString n else toString n

/-- proctimer.py 34-56 `hhmmsselaspedtime`; `t` is `process_time_ns() - inittime`, which is not negative. -/
def hhmmsselaspedtime (t : Nat) : String :=
  let (secs, ns) := (t / 1000000000, t % 1000000000)
  let (mins, secs) := (secs / 60, secs % 60)
  let (hrs, mins) := (mins / 60, mins % 60)
  ((((zfill2 hrs ++ ":") ++ zfill2 mins) ++ ":") ++ zfill2 secs ++ ".") ++ toString ns

/-- proctimer.py 20-31 `elaspedtimeinseconds`, for the same `t`. -/
def elaspedtimeinseconds (t : Nat) : ℚ := fl ((t : ℚ) / 1000000000)

/-- fractals.py 86-104 `funcparamdict`, with exact complex numbers. -/
noncomputable def funcparamdict : List (ℚ × (ℂ → ℂ) × (ℂ → ℂ)) := [
  (3, fun z => z * z * z - 1, fun z => 3 * (z * z)),
  (4, fun z => z * z * z * z - 1, fun z => 4 * (z * z * z)),
  (4.1, fun z => z * z * z * z - z, fun z => 4 * (z * z * z) - 1),
  (5, fun z => (z * z * z * z * z) - 1, fun z => 5 * (z * z * z * z)),
  (5.1, fun z => (z * z * z * z * z) - z, fun z => 5 * (z * z * z * z) - 1),
  (5.3, fun z => (z * z * z * z * z) - (z * z * z), fun z => 5 * (z * z * z * z) - 3 * (z * z)),
  (6, fun z => (z * z * z * z * z * z) - 1, fun z => 6 * (z * z * z * z * z)),
  (6.3, fun z => (z * z * z * z * z * z) - (z * z * z) - 1, fun z => 6 * (z * z * z * z * z) - 3 * (z * z))]

open Classical in
/-- fractals.py 413-427 `newton` with mathlib.py 1435-1469 `newtonmethod` and its tolerance, with exact complex numbers. -/
noncomputable def newton (d : (ℂ → ℂ) × (ℂ → ℂ)) (maxiter : Nat) (p q : ℚ) : Option (ℂ × Nat) :=
  newtonmethod (fun x => if d.2 x ≠ 0 then some (d.1 x / d.2 x) else none) (fun x dx => x - dx) (fun dx => decide (‖dx‖ < 1 / 10 ^ 8)) ⟨p, q⟩ maxiter

/-- fractals.py 77-83 `fractaldomainparamdict` -/
def fractaldomainparamdict : List (String × ℚ × ℚ × ℚ × ℚ) := [
  ("maxdefault", 1.75, -1.75, 1.5, -1.5),
  ("maxeqdim", 1.75, -1.75, 1.75, -1.75),
  ("middefault", 0.75, -1.25, 1.25, -1.25),
  ("mindefault", 0.75, -0.75, 0.5, -0.5),
  ("mineqdim", 0.5, -0.5, 0.5, -0.5),
  ("custom1", -0.5, -0.7, -0.5, -0.7)]

/-- mathlib.py 1605-1615 `initmatrix` -/
def initmatrix {α : Type} (i j : Int) (initval : α) : List (List α) :=
  (pyRange 0 j).map fun _ => (pyRange 0 i).map fun _ => initval

/-- BITMAPlib.py 1326-1342 `RGBpalbrightnessadjust`; `g` as in `relumadjust`. -/
def RGBpalbrightnessadjust (g : Nat → Nat → Int) (bmp : Bytes) : Py (List RGB) := do
  pure ((← getallRGBpal bmp).map (relumadjust g))

/-- BITMAPlib.py 1860-1875 `plotRGBxybitvec` -/
def plotRGBxybitvec (bmp : Bytes) (v : Int × Int) (rgb : RGB) : Py Bytes := plotRGBxybit bmp v.1 v.2 rgb

/-- solids3D.py 267-283 `rotvec3D` -/
noncomputable def rotvec3D (roll pitch yaw : ℝ) : (ℝ × ℝ) × (ℝ × ℝ) × (ℝ × ℝ) :=
  (computerotvec roll, computerotvec pitch, computerotvec yaw)

/-- solids3D.py 564-588 `spherevertandsurface`; the dictionary of levels is read in the order of the list of levels. -/
noncomputable def spherevertandsurface (vcen : List ℝ) (r : ℝ) (step : Int) : Py (List (List ℝ) × List (List Nat)) := do
  let s ← spherevert vcen r step
  let lv := zlevelcoords (s.map fun p => (p.getD 0 0, p.getD 1 0, p.getD 2 0))
  let f ← genspheresurfaces (lv.1.map fun z => (lv.2.lookup z).getD [])
  pure (s, f)

/-- primitives2D.py 579-595 `circlevert` -/
def circlevert (x y r : Int) : List (Int × Int) := itercircle x y r

/-- primitives2D.py 369-386 `beziercurvevert`; the two flags are not used. -/
def beziercurvevert (pntlist : List (ℚ × ℚ)) (_isclosed _curveback : Bool) : Py (List (Int × Int)) := iterbeziercurve pntlist

/-- primitives2D.py 428-445 `bsplinevert` -/
def bsplinevert (pntlist : List (ℚ × ℚ)) (isclosed curveback : Bool) : Py (List (Int × Int)) := iterbspline pntlist isclosed curveback

end Verif.Model
