import Verif.Model.Shapes
import Verif.Model.Hilbert
import Verif.Model.Koch
import Verif.Model.Curves
import Verif.Model.Plane
import Verif.Model.Files
/-! Files with Hilbert curves and Koch snowflakes. -/

namespace Verif.Model
open Verif Spec

/-- BITMAPlib.py 12086-12090 and 12133-12136: a new image with its background -/
def newWithBackground (x y bits backgroundcolor : Int) : Py Bytes := do
  let bmp ← newBMP x y bits
  if backgroundcolor > 0 then filledrect bmp 0 0 (x - 1) (y - 1) backgroundcolor else pure bmp

/-- BITMAPlib.py 12056-12098 `savehilbertcurve2file` -/
def savehilbertcurve2file (fs : Files) (file : String) (x y order bitdepth color backgroundcolor penradius orientation : Int) : Py Files := do
  let bmp ← newWithBackground x y bitdepth backgroundcolor
  let x := x - 1
  let y := y - 1
  let o := if orientation = 1 then (0, x, y, 0) else (x, 0, 0, y)
  let l := hilbertvert [] (0, 0) o order
  let bmp ← plotlines bmp l color penradius
  pure (writeFile fs file bmp)

/-- primitives2D.py 513-536 `regpolygonvert`, with exact numbers -/
noncomputable def regpolygonvert (cx cy r sides : Int) (angle : ℝ) : Py (List (Int × Int)) := do
  let v ← floatregpolygonvert cx cy r sides angle
  pure (v.map fun p => (rndR p.1, rndR p.2))

/-- BITMAPlib.py 12101-12144 `savekochsnowflake2file` with fractals.py 1945-1966 `kochsnowflakevert`; exact complex numbers, and
`√3 / 6` for the constant of `koch`. -/
noncomputable def savekochsnowflake2file (fs : Files) (file : String) (r : Int) (order : Nat) (angle : ℝ)
    (bitdepth color backgroundcolor penradius : Int) : Py Files := do
  let x := pyShl r 1 + pyShl penradius 1 + 2
  let bmp ← newWithBackground x x bitdepth backgroundcolor
  let cx := pyShr (x - 1) 1
  match ← regpolygonvert cx cx r 3 angle with
  | [a, b, c] => do
    let z : Int × Int → ℂ := fun p => ⟨p.1, p.2⟩
    let l ← kochsnowflakevert (koch (Real.sqrt 3 / 6)) 0 (z a) (z b) (z c) order
    let l := l.map fun p => (rndR p.re, rndR p.im)
    let bmp ← if penradius > 1 then thickplotpoly bmp l penradius color else plotpoly bmp l color
    pure (writeFile fs file bmp)
  | _ => .error .valueError

end Verif.Model
