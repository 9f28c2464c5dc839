import Verif.Model.Utils
import Verif.Model.CurveFiles
/-! The solids of solids3D.py with pentagons, with exact numbers in place of floats and whole numbers as sizes. -/

namespace Verif.Model
open Verif

open Classical in
/-- solids3D.py 198, 239: `sqrt((dist(pts[0], pts[1]) ** 2 - x**2))`, which raises for negative numbers. -/
noncomputable def pentaheight (pts : List (List ℝ)) (x : ℝ) : Py ℝ := do
  let p0 ← nth pts 0
  let p1 ← nth pts 1
  if vdist p0 p1 ^ 2 - x ^ 2 < 0 then .error .valueError else pure (Real.sqrt (vdist p0 p1 ^ 2 - x ^ 2))

/-- solids3D.py 179-212 `decahedvertandsurface`. -/
noncomputable def decahedvertandsurface (x : Int) : Py (List (List ℝ) × List (List Nat)) := do
  let pts := (← regpolygonvert 0 0 x 5 0).map fun p => [(p.1 : ℝ), (p.2 : ℝ)]
  let z ← pentaheight pts x
  let ring ← adddimz pts 0
  pure ([[0, 0, -z]] ++ ring ++ [[0, 0, z]], decahedSides)

/-- solids3D.py 217-264 `icosahedvertandsurface`. -/
noncomputable def icosahedvertandsurface (x : Int) : Py (List (List ℝ) × List (List Nat)) := do
  let pts := (← floatregpolygonvert 0 0 x 5 0).map fun p => [p.1, p.2]
  let pts1 := (← floatregpolygonvert 0 0 x 5 36).map fun p => [p.1, p.2]
  let z ← pentaheight pts x
  let z1 := 2 * (x : ℝ) - z
  let ring ← adddimz pts 0
  let ring1 ← adddimz pts1 (z1 - z)
  pure ([[0, 0, -z]] ++ ring ++ ring1 ++ [[0, 0, z1]], icosahedSides)

end Verif.Model
