import Verif.Py
import Mathlib.Analysis.SpecialFunctions.Trigonometric.Arctan
import Mathlib.Analysis.SpecialFunctions.Trigonometric.Inverse
/-! mathlib.py: vectors, statistics, coordinates, interpolation and the Fourier transform, with exact
numbers in place of floats. -/

namespace Verif.Model
open Verif

/-- `l[k]` for an index that is not negative. -/
def nth {α : Type} (l : List α) (k : Nat) : Py α :=
  match l[k]? with
  | some a => .ok a
  | none => .error .indexError

section Vectors
variable {K : Type} [Field K]

/-- mathlib.py 149-160 `addvect`. -/
def addvect (u v : List K) : List K := List.zipWith (· + ·) u v

/-- mathlib.py 179-191 `subvect`. -/
def subvect (u v : List K) : List K := List.zipWith (· - ·) u v

/-- mathlib.py 194-205 `mulvect`. -/
def mulvect (u v : List K) : List K := List.zipWith (· * ·) u v

/-- mathlib.py 214-231 `scalarmulvect`. -/
def scalarmulvect (v : List K) (s : K) : List K := v.map (· * s)

/-- mathlib.py 234-251 `scalardivvect`; dividing no element does not raise. -/
def scalardivvect [DecidableEq K] (v : List K) (s : K) : Py (List K) :=
  if s = 0 ∧ v ≠ [] then .error .zeroDivision else .ok (v.map (· / s))

/-- mathlib.py 163-176 `trans`. -/
def trans (vlist : List (List K)) (u : List K) : List (List K) := vlist.map fun v => addvect v u

/-- mathlib.py 303-315 `pivotlist`. -/
def pivotlist {α : Type} (vlist : List (List α)) : Py (List (List α)) := do
  let first ← nth vlist 0
  (List.range first.length).mapM fun i => vlist.mapM fun v => nth v i

/-- mathlib.py 599-610 `vectiszero`. -/
def vectiszero [DecidableEq K] (v : List K) : Bool := v.all fun u => decide (u = 0)

/-- mathlib.py 613-636 `isorthogonal`. -/
def isorthogonal [DecidableEq K] (u v : List K) : Bool := vectiszero (mulvect u v)

/-- mathlib.py 639-662 `crossprod3d`. -/
def crossprod3d (u v : List K) : List K :=
  match u, v with
  | [u0, u1, u2], [v0, v1, v2] => [u1 * v2 - u2 * v1, u2 * v0 - u0 * v2, u0 * v1 - u1 * v0]
  | _, _ => [0, 0, 0]

/-- mathlib.py 665-684 `getnormvec`. -/
def getnormvec (p1 p2 p3 : List K) : List K := crossprod3d (subvect p2 p1) (subvect p3 p1)

/-- mathlib.py 687-701 `dotprod`. -/
def dotprod (u v : List K) : K := (mulvect u v).sum

/-- mathlib.py 764-784 `det3D`, for lists of three elements. -/
def det3D (a1 a2 a3 : K × K × K) : K :=
  let (a10, a11, a12) := a1
  let (a20, a21, a22) := a2
  let (a30, a31, a32) := a3
  a10 * a21 * a32 + a11 * a22 * a30 + a12 * a20 * a31 - a10 * a22 * a31 - a11 * a20 * a32 - a12 * a21 * a20

/-- mathlib.py 1055-1070 `rotvec2D`. -/
def rotvec2D (v rotvec : K × K) : K × K :=
  let (x, y) := v
  let (a, b) := rotvec
  (x * b - y * a, x * a + y * b)

/-- mathlib.py 1105-1122 `mirrorvec`. -/
def mirrorvec (vcen v : List K) : List K × List K := (subvect vcen v, addvect vcen v)

/-- mathlib.py 275-285 `mean`. -/
def meanvec [DecidableEq K] (v : List K) : Py K := if v.length = 0 then .error .zeroDivision else .ok (v.sum / v.length)

/-- mathlib.py 318-331 `variance`: the differences from the mean. -/
def variance [DecidableEq K] (v : List K) : Py (List K) := do
  let ave ← meanvec v
  pure (v.map (· - ave))

/-- mathlib.py 443-462 `LSMslope`. -/
def LSMslope [DecidableEq K] (XYdata : List (List K)) : Py K := do
  let XY ← pivotlist XYdata
  let N : K := XYdata.length
  let X ← nth XY 0
  let Y ← nth XY 1
  let EX := X.sum
  let EY := Y.sum
  let EXY := (mulvect X Y).sum
  let EsqX := (mulvect X X).sum
  if N * EsqX - EX ^ 2 = 0 then .error .zeroDivision
  else pure ((N * EXY - EX * EY) / (N * EsqX - EX ^ 2))

/-- mathlib.py 465-480 `LSMYint`. -/
def LSMYint [DecidableEq K] (XYdata : List (List K)) : Py K := do
  let XY ← pivotlist XYdata
  let meanX ← meanvec (← nth XY 0)
  let meanY ← meanvec (← nth XY 1)
  pure (meanY - (← LSMslope XYdata) * meanX)

end Vectors

/-- mathlib.py 704-714 `vmag`. -/
noncomputable def vmag (v : List ℝ) : ℝ := Real.sqrt (v.map fun i => i * i).sum

/-- mathlib.py 717-730 `dist`. -/
noncomputable def vdist (u v : List ℝ) : ℝ := vmag (subvect u v)

/-- mathlib.py 1556-1573 `normvec`. -/
noncomputable def normvec (v : List ℝ) : Py (List ℝ) := open Classical in scalardivvect v (vmag v)

open Classical in
/-- mathlib.py 787-802 `cosaffin`. -/
noncomputable def cosaffin (u v : List ℝ) : Py ℝ :=
  if vmag u * vmag v = 0 then .error .zeroDivision else .ok (dotprod u v / (vmag u * vmag v))

open Classical in
/-- mathlib.py 483-520 `PearsonsR`. -/
noncomputable def PearsonsR (XYdata : List (List ℝ)) : Py ℝ := do
  let XY ← pivotlist XYdata
  let N : ℝ := XYdata.length
  let X ← nth XY 0
  let Y ← nth XY 1
  let EX := X.sum
  let EY := Y.sum
  let EXY := (mulvect X Y).sum
  let EsqX := (mulvect X X).sum
  let EsqY := (mulvect Y Y).sum
  let den := Real.sqrt (|N * EsqX - EX ^ 2| * |N * EsqY - EY ^ 2|)
  if den = 0 then .error .zeroDivision else pure ((N * EXY - EX * EY) / den)

open Classical in
/-- mathlib.py 553-563 `StdDev`. -/
noncomputable def StdDev (v : List ℝ) : Py ℝ := do
  let vr ← variance v
  pure (Real.sqrt ((mulvect vr vr).sum / v.length))

/-- mathlib.py 1394-1405 `centerpoint`. -/
def centerpoint (x1 y1 x2 y2 : Int) : Int × Int := ((x2 - x1) / 2 + x1, (y2 - y1) / 2 + y1)

section Interpolation
variable {K : Type} [Field K] [DecidableEq K]

/-- mathlib.py 1673-1690 `lerp`. -/
def lerp (a b f : K) : K := (1 - f) * a + f * b

/-- mathlib.py 1693-1714 `invlerp`. -/
def invlerp (a b v : K) : K :=
  let d := b - a
  if d ≠ 0 then (v - a) / d else 1

/-- mathlib.py 1740-1763 `smoothstep`. -/
def smoothstep (a b v : K) : K :=
  let d := b - a
  let v := if d ≠ 0 then (v - a) / d else 1
  v * v * (3 - 2 * v)

/-- mathlib.py 1766-1789 `smootherstep`. -/
def smootherstep (a b v : K) : K :=
  let d := b - a
  let v := if d ≠ 0 then (v - a) / d else 1
  v * v * v * (v * (v * 6 - 15) + 10)

/-- mathlib.py 1792-1815 `smootheststep`. -/
def smootheststep (a b v : K) : K :=
  let d := b - a
  let v := if d ≠ 0 then (v - a) / d else 1
  v * v * v * v * (v * (v * (-20 * v + 70) - 84) + 35)

/-- mathlib.py 1834-1852 `smoothsteplerp`, 1855-1873 `smoothersteplerp` and 1876-1894 `smootheststeplerp`. -/
def smoothsteplerp (a b f : K) : K := lerp a b (smoothstep a b (lerp a b f))
def smoothersteplerp (a b f : K) : K := lerp a b (smootherstep a b (lerp a b f))
def smootheststeplerp (a b f : K) : K := lerp a b (smootheststep a b (lerp a b f))

end Interpolation

/-- mathlib.py 1818-1831 `invsmoothstep`. -/
noncomputable def invsmoothstep (x : ℝ) : ℝ := 0.5 - Real.sin (Real.arcsin (1 - 2 * x) / 3)

open Classical in
/-- mathlib.py 861-890 `rect2sphericalcoord3D`. -/
noncomputable def rect2spherical (v : ℝ × ℝ × ℝ) : Py (ℝ × ℝ × ℝ) :=
  let (x, y, z) := v
  let p := vmag [x, y, z]
  if x = 0 ∨ p = 0 then .error .zeroDivision else .ok (p, Real.arctan (y / x), Real.arccos (z / p))

/-- mathlib.py 893-922 `spherical2rectcoord3D`. -/
noncomputable def spherical2rect (s : ℝ × ℝ × ℝ) : ℝ × ℝ × ℝ :=
  let (p, theta, phi) := s
  let sinphi := Real.sin phi
  (p * sinphi * Real.cos theta, p * sinphi * Real.sin theta, p * Real.cos phi)

open Classical in
/-- mathlib.py 925-943 `rect2cylindricalcoord3D`. -/
noncomputable def rect2cylindrical (v : ℝ × ℝ × ℝ) : Py (ℝ × ℝ × ℝ) :=
  let (x, y, z) := v
  if x = 0 then .error .zeroDivision else .ok (vmag [x, y, z], Real.arctan (y / x), z)

/-- mathlib.py 946-964 `cylindrical2rectcoord3D`. -/
noncomputable def cylindrical2rect (c : ℝ × ℝ × ℝ) : ℝ × ℝ × ℝ :=
  let (r, theta, z) := c
  (r * Real.cos theta, r * Real.sin theta, z)

open Classical in
/-- mathlib.py 988-1001 `rect2polarcoord2D`. -/
noncomputable def rect2polar (v : ℝ × ℝ) : Py (ℝ × ℝ) :=
  let (x, y) := v
  if x = 0 then .error .zeroDivision else .ok (vmag [x, y], Real.arctan (y / x))

/-- mathlib.py 967-985 `polar2rectcoord2D`. -/
noncomputable def polar2rect (s : ℝ × ℝ) : ℝ × ℝ :=
  let (r, theta) := s
  (r * Real.cos theta, r * Real.sin theta)

open Classical in
/-- mathlib.py 1004-1017 `polarcoordangle2D`. -/
noncomputable def polarcoordangle2D (v : ℝ × ℝ) : Py ℝ := do
  let (x, y) := v
  let a := Real.arccos (← cosaffin [x, y] [0, -1])
  pure (if x < 0 then 2 * Real.pi - a else a)

/-- mathlib.py 1040-1052 `computerotvec`; `radians` multiplies by pi / 180. -/
noncomputable def computerotvec (degrot : ℝ) : ℝ × ℝ :=
  let a := degrot * (Real.pi / 180)
  (Real.sin a, Real.cos a)

/-- mathlib.py 566-578 `slope`. -/
noncomputable def slope (u v : ℝ × ℝ) : ℝ := (v.2 - u.2) / (v.1 - u.1)

open Classical in
/-- mathlib.py 1192-1208 `anglebetween2Dlines`; the constants stand for a quarter and three quarters of a turn. -/
noncomputable def anglebetween2Dlines (u v : ℝ × ℝ) : ℝ :=
  if u.1 ≠ v.1 then Real.arctan (slope u v) else if u.1 < v.1 then Real.pi / 2 else 3 * Real.pi / 2

/-- `v[::2]` and `v[1::2]`. -/
def evens {α : Type} : List α → List α
  | [] => []
  | [a] => [a]
  | a :: _ :: t => a :: evens t

def odds {α : Type} : List α → List α
  | [] => []
  | [_] => []
  | _ :: b :: t => b :: odds t

/-- mathlib.py 1491-1517 `applyfft`; `fuel` bounds the depth of the recursion, `fn m n` is
`fn(tau * m / n)`. The list changes in place; the buffer `tmp` is never read. -/
noncomputable def applyfft (fn : Nat → Nat → ℂ) : Nat → List ℂ → List ℂ
  | 0, v => v
  | fuel + 1, v =>
    let n := v.length
    if n > 1 then
      let l := n / 2
      let ve := applyfft fn fuel (evens v)
      let vo := applyfft fn fuel (odds v)
      (List.range l).foldl (fun v m =>
        let w := fn m n * vo.getD m 0
        let vm := ve.getD m 0
        (v.set m (vm + w)).set (m + l) (vm - w)) v
    else v

/-- mathlib.py 1520-1535 `fft` with line 1487. -/
noncomputable def fft (v : List ℂ) : List ℂ :=
  applyfft (fun m n => Complex.exp (2 * Real.pi * m / n * -Complex.I)) v.length v

/-- mathlib.py 1538-1553 `ifft` with line 1488. -/
noncomputable def ifft (v : List ℂ) : List ℂ :=
  applyfft (fun m n => Complex.exp (2 * Real.pi * m / n * Complex.I)) v.length v

end Verif.Model
