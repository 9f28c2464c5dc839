import Verif.Model.Param
/-! Model of the curves of primitives2D.py with the arithmetic of floats. Every operation that Python does with
floats is rounded here as well. Of the rounding and of the functions of the C library only a bound of the error is
used, so the theorems hold for every such arithmetic. -/

namespace Verif.Model
open Verif Spec

/-- An arithmetic of floats. `rd` rounds the exact result of `+`, `-`, `*` and `/`: its relative error is at most
`2 ^ -53`, and results that are tiny lose at most `2 ^ -200` more. The values of `sin`, `cos` and `tanh` are wrong by at most
`2 ^ -52`, the powers by the relative error `2 ^ -52`. `deg` is the factor of `math.radians`, `lit` the
constant `0.0174...` of the curves: floats near pi / 180. -/
structure Floats where
  rd : ℝ → ℝ
  rd_err : ∀ x, |rd x - x| ≤ |x| / 2 ^ 53 + 1 / 2 ^ 200
  sin : ℝ → ℝ
  sin_err : ∀ x, |sin x - Real.sin x| ≤ 1 / 2 ^ 52
  cos : ℝ → ℝ
  cos_err : ∀ x, |cos x - Real.cos x| ≤ 1 / 2 ^ 52
  tanh : ℝ → ℝ
  tanh_err : ∀ x, |tanh x - Real.tanh x| ≤ 1 / 2 ^ 52
  pow : ℝ → ℕ → ℝ
  pow_err : ∀ x n, |pow x n - x ^ n| ≤ |x ^ n| / 2 ^ 52 + 1 / 2 ^ 200
  deg : ℝ
  deg_err : |deg - Real.pi / 180| ≤ 1 / 2 ^ 57
  lit : ℝ
  lit_err : |lit - Real.pi / 180| ≤ 1 / 2 ^ 57

variable (A : Floats)

/-- `math.radians(d)` -/
noncomputable def radiansF (d : ℝ) : ℝ := A.rd (d * A.deg)

/-- `cmath.rect(r, t)` -/
noncomputable def rectF (r t : ℝ) : ℂ := ⟨A.rd (r * A.cos t), A.rd (r * A.sin t)⟩

/-- `z + w` of complex numbers -/
noncomputable def addC (z w : ℂ) : ℂ := ⟨A.rd (z.re + w.re), A.rd (z.im + w.im)⟩

/-- `z - w` of complex numbers -/
noncomputable def subC (z w : ℂ) : ℂ := ⟨A.rd (z.re - w.re), A.rd (z.im - w.im)⟩

/-- `z * w` of complex numbers -/
noncomputable def mulC (z w : ℂ) : ℂ :=
  ⟨A.rd (A.rd (z.re * w.re) - A.rd (z.im * w.im)), A.rd (A.rd (z.re * w.im) + A.rd (z.im * w.re))⟩

/-- A number in an operation with a complex number -/
def ofRe (x : ℝ) : ℂ := ⟨x, 0⟩

/-- The value of `t` after `k` rounds of a loop `t = 0; while t < lim: ...; t += delta`. -/
noncomputable def tF (delta : ℝ) : ℕ → ℝ
  | 0 => 0
  | k + 1 => A.rd (tF delta k + delta)

open Classical in
/-- The values that the loop `t = 0; while t < lim: ...; t += delta` yields; `none` if it does not end. -/
noncomputable def loopF {α : Type} (delta lim : ℝ) (body : ℝ → α) : Option (List α) :=
  if h : ∃ k, ¬ tF A delta k < lim then some ((List.range (Nat.find h)).map fun (k : Nat) => body (tF A delta k)) else none

/-- primitives2D.py 899-932 `iterspirograph`; `k` is not 0. -/
noncomputable def iterspirographF (x y r : Int) (l k delta lim : ℝ) : Option (List (Int × Int)) :=
  let e := A.rd (l * k)
  let d := A.rd (1 - k)
  let f := A.rd (d / k)
  let q := cplx x y
  loopF A delta lim fun a =>
    roundC (addC A (mulC A (ofRe r) (addC A (rectF A d a) (rectF A e (A.rd (a * f))))) q)

/-- primitives2D.py 962-993 `iterlissajouscurve` -/
noncomputable def iterlissajouscurveF (x y : Int) (a b c d e delta lim : ℝ) : Option (List (Int × Int)) :=
  loopF A delta lim fun t =>
    let dx := rndR (A.rd (a * A.cos (A.rd (A.rd (c * t) + e))))
    let dy := rndR (A.rd (b * A.sin (A.rd (d * t))))
    (x + dx, y + dy)

/-- primitives2D.py 1027-1063 `itercircleinvolute` -/
noncomputable def itercircleinvoluteF (x y : Int) (a delta lim : ℝ) : Option (List (Int × Int)) :=
  let b := cplx x y
  loopF A delta lim fun t =>
    let z := rectF A 1 t
    let z := mulC A z (mulC A (mulC A (mulC A (ofRe a) z) (ofRe t)) Complex.I)
    roundC (addC A z b)

/-- primitives2D.py 1098-1130 `iterepicycloid`; `b` is not 0. -/
noncomputable def iterepicycloidF (x y : Int) (a b delta lim : ℝ) : Option (List (Int × Int)) :=
  let p := A.rd (a + b)
  let c := A.rd (A.rd (a / b) + 1)
  let q := cplx x y
  loopF A delta lim fun t => roundC (addC A (subC A (rectF A p t) (rectF A b (A.rd (c * t)))) q)

/-- primitives2D.py 1160-1196 `iterhypotrochoid`; `b` is not 0. -/
noncomputable def iterhypotrochoidF (x y : Int) (a b c delta lim : ℝ) : Option (List (Int × Int)) :=
  let p := A.rd (a - b)
  let d := A.rd (A.rd (a / b) + 1)
  let q := cplx x y
  loopF A delta lim fun t => roundC (addC A (subC A (rectF A p t) (rectF A c (A.rd (d * t)))) q)

/-- primitives2D.py 1230-1251 `iterflower` -/
noncomputable def iterflowerF (cx cy r petals : Int) (angrot : ℝ) : List (Int × Int) :=
  let p := A.rd ((petals : ℝ) / 2)
  let angmax := 360 * petals
  let angrot := radiansF A angrot
  (pyRange 0 angmax).map fun (a : Int) =>
    let ang := radiansF A (A.rd ((a : ℝ) / petals))
    let f := A.rd (A.pow (A.cos (A.rd (p * ang))) 2 * r)
    let rang := A.rd (ang + angrot)
    (truncR (A.rd (cx - A.rd (f * A.sin rang))), truncR (A.rd (cy - A.rd (f * A.cos rang))))

/-- primitives2D.py 1402-1420 `itergearcurve` -/
noncomputable def itergearcurveF (cx cy a b n : Int) : List (Int × Int) :=
  let q := cplx cx cy
  (List.range 360).map fun (i : Nat) =>
    let t := radiansF A i
    intC (addC A (rectF A (A.rd (a + A.rd (b * A.tanh (A.rd (b * A.sin (A.rd (n * t))))))) t) q)

/-- primitives2D.py 1440-1457 `itercornuspiral` -/
noncomputable def itercornuspiralF (cx cy r : Int) : List (Int × Int) :=
  let c := A.lit
  let k := A.rd (r * c)
  ((((List.range 360).map fun (i : Nat) =>
    let t := A.rd (i * c)
    rectF A k (A.rd (t * t))).scanl (addC A) (cplx cx cy)).tail).map intC

/-- primitives2D.py 1475-1493 `iterheartcurve` -/
noncomputable def iterheartcurveF (cx cy s : Int) : List (Int × Int) :=
  let c := A.lit
  (List.range 360).map fun (i : Nat) =>
    let t := A.rd (i * c)
    let x := A.rd (16 * A.pow (A.sin t) 3)
    let y := A.rd (A.rd (A.rd (A.rd (13 * A.cos t) - A.rd (5 * A.cos (A.rd (2 * t)))) - A.rd (2 * A.cos (A.rd (3 * t))))
      - A.cos (A.rd (4 * t)))
    (cx + truncR (A.rd (s * x)), cy - truncR (A.rd (s * y)))

/-- primitives2D.py 480-510 `floatregpolygonvert` -/
noncomputable def floatregpolygonvertF (cx cy r : Int) (sides : Int) (angle : ℝ) : Py (List (ℝ × ℝ)) := do
  let angle := radiansF A angle
  if sides = 0 then .error .zeroDivision
  else do
    let anginc := Int.fdiv 360 sides
    let angs ← pyRange3 0 360 anginc
    pure (angs.map fun (a : Int) =>
      let ang := A.rd (angle + radiansF A a)
      let z := subC A (cplx cx cy) (mulC A (ofRe r) ⟨A.sin ang, A.cos ang⟩)
      (z.re, z.im))

/-- mathlib.py 1040-1052 `computerotvec` -/
noncomputable def computerotvecF (degrot : ℝ) : ℝ × ℝ :=
  let a := radiansF A degrot
  (A.sin a, A.cos a)

/-- mathlib.py 1055-1070 `rotvec2D` -/
noncomputable def rotvec2DF (v rotvec : ℝ × ℝ) : ℝ × ℝ :=
  let (x, y) := v
  let (a, b) := rotvec
  (A.rd (A.rd (x * b) - A.rd (y * a)), A.rd (A.rd (x * a) + A.rd (y * b)))

/-- primitives2D.py 286-308 `iterellipserot` -/
noncomputable def iterellipserotF (x y b a : Int) (degrot : ℝ) : List (Int × Int) :=
  let rotvec := computerotvecF A degrot
  (iterellipsepart b a).flatMap fun p => (mirror1stquad x y p).map fun v =>
    let w := rotvec2DF A ((v.1 : ℝ) - x, (v.2 : ℝ) - y) rotvec
    (rndR (A.rd (w.1 + x)), rndR (A.rd (w.2 + y)))

end Verif.Model
