import Verif.Model.Param
import Verif.Model.Fractal
import Verif.Model.Pals
import Mathlib.Analysis.SpecialFunctions.Complex.Arg
import Mathlib.Analysis.SpecialFunctions.Pow.Complex
/-! Model of the remaining functions of fractals.py 54-1877 and of the fractals in BITMAPlib.py 9206-12030 and
13128-13150. Complex numbers are exact, and exponents are natural numbers where this is stated. -/

namespace Verif.Model
open Verif Spec

/-- The loop of fractals.py 177-197 `sinjulia`, 200-220 `cosjulia`, 152-174 `tetrationfn` and 853-874
`marekdragon`: `add` is the number added to the sum, and the sum is compared with `lim`; `maxiter` is positive. -/
noncomputable def sumEscape (step : ℂ → ℂ) (add : ℂ → ℝ) (lim : Nat) (z : ℂ) (maxiter : Nat) : Nat := open Classical in
  let i := escape (fun (s : ℂ × ℝ) => (step s.1, s.2 + add (step s.1))) (fun s => decide ((lim : ℝ) < |s.2|)) (z, 0) lim
  if i = lim then maxiter else i % maxiter

/-- fractals.py 177-197 `sinjulia` -/
noncomputable def sinjulia (z c : ℂ) (maxiter : Nat) : Nat := sumEscape (fun z => c * Complex.sin z) Complex.im 50 z maxiter

/-- fractals.py 200-220 `cosjulia` -/
noncomputable def cosjulia (z c : ℂ) (maxiter : Nat) : Nat := sumEscape (fun z => c * Complex.cos z) Complex.im 50 z maxiter

/-- fractals.py 152-174 `tetrationfn`, without numbers too large for a float -/
noncomputable def tetrationfn (z : ℂ) (d maxiter : Nat) : Nat := sumEscape (fun z => z ^ z) Complex.im d z maxiter

/-- fractals.py 853-874 `marekdragon` -/
noncomputable def marekdragon (z d : ℂ) (maxiter : Nat) : Nat := sumEscape (fun z => z * (d + z)) (fun z => |z.im|) 65 z maxiter

/-- fractals.py 223-241 `spiraljulia` -/
noncomputable def spiraljulia (z c : ℂ) (maxiter : Nat) : Nat := escape (fun z => Complex.tan (z * z + c)) beyond2 z maxiter

/-- fractals.py 244-262 `lambdafn` -/
noncomputable def lambdafn (z c : ℂ) (maxiter : Nat) : Nat := escape (fun z => c * z * (1 - z)) beyond2 z maxiter

/-- fractals.py 832-850 `barnsleytree` -/
noncomputable def barnsleytree (z d : ℂ) (maxiter : Nat) : Nat := escape (fun z => d * (z - (signR z.re : ℂ))) beyond2 z maxiter

/-- fractals.py 785-807 `ngonfunc`, for a natural `n` -/
noncomputable def ngonfunc (z c : ℂ) (n maxiter : Nat) : Nat := open Classical in
  let rec loop : Nat → Nat → ℂ → Nat
    | 0, _, _ => maxiter
    | fuel + 1, i, z => if z = 0 then i else
      let z := (z ^ n + c) / z
      if beyond2 z then i else loop fuel (i + 1) z
  loop maxiter 0 z

/-- fractals.py 288-302 `multicircle`; `maxiter` is not 0. -/
noncomputable def multicircle (p q d : ℝ) (maxiter : Int) : Int := rndR ‖(⟨p, q⟩ : ℂ) ^ (d : ℂ)‖ % maxiter

/-- fractals.py 305-319 `multihyperbola`, for a natural `d` -/
noncomputable def multihyperbola (p q : ℝ) (d : Nat) (maxiter : Int) : Int := rndR |p ^ d - q ^ d| % maxiter

/-- `x % m` for a float `x` and a positive `m` -/
noncomputable def modR (x : ℝ) (m : Int) : ℝ := x - m * ⌊x / m⌋

/-- fractals.py 322-336 `multisuperellipse`, for a natural `d`; it does not round. -/
noncomputable def multisuperellipse (p q : ℝ) (d : Nat) (maxiter : Int) : ℝ := modR |p ^ d + q ^ d| maxiter

/-- fractals.py 339-356 `astroid` -/
noncomputable def astroid (p q r : ℝ) (maxiter : Int) : Int :=
  let p := p * p
  let q := q * q
  let r := r * r
  rndR |(p + q - r) ^ 3 + 27 * p * q * r| % maxiter

/-- fractals.py 359-376 `lemniscate` -/
noncomputable def lemniscate (p q r : ℝ) (maxiter : Int) : Int :=
  let r := r * r
  let p := p * p
  let q := q * q
  truncR |(p + q) ^ 2 - 2 * r * (p - q)| % maxiter

/-- fractals.py 379-393 `xorfn` and 396-410 `xordivfn` for numbers that are not negative; `d` and `maxiter` are
positive. -/
noncomputable def xorfn (p q : ℝ) (d maxiter : Nat) : Nat := ((truncR p).toNat ^^^ (truncR q).toNat) % d % maxiter

@[inherit_doc xorfn]
noncomputable def xordivfn (p q : ℝ) (d maxiter : Nat) : Nat := ((truncR p).toNat ^^^ (truncR q).toNat) / d % maxiter

open Classical in
/-- fractals.py 454-480 `biomorphfunc` with its test. -/
noncomputable def biomorph (f : ℂ → ℂ) (a : ℝ) (z : ℂ) (maxiter : Nat) : Nat :=
  biomorphfunc f (fun z => decide (a < |z.re|)) (fun z => decide (a < |z.im|)) z maxiter

/-- fractals.py 483-505 `multibiomorph`, for a natural `d` as in the following functions -/
noncomputable def multibiomorph (z c : ℂ) (d maxiter : Nat) (a : ℝ) : Nat := biomorph (fun z => z ^ d + c) a z maxiter

/-- fractals.py 508-530 `multibiomorphphasevariant` -/
noncomputable def multibiomorphphasevariant (z c : ℂ) (d : ℝ) (maxiter : Nat) (a : ℝ) : Nat :=
  biomorph (fun z => z ^ (((d + |Complex.arg z| : ℝ)) : ℂ) + c) a z maxiter

/-- fractals.py 533-730: `multisinbiomorph`, `multicosbiomorph`, `multisinhbiomorph`, `multicoshbiomorph`,
`multitanbiomorph`, `multitanhbiomorph`, `multiexpbiomorph` and `multi2ndtetrationbiomorph` differ in `g` only:
`sin`, `cos`, `sinh`, `cosh`, `tan`, `tanh`, `exp`, and `z ** z`. -/
noncomputable def multigbiomorph (g : ℂ → ℂ) (z c : ℂ) (d maxiter : Nat) (a : ℝ) : Nat := biomorph (fun z => g z + z ^ d + c) a z maxiter

/-- fractals.py 733-755 `multizconjugatebiomorph` -/
noncomputable def multizconjugatebiomorph (z c : ℂ) (d maxiter : Nat) (a : ℝ) : Nat := biomorph (fun z => (starRingEnd ℂ z) ^ d + c) a z maxiter

open Classical in
/-- fractals.py 758-782 `multibiomorphvariant` -/
noncomputable def multibiomorphvariant (z c : ℂ) (d maxiter : Nat) (a : ℝ) : Int :=
  let rec loop : Nat → ℂ → Int
    | 0, _ => maxiter
    | fuel + 1, z =>
      let z := z ^ d + c
      if a < |z.re| ∨ a < |z.im| then rndR ‖z‖ % maxiter else loop fuel z
  loop maxiter z

/-- The list `RGBfactors` of the code. -/
def factorList : PalSpec → List ℚ
  | .mono f => [f.1, f.2.1, f.2.2]
  | .two c1 c2 => [(c1 : ℚ), (c2 : ℚ)]
  | .other => []

/-- BITMAPlib.py 10735-10772 `savefractal2file`, 10775-10814 `savemultifractal2file`, 11285-11332
`savefractalwithparam2file`, 11335-11376 `savefractalwith2param2file`, for the function `func` of a point of the
domain; and the functions that call them: 9706-9985 and 10817-12012. `.other` stands for the list `[]`. -/
def savefractal2file (fs : Files) (file : String) (x y : Int) (func : ℚ → ℚ → Int) (dom : ℚ × ℚ × ℚ × ℚ) (f : PalSpec) (bits : Int) : Py Files := do
  let bmp ← newBMPwithPAL x y bits f
  let pts ← itermultifractal 0 0 x y func dom
  let bmp ← plotmultifractal bmp pts (factorList f)
  pure (writeFile fs file bmp)

/-- A map of the plane as in fractals.py 54-74: `(a, b, c, d, e, f)`. -/
abbrev Affine := ℚ × ℚ × ℚ × ℚ × ℚ × ℚ

/-- fractals.py 54-74 `getIFSparams`: the maps and the three thresholds that are used, as decimal fractions (the
code has the nearest floats). -/
def IFSfern : List Affine × (ℚ × ℚ × ℚ) :=
  ([(0, 0, 0, 16 / 100, 0, 0), (2 / 10, -26 / 100, 23 / 100, 22 / 100, 0, 16 / 10),
    (-15 / 100, 28 / 100, 26 / 100, 24 / 100, 0, 44 / 100), (85 / 100, 4 / 100, -4 / 100, 85 / 100, 0, 16 / 10)],
   (9 / 1000, 73 / 1000, 137 / 1000))

@[inherit_doc IFSfern]
def IFStree : List Affine × (ℚ × ℚ × ℚ) :=
  ([(0, 2 / 10, 0, 5 / 10, 0, 0), (1 / 10, 0, 0, 1 / 10, 0, 2 / 10), (42 / 100, -42 / 100, 42 / 100, 42 / 100, 0, 2 / 10),
    (42 / 100, 42 / 100, -42 / 100, 42 / 100, 0, 2 / 10)], (5 / 100, 2 / 10, 6 / 10))

@[inherit_doc IFSfern]
def IFScantortree : List Affine × (ℚ × ℚ × ℚ) :=
  ([(1 / 3, 0, 0, 1 / 3, 0, 0), (1 / 3, 0, 0, 1 / 3, 1, 0), (2 / 3, 0, 0, 2 / 3, 1 / 2, 1 / 2), (0, 0, 0, 0, 0, 0)], (1 / 3, 2 / 3, 1))

@[inherit_doc IFSfern]
def IFSsierpinski : List Affine × (ℚ × ℚ × ℚ) :=
  ([(1 / 2, 0, 0, 1 / 2, 0, 0), (1 / 2, 0, 0, 1 / 2, 1, 0), (1 / 2, 0, 0, 1 / 2, 1 / 2, 1 / 2), (0, 0, 0, 0, 0, 0)], (1 / 3, 2 / 3, 1))

/-- fractals.py 139-142: the number of the map for the random number `j` -/
def ifsPick (p : ℚ × ℚ × ℚ) (j : ℚ) : Nat := if j < p.1 then 0 else if j < p.2.1 then 1 else if j < p.2.2 then 2 else 3

/-- fractals.py 143-145: one step; `rd` rounds the result of each operation. -/
def ifsStep (rd : ℚ → ℚ) (m : Affine) (v : ℚ × ℚ) : ℚ × ℚ :=
  let (a, b, c, d, e, f) := m
  (rd (rd (rd (a * v.1) + rd (b * v.2)) + e), rd (rd (rd (c * v.1) + rd (d * v.2)) + f))

/-- fractals.py 107-149 `iterIFS`: `js` are the results of `random`, one for each of the `maxiter` rounds; `rd`
rounds the results of float operations (`fl` in the code). A missing map raises `IndexError`. -/
def iterIFS (rd : ℚ → ℚ) (param : List Affine × (ℚ × ℚ × ℚ)) (x1 y1 x2 y2 xscale yscale xoffset yoffset : Int) (js : List ℚ) :
    Py (List (Int × Int)) :=
  let (x1, y1, x2, y2) := sortrecpoints x1 y1 x2 y2
  let dy := y2 - y1
  let rec loop : List ℚ → ℚ × ℚ → Py (List (Int × Int))
    | [], _ => pure []
    | j :: js, v =>
      match param.1[ifsPick param.2 j]? with
      | none => .error .indexError
      | some m => do
        let v := ifsStep rd m v
        let px := trunc (rd (rd (rd (v.1 * xscale) + xoffset) + x1))
        let py := trunc (rd (rd (rd (dy - rd (v.2 * yscale)) + yoffset) + y1))
        let rest ← loop js v
        pure (if isinrectbnd px py x1 y1 x2 y2 = true then (px, py) :: rest else rest)
  loop js (x1, y1)

/-- BITMAPlib.py 10641-10671 `IFS` -/
def IFS (rd : ℚ → ℚ) (bmp : Bytes) (param : List Affine × (ℚ × ℚ × ℚ)) (x1 y1 x2 y2 xscale yscale xoffset yoffset color : Int) (js : List ℚ) :
    Py Bytes := do
  let pts ← iterIFS rd param x1 y1 x2 y2 xscale yscale xoffset yoffset js
  pts.foldlM (fun bmp p => plotxybit bmp p.1 p.2 color) bmp

/-- BITMAPlib.py 13128-13150 `fern`; `js` are 100000 random numbers. -/
def fern (rd : ℚ → ℚ) (bmp : Bytes) (x1 y1 x2 y2 color : Int) (js : List ℚ) : Py Bytes :=
  entirerectinboundary (fun bmp x1 y1 x2 y2 =>
    let y := |y2 - y1| / 10
    IFS rd bmp IFSfern x1 y1 x2 y2 y y (|x2 - x1| / 2) 0 color js) bmp x1 y1 x2 y2

/-- BITMAPlib.py 15020-15043 `fern2file` -/
def fern2file (rd : ℚ → ℚ) (fs : Files) (ex nw : String) (x1 y1 x2 y2 color : Int) (js : List ℚ) : Py Files :=
  applysave (fun bmp => fern rd bmp x1 y1 x2 y2 color js) fs ex nw

/-- fractals.py 1852-1877 `iternewtonsfractal`; `func P Q` is the root and the count of `newton` (413-427), with
exact complex numbers, or `none`. -/
def iternewtonsfractal (x1 y1 x2 y2 : Int) (func : ℚ → ℚ → Option (ℂ × Nat)) (dom : ℚ × ℚ × ℚ × ℚ) : Py (List (Int × Int × Option (ℂ × Nat))) := do
  let (mp, mq) ← mapfractaldomain x1 y1 x2 y2 dom
  pure (mq.flatMap fun (q, y) => mp.map fun (p, x) => (x, y, func p q))

open Classical in
/-- BITMAPlib.py 9241-9250: the listed root for `rt` and the list with it -/
noncomputable def findRoot (roots : List ℂ) (rt : ℂ) : ℂ × List ℂ :=
  match roots.find? (fun t => decide (‖t - rt‖ < 1 / 100)) with
  | some t => (t, roots)
  | none => (rt, roots ++ [rt])

open Classical in
/-- BITMAPlib.py 9238-9255: the loop -/
noncomputable def newtonLoop (maxcolors : Int) (factors : List (List ℚ)) : List (Int × Int × Option (ℂ × Nat)) → Bytes × List ℂ → Py (Bytes × List ℂ)
  | [], s => pure s
  | (_, _, none) :: l, s => newtonLoop maxcolors factors l s
  | (x, y, some (rt, c)) :: l, (bmp, roots) => do
    let (rt, roots) := findRoot roots rt
    let bits ← getItem bmp bmpcolorbits
    let color ← (if bits = 24 then
        match factors[roots.idxOf rt]? with
        | none => .error .indexError
        | some f => colormix (((255 - (c : Int)) * 20).fmod 256) f
      else pure (maxcolors - 1 - (c : Int).fmod maxcolors) : Py Int)
    let bmp ← plotxybit bmp x y color
    newtonLoop maxcolors factors l (bmp, roots)

/-- BITMAPlib.py 9206-9256 `newtonsfractal`; the tolerance is 0.01. -/
noncomputable def newtonsfractal (bmp : Bytes) (x1 y1 x2 y2 : Int) (func : ℚ → ℚ → Option (ℂ × Nat)) (dom : ℚ × ℚ × ℚ × ℚ)
    (factors : List (List ℚ)) : Py (Bytes × List ℂ) := do
  let maxcolors ← getmaxcolors bmp
  let pts ← iternewtonsfractal x1 y1 x2 y2 func dom
  newtonLoop maxcolors factors pts (bmp, [])

/-- BITMAPlib.py 12014-12053 `savenewtonsfractal2file`, with 11285-11332 `savefractalwithparam2file`: two or three
lists of factors are taken for colours or factors of a palette, and lists cannot be rounded or masked. -/
noncomputable def savenewtonsfractal2file (fs : Files) (file : String) (x y : Int) (func : ℚ → ℚ → Option (ℂ × Nat)) (dom : ℚ × ℚ × ℚ × ℚ)
    (factors : List (List ℚ)) (bits : Int) : Py (Files × List ℂ) := do
  let bmp ← newBMP x y bits
  if bits < 24 ∧ (factors.length = 3 ∨ factors.length = 2) then .error .typeError
  else do
    let (bmp, roots) ← newtonsfractal bmp 0 0 x y func dom factors
    pure (writeFile fs file bmp, roots)

end Verif.Model
