import Verif.Model.MathLib
import Verif.Model.Image
import Verif.Model.Palette
import Verif.Model.IntTools
import Verif.Model.Solids
import Verif.Model.Helpers
import Verif.Model.Colors
import Mathlib.Analysis.SpecialFunctions.Pow.Real
/-! Model of the remaining small functions of mathlib.py, colors.py, textgraphics.py, bufresize.py and solids3D.py. Random
numbers are arguments, and numbers are exact in place of floats. -/

namespace Verif.Model
open Verif

/-! ### Text -/

/-- textgraphics.py 33-50 `plotbitsastext`: the printed characters; `mask` is 128 shifted by `i`. -/
def plotbitsastext (bits : Nat) : List Char := (List.range 8).map fun i => if (128 >>> i) &&& bits = 0 then ' ' else '*'

/-- textgraphics.py 53-77 `plot8bitpatternastext` -/
def plot8bitpatternastext (bitpattern : List Nat) (onechar zerochar : String) : String :=
  bitpattern.foldl (fun s bits =>
    (List.range 8).foldl (fun s i => s ++ if 0 < (128 >>> i) &&& bits then onechar else zerochar) s ++ "\n") ""

/-- BITMAPlib.py 12199-12206: what is printed for one byte -/
def byteText (bits : Int) (v : Nat) : List Char :=
  (if bits = 1 then plotbitsastext v else []) ++
  (if bits = 4 then [Char.ofNat (97 + v / 16), Char.ofNat (97 + v % 16)] else []) ++
  (if bits = 8 then [Char.ofNat v] else [])

/-- BITMAPlib.py 12180-12208 `plotbmpastext`: the printed characters -/
def plotbmpastext (bmp : Bytes) : Py (List Char) := do
  let bits ← getclrbits bmp
  let my := (← getmaxy bmp) - 1
  let r ← xchrcnt bmp
  let offset ← hdsz bmp
  let lines ← (← pyRange3 my 0 (-1)).mapM fun y => do
    let cs ← (pyRange 0 r).mapM fun x => do
      pure (byteText bits (← getItem bmp (offset + r * y + x)))
    pure (cs.flatten ++ ['\n'])
  pure lines.flatten

/-! ### Vectors -/

/-- mathlib.py 41-56 `setmaxvec` -/
def setmaxvec (vlist : List Int) (maxval : Int) : List Int := vlist.map fun v => setmax v maxval

/-- mathlib.py 59-79 `setminmaxvec` -/
def setminmaxvec (vlist : List Int) (minval maxval : Int) : List Int := vlist.map fun v => setminmax v minval maxval

/-- mathlib.py 82-102 `intsetminmaxvec`, for whole numbers -/
def intsetminmaxvec (vlist : List Int) (minval maxval : Int) : List Int := vlist.map fun v => intsetminmax v minval maxval

/-- mathlib.py 120-131 `roundvect` -/
def roundvect (v : List ℚ) : List Int := v.map rnd

/-- mathlib.py 134-146 `roundvectlist` -/
def roundvectlist (vlist : List (List ℚ)) : List (List Int) := vlist.map roundvect

/-- mathlib.py 1279-1290 `bitmaskvect`, for numbers that are not negative -/
def bitmaskvect (v : List Nat) (bitmask : Nat) : List Nat := v.map (· &&& bitmask)

/-- mathlib.py 1293-1305 `orvect`, for numbers that are not negative -/
def orvect (u v : List Nat) : List Nat := List.zipWith (· ||| ·) u v

/-- mathlib.py 1382-1391 `swapxy` -/
def swapxy {α : Type} (v : List α) : Py (List α) := do
  let b ← nth v 1
  let a ← nth v 0
  pure [b, a]

/-- mathlib.py 1172-1189 `adddimz` -/
def adddimz {α : Type} (vlist2D : List (List α)) (value : α) : Py (List (List α)) :=
  vlist2D.mapM fun v => do
    let a ← nth v 0
    let b ← nth v 1
    pure [a, b, value]

section Vectors
variable {K : Type} [Field K]

/-- mathlib.py 208-211 `divvect` -/
def divvect [DecidableEq K] (u v : List K) : Py (List K) :=
  (List.zip u v).mapM fun p => if p.2 = 0 then .error .zeroDivision else .ok (p.1 / p.2)

/-- mathlib.py 288-300 `meanlist` -/
def meanlist [DecidableEq K] (vlist : List (List K)) : Py (List K) := vlist.mapM meanvec

/-- mathlib.py 1073-1086 `mirrorx` -/
def mirrorx (p : K × K) (x : K) : (K × K) × (K × K) := ((p.1 - x, p.2), (p.1 + x, p.2))

/-- mathlib.py 1089-1102 `mirrory` -/
def mirrory (p : K × K) (y : K) : (K × K) × (K × K) := ((p.1, p.2 - y), (p.1, p.2 + y))

/-- mathlib.py 1156-1169 `addrndtovert` with 1138-1153 `randomvect`; `rs` are the random vectors. -/
def addrndtovert (vertlist rs : List (List K)) : List (List K) := List.zipWith addvect vertlist rs

/-- mathlib.py 1322-1336 `addvectpairlist` -/
def addvectpairlist (vpair : List (List K)) : Py (List K) := do
  pure (addvect (← nth vpair 0) (← nth vpair 1))

/-- mathlib.py 1339-1358 `addvecttripletlist` -/
def addvecttripletlist (vtriplet : List (List K)) : Py (List K) := do
  pure (addvect (addvect (← nth vtriplet 0) (← nth vtriplet 1)) (← nth vtriplet 2))

/-- mathlib.py 1361-1379 `addvectlist` -/
def addvectlist (vlist1 vlist2 : List (List K)) : List (List K) := List.zipWith addvect vlist1 vlist2

end Vectors

open Classical in
/-- mathlib.py 805-824 `dircos` -/
noncomputable def dircos (v : List ℝ) : Py (List ℝ) :=
  let mag := vmag v
  v.mapM fun i => if mag = 0 then .error .zeroDivision else .ok (i / mag)

open Classical in
/-- mathlib.py 827-841 `diracos`; `acos` raises `ValueError` outside its domain. -/
noncomputable def diracos (dcos : List ℝ) : Py (List ℝ) :=
  dcos.mapM fun d => if -1 ≤ d ∧ d ≤ 1 then .ok (Real.arccos d) else .error .valueError

/-- mathlib.py 844-858 `dirdeg` -/
noncomputable def dirdeg (raddir : List ℝ) : List ℝ := raddir.map fun d => d * (180 / Real.pi)

/-- mathlib.py 523-545 `Rsquare` -/
noncomputable def Rsquare (XYdata : List (List ℝ)) : Py ℝ := do
  pure ((← PearsonsR XYdata) ^ 2)

open Classical in
/-- mathlib.py 548-550 `TTest`; `sqrt` of a negative number raises `ValueError`. -/
noncomputable def TTest (XYdata : List (List ℝ)) : Py ℝ := do
  let r ← PearsonsR XYdata
  if 1 - r ^ 2 = 0 then .error .zeroDivision
  else if ((XYdata.length : ℝ) - 2) / (1 - r ^ 2) < 0 then .error .valueError
  else pure (r * Real.sqrt (((XYdata.length : ℝ) - 2) / (1 - r ^ 2)))

open Classical in
/-- mathlib.py 581-596 `coefvar` -/
noncomputable def coefvar (v : List ℝ) : Py ℝ := do
  let s ← StdDev v
  let m ← meanvec v
  if m = 0 then .error .zeroDivision else pure (s / m)

/-- mathlib.py 1472-1484 `tetration`, for a natural number `n` (others recur without end) and a positive `x` -/
noncomputable def tetration (x : ℝ) : Nat → ℝ
  | 0 => 1
  | n + 1 => x ^ tetration x n

/-! ### Tables -/

open Classical in
/-- mathlib.py 733-750 `distancetable` -/
noncomputable def distancetable (vertlist : List (List ℝ)) : List (Nat × Nat × ℝ) :=
  vertlist.flatMap fun v => (vertlist.filter fun u => u ≠ v).map fun u => (vertlist.idxOf v, vertlist.idxOf u, vdist u v)

/-- mathlib.py 753-761 `countdist`: a dictionary as a list of its entries in the order of insertion -/
def countdist {α β : Type} [DecidableEq α] (distlist : List (β × β × α)) : List (α × Nat) :=
  distlist.foldl (fun d i =>
    if (d.lookup i.2.2).isNone then d ++ [(i.2.2, 1)]
    else d.map fun e => if e.1 = i.2.2 then (e.1, e.2 + 1) else e) []

/-- solids3D.py 490-514 `zlevelcoords`: the levels, and the dictionary as a list of its entries -/
def zlevelcoords {α : Type} [DecidableEq α] (verlist : List (α × α × α)) : List α × List (α × List Nat) :=
  verlist.foldl (fun s p =>
    let pind := [verlist.idxOf p]
    let z := p.2.2
    if (s.2.lookup z).isNone then (s.1 ++ [z], s.2 ++ [(z, pind)])
    else (s.1, s.2.map fun e => if e.1 = z then (e.1, e.2 ++ pind) else e)) ([], [])

/-! ### Colours and buffers -/

open Classical in
/-- colors.py 880-893 `gammacorrectbyte` (also 592-606); `0 ** gamma` is an error for a negative `gamma`. -/
noncomputable def gammacorrectbyte (lumbyte : Nat) (gamma : ℝ) : Py Int :=
  if lumbyte = 0 ∧ gamma < 0 then .error .zeroDivision
  else
    let v := ((lumbyte : ℝ) / 255) ^ gamma * 255
    .ok (if 0 ≤ v then ⌊v⌋ else -⌊-v⌋)

/-- colors.py 353-382 `probplotRGBto4bitpal`; `d` are the results of `randint`. -/
def probplotRGBto4bitpal (rgb d : Nat × Nat × Nat) : Nat :=
  let color := 0
  let color := if rnd (fl ((d.1 : ℚ) / 256)) = 1 then color + 4 else color
  let color := if rnd (fl ((d.2.1 : ℚ) / 256)) = 1 then color + 2 else color
  let color := if rnd (fl ((d.2.2 : ℚ) / 256)) = 1 then color + 1 else color
  if 1 < rgb.1 >>> 6 ∨ 1 < rgb.2.1 >>> 6 ∨ 1 < rgb.2.2 >>> 6 then color + 8 else color

/-- colors.py 896-930 `RGBfactorstoBaseandRange` with mathlib.py 254-272 `intscalarmulvect` -/
def RGBfactorstoBaseandRange (lumrange : Int × Int) (rgbfactors : List ℚ) : List Int × List ℚ :=
  let baselum := rgbfactors.map fun s => rnd (fl (s * lumrange.1))
  (baselum, List.zipWith (fun s (b : Int) => fl (fl (s * lumrange.2) - b)) rgbfactors baselum)

/-- colors.py 43-58 `getdefaultlumrange`: the dictionary as a list of its entries -/
def getdefaultlumrange : List (String × Int × Int) :=
  [("maxdesc", 255, 0), ("maxasc", 0, 255), ("middesc", 192, 64), (" midasc", 64, 192),
   ("upperdesc", 255, 128), ("upperasc", 128, 255), ("lowerdesc", 128, 0), ("lowerasc", 0, 128)]

/-- BITMAPlib.py 12525-12543 `adjustcolordicttopal`; the dictionary is a list of its entries. The colour is an array, which
never equals a list. -/
def adjustcolordicttopal (bmp : Bytes) (colordict : List (String × Int)) : Py (List (String × Int)) := do
  if (← getclrbits bmp) < 24 then
    colordict.mapM fun e => do
      let a ← int2RGBarr e.2
      let pal ← getallRGBpal bmp
      match a with
      | [r, g, b] => pure (e.1, matchRGBtopal ((r : Int), (g : Int), (b : Int)) false pal)
      | _ => .error .valueError
  else pure colordict

/-- bufresize.py 143-157 `unpack4bitbuf` -/
def unpack4bitbuf (buf : List Nat) : List Nat := buf.flatMap fun b => [b >>> 4, b &&& 0xf]

end Verif.Model
