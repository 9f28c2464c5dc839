import Verif.Model.Solids
/-! Curves, regular polygons, pie charts and histograms: parts of primitives2D.py, charts.py, mathlib.py
and BITMAPlib.py. Exact numbers stand for floats except where `fl` is written. -/

namespace Verif.Model
open Verif

/-- primitives2D.py 329-331 `_bezierblend` for `0 ≤ i ≤ n`. -/
def bezierblend (i n : Nat) (u : ℚ) : ℚ := (n.choose i : ℚ) * u ^ i * (1 - u) ^ (n - i)

/-- primitives2D.py 356-361: the point of the curve for the parameter `u`; `i` is `cnt - 1` and `last` is
`i - 1`, which is read only if `i > 0`. -/
def bezierpoint (pntlist : List (ℚ × ℚ)) (u : ℚ) : ℚ × ℚ :=
  let i := pntlist.length - 1
  let last := i - 1
  (List.range i).foldl (fun v j =>
    let p := pntlist.getD j (0, 0)
    let s := bezierblend j last u
    (v.1 + p.1 * s, v.2 + p.2 * s)) (0, 0)

/-- primitives2D.py 334-366 `iterbeziercurve`. The loop over `i` does something for `i = cnt - 1` only. -/
def iterbeziercurve (pntlist : List (ℚ × ℚ)) : Py (List (Int × Int)) := do
  let w ← nth pntlist 0
  let klim := pntlist.length * 4
  let r := (List.range klim).foldl (fun (acc : List (Int × Int) × (ℚ × ℚ)) (k : Nat) =>
    let v := bezierpoint pntlist ((k : ℚ) / klim)
    (acc.1 ++ iterline (roundvect2 v) (roundvect2 acc.2), v)) ([], w)
  pure r.1

/-- primitives2D.py 449-457 `_bsplineblend`. -/
def bsplineblend (u : ℚ) : ℚ × ℚ × ℚ × ℚ :=
  let u2 := u * u
  let u3 := u * u * u
  let d := u3 / 6
  let f : ℚ := 1 / 6
  let a := -d + u2 / 2 - u / 2 + f
  let b := u3 / 2 - u2 + 2 / 3
  let c := (-u3 + u2 + u) / 2 + f
  (a, b, c, d)

/-- primitives2D.py 411-418: the point of section `i` for the parameter `u`. -/
def bsplinepoint (pntlist : List (ℚ × ℚ)) (curveback : Bool) (i : Nat) (u : ℚ) : ℚ × ℚ :=
  let cnt := pntlist.length
  let mx := cnt - 1
  let (n0, n1, n2, n3) := bsplineblend u
  let pt (k : Nat) : ℚ × ℚ := pntlist.getD (if curveback then k % cnt else if k > mx then mx else k) (0, 0)
  let add (v : ℚ × ℚ) (k : Nat) (s : ℚ) : ℚ × ℚ := ((v.1 + (pt k).1 * s), (v.2 + (pt k).2 * s))
  add (add (add (add (0, 0) i n0) (i + 1) n1) (i + 2) n2) (i + 3) n3

/-- primitives2D.py 389-425 `iterbspline`. -/
def iterbspline (pntlist : List (ℚ × ℚ)) (isclosed curveback : Bool) : Py (List (Int × Int)) := do
  let w ← nth pntlist 0
  let cnt := pntlist.length
  let klim := cnt * 4
  let ilim := cnt + (if isclosed then 2 else 0)
  let r := (List.range ilim).foldl (fun (acc : List (Int × Int) × (ℚ × ℚ)) (i : Nat) =>
    (List.range klim).foldl (fun (acc : List (Int × Int) × (ℚ × ℚ)) (k : Nat) =>
      let v := bsplinepoint pntlist curveback i ((k : ℚ) / klim)
      (if i > 1 then acc.1 ++ iterline (roundvect2 v) (roundvect2 acc.2) else acc.1, v)) acc) ([], w)
  pure r.1

/-- BITMAPlib.py 3986-4004 `beziercurve`. -/
def beziercurve (bmp : Bytes) (pntlist : List (ℚ × ℚ)) (penradius color : Int) : Py Bytes := do
  (← iterbeziercurve pntlist).foldlM (fun bmp v => roundpen bmp v penradius color) bmp

/-- BITMAPlib.py 4007-4032 `bspline`. -/
def bspline (bmp : Bytes) (pntlist : List (ℚ × ℚ)) (penradius color : Int) (isclosed curveback : Bool) : Py Bytes := do
  (← iterbspline pntlist isclosed curveback).foldlM (fun bmp v => roundpen bmp v penradius color) bmp

/-- primitives2D.py 480-510 `floatregpolygonvert`. -/
noncomputable def floatregpolygonvert (cx cy r : Int) (sides : Int) (angle : ℝ) : Py (List (ℝ × ℝ)) := do
  let angle := angle * (Real.pi / 180)
  if sides = 0 then .error .zeroDivision
  else do
    let anginc := Int.fdiv 360 sides
    let angs ← pyRange3 0 360 anginc
    pure (angs.map fun (a : Int) =>
      let ang := angle + (a : ℝ) * (Real.pi / 180)
      ((cx : ℝ) - r * Real.sin ang, (cy : ℝ) - r * Real.cos ang))

/-- charts.py 20-31 `getdatalisttotal`; an entry is its value and its colour. -/
def getdatalisttotal (dlist : List (ℚ × Int)) : ℚ := (dlist.map (·.1)).sum

/-- A row of the result of `genpiechartdata`: start and end angle, colour, value, percentage. -/
structure PieRow where
  sa : ℚ
  ea : ℚ
  color : Int
  value : ℚ
  percent : ℚ
deriving DecidableEq

/-- charts.py 34-58 `genpiechartdata`. The state of the loop: `sa`, `alist` and `big`. -/
def genpiechartdata (dlist : List (ℚ × Int)) : Py (List PieRow × Int) := do
  let tot := getdatalisttotal dlist
  let r ← dlist.foldlM (fun (st : ℚ × List PieRow × Int) d =>
    if tot = 0 then .error .zeroDivision
    else
      let p := d.1 / tot
      let ea := st.1 + p * 360
      let p := p * 100
      let big : Int := if p ≥ 50 then dlist.idxOf d else st.2.2
      .ok (ea, st.2.1 ++ [⟨st.1, ea, d.2, d.1, p⟩], big)) (0, [], -1)
  pure r.2

open Classical in
/-- primitives2D.py 598-630 `arcvert`, with mathlib.py 1020-1037 `rect2polarcoord2Dwithcenter`. The angles are
real numbers, `tol` is 0.03. -/
noncomputable def arcvert (x y r : Int) (startdegangle enddegangle : ℝ) : Py (List (Int × Int)) :=
  let sa := startdegangle * (Real.pi / 180)
  let ea := enddegangle * (Real.pi / 180)
  (itercircle x y r).foldlM (fun v p => do
    let a ← polarcoordangle2D ((p.1 : ℝ) - x, (p.2 : ℝ) - y)
    if a ≥ sa ∧ a ≤ ea then
      pure (v ++ [p] ++ if |a - sa| < 3 / 100 ∨ |a - ea| < 3 / 100 then iterline (x, y) p else [])
    else pure v) []

/-- BITMAPlib.py 3874-3913 `drawarc`; `showoutline` is not used by the code. -/
noncomputable def drawarc (bmp : Bytes) (x y r : Int) (startdegangle enddegangle : ℝ) (color : Int)
    (_showoutline : Bool) (fillcolor : Int) (isfilled : Bool) : Py Bytes := do
  let av ← arcvert x y r startdegangle enddegangle
  let bmp ← av.foldlM (fun bmp p => plotxybit bmp p.1 p.2 color) bmp
  if isfilled then do
    let d ← fillpolydata av (← getmaxx bmp) (← getmaxy bmp)
    fillboundary bmp d fillcolor
  else pure bmp

/-- BITMAPlib.py 12211-12238 `piechart`: the image and the data it returns. -/
noncomputable def piechart (bmp : Bytes) (x y r : Int) (dataandcolorlist : List (ℚ × Int)) :
    Py (Bytes × List PieRow × Int) := do
  let (alist, big) ← genpiechartdata dataandcolorlist
  let bmp ← if big > -1 then do
      let a ← nth alist big.toNat
      filledcircle bmp x y r a.color
    else pure bmp
  let bmp ← alist.foldlM (fun bmp a =>
    if a.percent < 50 then drawarc bmp x y r (a.sa : ℝ) (a.ea : ℝ) a.color true a.color true else pure bmp) bmp
  pure (bmp, alist, big)

/-- mathlib.py 1591-1602 `getdomainbounds`; `min` of nothing raises `ValueError`. -/
def getdomainbounds (v : List (ℚ × ℚ)) : Py (ℚ × ℚ × ℚ × ℚ) :=
  match v with
  | [] => .error .valueError
  | z :: zs => .ok (zs.foldl (fun m p => min m p.1) z.1, zs.foldl (fun m p => max m p.1) z.1,
      zs.foldl (fun m p => min m p.2) z.2, zs.foldl (fun m p => max m p.2) z.2)

/-- mathlib.py 1632-1635, one coordinate: the bin of `z`. Float arithmetic. -/
def histBin (z lo size : ℚ) : Int := trunc (fl (fl (z - lo) / size))

/-- `h[j][i] += 1`. -/
def bump (h : List (List Nat)) (j i : Int) : Py (List (List Nat)) :=
  match resolveIdx h.length j with
  | none => .error .indexError
  | some a =>
    let row := h.getD a []
    match resolveIdx row.length i with
    | none => .error .indexError
    | some c => .ok (h.set a (row.set c (row.getD c 0 + 1)))

/-- mathlib.py 1618-1636 `histogram2D`. -/
def histogram2D (v : List (ℚ × ℚ)) (xbins ybins : Int) : Py (List (List Nat)) := do
  let (xmin, xmax, ymin, ymax) ← getdomainbounds v
  if xbins - 1 = 0 ∨ ybins - 1 = 0 then .error .zeroDivision
  else do
    let xbinsize := fl (fl (xmax - xmin) / ((xbins - 1 : Int) : ℚ))
    let ybinsize := fl (fl (ymax - ymin) / ((ybins - 1 : Int) : ℚ))
    let h := List.replicate ybins.toNat (List.replicate xbins.toNat 0)
    v.foldlM (fun h z =>
      if ybinsize = 0 ∨ xbinsize = 0 then .error .zeroDivision
      else bump h (histBin z.2 ymin ybinsize) (histBin z.1 xmin xbinsize)) h

end Verif.Model
