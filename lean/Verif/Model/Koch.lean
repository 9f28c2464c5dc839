import Verif.Py
import Mathlib.Analysis.Complex.Norm
/-! Koch curves (fractals.py 1880-1966). -/

namespace Verif.Model
open Verif

/-- `p[i]` of a Python list for an index that is not negative. -/
def listGet {α : Type} (p : List α) (i : Nat) : Py α :=
  match p[i]? with
  | some a => .ok a
  | none => .error .indexError

/-- `p[i] = a` of a Python list for an index that is not negative. -/
def listSet {α : Type} (p : List α) (i : Nat) (a : α) : Py (List α) :=
  if i < p.length then .ok (p.set i a) else .error .indexError

/-- One round of the inner loop, fractals.py 1934-1940. -/
def kochStep {α : Type} (koch : α → α → α × α × α) (l : Nat) (p : List α) (s : Nat) : Py (List α) := do
  let i := s * l
  let j := l / 4
  let (a, b, c) := koch (← listGet p i) (← listGet p (i + l))
  let p ← listSet p (i + j) a
  let p ← listSet p (i + l / 2) b
  listSet p (i + j * 3) c

/-- One round of the outer loop, fractals.py 1931-1941, for `size = 4 ** n`. The inner loop runs at least
once, so `j` is `l >> 2` afterwards. -/
def kochRound {α : Type} (koch : α → α → α × α × α) (size : Nat) (st : List α × Nat) : Py (List α × Nat) := do
  let p ← (List.range (size / st.2)).foldlM (kochStep koch st.2) st.1
  pure (p, st.2 / 4)

/-- fractals.py 1910-1942 `kochcurvevert`: points of an arbitrary type, `zero` for `(0, 0)` and the
function `koch` of lines 1880-1907 as an argument. -/
def kochcurvevert {α : Type} (koch : α → α → α × α × α) (zero u v : α) (n : Nat) : Py (List α) := do
  let p := List.replicate (4 ^ n + 1) zero
  let p := p.set 0 u
  let p := p.set (p.length - 1) v
  let st ← (List.range n).foldlM (fun st _ => kochRound koch (4 ^ n) st) (p, 4 ^ n)
  pure st.1

/-- fractals.py 1945-1966 `kochsnowflakevert` for the corners of `regpolygonvert`. -/
def kochsnowflakevert {α : Type} (koch : α → α → α × α × α) (zero a b c : α) (n : Nat) : Py (List α) := do
  pure ((← kochcurvevert koch zero a b n) ++ (← kochcurvevert koch zero b c n) ++ (← kochcurvevert koch zero c a n))

/-- fractals.py 1880-1907 `koch`, with exact complex numbers in place of pairs of floats. -/
noncomputable def koch (h : ℝ) (u v : ℂ) : ℂ × ℂ × ℂ :=
  let d := v - u
  let e := d / 3
  let d := d * h
  let d := (u + v) / 2 + d * Complex.I
  (u + e, d, v - e)

end Verif.Model
