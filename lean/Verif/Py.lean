/-!
# Python primitives used by the model

CPython semantics of the built-in operations that `/repo/pythonbmp` relies on.
`array('B')`, `bytes` and `bytearray` values are lists of naturals; the 0..255 range is
checked at the same places where CPython checks it.
-/

namespace Verif

/-- The Python exceptions that occur in the modelled code. -/
inductive PyErr
  | indexError
  | valueError
  | overflowError
  | keyError
  | typeError
  | zeroDivision
  | unboundLocal
  deriving DecidableEq, Repr

/-- Result of a Python call: a value or a raised exception. -/
abbrev Py (α : Type) := Except PyErr α

/-- Contents of an `array('B')`. -/
abbrev Bytes := List Nat

instance {α : Type} [DecidableEq α] : DecidableEq (Py α) := fun a b =>
  match a, b with
  | .ok x, .ok y => if h : x = y then isTrue (by rw [h]) else isFalse (by intro e; cases e; exact h rfl)
  | .error x, .error y => if h : x = y then isTrue (by rw [h]) else isFalse (by intro e; cases e; exact h rfl)
  | .ok _, .error _ => isFalse (by intro e; cases e)
  | .error _, .ok _ => isFalse (by intro e; cases e)

/-- Python `a & b` on ints (two's complement, infinite sign extension). -/
def pyAnd : Int → Int → Int
  | .ofNat m, .ofNat n => ((m &&& n : Nat) : Int)
  | .ofNat m, .negSucc n => ((m - (m &&& n) : Nat) : Int)
  | .negSucc m, .ofNat n => ((n - (n &&& m) : Nat) : Int)
  | .negSucc m, .negSucc n => .negSucc (m ||| n)

/-- Python `a >> n` for a non-negative shift: floor division by `2^n`. -/
def pyShr (a : Int) (n : Nat) : Int := a / (2 ^ n : Int)

/-- Python `a << n` for a non-negative shift. -/
def pyShl (a : Int) (n : Nat) : Int := a * (2 ^ n : Int)

/-- Python `a // b`. -/
def pyDiv (a b : Int) : Py Int :=
  if b = 0 then .error .zeroDivision else .ok (a.fdiv b)

/-- Python `a % b`. -/
def pyMod (a b : Int) : Py Int :=
  if b = 0 then .error .zeroDivision else .ok (a.fmod b)

/-- Python `range(a, b)`. -/
def pyRange (a b : Int) : List Int :=
  (List.range (b - a).toNat).map fun (i : Nat) => a + (i : Int)

/-- Python subscript resolution: a negative index counts from the end, once. -/
def resolveIdx (len : Nat) (i : Int) : Option Nat :=
  if 0 ≤ i then (if i < len then some i.toNat else none)
  else (if 0 ≤ i + len then some (i + len).toNat else none)

/-- `b[i]` -/
def getItem (b : Bytes) (i : Int) : Py Nat :=
  match resolveIdx b.length i with
  | some k => .ok (b.getD k 0)
  | none => .error .indexError

/-- `b[i] = v` (CPython checks the index before it converts the value). -/
def setItem (b : Bytes) (i v : Int) : Py Bytes :=
  match resolveIdx b.length i with
  | some k => if 0 ≤ v ∧ v < 256 then .ok (b.set k v.toNat) else .error .overflowError
  | none => .error .indexError

/-- `array('B', l)`: every element must be a byte. -/
def mkArray (l : List Int) : Py Bytes :=
  if l.all (fun v => decide (0 ≤ v ∧ v < 256)) then .ok (l.map Int.toNat) else .error .overflowError

/-- CPython clamping of a slice bound (positive step). -/
def clampIdx (len : Nat) (i : Int) : Nat :=
  if i < 0 then (i + len).toNat else min i.toNat len

/-- `b[s:e]` -/
def slice {α : Type} (b : List α) (s e : Int) : List α :=
  (b.take (clampIdx b.length e)).drop (clampIdx b.length s)

/-- `b[s:e] = buf`; an empty slice inserts at its start, and the length may change. -/
def setSlice (b : Bytes) (s e : Int) (buf : Bytes) : Bytes :=
  let s' := clampIdx b.length s
  let e' := max s' (clampIdx b.length e)
  b.take s' ++ buf ++ b.drop e'

/-- Number of indices of `range(s', e', k)` for naturals and `k > 0`. -/
def stepCount (s' e' k : Nat) : Nat :=
  if s' < e' then (e' - s' - 1) / k + 1 else 0

/-- `b[s:e:k]` for a positive step; step 0 is a `ValueError`. -/
def sliceStep (b : Bytes) (s e : Int) (k : Nat) : Py Bytes :=
  if k = 0 then .error .valueError
  else
    let s' := clampIdx b.length s
    let e' := clampIdx b.length e
    .ok ((List.range (stepCount s' e' k)).map fun j => b.getD (s' + j * k) 0)

/-- Write the elements of `buf` at `s`, `s+k`, `s+2k`, … -/
def writeStride (b : Bytes) (s k : Nat) : Bytes → Bytes
  | [] => b
  | v :: vs => writeStride (b.set s v) (s + k) k vs

/-- The array without its elements at `s`, `s+k`, …, `s+(n-1)k`. -/
def deleteStride (b : Bytes) (s k n : Nat) : Bytes :=
  ((List.range b.length).filter fun i => decide (¬ (s ≤ i ∧ (i - s) % k = 0 ∧ (i - s) / k < n))).map fun i => b.getD i 0

/-- `b[s:e:k] = buf` for a positive step. Step 1 is an ordinary slice assignment; otherwise the lengths must match,
except that CPython deletes the elements of the slice if `buf` is empty. -/
def setSliceStep (b : Bytes) (s e : Int) (k : Nat) (buf : Bytes) : Py Bytes :=
  if k = 0 then .error .valueError
  else if k = 1 then .ok (setSlice b s e buf)
  else
    let s' := clampIdx b.length s
    let e' := clampIdx b.length e
    if stepCount s' e' k = buf.length then .ok (writeStride b s' k buf)
    else if buf = [] then .ok (deleteStride b s' k (stepCount s' e' k))
    else .error .valueError

/-- `l * n` for a list or array: a negative count gives the empty sequence. -/
def pyRepeat {α : Type} (l : List α) (n : Int) : List α :=
  (List.replicate n.toNat l).flatten

end Verif
