import Verif.Py
/-! Model of `pythonbmp/inttools.py`, `conditionaltools.py`, `chartools.py` (integer parts)
and the clamping helpers of `mathlib.py`. -/

namespace Verif.Model
open Verif

/-- inttools.py 19-42 `writeint`: note that it writes only `cnt - 1` bytes. -/
def writeint (offset cnt : Int) (arr : Bytes) (value : Int) : Py Bytes := do
  let r ← (pyRange 0 (cnt - 1)).foldlM
    (fun (st : Bytes × Int) i => do
      let arr ← setItem st.1 (offset + i) (pyAnd st.2 0xff)
      pure (arr, pyShr st.2 8)) (arr, value)
  pure r.1

/-- inttools.py 45-63 `readint`: note that it reads only `cnt - 1` bytes. -/
def readint (offset cnt : Int) (arr : Bytes) : Py Int :=
  (pyRange 0 (cnt - 1)).foldlM
    (fun acc i => do
      let v ← getItem arr (offset + i)
      pure (acc + pyShl (v : Int) (i * 8).toNat)) 0

/-- inttools.py 66-78 `int2buf`. -/
def int2buf (cnt value : Int) : Py Bytes :=
  mkArray ((pyRange 0 cnt).map fun i => pyAnd (pyShr value (i * 8).toNat) 0xff)

/-- inttools.py 81-92 `buf2int`: note that it ignores the last byte. -/
def buf2int (buf : Bytes) : Py Int :=
  (pyRange 0 ((buf.length : Int) - 1)).foldlM
    (fun acc i => do
      let v ← getItem buf i
      pure (acc + pyShl (v : Int) (i * 8).toNat)) 0

/-- conditionaltools.py 16-37 `iif`. -/
def iif {α : Type} (c : Bool) (t f : α) : α := if c then t else f

/-- conditionaltools.py 40-57 `swapif`. -/
def swapif {α : Type} (a b : α) (c : Bool) : α × α := if c then (b, a) else (a, b)

/-- mathlib.py 334-351 `isinrange` (strict on both sides). -/
def isinrange (value high low : Int) : Bool := decide (value > low) && decide (value < high)

/-- mathlib.py 354-365 `setmax`. -/
def setmax (val maxval : Int) : Int := if val > maxval then maxval else val

/-- mathlib.py 368-379 `setmin`. -/
def setmin (val minval : Int) : Int := if val < minval then minval else val

/-- mathlib.py 382-400 `setminmax`. -/
def setminmax (val minval maxval : Int) : Int :=
  let val := if val > maxval then maxval else val
  if val < minval then minval else val

/-- mathlib.py 424-440 `sign`. -/
def sign (val : Int) : Int := if val > 0 then 1 else if val = 0 then 0 else -1

/-- chartools.py 48-63 `char2int`, on the code points of the characters. -/
def char2int (s : List Nat) : Int :=
  (s.foldl (fun (st : Int × Nat) (c : Nat) => (st.1 + (c : Int) * 256 ^ st.2, st.2 + 1)) (0, 0)).1

end Verif.Model
