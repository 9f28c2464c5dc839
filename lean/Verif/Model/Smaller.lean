import Verif.Model.Image
import Verif.Model.Helpers
/-! Model of the functions that make an image smaller: `buffersplit.py`, `resizesmaller24bitbuf` of
`bufresize.py`, and BITMAPlib.py 12465-12522. -/

namespace Verif.Model
open Verif

/-- buffersplit.py 17-32 `altsplitbuf` (`m & 1` is the parity of `m`). -/
def altsplitbuf (buf : Bytes) : Py (Bytes × Bytes) := do
  let m : Int := buf.length
  let m := if m % 2 = 0 then m - m % 2 else m
  pure (← sliceStep buf 0 (m - 1) 2, ← sliceStep buf 1 m 2)

/-- buffersplit.py 56-79 `altsplitbufnway` for `0 ≤ n` (the only caller passes the length of a list).
In the round for `i` the counter `j` is `n - 1 - i`. -/
def altsplitbufnway (buf : Bytes) (n : Nat) : Py (List Bytes) := do
  let m : Int := buf.length
  if n = 0 then .error .zeroDivision
  else
    let m := if m % (n : Int) = 0 then m - m % 2 else m
    (List.range n).mapM fun (i : Nat) => sliceStep buf (i : Int) (m - ((n : Int) - 1 - (i : Int))) n

/-- mathlib.py 149-160 `addvect`: `zip` stops at the shorter list. -/
def addvectN (u v : List Nat) : List Nat := List.zipWith (· + ·) u v

/-- mathlib.py 1308-1319 `addvectinlist`: `reduce` of an empty list raises `TypeError`. -/
def addvectinlist : List (List Nat) → Py (List Nat)
  | [] => .error .typeError
  | v :: vs => .ok (vs.foldl addvectN v)

/-- bufresize.py 243-263 `resizesmaller24bitbuf`. `scale n s` stands for `round(s * (1 / n**2))`
(bufresize.py 256 and mathlib.py 254-272 `intscalarmulvect`), a float product. The list of the rows is
not empty when the function is called, so `1 / n**2` is defined. -/
def resizesmaller24bitbuf (scale : Nat → Nat → Int) (buf : List Bytes) : Py Bytes := do
  let n := buf.length
  let (b, g, r) ← altsplitbuf3way (← addvectinlist buf)
  let b ← mkArray ((← addvectinlist (← altsplitbufnway b n)).map (scale n))
  let g ← mkArray ((← addvectinlist (← altsplitbufnway g n)).map (scale n))
  let r ← mkArray ((← addvectinlist (← altsplitbufnway r n)).map (scale n))
  pure (makeBGRbuf b g r)

/-- The variables of the loop of BITMAPlib.py 12488-12504; `done` is set by `break`. -/
structure SmallSt where
  nbmp : Bytes
  offset : Int
  i : Int
  bufl : List Bytes
  y : Int
  done : Bool

/-- One round of BITMAPlib.py 12494-12504. After `break` nothing happens any more. -/
def smallBody (scale : Nat → Nat → Int) (n ny r : Int) (st : SmallSt) (buf : Bytes) : Py SmallSt :=
  if st.done = true then pure st
  else do
    let bufl := st.bufl ++ [buf]
    if st.i.fmod n = 0 then do
      let nbmp ← BMPbitBLTput st.nbmp st.offset (← resizesmaller24bitbuf scale bufl)
      let y := st.y + 1
      pure ⟨nbmp, st.offset + r, st.i + 1, [], y, decide (y > ny)⟩
    else pure ⟨st.nbmp, st.offset, st.i + 1, bufl, st.y, false⟩

/-- BITMAPlib.py 12465-12505 `resizeNtimessmaller` with its decorator (paramchecks.py 83-101): `none`
is the `None` returned for other depths. -/
def resizeNtimessmaller (scale : Nat → Nat → Int) (bmp : Bytes) (n : Int) : Py (Option Bytes) :=
  guard24 (do
    let bits ← getItem bmp bmpcolorbits
    let m ← getmaxxy bmp
    if n = 0 then .error .zeroDivision
    else
      let nx := m.1.fdiv n
      let ny := m.2.fdiv n
      let nbmp ← newBMP nx ny bits
      let mx := m.1 - 1
      let my := m.2 - 1
      let ny := ny - 1
      let offset ← bmof24 nbmp 0 ny
      let r ← xchrcnt nbmp
      let st ← foritercopyrect (fun _ : SmallSt => bmp) ⟨nbmp, offset, 1, [], 0, false⟩ 0 0 mx my
        (smallBody scale n ny r)
      pure st.nbmp) bmp

/-- BITMAPlib.py 12508-12522 `pixelizenxn`: for other depths `resizeNtimesbigger(None, n)` raises
`TypeError`. -/
def pixelizenxn (scale : Nat → Nat → Int) (bmp : Bytes) (n : Int) : Py Bytes := do
  match ← resizeNtimessmaller scale bmp n with
  | none => .error .typeError
  | some b => resizeNtimesbigger b n

end Verif.Model
