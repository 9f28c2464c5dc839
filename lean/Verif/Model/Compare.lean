import Verif.Model.Image
/-! Model of the image comparison of `BITMAPlib.py` and of the colour histogram. -/

namespace Verif.Model
open Verif

/-- mathlib.py 1249-1261 `xorvect`; `zip` stops at the shorter operand. -/
def xorvect (u v : Bytes) : List Int := (u.zip v).map fun p => ((p.1 ^^^ p.2 : Nat) : Int)

/-- mathlib.py 1264-1276 `andvect` -/
def andvect (u v : Bytes) : List Int := (u.zip v).map fun p => ((p.1 &&& p.2 : Nat) : Int)

/-- BITMAPlib.py 13818-13857 `imagecomp`, on the two loaded arrays. The result is the array that is
saved, `none` when nothing is saved. Both palettes are read for the sake of a message only. -/
def imagecomp (func : Bytes → Bytes → List Int) (bmp1 bmp2 : Bytes) : Py (Option Bytes) := do
  let s1 ← getmaxxyandbits bmp1
  let s2 ← getmaxxyandbits bmp2
  if s1 ≠ s2 then pure none
  else
    let bits := s1.2
    let nbmp ← CopyBMPxydim2newBMP bmp1 bits
    let nbmp ← (if bits < 24 then do
      let _ ← getallRGBpal bmp1
      let _ ← getallRGBpal bmp2
      copyRGBpal bmp1 nbmp
    else pure nbmp : Py Bytes)
    let i1 ← getBMPimgbytes bmp1
    let i2 ← getBMPimgbytes bmp2
    let buf ← mkArray (func i1 i2)
    let nbmp ← setBMPimgbytes nbmp buf
    pure (some nbmp)

/-- BITMAPlib.py 15112-15127 `imagediff` -/
def imagediff (bmp1 bmp2 : Bytes) : Py (Option Bytes) := imagecomp xorvect bmp1 bmp2

/-- BITMAPlib.py 15131-15148 `showsimilarparts` -/
def showsimilarparts (bmp1 bmp2 : Bytes) : Py (Option Bytes) := imagecomp andvect bmp1 bmp2

/-- One pass of the loop of BITMAPlib.py 1174-1184: the dictionary is a list of colours with counts
in order of first insertion. -/
def countColor (c : Int) : List (Int × Nat) → List (Int × Nat)
  | [] => [(c, 1)]
  | (k, n) :: d => if k = c then (k, n + 1) :: d else (k, n) :: countColor c d

/-- The order of Python lists of two numbers. -/
def lexLe (p q : Nat × Int) : Bool := decide (p.1 < q.1 ∨ p.1 = q.1 ∧ p.2 ≤ q.2)

/-- One element put in its place of a sorted list. -/
def insertLex (p : Nat × Int) : List (Nat × Int) → List (Nat × Int)
  | [] => [p]
  | q :: l => if lexLe p q = true then p :: q :: l else q :: insertLex p l

/-- `list.sort()`; equal elements cannot be told apart, so any sorting algorithm gives this list. -/
def sortLex : List (Nat × Int) → List (Nat × Int)
  | [] => []
  | p :: l => insertLex p (sortLex l)

/-- dicttools.py 17-33 `dict2descorderlist`: pairs (value, key), sorted and reversed. -/
def dict2descorderlist (d : List (Int × Nat)) : List (Nat × Int) :=
  (sortLex (d.map fun p => (p.2, p.1))).reverse

/-- BITMAPlib.py 1166-1185 `colorhistogram` -/
def colorhistogram (bmp : Bytes) : Py (List (Nat × Int)) := do
  let it ← iterimagecolor bmp
  pure (dict2descorderlist (it.foldl (fun d v => countColor v.2 d) []))

end Verif.Model
