import Verif.Spec
/-! Specification of programs that read one file and write another, independent of the model. -/

namespace Verif.Spec
open Verif

/-- The files that exist, with their contents. Two names never stand for the same file: links,
directories, permissions and full disks are outside this picture. -/
abbrev Files := String → Option Bytes

/-- The file `nw` has a content with property `P` and every other file is as before. -/
def Saved (fs fs' : Files) (nw : String) (P : Bytes → Prop) : Prop :=
  (∃ c, fs' nw = some c ∧ P c) ∧ ∀ n, n ≠ nw → fs' n = fs n

/-- The file `ex` holds the valid image `b`; an image of 54 bytes has no pixels and no palette. -/
structure Stored (fs : Files) (ex : String) (b : Bytes) (W H bits : Nat) : Prop where
  content : fs ex = some b
  valid : Valid b W H bits
  long : 54 < b.length

/-- The content is not accepted as a bitmap: no "BM" at the start, or a declared size (the eight
bytes after it) of 54 or less. -/
def NotBMP (c : Bytes) : Prop :=
  ¬ (2 ≤ c.length ∧ byte c 0 = 66 ∧ byte c 1 = 77) ∨ le c 2 8 ≤ 54

/-- A well-behaved converter: a missing source changes nothing, a source that is no bitmap is an
error, and every successful run changes at most the new file. -/
structure Careful {E : Type} (w : Files → String → String → Except E Files) : Prop where
  missing : ∀ fs ex nw, fs ex = none → w fs ex nw = .ok fs
  nobmp : ∀ fs ex nw c, fs ex = some c → NotBMP c → ∃ e, w fs ex nw = .error e
  frame : ∀ fs ex nw fs', w fs ex nw = .ok fs' → ∀ n, n ≠ nw → fs' n = fs n

/-- A converter that treats true-colour images only: other images leave all files alone. -/
def TrueColourOnly {E : Type} (w : Files → String → String → Except E Files) : Prop :=
  ∀ fs ex nw b W H bits, Stored fs ex b W H bits → bits ≠ 24 → w fs ex nw = .ok fs

end Verif.Spec
