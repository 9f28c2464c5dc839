import Verif.Spec
/-! Specification of an operation on a set of pixels. -/

namespace Verif.Spec
open Verif

/-- `b'` is the image `b` with the pixels of `S` changed to `g` and all other ones kept. -/
structure Alters (b b' : Bytes) (W H bits : Nat) (S : Nat → Nat → Prop) (g : Nat → Nat → Nat) : Prop where
  valid : Valid b' W H bits
  header : SameHeader b b' bits
  inside : ∀ x y, x < W → y < H → S x y → pix b' W H bits x y = g x y
  outside : ∀ x y, x < W → y < H → ¬ S x y → pix b' W H bits x y = pix b W H bits x y

end Verif.Spec
