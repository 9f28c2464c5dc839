import Verif.Spec
/-! # Specification of whole-image results, independent of the model -/

namespace Verif.Spec
open Verif

/-- Row `y` of an image of width `W`, left to right. -/
def scanRow {α : Type} (W : Nat) (f : Nat → Nat → α) (y : Nat) : List ((Int × Int) × α) :=
  (List.range W).map fun (x : Nat) => (((x : Int), (y : Int)), f x y)

/-- All pixels of a `W` by `H` image, bottom row first, each row left to right. -/
def scan {α : Type} (W H : Nat) (f : Nat → Nat → α) : List ((Int × Int) × α) :=
  (List.range H).reverse.flatMap (scanRow W f)

/-- `b'` is a well-formed image with the given geometry, palette (colours 0, 1, ..) and pixels. -/
structure Shows (b' : Bytes) (W H bits : Nat) (pal : Nat → Nat × Nat × Nat) (g : Nat → Nat → Nat) : Prop where
  valid : Valid b' W H bits
  palette : bits ≠ 24 → ∀ c < 2 ^ bits, palRGB b' c = pal c
  pixels : ∀ x y, x < W → y < H → pix b' W H bits x y = g x y

end Verif.Spec
