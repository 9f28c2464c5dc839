import Verif.Py
/-!
# Specification of the BMP file format

Independent of the model of the code: only positions and arithmetic of the BMP format
(uncompressed Windows BMP with a 40 byte info header).
-/

namespace Verif.Spec
open Verif

/-- Byte at a position (0 beyond the end). -/
def byte (b : Bytes) (i : Nat) : Nat := b.getD i 0

/-- Little-endian number of `n` bytes at `off`. -/
def le (b : Bytes) (off : Nat) : Nat → Nat
  | 0 => 0
  | n + 1 => byte b off + 256 * le b (off + 1) n

/-- Bytes per stored row: rows are padded to a multiple of 4 bytes. -/
def rowLen (W bits : Nat) : Nat := (W * bits + 31) / 32 * 4

/-- Palette size in bytes: four bytes for each of the `2^bits` entries, none for true colour. -/
def palSize (bits : Nat) : Nat := if bits = 24 then 0 else 4 * 2 ^ bits

/-- Position of the pixel data: 14 byte file header, 40 byte info header, palette. -/
def dataOff (bits : Nat) : Nat := 54 + palSize bits

/-- The bit depths of the library. -/
def Depth (bits : Nat) : Prop := bits = 1 ∨ bits = 4 ∨ bits = 8 ∨ bits = 24

/-- `b` is a well-formed BMP file of the given geometry. The size field is read together with the
following four reserved bytes, which the format requires to be zero for files below 4 GB.
Dimensions are below `2^24`, the range in which this library reads them back. -/
structure Valid (b : Bytes) (W H bits : Nat) : Prop where
  depth : Depth bits
  wlt : W < 2 ^ 24
  hlt : H < 2 ^ 24
  bytes : ∀ v ∈ b, v < 256
  len : b.length = dataOff bits + H * rowLen W bits
  magic : byte b 0 = 66 ∧ byte b 1 = 77
  size : le b 2 8 = b.length
  off : le b 10 4 = dataOff bits
  info : le b 14 4 = 40
  width : le b 18 4 = W
  height : le b 22 4 = H
  bitcount : le b 28 2 = bits

/-- Colour of pixel `(x, y)`, `y` counted from the top. Rows are stored bottom-up; in packed
depths the leftmost pixel is in the most significant bits; true colour is stored blue, green, red. -/
def pix (b : Bytes) (W H bits x y : Nat) : Nat :=
  let row := dataOff bits + (H - 1 - y) * rowLen W bits
  if bits = 24 then
    byte b (row + 3 * x) + 256 * byte b (row + 3 * x + 1) + 65536 * byte b (row + 3 * x + 2)
  else
    byte b (row + x * bits / 8) / 2 ^ (8 - bits - x * bits % 8) % 2 ^ bits

/-- Palette entry `c` as (red, green, blue); stored blue, green, red, reserved. -/
def palRGB (b : Bytes) (c : Nat) : Nat × Nat × Nat :=
  (byte b (54 + 4 * c + 2), byte b (54 + 4 * c + 1), byte b (54 + 4 * c))

/-- A triple of bytes as Python integers. -/
def rgbI (p : Nat × Nat × Nat) : Int × Int × Int := ((p.1 : Int), (p.2.1 : Int), (p.2.2 : Int))

/-- What is seen at a pixel. -/
def pixRGB (b : Bytes) (W H bits x y : Nat) : Nat × Nat × Nat :=
  let c := pix b W H bits x y
  if bits = 24 then (c / 65536, c / 256 % 256, c % 256) else palRGB b c

/-- The colour number that an integer denotes in a given depth. One-bit images take any positive
number as "on". -/
def reduce (bits : Nat) (c : Int) : Nat :=
  if bits = 1 then (if c > 0 then 1 else 0) else (c % 2 ^ bits).toNat

/-- Two files agree on everything but pixel data. -/
def SameHeader (b b' : Bytes) (bits : Nat) : Prop :=
  b'.length = b.length ∧ ∀ i < dataOff bits, byte b' i = byte b i

/-- `b'` is the file `b` of the given geometry with the pixels of the set `S` painted in colour
number `c`: still well-formed, same header and palette, every other pixel as before. -/
structure Paints (b b' : Bytes) (W H bits : Nat) (S : Nat → Nat → Prop) (c : Nat) : Prop where
  valid : Valid b' W H bits
  header : SameHeader b b' bits
  inside : ∀ x y, x < W → y < H → S x y → pix b' W H bits x y = c
  outside : ∀ x y, x < W → y < H → ¬ S x y → pix b' W H bits x y = pix b W H bits x y

/-- `b'` is the file `b` of the given geometry with pixel `(x, y)` in colour `g x y`: still
well-formed, same header and palette. -/
structure Redraws (b b' : Bytes) (W H bits : Nat) (g : Nat → Nat → Nat) : Prop where
  valid : Valid b' W H bits
  header : SameHeader b b' bits
  pixels : ∀ x y, x < W → y < H → pix b' W H bits x y = g x y

/-- Corners in any order, inside the image. -/
def InImage (W H : Nat) (x1 y1 x2 y2 : Int) : Prop :=
  (0 ≤ x1 ∧ x1 < W ∧ 0 ≤ y1 ∧ y1 < H) ∧ (0 ≤ x2 ∧ x2 < W ∧ 0 ≤ y2 ∧ y2 < H)

/-- The pixel is in the closed rectangle. -/
def inRect (x1 y1 x2 y2 : Int) (x y : Nat) : Bool :=
  decide (min x1 x2 ≤ (x : Int) ∧ (x : Int) ≤ max x1 x2 ∧ min y1 y2 ≤ (y : Int) ∧ (y : Int) ≤ max y1 y2)

/-- A colour number of the given depth. -/
def IsColour (bits : Nat) (c : Int) : Prop := 0 ≤ c ∧ c < 2 ^ bits

end Verif.Spec
