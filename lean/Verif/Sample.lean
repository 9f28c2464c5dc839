import Verif.Spec
import Mathlib.Tactic.NormNum
/-! A small 8-bit image for concrete examples: evaluating `newBMP` in this depth inside the kernel
takes a minute because of the 256 palette entries. -/

namespace Verif
open Spec

/-- A 3 by 4 image with a grey palette, all pixels 0. -/
def sample8 : Bytes :=
  [66, 77, 0x46, 4, 0, 0, 0, 0, 0, 0, 0x36, 4, 0, 0, 40, 0, 0, 0, 3, 0, 0, 0, 4, 0, 0, 0, 1, 0, 8, 0,
    0, 0, 0, 0, 16, 0, 0, 0, 0, 0, 0, 0, 0, 0, 0, 0, 0, 1, 0, 0, 0, 0, 0, 0] ++
  (List.range 256).flatMap (fun i => [i, i, i, 0]) ++ List.replicate 16 0

theorem sample8_valid : Valid sample8 3 4 8 := by
  constructor
  · simp [Depth]
  · norm_num
  · norm_num
  all_goals decide +kernel

end Verif
