import Verif.Model.Pals

/-!
`RGB2HSL` with 53-bit floats. Model/Pals.lean has the same function with exact numbers. As in Model/Float.lean, overflow and
numbers too small for the normal format do not occur and are not modelled.
-/

namespace Verif.Model
open Verif

/-- colors.py 1063-1080 `RGB2HSL` before the last multiplications: every operation rounds. -/
def hslFloat (r g b : Nat) : ℚ × ℚ × ℚ :=
  let r := divF r 255
  let g := divF g 255
  let b := divF b 255
  let hi := max (max r g) b
  let lo := min (min r g) b
  let lum := fl (fl (hi + lo) / 2)
  if hi ≠ lo then
    let c := fl (hi - lo)
    let sat := fl (c / fl (1 - |fl (fl (2 * lum) - 1)|))
    let hue :=
      if hi = r then (let hue := fl (fl (g - b) / c); if g < b then fl (hue + 6) else hue)
      else if hi = g then fl (fl (fl (b - r) / c) + 2)
      else if hi = b then fl (fl (fl (r - g) / c) + 4)
      else 0
    (hue, sat, lum)
  else (0, 0, lum)

/-- colors.py 1049-1084 `RGB2HSL`. -/
def RGB2HSLF (r g b : Nat) : Int × Int × Int :=
  let h := hslFloat r g b
  (rnd (fl (h.1 * 60)), rnd (fl (h.2.1 * 100)), rnd (fl (h.2.2 * 100)))

end Verif.Model
