import Verif.Model.Float
import Verif.Model.Files
/-! The percentages of the brightness gradients, computed with floats: the functions that the models of
the gradients take as a parameter, and the gradients with these functions. -/

namespace Verif.Model
open Verif Spec

/-- BITMAPlib.py 12364-12370 in `verticalbrightnessgradto24bitregion` and 12401-12408 in
`horizontalbrightnessgradto24bitregion`: the value of `lum` in round `k`, from `a` in the first round with the
step `(c - a) / n` added each time. -/
def lumAcc (a c : Int) (n : Nat) : Nat → ℚ
  | 0 => a
  | k + 1 => fl (lumAcc a c n k + fl (((c - a : Int) : ℚ) / n))

/-- BITMAPlib.py 3092-3099 in `vertbrightnessgrad2circregion` and 3128-3140 in `horibrightnessgrad2circregion`:
`l + (y1 - b) * dl` with `dl = delta(lumrange) / (2 * r)` and `b = y - r`, for `i = y1 - b`. -/
def lumAt (a c r i : Int) : ℚ := fl ((a : ℚ) + fl ((i : ℚ) * fl (((c - a : Int) : ℚ) / ((2 * r : Int) : ℚ))))

/-- colors.py 969 and mathlib.py 271: `round(v * (1 + (percentadj / 100)))` for a float percentage. -/
def brightQ (lum : ℚ) (v : Nat) : Int := rnd (fl ((v : ℚ) * fl (1 + fl (lum / 100))))

/-- BITMAPlib.py 12338-12370 `verticalbrightnessgradto24bitregion` with `lumrange` = `(l0, l1)`: the first round is the
lowest row, with `l1`. -/
def vertgradregion (bmp : Bytes) (x1 y1 x2 y2 l0 l1 : Int) : Py Bytes :=
  verticalbrightnessgradto24bitregion (fun k => brightQ (lumAcc l1 l0 (max y1 y2 - min y1 y2).toNat k)) bmp x1 y1 x2 y2

/-- BITMAPlib.py 12373-12408 `horizontalbrightnessgradto24bitregion` with `lumrange` = `(l0, l1)`. -/
def horigradregion (bmp : Bytes) (x1 y1 x2 y2 l0 l1 : Int) : Py Bytes :=
  horizontalbrightnessgradto24bitregion (fun k => brightQ (lumAcc l0 l1 (max x1 x2 - min x1 x2).toNat k)) bmp x1 y1 x2 y2

/-- BITMAPlib.py 9073-9089 `verticalbrightnessgradto24bitimage` with `lumrange` = `(l0, l1)`. -/
def vertgradimage (bmp : Bytes) (l0 l1 : Int) : Py Bytes := do
  vertgradregion bmp 0 0 ((← getmaxx bmp) - 1) ((← getmaxy bmp) - 1) l0 l1

/-- BITMAPlib.py 8843-8862 `horizontalbrightnessgradto24bitimage` with `lumrange` = `(l0, l1)`. -/
def horigradimage (bmp : Bytes) (l0 l1 : Int) : Py Bytes := do
  horigradregion bmp 0 0 ((← getmaxx bmp) - 1) ((← getmaxy bmp) - 1) l0 l1

/-- BITMAPlib.py 3070-3105 `vertbrightnessgrad2circregion` with `lumrange` = `(l0, l1)`. -/
def vertgradcirc (bmp : Bytes) (x y r l0 l1 : Int) : Py Bytes :=
  vertbrightnessgrad2circregion (fun py => brightQ (lumAt l0 l1 r (py - (y - r)))) bmp x y r

/-- BITMAPlib.py 3108-3140 `horibrightnessgrad2circregion` with `lumrange` = `(l0, l1)`. -/
def horigradcirc (bmp : Bytes) (x y r l0 l1 : Int) : Py Bytes :=
  horibrightnessgrad2circregion (fun px => brightQ (lumAt l0 l1 r (px - (x - r)))) bmp x y r

/-- BITMAPlib.py 15961-15990 `verticalbrightnessgradregion2file` with `lumrange` = `(l0, l1)`. -/
def vertgradregion2file (fs : Files) (ex nw : String) (x1 y1 x2 y2 l0 l1 : Int) : Py Files :=
  applysave24 (fun bmp => vertgradregion bmp x1 y1 x2 y2 l0 l1) fs ex nw

/-- BITMAPlib.py 15904-15932 `horizontalbrightnessgradregion2file` with `lumrange` = `(l0, l1)`. -/
def horigradregion2file (fs : Files) (ex nw : String) (x1 y1 x2 y2 l0 l1 : Int) : Py Files :=
  applysave24 (fun bmp => horigradregion bmp x1 y1 x2 y2 l0 l1) fs ex nw

/-- BITMAPlib.py 15425-15453 `vertbrightnessgrad2circregion2file` with `lumrange` = `(l0, l1)`. -/
def vertgradcirc2file (fs : Files) (ex nw : String) (x y r l0 l1 : Int) : Py Files :=
  applysave24 (fun bmp => vertgradcirc bmp x y r l0 l1) fs ex nw

/-- BITMAPlib.py 15456-15483 `horibrightnessgrad2circregion2file` with `lumrange` = `(l0, l1)`. -/
def horigradcirc2file (fs : Files) (ex nw : String) (x y r l0 l1 : Int) : Py Files :=
  applysave24 (fun bmp => horigradcirc bmp x y r l0 l1) fs ex nw

end Verif.Model
