import Verif.Model.Edges
import Verif.Model.Float
import Verif.Model.Compare
/-! Computed palettes: parts of colors.py and BITMAPlib.py. Factors are the rationals held by the floats. -/

namespace Verif.Model
open Verif Spec

/-- The step of colors.py 409-411 (the same in 446-448, 484-486, 523-525, 562-564). -/
def palinc (bits : Nat) : Int := pyShr 256 bits + (if bits = 4 then 1 else if bits = 1 then 127 else 0)

/-- colors.py 194-222 `RGBfactors2RGB` for an integer luminosity, also written out in the palettes below. -/
def shadeRGB (f : ℚ × ℚ × ℚ) (j : Int) : RGB := (rnd (fl (f.1 * j)), rnd (fl (f.2.1 * j)), rnd (fl (f.2.2 * j)))

/-- colors.py 385-417 `monochromepal` -/
def monochromepal (bits : Nat) (f : ℚ × ℚ × ℚ) : Py (List RGB) := do
  pure ((← pyRange3 0 256 (palinc bits)).map fun c => shadeRGB f c)

/-- colors.py 420-455 `monoshiftablepal` -/
def monoshiftablepal (bits : Nat) (f : ℚ × ℚ × ℚ) (mult shift : Int) : Py (List RGB) := do
  pure ((← pyRange3 0 256 (palinc bits)).map fun c => shadeRGB f ((c * mult + shift) % 256))

/-- colors.py 458-494 `monoinverseshiftablepal` -/
def monoinverseshiftablepal (bits : Nat) (f : ℚ × ℚ × ℚ) (mult shift : Int) : Py (List RGB) := do
  pure ((← pyRange3 0 256 (palinc bits)).map fun c => shadeRGB f (((255 - c) * mult + shift) % 256))

/-- colors.py 1117-1130 `RGB2BGRAlist` -/
def RGB2BGRAlist (l : List RGB) : List (List Int) := l.map fun p => [p.2.2, p.2.1, p.1, 0]

/-- colors.py 497-533 `monoinverseshiftableBGRpal` -/
def monoinverseshiftableBGRpal (bits : Nat) (f : ℚ × ℚ × ℚ) (mult shift : Int) : Py (List (List Int)) := do
  pure ((← pyRange3 0 256 (palinc bits)).map fun c =>
    let p := shadeRGB f (((255 - c) * mult + shift) % 256)
    [p.2.2, p.2.1, p.1])

/-- colors.py 536-573 `monoinverseshiftableBGRApal` -/
def monoinverseshiftableBGRApal (bits : Nat) (f : ℚ × ℚ × ℚ) (mult shift : Int) : Py (List (List Int)) := do
  pure ((← pyRange3 0 256 (palinc bits)).map fun c =>
    let p := shadeRGB f (((255 - c) * mult + shift) % 256)
    [p.2.2, p.2.1, p.1, 0])

/-- mathlib.py 1673-1690 `lerp` in float arithmetic. -/
def lerpF (a b f : ℚ) : ℚ := fl (fl (fl (1 - f) * a) + fl (f * b))

/-- colors.py 1133-1155 `interpolateRGB` with `lerp`. -/
def interpolateRGB (p q : RGB) (v : ℚ) : RGB := (rnd (lerpF p.1 q.1 v), rnd (lerpF p.2.1 q.2.1 v), rnd (lerpF p.2.2 q.2.2 v))

/-- The loop of colors.py 1109-1113, its body for the given values of `i`. -/
def dichromLoop (p q : RGB) (n : Nat) (mult shift : Int) (v : List RGB) (is : List Nat) : List RGB :=
  is.foldl (fun v (i : Nat) => v.set (((n - i : Int) * mult + shift) % n).toNat (interpolateRGB p q (fl ((i : ℚ) / n)))) v

/-- colors.py 1087-1114 `dichromaticpal` -/
def dichromaticpal (c1 c2 : Int) (n : Nat) (mult shift : Int) : List RGB :=
  dichromLoop (int2RGB c1) (int2RGB c2) n mult shift (List.replicate n (int2RGB c1)) (List.range n)

/-- BITMAPlib.py 1345-1363 `setBMP2monochrome` -/
def setBMP2monochrome (bmp : Bytes) (f : ℚ × ℚ × ℚ) : Py (Bytes × List RGB) := do
  let bits ← getItem bmp bmpcolorbits
  let newpal ← monochromepal bits f
  pure (← setbmppal bmp newpal, newpal)

/-- BITMAPlib.py 1366-1385 `setBMP2invshiftedmonochrome` -/
def setBMP2invshiftedmonochrome (bmp : Bytes) (f : ℚ × ℚ × ℚ) (mult shift : Int) : Py (Bytes × List (List Int)) := do
  let bits ← getItem bmp bmpcolorbits
  let newpal ← monoinverseshiftableBGRApal bits f mult shift
  pure (← setbmppalwithBGRAlist bmp newpal, newpal)

/-- BITMAPlib.py 1388-1404 `setBMP2dichromaticpal` -/
def setBMP2dichromaticpal (bmp : Bytes) (c1 c2 : Int) : Py (Bytes × List (List Int)) := do
  let m ← getmaxcolors bmp
  let newpal := RGB2BGRAlist (dichromaticpal c1 c2 m.toNat 3 0)
  pure (← setbmppalwithBGRAlist bmp newpal, newpal)

/-- The argument `rgbfactors` of `newBMPwithPAL`: three factors, two colours, or a list of another length. -/
inductive PalSpec where
  | mono (f : ℚ × ℚ × ℚ)
  | two (c1 c2 : Int)
  | other

/-- BITMAPlib.py 10708-10732 `newBMPwithPAL`; the default `mult` of 1368 is 20. -/
def newBMPwithPAL (x y bitdepth : Int) (p : PalSpec) : Py Bytes := do
  let bmp ← newBMP x y bitdepth
  if bitdepth < 24 then
    match p with
    | .mono f => do pure (← setBMP2invshiftedmonochrome bmp f 20 0).1
    | .two c1 c2 => do pure (← setBMP2dichromaticpal bmp c1 c2).1
    | .other => pure bmp
  else pure bmp

/-- The loop of BITMAPlib.py 1208-1222, for integer thresholds. -/
def newpalLoop (colors : Int) (t : Int) : List (Nat × Int) → List RGB → List RGB
  | [], pal => pal
  | h :: hs, pal =>
    let rgb := int2RGB h.2
    let pal := if pal.all (fun p => !distLt p rgb t) then pal ++ [rgb] else pal
    if (pal.length : Int) = colors then pal else newpalLoop colors t hs pal

/-- BITMAPlib.py 1188-1223 `makenewpalfromcolorhist`; `palcnt` is the length of `newpal`. -/
def makenewpalfromcolorhist (chist : List (Nat × Int)) (colors t : Int) : List RGB := newpalLoop colors t chist [(0, 0, 0)]

/-- BITMAPlib.py 1292-1323 `setnewpalfromsourcebmp` -/
def setnewpalfromsourcebmp (source newbmp : Bytes) (t : Int) : Py (Bytes × List RGB) := do
  let h ← colorhistogram source
  let m ← getmaxcolors newbmp
  let newpal := makenewpalfromcolorhist h m t
  pure (← setbmppal newbmp newpal, newpal)

/-- colors.py 334-350 `probplotRGBto1bit` with the random number drawn from 0 to `sum(rgb)`. -/
def probplotRGBto1bit (brightness random : Int) : Int := rnd (fl (((brightness * random : Int) : ℚ) / 768))

/-- BITMAPlib.py 13860-13920 `reduce24bitimagebits` without the messages. `random v` is the number drawn at the
pixel `v`. The colours of a 24-bit image are tuples, the entries of the palette are lists. -/
def reduce24bitimagebits (random : Int × Int → Int) (fs : Files) (ex nw : String) (newbits t : Int)
    (mono : Option (ℚ × ℚ × ℚ)) : Py Files :=
  applysaveopt (fun sbmp => do
    let bits ← getItem sbmp bmpcolorbits
    if bits ≠ 24 then pure none
    else do
      let bmp ← CopyBMPxydim2newBMP sbmp newbits
      let (bmp, newpal) ←
        if newbits > 1 then
          match mono with
          | some f => setBMP2monochrome bmp f
          | none => setnewpalfromsourcebmp sbmp bmp t
        else pure (bmp, [])
      let l ← iterimageRGB sbmp
      let n ← l.foldlM (fun bmp v => plotxybit bmp v.1.1 v.1.2
        (if newbits = 1 then probplotRGBto1bit 2 (random v.1) else matchRGBtopal v.2 false newpal)) bmp
      pure (some n)) fs ex nw

/-- colors.py 1049-1084 `RGB2HSL` before rounding, with exact numbers. -/
def hslExact (r g b : Int) : ℚ × ℚ × ℚ :=
  let r : ℚ := r / 255
  let g : ℚ := g / 255
  let b : ℚ := b / 255
  let hi := max (max r g) b
  let lo := min (min r g) b
  let lum := (hi + lo) / 2
  if hi ≠ lo then
    let c := hi - lo
    let sat := c / (1 - |2 * lum - 1|)
    let hue :=
      if hi = r then (g - b) / c + (if g < b then 6 else 0)
      else if hi = g then (b - r) / c + 2
      else (r - g) / c + 4
    (hue, sat, lum)
  else (0, 0, lum)

/-- colors.py 1049-1084 `RGB2HSL` with exact numbers in place of floats. -/
def RGB2HSL (r g b : Int) : Int × Int × Int :=
  let h := hslExact r g b
  (rnd (h.1 * 60), rnd (h.2.1 * 100), rnd (h.2.2 * 100))

end Verif.Model
