import Verif.Model.Pixel
/-! Model of the vertical block transfer, `pythonbmp/BITMAPlib.py` lines 1555-1586. -/

namespace Verif.Model
open Verif

/-- colors.py 1028-1046 `makeBGRbuf`: interleaves three buffers (`zip` stops at the shortest). -/
def makeBGRbuf : Bytes → Bytes → Bytes → Bytes
  | b :: bs, g :: gs, r :: rs => b :: g :: r :: makeBGRbuf bs gs rs
  | _, _, _ => []

/-- BITMAPlib.py 1555-1586 `vertBMPbitBLTget`: `none` is the `None` returned after the message. -/
def vertBMPbitBLTget (bmp : Bytes) (x y1 y2 : Int) : Py (Option Bytes) := do
  let bits ← getItem bmp bmpcolorbits
  let r ← xchrcnt bmp
  let m ← getmaxxy bmp
  if isinrange x m.1 (-1) = true then
    let (y1, y2) := swapif y1 y2 (decide (y1 > y2))
    let y1 := setmin y1 0
    let y2 := setmax y2 (m.2 - 1)
    let s ← BMoffsethd bmp x y2
    let e0 ← BMoffsethd bmp x y1
    let e := e0 + r
    if bits = 24 then
      let b ← sliceStep bmp s (e - 2) r.toNat
      let g ← sliceStep bmp (s + 1) (e - 1) r.toNat
      let rr ← sliceStep bmp (s + 2) e r.toNat
      pure (some (makeBGRbuf b g rr))
    else
      let v ← sliceStep bmp s e r.toNat
      pure (some v)
  else pure none

end Verif.Model
