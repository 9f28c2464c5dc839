import Verif.Model.Files
import Verif.Model.Helpers
import Verif.Model.Shapes
/-! Edge detection and regions of similar colour: parts of BITMAPlib.py. -/

namespace Verif.Model
open Verif Spec

/-- mathlib.py 717-730 `dist` for colours, squared. -/
def distRGB (u v : RGB) : Int := (u.1 - v.1) * (u.1 - v.1) + (u.2.1 - v.2.1) * (u.2.1 - v.2.1) + (u.2.2 - v.2.2) * (u.2.2 - v.2.2)

/-- `dist(u, v) > t` for an integer `t`, without the square root. -/
def distGt (u v : RGB) (t : Int) : Bool := decide (t < 0) || decide (t * t < distRGB u v)

/-- `dist(u, v) < t` for an integer `t`, without the square root. -/
def distLt (u v : RGB) (t : Int) : Bool := decide (0 < t) && decide (distRGB u v < t * t)

/-- BITMAPlib.py 1759-1772 `getRGBxybitvec` -/
def getRGBxybitvec (bmp : Bytes) (v : Int × Int) : Py (Option RGB) := getRGBxybit bmp v.1 v.2

/-- BITMAPlib.py 7335-7339 `getneighborcolorlist` -/
def getneighborcolorlist (bmp : Bytes) (v : Int × Int) : Py (List (Option RGB)) := do
  (itergetneighbors v (← getmaxx bmp) (← getmaxy bmp) true).mapM (getRGBxybitvec bmp)

/-- BITMAPlib.py 7359-7370: the loop over the neighbours `us` of a pixel of colour `v1`, with its `break`. The
distance to the empty list returned outside the image would be 0 as nothing is added up. -/
def firstdifferent (bmp : Bytes) (v1 : RGB) (t : Int) : List (Int × Int) → Py (Option (Int × Int))
  | [] => pure none
  | u :: us => do
    let c ← getRGBxybitvec bmp u
    if (match c with | some c => distGt c v1 t | none => decide (t < 0)) = true then pure (some u)
    else firstdifferent bmp v1 t us

/-- BITMAPlib.py 7342-7370 `iterimagedgevert` and 7427-7444 `getimagedgevert`, for integer thresholds. -/
def getimagedgevert (bmp : Bytes) (similaritythreshold : Int) : Py (List (Int × Int)) := do
  let m ← getmaxxy bmp
  let r ← (← iterimageRGB bmp).mapM fun v =>
    firstdifferent bmp v.2 similaritythreshold (itergetneighbors v.1 m.1 m.2 false)
  pure (r.filterMap id)

/-- BITMAPlib.py 7373-7399 `iterimageregionvertbyRGB` and 7402-7424 `getimageregionbyRGB`, for integer thresholds. -/
def getimageregionbyRGB (bmp : Bytes) (rgb : RGB) (similaritythreshold : Int) : Py (List (Int × Int)) := do
  pure (((← iterimageRGB bmp).filter fun v => distLt rgb v.2 similaritythreshold).map Prod.fst)

/-- BITMAPlib.py 7447-7475 `plotimgedges` -/
def plotimgedges (bmp : Bytes) (similaritythreshold edgeradius edgecolor : Int) : Py Bytes := do
  plotxypointlist bmp (← getimagedgevert bmp similaritythreshold) edgeradius edgecolor

/-- BITMAPlib.py 13923-13967 `imgregionbyRGB2file` -/
def imgregionbyRGB2file (fs : Files) (ex nw : String) (edgeradius edgecolor : Int) (rgb : RGB) (similaritythreshold : Int)
    (showedgeonly : Bool) : Py Files :=
  applysave (fun bmp => do
    let edge ← getimageregionbyRGB bmp rgb similaritythreshold
    let bmp ← if showedgeonly then copyBMPhdr bmp else pure bmp
    plotxypointlist bmp edge edgeradius edgecolor) fs ex nw

/-- BITMAPlib.py 14500-14523 `autocropimg2file`. Without `checklink`, a missing file is an error in the code
(here `keyError`). -/
def autocropimg2file (fs : Files) (ex nw : String) (similaritythreshold : Int) : Py Files :=
  match fs ex with
  | none => .error .keyError
  | some content => do
    let bmp ← loadBMP content
    let (p, q) ← rectboundarycoords (← getimagedgevert bmp similaritythreshold)
    cropBMPandsaveusingrectbnd fs ex nw p q

end Verif.Model
