import Verif.Model.CircRegion
import Verif.Model.Files
import Verif.Model.Gradient
import Verif.Model.Smaller
/-! Model of the disc operations that read a resized copy of the image (BITMAPlib.py 12411-12462), of
`thickencirclearea`, of the remaining file programs and of the programs that fill a directory. -/

namespace Verif.Model
open Verif Spec

/-- The loop of BITMAPlib.py 12426-12437 and 12453-12462: rows of `b` around `(nx, ny)` are written to `bmp`
around `(x, y)`. The four offsets of the image depend on its header only, which stays as it is. -/
def lensLoop (bmp b : Bytes) (x y nx ny r : Int) : Py Bytes :=
  (itercirclepartlineedge r).foldlM (fun bmp v => do
    let xm := mirror x v.1
    let ym := mirror y v.2
    let xn := mirror nx v.1
    let yn := mirror ny v.2
    let s1 ← BMoffsethd b xn.1 yn.1
    let e1 ← BMoffsethd b xn.2 yn.1
    let s2 ← BMoffsethd b xn.1 yn.2
    let e2 ← BMoffsethd b xn.2 yn.2
    let bmp ← segUpdate (fun _ _ _ => .ok (slice b s1 e1)) bmp xm.1 xm.2 ym.1
    segUpdate (fun _ _ _ => .ok (slice b s2 e2)) bmp xm.1 xm.2 ym.2) bmp

/-- BITMAPlib.py 12411-12437 `magnifyNtimescircregion` with its decorator (paramchecks.py 143-177): a
rejected call leaves the image. -/
def magnifyNtimescircregion (bmp : Bytes) (x y r n : Int) : Py Bytes := do
  let v ← guard24circle (do
    let nx := x * n
    let ny := y * n
    let b ← resizeNtimesbigger bmp n
    lensLoop bmp b x y nx ny r) bmp x y r
  pure (v.getD bmp)

/-- BITMAPlib.py 12440-12462 `pixelizenxncircregion`; `scale` as in `resizesmaller24bitbuf`. -/
def pixelizenxncircregion (scale : Nat → Nat → Int) (bmp : Bytes) (x y r n : Int) : Py Bytes := do
  let v ← guard24circle (do
    let b ← pixelizenxn scale bmp n
    lensLoop bmp b x y x y r) bmp x y r
  pure (v.getD bmp)

/-- BITMAPlib.py 13106-13125 `thickencirclearea`; the decorator `intcircleparam` (paramchecks.py 33-53) only
checks that the parameters are integers. -/
def thickencirclearea (bmp : Bytes) (x y r : Int) (f : ℚ × ℚ × ℚ) : Py Bytes :=
  gradthickcircle bmp x y r 8 (255, 0) f

/-- BITMAPlib.py 15365-15388 `thickencirclearea2file` -/
def thickencirclearea2file (f : ℚ × ℚ × ℚ) (fs : Files) (ex nw : String) (x y r : Int) : Py Files :=
  applysave24 (fun bmp => thickencirclearea bmp x y r f) fs ex nw

/-- BITMAPlib.py 15797-15821 `magnifyNtimescircregion2file` -/
def magnifyNtimescircregion2file (fs : Files) (ex nw : String) (x y r n : Int) : Py Files :=
  applysave (fun bmp => magnifyNtimescircregion bmp x y r n) fs ex nw

/-- BITMAPlib.py 15824-15848 `pixelizenxncircregion2file` -/
def pixelizenxncircregion2file (scale : Nat → Nat → Int) (fs : Files) (ex nw : String) (x y r n : Int) : Py Files :=
  applysave (fun bmp => pixelizenxncircregion scale bmp x y r n) fs ex nw

/-- BITMAPlib.py 14740-14757 `pixelizenxntofile` -/
def pixelizenxntofile (scale : Nat → Nat → Int) (fs : Files) (ex nw : String) (n : Int) : Py Files :=
  applysave24 (fun bmp => pixelizenxn scale bmp n) fs ex nw

/-- BITMAPlib.py 14760-14777 `resizeNtimessmaller2file`. `saveBMP` of the `None` of a rejected image raises
`AttributeError`, here `TypeError`; the depth is checked before, so this does not happen. -/
def resizeNtimessmaller2file (scale : Nat → Nat → Int) (fs : Files) (ex nw : String) (n : Int) : Py Files :=
  applysave24 (fun bmp => do
    match ← resizeNtimessmaller scale bmp n with
    | none => .error .typeError
    | some b => pure b) fs ex nw

/-- BITMAPlib.py 14898-14922 `rectangle2file` -/
def rectangle2file (fs : Files) (ex nw : String) (x1 y1 x2 y2 color : Int) : Py Files :=
  applysave (fun bmp => rectangle bmp x1 y1 x2 y2 color) fs ex nw

/-! ### Directories -/

/-- The files and the names of the directories that exist. -/
structure Disk where
  files : Files
  dirs : List String

/-- BITMAPlib.py 13432 and 13433: the image of round `i` is saved. -/
def frameName (cwd dir : String) (i : Nat) : String := cwd ++ "/" ++ dir ++ "/" ++ i.repr ++ ".bmp"

/-- The loop of BITMAPlib.py 13431-13436, from round `i` on. -/
def saveFrames (cwd dir : String) : Nat → List Bytes → Files → Files
  | _, [], fs => fs
  | i, b :: bs, fs => saveFrames cwd dir (i + 1) bs (writeFile fs (frameName cwd dir i) b)

/-- How a run that fills a directory ends. -/
inductive DirEnd where
  | done (d : Disk)
  | exists_
  deriving Inhabited

/-- BITMAPlib.py 13404-13436 `_usefndirsv` for a relative directory name; `exists_` is the
`FileExistsError`. The frames of a generator are the states of the image when they are saved; `none` is a
function that returns `None`, over which `enumerate` raises `TypeError`. The directory that was made before
such an error is not recorded. -/
def usefndirsv (func : Bytes → Py (Option (List Bytes))) (cwd : String) (d : Disk) (ex dir : String)
    (overwrite : Bool) : Py DirEnd :=
  match d.files ex with
  | none => pure (.done d)
  | some content => do
    let bmp ← loadBMP content
    if dir ∈ d.dirs ∧ overwrite = false then pure .exists_
    else do
      let dirs := if dir ∈ d.dirs then d.dirs else dir :: d.dirs
      match ← func bmp with
      | none => .error .typeError
      | some l => pure (.done ⟨saveFrames cwd dir 0 l d.files, dirs⟩)

/-- BITMAPlib.py 1150-1163 `colorcycle2dir`; the decorator of `itercolorcycle` (paramchecks.py
`func4and8bitonly`) returns `None` for other depths. -/
def colorcycle2dir (cwd : String) (d : Disk) (ex dir : String) (overwrite : Bool) : Py DirEnd :=
  usefndirsv (fun bmp => do
    let bits ← getItem bmp bmpcolorbits
    if bits = 4 ∨ bits = 8 then some <$> itercolorcycle bmp else pure none) cwd d ex dir overwrite

end Verif.Model
