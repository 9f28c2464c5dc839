import Verif.SpecFiles
import Verif.Model.Tone
import Verif.Model.Erase
import Verif.Model.Compare
/-! Model of the functions of `BITMAPlib.py` that read a bitmap file and write a changed copy. A file
system is a map from names to contents. Each function writes once, as its last action, so an error
leaves all files as they were. Messages and the timing decorator `functimer` are left out, and so
are directories, permissions and several names for one file. -/

namespace Verif.Model
open Verif Spec

/-- BITMAPlib.py 1485-1500 `saveBMP`, as a change of the files. -/
def writeFile (fs : Files) (nw : String) (bmp : Bytes) : Files :=
  fun n => if n = nw then some (saveBMP bmp) else fs n

/-- fileutils.py 26-43 `checklink`: without the file there is only a message. -/
def checklink (fs : Files) (ex : String) (body : Bytes → Py Files) : Py Files :=
  match fs ex with
  | none => pure fs
  | some content => body content

/-- BITMAPlib.py 13153-13182 `_usebyreffnwithpar2regnsv`, 13259-13289 `_usebyreffn2regnsv`, 13325-13348
`_usebyreffnsv`, 13351-13376 `_usebyreffnwithparnsv`, 13379-13401 `_usefnsv`, 13470-13497 `_usefn2circreg`
and 13500-13531 `_usefnwithpar2circreg`: load, apply, save. -/
def applysave (f : Bytes → Py Bytes) (fs : Files) (ex nw : String) : Py Files :=
  checklink fs ex fun content => do
    let bmp ← loadBMP content
    let bmp ← f bmp
    pure (writeFile fs nw bmp)

/-- BITMAPlib.py 13185-13220 `_use24btbyrefclrfn2regnsv`, 13223-13256 `_usebyref24btfn2regnsv`,
13439-13467 `_use24btfnwithparnsv`, 13534-13564 `_use24btclrfntocircregion`, 13567-13600
`_use24btclrfnwithpar2circreg` and 13690-13719 `_use24btclrfn`: the same for 24-bit images only. -/
def applysave24 (f : Bytes → Py Bytes) (fs : Files) (ex nw : String) : Py Files :=
  checklink fs ex fun content => do
    let bmp ← loadBMP content
    let bits ← getItem bmp bmpcolorbits
    if bits ≠ 24 then pure fs
    else do
      let bmp ← f bmp
      pure (writeFile fs nw bmp)

/-- BITMAPlib.py 13292-13322 `_usefn2regsv`: a function that may return `None`. -/
def applysaveopt (f : Bytes → Py (Option Bytes)) (fs : Files) (ex nw : String) : Py Files :=
  checklink fs ex fun content => do
    let bmp ← loadBMP content
    let r ← f bmp
    match r with
    | none => pure fs
    | some bmp => pure (writeFile fs nw bmp)

/-- BITMAPlib.py 13640-13687 `_useclradjfn` and 13722-13759 `_usenoparclradjfn`: `pal` is the colour
function for palettes, `img` the filter chosen by its name for true-colour images. The branch for
other user-defined functions is not modelled. -/
def useclradjfn (pal : RGB → RGB) (img : Bytes → Py Bytes) (fs : Files) (ex nw : String) : Py Files :=
  applysave (fun bmp => do
    let bits ← getItem bmp bmpcolorbits
    if bits ≠ 24 then do
      let p ← getallRGBpal bmp
      setbmppal bmp (p.map pal)
    else img bmp) fs ex nw

/-- colors.py 576-589 `monochrome`: `round(sum / 3)`; a third is never halfway between two integers. -/
def monochrome (c : RGB) : RGB :=
  let m := (c.1 + c.2.1 + c.2.2 + 1) / 3
  (m, m, m)

/-- colors.py 690-716 `colorfilter`; `fr v` stands for `round(v * rgbfactors[0])`, and so on. -/
def colorfilter (fr fg fb : Nat → Int) (c : RGB) : RGB :=
  (setminmax (fr c.1.toNat) 0 255, setminmax (fg c.2.1.toNat) 0 255, setminmax (fb c.2.2.toNat) 0 255)

/-- colors.py 306-331 `RGBtoRGBfactorsandlum`: the luminosity. -/
def rgblum (c : RGB) : Nat :=
  let lum := max c.1 (max c.2.1 c.2.2)
  if lum = 0 then 1 else lum.toNat

/-- colors.py 631-655 `brightnessadjust` and 609-628 `gammacorrect`; `g lum v` stands for
`round(v / lum * l)` with the new luminosity `l` (`lum * (1 + percentadj / 100)` for the first,
`int(((lum / 255) ** gamma) * 255)` for the second). -/
def relumadjust (g : Nat → Nat → Int) (c : RGB) : RGB :=
  let lum := rgblum c
  (setminmax (g lum c.1.toNat) 0 255, setminmax (g lum c.2.1.toNat) 0 255, setminmax (g lum c.2.2.toNat) 0 255)

/-- colors.py 658-687 `thresholdadjust`; `g l lum v` stands for `round(v / lum * l)`. -/
def thresholdadjust (g : Nat → Nat → Nat → Int) (l0 l1 : Int) (c : RGB) : RGB :=
  let lum := rgblum c
  let a := setminmax l0 0 255
  let b := setminmax l1 0 255
  let l := (setminmax lum (min a b) (max a b)).toNat
  (g l lum c.1.toNat, g l lum c.2.1.toNat, g l lum c.2.2.toNat)

/-- BITMAPlib.py 14526-14548 `adjustbrightness2file`: `g` for palettes as in `relumadjust`, `f` for
pixels as in `applybrightnessadjtoBGRbuf`. -/
def adjustbrightness2file (g : Nat → Nat → Int) (f : Nat → Int) (fs : Files) (ex nw : String) : Py Files :=
  useclradjfn (relumadjust g) (brightnesseadjto24bitimage f) fs ex nw

/-- BITMAPlib.py 14551-14572 `thresholdadjust2file` -/
def thresholdadjust2file (g t : Nat → Nat → Nat → Int) (fs : Files) (ex nw : String) (l0 l1 : Int) : Py Files :=
  useclradjfn (thresholdadjust g l0 l1) (fun bmp => thresholdadjto24bitimage t bmp l0 l1) fs ex nw

/-- BITMAPlib.py 14639-14660 `colorfilter2file` -/
def colorfilter2file (fr fg fb : Nat → Int) (fs : Files) (ex nw : String) : Py Files :=
  useclradjfn (colorfilter fr fg fb) (colorfilterto24bitimage fr fg fb) fs ex nw

/-- BITMAPlib.py 14663-14679 `monochrome2file` -/
def monochrome2file (fs : Files) (ex nw : String) : Py Files :=
  useclradjfn monochrome monofilterto24bitimage fs ex nw

/-- BITMAPlib.py 14819-14837 `gammaadj2file` -/
def gammaadj2file (g t : Nat → Nat → Int) (fs : Files) (ex nw : String) : Py Files :=
  useclradjfn (relumadjust g) (gammaadjto24bitimage t) fs ex nw

/-- BITMAPlib.py 13762-13784 `cropBMPandsave` -/
def cropBMPandsave (fs : Files) (ex nw : String) (x1 y1 x2 y2 : Int) : Py Files :=
  applysaveopt (fun bmp => crop bmp x1 y1 x2 y2) fs ex nw

/-- BITMAPlib.py 13787-13814 `cropBMPandsaveusingrectbnd`; only the first two corners are used. -/
def cropBMPandsaveusingrectbnd (fs : Files) (ex nw : String) (p q : Int × Int) : Py Files :=
  applysaveopt (fun bmp => crop bmp p.1 p.2 (q.1 + 1) (q.2 + 1)) fs ex nw

/-- BITMAPlib.py 13817-13857 `imagecomp` with fileutils.py 46-65 `checklinks`. -/
def imagecompfiles (func : Bytes → Bytes → List Int) (fs : Files) (in1 in2 out : String) : Py Files :=
  match fs in1, fs in2 with
  | some c1, some c2 => do
    let b1 ← loadBMP c1
    let b2 ← loadBMP c2
    let r ← imagecomp func b1 b2
    match r with
    | none => pure fs
    | some n => pure (writeFile fs out n)
  | _, _ => pure fs

/-- BITMAPlib.py 15111-15127 `imagediff`, with files. -/
def imagediff2file (fs : Files) (in1 in2 out : String) : Py Files := imagecompfiles xorvect fs in1 in2 out

/-- BITMAPlib.py 15130-15148 `showsimilarparts`, with files. -/
def showsimilarparts2file (fs : Files) (in1 in2 out : String) : Py Files := imagecompfiles andvect fs in1 in2 out

/-- BITMAPlib.py 13970-13986 `invertbits2file` -/
def invertbits2file (fs : Files) (ex nw : String) : Py Files :=
  applysave (fun bmp => invertimagebits bmp) fs ex nw

/-- BITMAPlib.py 13989-14005 `flipvertical2file` -/
def flipvertical2file (fs : Files) (ex nw : String) : Py Files :=
  applysave (fun bmp => flipvertical bmp) fs ex nw

/-- BITMAPlib.py 14008-14024 `mirrortop2file` -/
def mirrortop2file (fs : Files) (ex nw : String) : Py Files :=
  applysave (fun bmp => mirrortop bmp) fs ex nw

/-- BITMAPlib.py 14027-14043 `mirrortopleft2file` -/
def mirrortopleft2file (fs : Files) (ex nw : String) : Py Files :=
  applysave (fun bmp => mirrortopleft bmp) fs ex nw

/-- BITMAPlib.py 14046-14064 `mirrortopright2file` -/
def mirrortopright2file (fs : Files) (ex nw : String) : Py Files :=
  applysave (fun bmp => mirrortopright bmp) fs ex nw

/-- BITMAPlib.py 14067-14083 `mirrorbottomleft2file` -/
def mirrorbottomleft2file (fs : Files) (ex nw : String) : Py Files :=
  applysave (fun bmp => mirrorbottomleft bmp) fs ex nw

/-- BITMAPlib.py 14086-14102 `mirrorbottomright2file` -/
def mirrorbottomright2file (fs : Files) (ex nw : String) : Py Files :=
  applysave (fun bmp => mirrorbottomright bmp) fs ex nw

/-- BITMAPlib.py 14105-14122 `mirrorbottom2file` -/
def mirrorbottom2file (fs : Files) (ex nw : String) : Py Files :=
  applysave (fun bmp => mirrorbottom bmp) fs ex nw

/-- BITMAPlib.py 14125-14141 `mirrorleft2file` -/
def mirrorleft2file (fs : Files) (ex nw : String) : Py Files :=
  applysave (fun bmp => mirrorleft bmp) fs ex nw

/-- BITMAPlib.py 14144-14160 `mirrorright2file` -/
def mirrorright2file (fs : Files) (ex nw : String) : Py Files :=
  applysave (fun bmp => mirrorright bmp) fs ex nw

/-- BITMAPlib.py 14163-14179 `fliphorizontal2file` -/
def fliphorizontal2file (fs : Files) (ex nw : String) : Py Files :=
  applysave (fun bmp => fliphorizontal bmp) fs ex nw

/-- BITMAPlib.py 14182-14198 `flipXY2file` -/
def flipXY2file (fs : Files) (ex nw : String) : Py Files :=
  applysave (fun bmp => flipXY bmp) fs ex nw

/-- BITMAPlib.py 14201-14220 `palshift2file` -/
def palshift2file (fs : Files) (ex nw : String) (shift : Int) : Py Files :=
  applysave (fun bmp => palshift bmp shift) fs ex nw

/-- BITMAPlib.py 14223-14246 `flipverticalregion2file` -/
def flipverticalregion2file (fs : Files) (ex nw : String) (x1 y1 x2 y2 : Int) : Py Files :=
  applysave (fun bmp => flipverticalregion bmp x1 y1 x2 y2) fs ex nw

/-- BITMAPlib.py 14249-14271 `fliphorizontalregion2file` -/
def fliphorizontalregion2file (fs : Files) (ex nw : String) (x1 y1 x2 y2 : Int) : Py Files :=
  applysave (fun bmp => fliphorizontalregion bmp x1 y1 x2 y2) fs ex nw

/-- BITMAPlib.py 14274-14297 `mirrorleftinregion2file` -/
def mirrorleftinregion2file (fs : Files) (ex nw : String) (x1 y1 x2 y2 : Int) : Py Files :=
  applysave (fun bmp => mirrorleftinregion bmp x1 y1 x2 y2) fs ex nw

/-- BITMAPlib.py 14300-14322 `mirrorrightinregion2file` -/
def mirrorrightinregion2file (fs : Files) (ex nw : String) (x1 y1 x2 y2 : Int) : Py Files :=
  applysave (fun bmp => mirrorrightinregion bmp x1 y1 x2 y2) fs ex nw

/-- BITMAPlib.py 14325-14348 `mirrortopinregion2file` -/
def mirrortopinregion2file (fs : Files) (ex nw : String) (x1 y1 x2 y2 : Int) : Py Files :=
  applysave (fun bmp => mirrortopinregion bmp x1 y1 x2 y2) fs ex nw

/-- BITMAPlib.py 14351-14373 `mirrorbottominregion2file` -/
def mirrorbottominregion2file (fs : Files) (ex nw : String) (x1 y1 x2 y2 : Int) : Py Files :=
  applysave (fun bmp => mirrorbottominregion bmp x1 y1 x2 y2) fs ex nw

/-- BITMAPlib.py 14376-14398 `mirrortopleftinregion2file` -/
def mirrortopleftinregion2file (fs : Files) (ex nw : String) (x1 y1 x2 y2 : Int) : Py Files :=
  applysave (fun bmp => mirrortopleftinregion bmp x1 y1 x2 y2) fs ex nw

/-- BITMAPlib.py 14401-14423 `mirrortoprightinregion2file` -/
def mirrortoprightinregion2file (fs : Files) (ex nw : String) (x1 y1 x2 y2 : Int) : Py Files :=
  applysave (fun bmp => mirrortoprightinregion bmp x1 y1 x2 y2) fs ex nw

/-- BITMAPlib.py 14426-14448 `mirrorbottomleftinregion2file` -/
def mirrorbottomleftinregion2file (fs : Files) (ex nw : String) (x1 y1 x2 y2 : Int) : Py Files :=
  applysave (fun bmp => mirrorbottomleftinregion bmp x1 y1 x2 y2) fs ex nw

/-- BITMAPlib.py 14451-14473 `mirrorbottomrightinregion2file` -/
def mirrorbottomrightinregion2file (fs : Files) (ex nw : String) (x1 y1 x2 y2 : Int) : Py Files :=
  applysave (fun bmp => mirrorbottomrightinregion bmp x1 y1 x2 y2) fs ex nw

/-- BITMAPlib.py 14476-14497 `invertregion2file` -/
def invertregion2file (fs : Files) (ex nw : String) (x1 y1 x2 y2 : Int) : Py Files :=
  applysave (fun bmp => invertregion bmp x1 y1 x2 y2) fs ex nw

/-- BITMAPlib.py 14575-14605 `adjustbrightnessinregion2file` -/
def adjustbrightnessinregion2file (f : Nat → Int) (fs : Files) (ex nw : String) (x1 y1 x2 y2 : Int) : Py Files :=
  applysave24 (fun bmp => brightnesseadjto24bitregion f bmp x1 y1 x2 y2) fs ex nw

/-- BITMAPlib.py 14608-14636 `adjustthresholdinregion2file` -/
def adjustthresholdinregion2file (t : Nat → Nat → Nat → Int) (fs : Files) (ex nw : String) (x1 y1 x2 y2 l0 l1 : Int) : Py Files :=
  applysave24 (fun bmp => thresholdadjto24bitregion t bmp x1 y1 x2 y2 l0 l1) fs ex nw

/-- BITMAPlib.py 14682-14711 `colorfilterinregion2file` -/
def colorfilterinregion2file (fr fg fb : Nat → Int) (fs : Files) (ex nw : String) (x1 y1 x2 y2 : Int) : Py Files :=
  applysave24 (fun bmp => colorfilterto24bitregion fr fg fb bmp x1 y1 x2 y2) fs ex nw

/-- BITMAPlib.py 14714-14737 `monofilterinregion2file` -/
def monofilterinregion2file (fs : Files) (ex nw : String) (x1 y1 x2 y2 : Int) : Py Files :=
  applysave24 (fun bmp => monofilterto24bitregion bmp x1 y1 x2 y2) fs ex nw

/-- BITMAPlib.py 14780-14797 `resizeNtimesbigger2file` -/
def resizeNtimesbigger2file (fs : Files) (ex nw : String) (n : Int) : Py Files :=
  applysave24 (fun bmp => resizeNtimesbigger bmp n) fs ex nw

/-- BITMAPlib.py 14800-14816 `upgradeto24bitimage2file` -/
def upgradeto24bitimage2file (fs : Files) (ex nw : String) : Py Files :=
  applysave (fun bmp => upgradeto24bitimage bmp) fs ex nw

/-- BITMAPlib.py 14840-14866 `gammaadjtoregion2file` -/
def gammaadjtoregion2file (t : Nat → Nat → Int) (fs : Files) (ex nw : String) (x1 y1 x2 y2 : Int) : Py Files :=
  applysave24 (fun bmp => gammaadjto24bitregion t bmp x1 y1 x2 y2) fs ex nw

/-- BITMAPlib.py 14869-14895 `eraseeverynthhorilineinregion2file` -/
def eraseeverynthhorilineinregion2file (fs : Files) (ex nw : String) (x1 y1 x2 y2 n : Int) : Py Files :=
  applysave (fun bmp => eraseeverynthhorilineinregion bmp x1 y1 x2 y2 n) fs ex nw

/-- BITMAPlib.py 14925-14949 `filledrect2file` -/
def filledrect2file (fs : Files) (ex nw : String) (x1 y1 x2 y2 color : Int) : Py Files :=
  applysave (fun bmp => filledrect bmp x1 y1 x2 y2 color) fs ex nw

/-- BITMAPlib.py 15046-15065 `eraseeverynthhoriline2file` -/
def eraseeverynthhoriline2file (fs : Files) (ex nw : String) (n : Int) : Py Files :=
  applysave (fun bmp => eraseeverynthhorizontalline bmp n) fs ex nw

/-- BITMAPlib.py 15068-15090 `outlineregion2file` -/
def outlineregion2file (fs : Files) (ex nw : String) (x1 y1 x2 y2 : Int) : Py Files :=
  applysave (fun bmp => outlineregion bmp x1 y1 x2 y2) fs ex nw

/-- BITMAPlib.py 15093-15108 `outline2file` -/
def outline2file (fs : Files) (ex nw : String) : Py Files :=
  applysave (fun bmp => outline bmp) fs ex nw

/-- BITMAPlib.py 15151-15172 `monochromecircregion2file` -/
def monochromecircregion2file (fs : Files) (ex nw : String) (x y r : Int) : Py Files :=
  applysave24 (fun bmp => monocircle bmp x y r) fs ex nw

/-- BITMAPlib.py 15175-15195 `invertbitsincircregion2file` -/
def invertbitsincircregion2file (fs : Files) (ex nw : String) (x y r : Int) : Py Files :=
  applysave (fun bmp => invertbitsincircregion bmp x y r) fs ex nw

/-- BITMAPlib.py 15198-15222 `colorfiltercircregion2file` -/
def colorfiltercircregion2file (fr fg fb : Nat → Int) (fs : Files) (ex nw : String) (x y r : Int) : Py Files :=
  applysave24 (fun bmp => colorfiltercircregion fr fg fb bmp x y r) fs ex nw

/-- BITMAPlib.py 15225-15249 `thresholdadjcircregion2file` -/
def thresholdadjcircregion2file (t : Nat → Nat → Nat → Int) (fs : Files) (ex nw : String) (x y r l0 l1 : Int) : Py Files :=
  applysave24 (fun bmp => thresholdadjcircregion t bmp x y r l0 l1) fs ex nw

/-- BITMAPlib.py 15252-15278 `gammacorrectcircregion2file` -/
def gammacorrectcircregion2file (t : Nat → Nat → Int) (fs : Files) (ex nw : String) (x y r : Int) : Py Files :=
  applysave24 (fun bmp => gammacorrectcircregion t bmp x y r) fs ex nw

/-- BITMAPlib.py 15314-15337 `filledcircle2file` -/
def filledcircle2file (fs : Files) (ex nw : String) (x y r color : Int) : Py Files :=
  applysave (fun bmp => filledcircle bmp x y r color) fs ex nw

/-- BITMAPlib.py 15340-15362 `circle2file` -/
def circle2file (fs : Files) (ex nw : String) (x y r color : Int) : Py Files :=
  applysave (fun bmp => circle bmp x y r color) fs ex nw

/-- BITMAPlib.py 15391-15422 `brightnessadjcircregion2file` -/
def brightnessadjcircregion2file (f : Nat → Int) (fs : Files) (ex nw : String) (x y r : Int) : Py Files :=
  applysave24 (fun bmp => brightnessadjcircregion f bmp x y r) fs ex nw

/-- BITMAPlib.py 15425-15453 `vertbrightnessgrad2circregion2file` -/
def vertbrightnessgrad2circregion2file (f : Int → Nat → Int) (fs : Files) (ex nw : String) (x y r : Int) : Py Files :=
  applysave24 (fun bmp => vertbrightnessgrad2circregion f bmp x y r) fs ex nw

/-- BITMAPlib.py 15456-15483 `horibrightnessgrad2circregion2file` -/
def horibrightnessgrad2circregion2file (f : Int → Nat → Int) (fs : Files) (ex nw : String) (x y r : Int) : Py Files :=
  applysave24 (fun bmp => horibrightnessgrad2circregion f bmp x y r) fs ex nw

/-- BITMAPlib.py 15486-15506 `flipvertcircregion2file` -/
def flipvertcircregion2file (fs : Files) (ex nw : String) (x y r : Int) : Py Files :=
  applysave (fun bmp => flipvertcircregion bmp x y r) fs ex nw

/-- BITMAPlib.py 15509-15534 `eraseeverynthhorilineinccircregion2file` -/
def eraseeverynthhorilineinccircregion2file (fs : Files) (ex nw : String) (x y r n : Int) : Py Files :=
  applysave (fun bmp => eraseeverynthhorizontallineinccircregion bmp x y r n) fs ex nw

/-- BITMAPlib.py 15537-15557 `mirrortopincircregion2file` -/
def mirrortopincircregion2file (fs : Files) (ex nw : String) (x y r : Int) : Py Files :=
  applysave (fun bmp => mirrortopincircregion bmp x y r) fs ex nw

/-- BITMAPlib.py 15560-15581 `mirrorbottomincircregion2file` -/
def mirrorbottomincircregion2file (fs : Files) (ex nw : String) (x y r : Int) : Py Files :=
  applysave (fun bmp => mirrorbottomincircregion bmp x y r) fs ex nw

/-- BITMAPlib.py 15584-15605 `mirrorleftincircregion2file` -/
def mirrorleftincircregion2file (fs : Files) (ex nw : String) (x y r : Int) : Py Files :=
  applysave (fun bmp => mirrorleftincircregion bmp x y r) fs ex nw

/-- BITMAPlib.py 15608-15629 `mirrorrightincircregion2file` -/
def mirrorrightincircregion2file (fs : Files) (ex nw : String) (x y r : Int) : Py Files :=
  applysave (fun bmp => mirrorrightincircregion bmp x y r) fs ex nw

/-- BITMAPlib.py 15632-15653 `mirrortopleftincircregion2file` -/
def mirrortopleftincircregion2file (fs : Files) (ex nw : String) (x y r : Int) : Py Files :=
  applysave (fun bmp => mirrortopleftincircregion bmp x y r) fs ex nw

/-- BITMAPlib.py 15656-15677 `mirrorbottomleftincircregion2file` -/
def mirrorbottomleftincircregion2file (fs : Files) (ex nw : String) (x y r : Int) : Py Files :=
  applysave (fun bmp => mirrorbottomleftincircregion bmp x y r) fs ex nw

/-- BITMAPlib.py 15680-15701 `mirrortoprightincircregion2file` -/
def mirrortoprightincircregion2file (fs : Files) (ex nw : String) (x y r : Int) : Py Files :=
  applysave (fun bmp => mirrortoprightincircregion bmp x y r) fs ex nw

/-- BITMAPlib.py 15704-15725 `mirrorbottomrightincircregion2file` -/
def mirrorbottomrightincircregion2file (fs : Files) (ex nw : String) (x y r : Int) : Py Files :=
  applysave (fun bmp => mirrorbottomrightincircregion bmp x y r) fs ex nw

/-- BITMAPlib.py 15728-15748 `fliphoricircregion2file` -/
def fliphoricircregion2file (fs : Files) (ex nw : String) (x y r : Int) : Py Files :=
  applysave (fun bmp => fliphoricircregion bmp x y r) fs ex nw

/-- BITMAPlib.py 15751-15771 `outlinecircregion2file` -/
def outlinecircregion2file (fs : Files) (ex nw : String) (x y r : Int) : Py Files :=
  applysave (fun bmp => outlinecircregion bmp x y r) fs ex nw

/-- BITMAPlib.py 15774-15794 `flipXYcircregion2file` -/
def flipXYcircregion2file (fs : Files) (ex nw : String) (x y r : Int) : Py Files :=
  applysave (fun bmp => flipXYcircregion bmp x y r) fs ex nw

/-- BITMAPlib.py 15851-15875 `copycircregion2file` -/
def copycircregion2file (fs : Files) (ex nw : String) (x y r nx ny : Int) : Py Files :=
  applysave (fun bmp => copycircregion bmp x y r nx ny) fs ex nw

/-- BITMAPlib.py 15878-15901 `horizontalbrightnessgrad2file` -/
def horizontalbrightnessgrad2file (f : Nat → Nat → Int) (fs : Files) (ex nw : String) : Py Files :=
  applysave24 (fun bmp => horizontalbrightnessgradto24bitimage f bmp) fs ex nw

/-- BITMAPlib.py 15904-15932 `horizontalbrightnessgradregion2file` -/
def horizontalbrightnessgradregion2file (f : Nat → Nat → Int) (fs : Files) (ex nw : String) (x1 y1 x2 y2 : Int) : Py Files :=
  applysave24 (fun bmp => horizontalbrightnessgradto24bitregion f bmp x1 y1 x2 y2) fs ex nw

/-- BITMAPlib.py 15935-15958 `verticalbrightnessgrad2file` -/
def verticalbrightnessgrad2file (f : Nat → Nat → Int) (fs : Files) (ex nw : String) : Py Files :=
  applysave24 (fun bmp => verticalbrightnessgradto24bitimage f bmp) fs ex nw

/-- BITMAPlib.py 15961-15990 `verticalbrightnessgradregion2file` -/
def verticalbrightnessgradregion2file (f : Nat → Nat → Int) (fs : Files) (ex nw : String) (x1 y1 x2 y2 : Int) : Py Files :=
  applysave24 (fun bmp => verticalbrightnessgradto24bitregion f bmp x1 y1 x2 y2) fs ex nw

end Verif.Model
