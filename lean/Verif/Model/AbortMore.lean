import Verif.Model.Abort
import Verif.Model.Palette
/-! # Further drawing functions together with the array that a raised exception leaves behind (see `Verif.Model.Abort`) -/

namespace Verif.Model
open Verif Run

/-- BITMAPlib.py 3783-3833 `ellipse` with `isfilled` false. -/
def ellipseR (x y b a color : Int) : Run Unit := do
  let m ← look getmaxxy
  let bits ← look fun bmp => getItem bmp bmpcolorbits
  let dobndcheck := !entireellipseisinboundary x y (-1) m.1 (-1) m.2 b a
  if bits = 24 then do
    let buf ← look fun _ => int2BGRarr color
    each (fun p =>
      if dobndcheck = true then do
        let inb ← look fun bmp => isinBMPrectbnd bmp p.1 p.2
        if inb = true then do
          let s ← look fun bmp => BMoffsethd bmp p.1 p.2
          assign fun bmp => pure (setSlice bmp s (s + 3) buf)
        else pure ()
      else do
        let s ← look fun bmp => BMoffsethd bmp p.1 p.2
        assign fun bmp => pure (setSlice bmp s (s + 3) buf)) (iterellipse x y b a)
  else if bits = 8 then
    each (fun p =>
      if dobndcheck = true then do
        let inb ← look fun bmp => isinBMPrectbnd bmp p.1 p.2
        if inb = true then do
          let s ← look fun bmp => BMoffsethd bmp p.1 p.2
          assign fun bmp => setItem bmp s color
        else pure ()
      else do
        let s ← look fun bmp => BMoffsethd bmp p.1 p.2
        assign fun bmp => setItem bmp s color) (iterellipse x y b a)
  else each (fun p => plotxybitR p.1 p.2 color) (iterellipse x y b a)

/-- BITMAPlib.py 1903-1926 `roundpen` -/
def roundpenR (point : Int × Int) (penradius color : Int) : Run Unit :=
  if penradius ≤ 1 then plotxybitR point.1 point.2 color
  else filledcircleR point.1 point.2 penradius color

/-- BITMAPlib.py 1878-1900 `plotxypointlist` -/
def plotxypointlistR (vlist : List (Int × Int)) (penradius color : Int) : Run Unit :=
  each (fun v => roundpenR v penradius color) vlist

/-- BITMAPlib.py 2399-2418 `thickroundline` -/
def thickroundlineR (p1 p2 : Int × Int) (penradius color : Int) : Run Unit :=
  each (fun (p : Int × Int) => filledcircleR p.1 p.2 penradius color) (iterline p1 p2)

/-- BITMAPlib.py 3513-3531 `thickcircle` -/
def thickcircleR (x y r penradius color : Int) : Run Unit :=
  each (fun (p : Int × Int) => filledcircleR p.1 p.2 penradius color) (itercircle x y r)

/-- paramchecks.py 298-328 `entirerectinboundary` around BITMAPlib.py 7017-7045 `xygrid` -/
def xygridR (x1 y1 x2 y2 : Int) (xysteps : Int × Int) (color : Int) : Run Unit := do
  let a ← look fun bmp => isinBMPrectbnd bmp x1 y1
  let b ← look fun bmp => if a = true then isinBMPrectbnd bmp x2 y2 else pure false
  if ¬ (b = true) then pure () else do
    let (x1, y1, x2, y2) := sortrecpoints x1 y1 x2 y2
    let xs ← look fun _ => pyRange3 x1 x2 xysteps.1
    each (fun x => vertlineR x y1 y2 color) xs
    let ys ← look fun _ => pyRange3 y1 y2 xysteps.2
    each (fun y => horilineR y x1 x2 color) ys

/-- BITMAPlib.py 7105-7126 `vertlinevert` -/
def vertlinevertR (vlist : List (Int × Int)) (linelen yadj color : Int) : Run Unit :=
  each (fun (v : Int × Int) => vertlineR v.1 v.2 (v.2 + linelen + yadj) color) vlist

/-- BITMAPlib.py 7129-7151 `horilinevert` -/
def horilinevertR (vlist : List (Int × Int)) (linelen xadj color : Int) : Run Unit :=
  each (fun (v : Int × Int) => horilineR v.2 v.1 (v.1 + linelen + xadj) color) vlist

/-- BITMAPlib.py 2347-2366 `filledparallelogram` -/
def filledparallelogramR (p1 p2 p3 : Int × Int) (color : Int) : Run Unit :=
  each (fun (s : (Int × Int) × Int × Int) => lineR s.1.1 s.1.2 s.2.1 s.2.2 color) (iterparallelogram p1 p2 p3)

/-- BITMAPlib.py 1009-1012, the loop of `setbmppal`. -/
def setpalLoopR : List RGB → Int → Run Unit
  | [], _ => pure ()
  | (r, g, b) :: ps, s => do
    let a ← look fun _ => mkArray [b, g, r]
    assign fun bmp => pure (setSlice bmp s (s + 3) a)
    setpalLoopR ps (s + 4)

/-- BITMAPlib.py 994-1012 `setbmppal` -/
def setbmppalR (pallist : List RGB) : Run Unit := do
  let m ← look getmaxcolors
  if (pallist.length : Int) = m then setpalLoopR pallist bmppal else pure ()

/-- BITMAPlib.py 1038-1056 `setbmppalwithBGRAlist` -/
def setbmppalwithBGRAlistR (pallist : List (List Int)) : Run Unit := do
  let m ← look getmaxcolors
  if (pallist.length : Int) = m then do
    let p := pallist.flatten
    let a ← look fun _ => mkArray p
    assign fun bmp => pure (setSlice bmp bmppal (bmppal + (p.length : Int)) a)
  else pure ()

/-- BITMAPlib.py 1092-1108 `setRGBpal` -/
def setRGBpalR (c r g b : Int) : Run Unit := do
  let s := bmppal + pyShl c 2
  let a ← look fun _ => mkArray [b, g, r]
  assign fun bmp => pure (setSlice bmp s (s + 3) a)

end Verif.Model
