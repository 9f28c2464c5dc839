import Verif.Model.Escape
/-! The functions that save pictures of fractals, BITMAPlib.py 9259-10640 and 9705-12012 with fractals.py 965-1807. Each of them fixes the function of
the points and passes its other arguments on. Complex numbers are exact. -/

namespace Verif.Model
open Verif Spec

/-- The common part: the value of the pixel is a function of the complex number that belongs to it. -/
def savePoints (fs : Files) (file : String) (x y : Int) (g : ℂ → Int) (dom : ℚ × ℚ × ℚ × ℚ) (f : PalSpec) (bits : Int) : Py Files :=
  savefractal2file fs file x y (fun p q => g ⟨p, q⟩) dom f bits

/-- BITMAPlib.py 10817-10854 `savemandelbrotfractal2file` with 9259-9286 `mandelbrot` and fractals.py 1036-1058 `itermultibrot` -/
noncomputable def savemandelbrotfractal2file (fs : Files) (file : String) (x y : Int) (dom : ℚ × ℚ × ℚ × ℚ) (f : PalSpec) (bits : Int)
    (maxiter : Nat) : Py Files :=
  savePoints fs file x y (fun z => multibrot z 2 maxiter) dom f bits

/-- BITMAPlib.py 10857-10897 `savemultibrotfractal2file` with 9289-9318 `multibrot` and fractals.py 1036-1058 `itermultibrot` -/
noncomputable def savemultibrotfractal2file (fs : Files) (file : String) (x y : Int) (d : Nat) (dom : ℚ × ℚ × ℚ × ℚ) (f : PalSpec) (bits : Int)
    (maxiter : Nat) : Py Files :=
  savePoints fs file x y (fun z => multibrot z d maxiter) dom f bits

/-- BITMAPlib.py 11115-11152 `savetricornfractal2file` with 10511-10539 `tricorn` and fractals.py 1734-1756 `itermulticorn` -/
noncomputable def savetricornfractal2file (fs : Files) (file : String) (x y : Int) (dom : ℚ × ℚ × ℚ × ℚ) (f : PalSpec) (bits : Int)
    (maxiter : Nat) : Py Files :=
  savePoints fs file x y (fun z => multicorn z 2 maxiter) dom f bits

/-- BITMAPlib.py 11155-11195 `savemulticornfractal2file` with 10542-10572 `multicorn` and fractals.py 1734-1756 `itermulticorn` -/
noncomputable def savemulticornfractal2file (fs : Files) (file : String) (x y : Int) (d : Nat) (dom : ℚ × ℚ × ℚ × ℚ) (f : PalSpec) (bits : Int)
    (maxiter : Nat) : Py Files :=
  savePoints fs file x y (fun z => multicorn z d maxiter) dom f bits

/-- BITMAPlib.py 11379-11417 `savejuliafractal2file` with 9988-10018 `julia` and fractals.py 1356-1380 `itermultijulia` -/
noncomputable def savejuliafractal2file (fs : Files) (file : String) (x y : Int) (c : ℂ) (dom : ℚ × ℚ × ℚ × ℚ) (f : PalSpec) (bits : Int)
    (maxiter : Nat) : Py Files :=
  savePoints fs file x y (fun z => multijulia z c 2 maxiter) dom f bits

/-- BITMAPlib.py 11420-11460 `savemultijuliafractal2file` with 10021-10053 `multijulia` and fractals.py 1356-1380 `itermultijulia` -/
noncomputable def savemultijuliafractal2file (fs : Files) (file : String) (x y : Int) (c : ℂ) (d : Nat) (dom : ℚ × ℚ × ℚ × ℚ) (f : PalSpec) (bits : Int)
    (maxiter : Nat) : Py Files :=
  savePoints fs file x y (fun z => multijulia z c d maxiter) dom f bits

/-- BITMAPlib.py 9705-9745 `savelambdafractal2file` with 9673-9702 `lambdafractal` and fractals.py 1331-1353 `iterlamdbafractal` -/
noncomputable def savelambdafractal2file (fs : Files) (file : String) (x y : Int) (c : ℂ) (dom : ℚ × ℚ × ℚ × ℚ) (f : PalSpec) (bits : Int)
    (maxiter : Nat) : Py Files :=
  savePoints fs file x y (fun z => lambdafn z c maxiter) dom f bits

/-- BITMAPlib.py 9908-9945 `savespiraljulia2file` with 9641-9670 `spiraljulia` and fractals.py 1306-1328 `iterspiraljulia` -/
noncomputable def savespiraljulia2file (fs : Files) (file : String) (x y : Int) (c : ℂ) (dom : ℚ × ℚ × ℚ × ℚ) (f : PalSpec) (bits : Int)
    (maxiter : Nat) : Py Files :=
  savePoints fs file x y (fun z => spiraljulia z c maxiter) dom f bits

/-- BITMAPlib.py 11198-11238 `savebarnsleytreefractal2file` with 10575-10605 `barnsleytree` and fractals.py 1759-1781 `iterbarnsleytree` -/
noncomputable def savebarnsleytreefractal2file (fs : Files) (file : String) (x y : Int) (d : ℂ) (dom : ℚ × ℚ × ℚ × ℚ) (f : PalSpec) (bits : Int)
    (maxiter : Nat) : Py Files :=
  savePoints fs file x y (fun z => barnsleytree z d maxiter) dom f bits

/-- BITMAPlib.py 9868-9905 `savesinjulia2file` with 9577-9606 `sinjulia` and fractals.py 1256-1278 `itersinjulia` -/
noncomputable def savesinjulia2file (fs : Files) (file : String) (x y : Int) (c : ℂ) (dom : ℚ × ℚ × ℚ × ℚ) (f : PalSpec) (bits : Int)
    (maxiter : Nat) : Py Files :=
  savePoints fs file x y (fun z => sinjulia z c maxiter) dom f bits

/-- BITMAPlib.py 9948-9985 `savecosjulia2file` with 9609-9638 `cosjulia` and fractals.py 1281-1303 `itercosjulia` -/
noncomputable def savecosjulia2file (fs : Files) (file : String) (x y : Int) (c : ℂ) (dom : ℚ × ℚ × ℚ × ℚ) (f : PalSpec) (bits : Int)
    (maxiter : Nat) : Py Files :=
  savePoints fs file x y (fun z => cosjulia z c maxiter) dom f bits

/-- BITMAPlib.py 9748-9785 `savetetrationfractal2file` with 9545-9574 `tetrationfractal` and fractals.py 1181-1203 `itertetration` -/
noncomputable def savetetrationfractal2file (fs : Files) (file : String) (x y : Int) (d : Nat) (dom : ℚ × ℚ × ℚ × ℚ) (f : PalSpec) (bits : Int)
    (maxiter : Nat) : Py Files :=
  savePoints fs file x y (fun z => tetrationfn z d maxiter) dom f bits

/-- BITMAPlib.py 11241-11282 `savemarekdragon2file` with 10608-10638 `marekdragon` and fractals.py 1784-1807 `itermarekdragon` -/
noncomputable def savemarekdragon2file (fs : Files) (file : String) (x y : Int) (d : ℝ) (dom : ℚ × ℚ × ℚ × ℚ) (f : PalSpec) (bits : Int)
    (maxiter : Nat) : Py Files :=
  savePoints fs file x y (fun z => marekdragon z (Complex.exp (2 * Real.pi * Complex.I * d)) maxiter) dom f bits

/-- BITMAPlib.py 11463-11503 `savengonfractal2file` with 10056-10088 `ngonfractal` and fractals.py 1383-1407 `iterngonfractal` -/
noncomputable def savengonfractal2file (fs : Files) (file : String) (x y : Int) (c : ℂ) (n : Nat) (dom : ℚ × ℚ × ℚ × ℚ) (f : PalSpec) (bits : Int)
    (maxiter : Nat) : Py Files :=
  savePoints fs file x y (fun z => ngonfunc z c n maxiter) dom f bits

/-- BITMAPlib.py 10900-10940 `savemulticirclefractal2file` with 9321-9350 `multicircle` and fractals.py 1061-1082 `itermulticircle` -/
noncomputable def savemulticirclefractal2file (fs : Files) (file : String) (x y : Int) (d : ℝ) (dom : ℚ × ℚ × ℚ × ℚ) (f : PalSpec) (bits : Int)
    (maxiter : Nat) : Py Files :=
  savePoints fs file x y (fun z => multicircle z.re z.im d maxiter) dom f bits

/-- BITMAPlib.py 10943-10983 `savemultihyperbolafractal2file` with 9353-9382 `multihyperbola` and fractals.py 1085-1106 `itermultihyperbola` -/
noncomputable def savemultihyperbolafractal2file (fs : Files) (file : String) (x y : Int) (d : Nat) (dom : ℚ × ℚ × ℚ × ℚ) (f : PalSpec) (bits : Int)
    (maxiter : Nat) : Py Files :=
  savePoints fs file x y (fun z => multihyperbola z.re z.im d maxiter) dom f bits

/-- BITMAPlib.py 11029-11069 `saveastroidfractal2file` with 9417-9446 `astroidfractal` and fractals.py 1133-1154 `iterastroid` -/
noncomputable def saveastroidfractal2file (fs : Files) (file : String) (x y : Int) (r : ℝ) (dom : ℚ × ℚ × ℚ × ℚ) (f : PalSpec) (bits : Int)
    (maxiter : Nat) : Py Files :=
  savePoints fs file x y (fun z => astroid z.re z.im r maxiter) dom f bits

/-- BITMAPlib.py 11072-11112 `savelemniscatefractal2file` with 9449-9478 `lemniscatefractal` and fractals.py 1157-1178 `iterlemniscate` -/
noncomputable def savelemniscatefractal2file (fs : Files) (file : String) (x y : Int) (r : ℝ) (dom : ℚ × ℚ × ℚ × ℚ) (f : PalSpec) (bits : Int)
    (maxiter : Nat) : Py Files :=
  savePoints fs file x y (fun z => lemniscate z.re z.im r maxiter) dom f bits

/-- BITMAPlib.py 9788-9825 `savexorfractal2file` with 9481-9510 `xorfractal` and fractals.py 1206-1228 `iterxorfractal` -/
noncomputable def savexorfractal2file (fs : Files) (file : String) (x y : Int) (d : Nat) (dom : ℚ × ℚ × ℚ × ℚ) (f : PalSpec) (bits : Int)
    (maxiter : Nat) : Py Files :=
  savePoints fs file x y (fun z => xorfn z.re z.im d maxiter) dom f bits

/-- BITMAPlib.py 9828-9865 `savexordivfractal2file` with 9513-9542 `xordivfractal` and fractals.py 1231-1253 `iterxordivfractal` -/
noncomputable def savexordivfractal2file (fs : Files) (file : String) (x y : Int) (d : Nat) (dom : ℚ × ℚ × ℚ × ℚ) (f : PalSpec) (bits : Int)
    (maxiter : Nat) : Py Files :=
  savePoints fs file x y (fun z => xordivfn z.re z.im d maxiter) dom f bits

/-- BITMAPlib.py 11592-11632 `savemultibiomorphfractal2file` with 10161-10193 `multibiomorph` and fractals.py 1437-1461 `itermultibiomorph` -/
noncomputable def savemultibiomorphfractal2file (fs : Files) (file : String) (x y : Int) (c : ℂ) (d : Nat) (dom : ℚ × ℚ × ℚ × ℚ) (f : PalSpec) (bits : Int)
    (maxiter : Nat) : Py Files :=
  savePoints fs file x y (fun z => multibiomorph z c d maxiter 5) dom f bits

/-- BITMAPlib.py 11549-11589 `savemultibiomorphphasevariantfractal2file` with 10126-10158 `multibiomorphphasevariant` and fractals.py 1464-1488 `itermultibiomorphphasevariant` -/
noncomputable def savemultibiomorphphasevariantfractal2file (fs : Files) (file : String) (x y : Int) (c : ℂ) (d : ℝ) (dom : ℚ × ℚ × ℚ × ℚ) (f : PalSpec) (bits : Int)
    (maxiter : Nat) : Py Files :=
  savePoints fs file x y (fun z => multibiomorphphasevariant z c d maxiter 5) dom f bits

/-- BITMAPlib.py 11506-11546 `savemultibiomorphvariantfractal2file` with 10091-10123 `multibiomorphvariant` and fractals.py 1410-1434 `itermultibiomorphvariant` -/
noncomputable def savemultibiomorphvariantfractal2file (fs : Files) (file : String) (x y : Int) (c : ℂ) (d : Nat) (dom : ℚ × ℚ × ℚ × ℚ) (f : PalSpec) (bits : Int)
    (maxiter : Nat) : Py Files :=
  savePoints fs file x y (fun z => multibiomorphvariant z c d maxiter 5) dom f bits

/-- BITMAPlib.py 11891-11929 `savemultizconjugatebiomorphfractal2file` with 10406-10438 `multizconjugatebiomorph` and fractals.py 1707-1731 `itermultizconjugatebiomorph` -/
noncomputable def savemultizconjugatebiomorphfractal2file (fs : Files) (file : String) (x y : Int) (c : ℂ) (d : Nat) (dom : ℚ × ℚ × ℚ × ℚ) (f : PalSpec) (bits : Int)
    (maxiter : Nat) : Py Files :=
  savePoints fs file x y (fun z => multizconjugatebiomorph z c d maxiter 5) dom f bits

/-- BITMAPlib.py 11635-11675 `savemultisinbiomorphfractal2file` with 10196-10228 `multisinbiomorph` and fractals.py 1491-1515 `itermultisinbiomorph` -/
noncomputable def savemultisinbiomorphfractal2file (fs : Files) (file : String) (x y : Int) (c : ℂ) (d : Nat) (dom : ℚ × ℚ × ℚ × ℚ) (f : PalSpec) (bits : Int)
    (maxiter : Nat) : Py Files :=
  savePoints fs file x y (fun z => multigbiomorph Complex.sin z c d maxiter 5) dom f bits

/-- BITMAPlib.py 11678-11718 `savemulticosbiomorphfractal2file` with 10231-10263 `multicosbiomorph` and fractals.py 1518-1542 `itermulticosbiomorph` -/
noncomputable def savemulticosbiomorphfractal2file (fs : Files) (file : String) (x y : Int) (c : ℂ) (d : Nat) (dom : ℚ × ℚ × ℚ × ℚ) (f : PalSpec) (bits : Int)
    (maxiter : Nat) : Py Files :=
  savePoints fs file x y (fun z => multigbiomorph Complex.cos z c d maxiter 5) dom f bits

/-- BITMAPlib.py 11764-11804 `savemultisinhbiomorphfractal2file` with 10301-10333 `multisinhbiomorph` and fractals.py 1572-1596 `itermultisinhbiomorph` -/
noncomputable def savemultisinhbiomorphfractal2file (fs : Files) (file : String) (x y : Int) (c : ℂ) (d : Nat) (dom : ℚ × ℚ × ℚ × ℚ) (f : PalSpec) (bits : Int)
    (maxiter : Nat) : Py Files :=
  savePoints fs file x y (fun z => multigbiomorph Complex.sinh z c d maxiter 5) dom f bits

/-- BITMAPlib.py 11721-11761 `savemulticoshbiomorphfractal2file` with 10266-10298 `multicoshbiomorph` and fractals.py 1545-1569 `itermulticoshbiomorph` -/
noncomputable def savemulticoshbiomorphfractal2file (fs : Files) (file : String) (x y : Int) (c : ℂ) (d : Nat) (dom : ℚ × ℚ × ℚ × ℚ) (f : PalSpec) (bits : Int)
    (maxiter : Nat) : Py Files :=
  savePoints fs file x y (fun z => multigbiomorph Complex.cosh z c d maxiter 5) dom f bits

/-- BITMAPlib.py 11932-11970 `savemultitanbiomorphfractal2file` with 10441-10473 `multitanbiomorph` and fractals.py 1599-1623 `itermultitanbiomorph` -/
noncomputable def savemultitanbiomorphfractal2file (fs : Files) (file : String) (x y : Int) (c : ℂ) (d : Nat) (dom : ℚ × ℚ × ℚ × ℚ) (f : PalSpec) (bits : Int)
    (maxiter : Nat) : Py Files :=
  savePoints fs file x y (fun z => multigbiomorph Complex.tan z c d maxiter 5) dom f bits

/-- BITMAPlib.py 11973-12011 `savemultitanhbiomorphfractal2file` with 10476-10508 `multitanhbiomorph` and fractals.py 1626-1650 `itermultitanhbiomorph` -/
noncomputable def savemultitanhbiomorphfractal2file (fs : Files) (file : String) (x y : Int) (c : ℂ) (d : Nat) (dom : ℚ × ℚ × ℚ × ℚ) (f : PalSpec) (bits : Int)
    (maxiter : Nat) : Py Files :=
  savePoints fs file x y (fun z => multigbiomorph Complex.tanh z c d maxiter 5) dom f bits

/-- BITMAPlib.py 11807-11847 `savemultiexpbiomorphfractal2file` with 10336-10368 `multiexpbiomorph` and fractals.py 1653-1677 `itermultiexpbiomorph` -/
noncomputable def savemultiexpbiomorphfractal2file (fs : Files) (file : String) (x y : Int) (c : ℂ) (d : Nat) (dom : ℚ × ℚ × ℚ × ℚ) (f : PalSpec) (bits : Int)
    (maxiter : Nat) : Py Files :=
  savePoints fs file x y (fun z => multigbiomorph Complex.exp z c d maxiter 5) dom f bits

/-- BITMAPlib.py 11850-11888 `savemulti2ndtetrationbiomorphfractal2file` with 10371-10403 `multi2ndtetrationbiomorph` and fractals.py 1680-1704 `itermulti2ndtetrationbiomorph` -/
noncomputable def savemulti2ndtetrationbiomorphfractal2file (fs : Files) (file : String) (x y : Int) (c : ℂ) (d : Nat) (dom : ℚ × ℚ × ℚ × ℚ) (f : PalSpec) (bits : Int)
    (maxiter : Nat) : Py Files :=
  savePoints fs file x y (fun z => multigbiomorph (fun z => z ^ z) z c d maxiter 5) dom f bits

end Verif.Model
