import Verif.Model.Attract
/-! Model of the attractors of fractals.py 1969-2201 with the arithmetic of floats, and of the functions of BITMAPlib.py
12688-13069 that draw and save them. Sums, products and quotients are rounded like those of Python (`fl`). Of the functions of
the C library only a bound of the error is used, so the theorems hold for every library that is as good as that. As for
`fl`, numbers do not overflow. A complex number is the pair of its parts. -/

namespace Verif.Model
open Verif Spec

/-- The functions of the C library: `sin`, `cos` and `hypot` (the `abs` of a complex number); `sqrt x` is `x ** .5`, `cube x` is
`x ** 3` and `invsq x` is `x ** -2`. -/
structure Libm where
  sin : ℚ → ℚ
  sin_err : ∀ x : ℚ, |((sin x : ℚ) : ℝ) - Real.sin x| ≤ 1 / 2 ^ 52
  sin_le : ∀ x, |sin x| ≤ 1
  cos : ℚ → ℚ
  cos_err : ∀ x : ℚ, |((cos x : ℚ) : ℝ) - Real.cos x| ≤ 1 / 2 ^ 52
  cos_le : ∀ x, |cos x| ≤ 1
  hypot : ℚ → ℚ → ℚ
  hypot_err : ∀ x y : ℚ, |((hypot x y : ℚ) : ℝ) - √((x : ℝ) ^ 2 + (y : ℝ) ^ 2)| ≤ √((x : ℝ) ^ 2 + (y : ℝ) ^ 2) / 2 ^ 52
  sqrt : ℚ → ℚ
  sqrt_err : ∀ x : ℚ, |((sqrt x : ℚ) : ℝ) - √(x : ℝ)| ≤ √(x : ℝ) / 2 ^ 52
  cube : ℚ → ℚ
  cube_err : ∀ x : ℚ, |cube x - x ^ 3| ≤ |x ^ 3| / 2 ^ 52
  invsq : ℚ → ℚ
  invsq_err : ∀ x : ℚ, |invsq x - (x ^ 2)⁻¹| ≤ (x ^ 2)⁻¹ / 2 ^ 52

variable (L : Libm)

/-- `z * w` of complex numbers; a float in a product with a complex number has the imaginary part 0. -/
def cmulF (z w : ℚ × ℚ) : ℚ × ℚ :=
  (fl (fl (z.1 * w.1) - fl (z.2 * w.2)), fl (fl (z.1 * w.2) + fl (z.2 * w.1)))

/-- The loop of Python's power of a complex number: for each binary digit of the exponent `p` is squared, and `r` is multiplied
by it when the digit is 1. -/
def powLoop (r p : ℚ × ℚ) (n : ℕ) : ℚ × ℚ :=
  if h : n = 0 then r
  else powLoop (if n % 2 = 1 then cmulF r p else r) (cmulF p p) (n / 2)
termination_by n
decreasing_by omega

/-- `z ** n` of a complex number for a natural number `n`. Python computes the power like this for `n` up to 100. -/
def cpow (z : ℚ × ℚ) (n : ℕ) : ℚ × ℚ := powLoop (1, 0) z n

/-- `z + w` of complex numbers -/
def caddF (z w : ℚ × ℚ) : ℚ × ℚ := (fl (z.1 + w.1), fl (z.2 + w.2))

/-- `z - w` of complex numbers -/
def csubF (z w : ℚ × ℚ) : ℚ × ℚ := (fl (z.1 - w.1), fl (z.2 - w.2))

/-- fractals.py 1984: one step of `ikedaattractorlist`. The argument of `exp` is `0 + t * 1j`. -/
def ikedaStep (a b k p : ℚ) (z : ℚ × ℚ) : ℚ × ℚ :=
  let zz := cmulF z z
  let t := fl (k - fl (p / fl (1 + L.hypot zz.1 zz.2)))
  caddF (a, 0) (cmulF (cmulF (b, 0) z) (L.cos t, L.sin t))

/-- fractals.py 1969-1984 `ikedaattractorlist` -/
def ikedaattractorlistF (a b k p : ℚ) (n : Nat) : List (ℚ × ℚ) := trail (ikedaStep L a b k p) n (0, 0)

/-- fractals.py 2001-2003: one step of `nattractorlist` -/
def nStep (a b c d : ℚ) (s : ℚ × ℚ) : ℚ × ℚ :=
  let x := fl (fl (a * L.sin (fl (a * s.2))) + fl (b * L.cos (fl (b * s.1))))
  let y := fl (fl (c * L.sin (fl (c * x))) + fl (d * L.cos (fl (d * s.2))))
  (x, y)

/-- fractals.py 1987-2003 `nattractorlist` -/
def nattractorlistF (a b c d : ℚ) (n : Nat) : List (ℚ × ℚ) := trail (nStep L a b c d) n (0, 0)

/-- fractals.py 2027-2028 -/
def gumowskimiraF (a x : ℚ) : ℚ :=
  let k := fl (2 * fl (1 - a))
  fl (fl (a * x) + fl (fl (fl (k * x) * x) * L.invsq (fl (1 + fl (x * x)))))

/-- fractals.py 2032-2035: one step of `gumowskimiraattractorlist` -/
def gumowskimiraStep (a b : ℚ) (s : ℚ × ℚ × ℚ) : ℚ × ℚ × ℚ :=
  let z := s.1
  let x := fl (fl (b * s.2.1) + s.2.2)
  let g := gumowskimiraF L a x
  let y := fl (g - z)
  (x, y, g)

/-- fractals.py 2006-2036 `gumowskimiraattractorlist` -/
def gumowskimiraattractorlistF (x y a b : ℚ) (n : Nat) : List (ℚ × ℚ) :=
  (trail (gumowskimiraStep L a b) n (x, y, gumowskimiraF L a x)).map fun s => (s.1, s.2.1)

/-- fractals.py 2039-2060 `peterdejongattractorlist` -/
def peterdejongattractorlistF (a b c d : ℚ) (n : Nat) : List (ℚ × ℚ) :=
  trail (fun s : ℚ × ℚ =>
    (fl (L.sin (fl (a * s.2)) - L.cos (fl (b * s.1))), fl (L.sin (fl (c * s.1)) - L.cos (fl (d * s.2))))) n (0, 0)

/-- fractals.py 2063-2084 `cliffordattractorlist` -/
def cliffordattractorlistF (a b c d : ℚ) (n : Nat) : List (ℚ × ℚ) :=
  trail (fun s : ℚ × ℚ =>
    (fl (L.sin (fl (a * s.2)) + fl (c * L.cos (fl (a * s.1)))),
     fl (L.sin (fl (b * s.1)) + fl (d * L.cos (fl (b * s.2)))))) n (0, 0)

/-- fractals.py 2087-2114 `fractaldreamattractorlist` -/
def fractaldreamattractorlistF (a b c d : ℚ) (n : Nat) : List (ℚ × ℚ) :=
  trail (fun s : ℚ × ℚ =>
    (fl (L.sin (fl (b * s.2)) + fl (c * L.sin (fl (b * s.1)))),
     fl (L.sin (fl (a * s.1)) + fl (d * L.sin (fl (a * s.2)))))) n (fl (1 / 10), fl (1 / 10))

/-- mathlib.py 424-440 `sign` -/
def signQ (v : ℚ) : ℚ := if v > 0 then 1 else if v = 0 then 0 else -1

/-- fractals.py 2117-2138 `hopalongattractorlist` -/
def hopalongattractorlistF (a b c : ℚ) (n : Nat) : List (ℚ × ℚ) :=
  trail (fun s : ℚ × ℚ =>
    (fl (s.2 - signQ s.1 * L.sqrt |fl (fl (b * s.1) - c)|), fl (a - s.1))) n (0, 0)

/-- fractals.py 2163-2170: one step of `symmetriciconattractorlist`, for a positive `d` -/
def iconStepF (a b g o l : ℚ) (d : Nat) (z : ℚ × ℚ) : ℚ × ℚ :=
  let p := cpow z (d - 1)
  let c := (z.1, -z.2)
  let zc := cmulF z c
  let s := fl (fl (fl (a * L.hypot zc.1 zc.2) + l) + fl (b * fl (fl (z.1 * p.1) - fl (z.2 * p.2))))
  let gp := cmulF (g, 0) p
  csubF (caddF (cmulF (s, 0) z) (gp.1, -gp.2)) (cmulF (cmulF (o, 0) c) (0, 1))

/-- fractals.py 2141-2171 `symmetriciconattractorlist` -/
def symmetriciconattractorlistF (x y a b g o l : ℚ) (d n : Nat) : List (ℚ × ℚ) := trail (iconStepF L a b g o l d) n (x, y)

/-- fractals.py 2194-2200: one step of `duffingattractorlist` -/
def duffingStep (dt a b w : ℚ) (s : ℚ × ℚ × ℚ) : ℚ × ℚ × ℚ :=
  let dx := fl (s.2.1 * dt)
  let dy := fl (fl (fl (fl (s.1 - L.cube s.1) - fl (a * s.2.1)) + fl (b * L.cos (fl (w * s.2.2)))) * dt)
  (fl (s.1 + dx), fl (s.2.1 + dy), fl (s.2.2 + dt))

/-- fractals.py 2174-2201 `duffingattractorlist` -/
def duffingattractorlistF (x y t dt a b w : ℚ) (n : Nat) : List (ℚ × ℚ) :=
  (trail (duffingStep L dt a b w) n (x, y, t)).map fun s => (s.1, s.2.1)

/-- BITMAPlib.py 12688-12703 `ikedaattractor` -/
def ikedaattractor (x y bits : Int) (a b k p : ℚ) (n : Nat) : Py Bytes :=
  plotattractor (ikedaattractorlistF L a b k p n) x y bits

/-- BITMAPlib.py 12706-12721 `nattractor` -/
def nattractor (x y bits : Int) (a b c d : ℚ) (n : Nat) : Py Bytes :=
  plotattractor (nattractorlistF L a b c d n) x y bits

/-- BITMAPlib.py 12724-12739 `peterdejongattractor` -/
def peterdejongattractor (x y bits : Int) (a b c d : ℚ) (n : Nat) : Py Bytes :=
  plotattractor (peterdejongattractorlistF L a b c d n) x y bits

/-- BITMAPlib.py 12742-12758 `duffingattractor` -/
def duffingattractor (x y bits : Int) (a b w dt : ℚ) (n : Nat) : Py Bytes :=
  plotattractor (duffingattractorlistF L 0 0 0 dt a b w n) x y bits

/-- BITMAPlib.py 12761-12776 `hopalongattractor` -/
def hopalongattractor (x y bits : Int) (a b c : ℚ) (n : Nat) : Py Bytes :=
  plotattractor (hopalongattractorlistF L a b c n) x y bits

/-- BITMAPlib.py 12779-12798 `symmetriciconattractor` -/
def symmetriciconattractor (x y bits : Int) (ox oy a b g o l : ℚ) (d n : Nat) : Py Bytes :=
  plotattractor (symmetriciconattractorlistF L ox oy a b g o l d n) x y bits

/-- BITMAPlib.py 12801-12816 `cliffordattractor` -/
def cliffordattractor (x y bits : Int) (a b c d : ℚ) (n : Nat) : Py Bytes :=
  plotattractor (cliffordattractorlistF L a b c d n) x y bits

/-- BITMAPlib.py 12819-12840 `fractaldreamattractor` -/
def fractaldreamattractor (x y bits : Int) (a b c d : ℚ) (n : Nat) : Py Bytes :=
  plotattractor (fractaldreamattractorlistF L a b c d n) x y bits

/-- BITMAPlib.py 12843-12865 `gumowskimiraattractor` -/
def gumowskimiraattractor (x y bits : Int) (ox oy a b : ℚ) (n : Nat) : Py Bytes :=
  plotattractor (gumowskimiraattractorlistF L ox oy a b n) x y bits

/-- BITMAPlib.py 12868-12886 `saveikedaattractor2file` -/
def saveikedaattractor2file (fs : Files) (file : String) (x y bits : Int) (a b k p : ℚ) (n : Nat) : Py Files := do
  pure (writeFile fs file (← ikedaattractor L x y bits a b k p n))

/-- BITMAPlib.py 12889-12914 `savegumowskimiraattractor2file` -/
def savegumowskimiraattractor2file (fs : Files) (file : String) (x y bits : Int) (ox oy a b : ℚ) (n : Nat) : Py Files := do
  pure (writeFile fs file (← gumowskimiraattractor L x y bits ox oy a b n))

/-- BITMAPlib.py 12917-12935 `savenattractor2file` -/
def savenattractor2file (fs : Files) (file : String) (x y bits : Int) (a b c d : ℚ) (n : Nat) : Py Files := do
  pure (writeFile fs file (← nattractor L x y bits a b c d n))

/-- BITMAPlib.py 12938-12956 `savepeterdejongattractor2file` -/
def savepeterdejongattractor2file (fs : Files) (file : String) (x y bits : Int) (a b c d : ℚ) (n : Nat) : Py Files := do
  pure (writeFile fs file (← peterdejongattractor L x y bits a b c d n))

/-- BITMAPlib.py 12959-12979 `saveduffingattractor2file` -/
def saveduffingattractor2file (fs : Files) (file : String) (x y bits : Int) (a b w dt : ℚ) (n : Nat) : Py Files := do
  pure (writeFile fs file (← duffingattractor L x y bits a b w dt n))

/-- BITMAPlib.py 12982-12999 `savehopalongattractor2file` -/
def savehopalongattractor2file (fs : Files) (file : String) (x y bits : Int) (a b c : ℚ) (n : Nat) : Py Files := do
  pure (writeFile fs file (← hopalongattractor L x y bits a b c n))

/-- BITMAPlib.py 13002-13023 `savesymmetriciconattractor2file` -/
def savesymmetriciconattractor2file (fs : Files) (file : String) (x y bits : Int) (ox oy a b g o l : ℚ) (d n : Nat) : Py Files := do
  pure (writeFile fs file (← symmetriciconattractor L x y bits ox oy a b g o l d n))

/-- BITMAPlib.py 13026-13043 `savecliffordattractor2file` -/
def savecliffordattractor2file (fs : Files) (file : String) (x y bits : Int) (a b c d : ℚ) (n : Nat) : Py Files := do
  pure (writeFile fs file (← cliffordattractor L x y bits a b c d n))

/-- BITMAPlib.py 13046-13069 `savefractaldreamattractor2file` -/
def savefractaldreamattractor2file (fs : Files) (file : String) (x y bits : Int) (a b c d : ℚ) (n : Nat) : Py Files := do
  pure (writeFile fs file (← fractaldreamattractor L x y bits a b c d n))

end Verif.Model
