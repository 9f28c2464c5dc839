import Mathlib.Data.Int.Log
import Mathlib.Data.Rat.Floor
/-! Floating point numbers as Python computes with them: IEEE 754 binary64, round to nearest, ties to
even. A finite float is modelled by the rational number it denotes. The range of exponents is not
bounded: overflow, subnormal numbers, infinities and NaN do not occur for the values of the modelled
code (bytes, percentages, coordinates and their quotients). -/

namespace Verif.Model

/-- The integer nearest to `q`, the even one of two. This is Python's `round(q)`. -/
def rnd (q : ℚ) : ℤ :=
  if q - ⌊q⌋ < 1 / 2 then ⌊q⌋
  else if 1 / 2 < q - ⌊q⌋ then ⌊q⌋ + 1
  else if ⌊q⌋ % 2 = 0 then ⌊q⌋
  else ⌊q⌋ + 1

/-- The distance of neighbouring floats of the size of `q`: 53 significant bits. -/
def ulp (q : ℚ) : ℚ := (2 : ℚ) ^ (Int.log 2 |q| - 52)

/-- The float nearest to `q`. Sums, products and quotients of floats are the exact results rounded in
this way. -/
def fl (q : ℚ) : ℚ := rnd (q / ulp q) * ulp q

/-- Python's `int(q)`: the part after the point is cut off. -/
def trunc (q : ℚ) : ℤ := if 0 ≤ q then ⌊q⌋ else -⌊-q⌋

/-- colors.py 744 and mathlib.py 285: the float quotient of two integers. -/
def divF (a b : Nat) : ℚ := fl ((a : ℚ) / b)

/-- colors.py 744 `int((b + g + r) / 3)`, for the sum `s`. -/
def meanTrunc (s : Nat) : Int := trunc (divF s 3)

/-- colors.py 589 `round(mean(rgb))` with mathlib.py 285 `sum(v) / len(v)`, for the sum `s`. -/
def meanRound (s : Nat) : Int := rnd (divF s 3)

/-- bufresize.py 256 `f = 1 / n**2` and mathlib.py 271 `round(s * scalarval)`. -/
def areaScale (n s : Nat) : Int := rnd (fl ((s : ℚ) * fl (1 / ((n ^ 2 : Nat) : ℚ))))

/-- colors.py 969 and mathlib.py 271: `round(v * (1 + (percentadj / 100)))`. -/
def brightF (p : Int) (v : Nat) : Int := rnd (fl ((v : ℚ) * fl (1 + fl ((p : ℚ) / 100))))

/-- colors.py 650-654 with 327-329 and 221: `round(v / lum * (lum * (1 + (percentadj / 100))))`. -/
def relumBright (p : Int) (lum v : Nat) : Int :=
  rnd (fl (divF v lum * fl ((lum : ℚ) * fl (1 + fl ((p : ℚ) / 100)))))

/-- colors.py 683-687 with 327-329 and 221: `round(v / lum * l)`. -/
def relumLimit (l lum v : Nat) : Int := rnd (fl (divF v lum * (l : ℚ)))

/-- colors.py 998-1007: `int((lim / lum) * v)`. -/
def thrT (lim lum v : Nat) : Int := trunc (fl (divF lim lum * (v : ℚ)))

/-- mathlib.py 271: `round(v * factor)` for a byte `v` and a float `factor`. -/
def timesF (factor : ℚ) (v : Nat) : Int := rnd (fl ((v : ℚ) * factor))

end Verif.Model
