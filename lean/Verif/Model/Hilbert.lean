import Verif.Model.Float
/-! Space filling curves and recursive outlines (fractals.py). -/

namespace Verif.Model

/-- fractals.py 1810-1849 `hilbertvert` for `n` levels; the list `l` is extended in place. Coordinates
are floats after the first halving; `fl` rounds each result. Sums of two Python ints are exact, which
agrees with `fl` below 2^53. -/
def hilbertN (l : List (Int × Int)) (u : ℚ × ℚ) (v : ℚ × ℚ × ℚ × ℚ) : Nat → List (Int × Int)
  | 0 =>
    let (v0, v1, v2, v3) := v
    l ++ [(rnd (fl (u.1 + fl (fl (v0 + v2) / 2))), rnd (fl (u.2 + fl (fl (v1 + v3) / 2))))]
  | n + 1 =>
    let i := v.2.2.1
    let j := v.2.2.2
    let v := (fl (v.1 * (1 / 2)), fl (v.2.1 * (1 / 2)), fl (v.2.2.1 * (1 / 2)), fl (v.2.2.2 * (1 / 2)))
    let (v0, v1, v2, v3) := v
    let w := (v2, v3, v0, v1)
    let l := hilbertN l u w n
    let l := hilbertN l (fl (u.1 + v0), fl (u.2 + v1)) v n
    let l := hilbertN l (fl (u.1 + fl (v0 + v2)), fl (u.2 + fl (v1 + v3))) v n
    hilbertN l (fl (u.1 + fl (v0 + i)), fl (u.2 + fl (v1 + j)))
      (fl (v2 * -1), fl (v3 * -1), fl (v0 * -1), fl (v1 * -1)) n

/-- fractals.py 1810-1849 `hilbertvert` called with integers; `n <= 0` is the last level. -/
def hilbertvert (l : List (Int × Int)) (u : Int × Int) (v : Int × Int × Int × Int) (n : Int) : List (Int × Int) :=
  hilbertN l ((u.1 : ℚ), (u.2 : ℚ)) ((v.1 : ℚ), (v.2.1 : ℚ), (v.2.2.1 : ℚ), (v.2.2.2 : ℚ)) n.toNat

end Verif.Model
