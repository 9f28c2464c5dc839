import Verif.Model.FloatCurves
import Verif.Props.Param
import Verif.Props.Thick
import Verif.Model.Curves
import Mathlib.Analysis.SpecialFunctions.Trigonometric.Bounds
import Mathlib.Analysis.SpecialFunctions.Trigonometric.DerivHyp
import Mathlib.Analysis.Calculus.MeanValue
import Mathlib.Data.Int.Log
/-! Property C175: the curves that are given by a formula, computed with floats. -/

namespace Verif.Props.Param
open Verif Spec Model Props Props.Plane

/-! ### Pixels of points that are nearly known -/

/-- `p` is `X` without its fraction, where an error of `d` may have been made before the fraction is cut off: `p` is cut
from a number at most `d` away, it is at most 1 away from the right pixel `q`, and it is `q` if no
whole number is as near as `d` to `X`. -/
structure CutClose (d X : ℝ) (p q : Int) : Prop where
  right : Cut X q
  near : ∃ x, |x - X| ≤ d ∧ Cut x p
  step : |p - q| ≤ 1
  same : (∀ m : Int, d < |X - m|) → p = q

/-- `p` is a whole number nearest to `X`, where an error of `d` may have been made before rounding. -/
structure RndClose (d X : ℝ) (p q : Int) : Prop where
  right : |(q : ℝ) - X| ≤ 1 / 2
  near : |(p : ℝ) - X| ≤ 1 / 2 + d
  step : |p - q| ≤ 1
  same : (∀ m : Int, d < |X - m - 1 / 2|) → p = q

theorem cutClose {d x X : ℝ} (hd : d < 1) (h : |x - X| ≤ d) : CutClose d X (truncR x) (truncR X) := by
  obtain ⟨l, u⟩ := abs_le.mp h
  have same : (∀ m : Int, d < |X - m|) → truncR x = truncR X := by
    intro hm
    have h0 := hm 0
    push_cast at h0; rw [sub_zero] at h0
    rcases le_total 0 X with g | g
    · rw [abs_of_nonneg g] at h0
      unfold truncR
      rw [if_pos g, if_pos (by linarith), Int.floor_eq_iff]
      have h1 := Int.floor_le X
      have h2 := Int.lt_floor_add_one X
      have m1 := hm ⌊X⌋
      have m2 := hm (⌊X⌋ + 1)
      rw [abs_of_nonneg (by linarith)] at m1
      push_cast at m2
      rw [abs_of_neg (by linarith)] at m2
      constructor <;> linarith
    · rw [abs_of_nonpos g] at h0
      have h3 : 0 ≤ d := le_trans (abs_nonneg _) h
      unfold truncR
      rw [if_neg (by linarith), if_neg (by linarith)]
      congr 1
      rw [Int.floor_eq_iff]
      have h1 := Int.floor_le (-X)
      have h2 := Int.lt_floor_add_one (-X)
      have m1 := hm (-⌊-X⌋)
      have m2 := hm (-⌊-X⌋ - 1)
      push_cast at m1 m2
      rw [abs_of_nonpos (by linarith)] at m1
      rw [abs_of_pos (by linarith)] at m2
      constructor <;> linarith
  refine ⟨truncR_cut X, ⟨x, h, truncR_cut x⟩, ?_, same⟩
  have key : ∀ {x y : ℝ}, x ≤ y → y - x < 1 → 0 ≤ truncR y - truncR x ∧ truncR y - truncR x ≤ 1 := by
    intro x y h1 h2
    have f1 := Int.floor_le x
    have f2 := Int.lt_floor_add_one x
    have f3 := Int.floor_le y
    have f4 := Int.lt_floor_add_one y
    have n1 := Int.floor_le (-x)
    have n2 := Int.lt_floor_add_one (-x)
    have n3 := Int.floor_le (-y)
    have n4 := Int.lt_floor_add_one (-y)
    unfold truncR
    split_ifs with a b b
    · constructor
      · have := Int.floor_le_floor h1; omega
      · have : (⌊y⌋ : ℝ) < ((⌊x⌋ + 2 : Int) : ℝ) := by push_cast; linarith
        have : ⌊y⌋ < ⌊x⌋ + 2 := by exact_mod_cast this
        omega
    · rw [not_le] at b
      have : ⌊y⌋ = 0 := by rw [Int.floor_eq_iff]; push_cast; constructor <;> linarith
      have : ⌊-x⌋ = 0 := by rw [Int.floor_eq_iff]; push_cast; constructor <;> linarith
      omega
    · linarith
    · constructor
      · have := Int.floor_le_floor (show -y ≤ -x by linarith); omega
      · have : (⌊-x⌋ : ℝ) < ((⌊-y⌋ + 2 : Int) : ℝ) := by push_cast; linarith
        have : ⌊-x⌋ < ⌊-y⌋ + 2 := by exact_mod_cast this
        omega
  rw [abs_le]
  rcases le_total x X with g | g
  · have := key g (by linarith); omega
  · have := key g (by linarith); omega

theorem rndClose {d x X : ℝ} (hd : d < 1) (h : |x - X| ≤ d) : RndClose d X (rndR x) (rndR X) := by
  obtain ⟨l, u⟩ := abs_le.mp h
  have hx := abs_le.mp (rndR_near x)
  have hX := abs_le.mp (rndR_near X)
  refine ⟨rndR_near X, by rw [abs_le]; constructor <;> linarith, ?_, ?_⟩
  · have h1 : ((rndR x - rndR X : Int) : ℝ) < ((2 : Int) : ℝ) := by push_cast; linarith
    have h2 : ((-2 : Int) : ℝ) < ((rndR x - rndR X : Int) : ℝ) := by push_cast; linarith
    have h1 : rndR x - rndR X < 2 := by exact_mod_cast h1
    have h2 : -2 < rndR x - rndR X := by exact_mod_cast h2
    rw [abs_le]; omega
  · intro hm
    apply rndR_eq
    have m1 := hm (rndR X)
    have m2 := hm (rndR X - 1)
    push_cast at m2
    rw [abs_of_nonpos (by linarith)] at m1
    rw [abs_of_nonneg (by linarith)] at m2
    rw [abs_lt]
    constructor <;> linarith

/-! ### Errors of numbers -/

/-- `x` is wrong by at most `e` for the number `X`, which is at most `M`. -/
def Ap (x X e M : ℝ) : Prop := |x - X| ≤ e ∧ |X| ≤ M

variable {A : Floats} {x y X Y e f M N : ℝ}

theorem Ap.pos (h : Ap x X e M) : 0 ≤ e ∧ 0 ≤ M := ⟨le_trans (abs_nonneg _) h.1, le_trans (abs_nonneg _) h.2⟩

theorem Ap.le (h : Ap x X e M) (h1 : e ≤ f) (h2 : M ≤ N) : Ap x X f N := ⟨h.1.trans h1, h.2.trans h2⟩

theorem Ap.const (h : |X| ≤ M) : Ap X X 0 M := ⟨by simp, h⟩

theorem Ap.abs (h : Ap x X e M) : |x| ≤ M + e := by
  have := abs_add_le (x - X) X
  rw [sub_add_cancel] at this
  linarith [h.1, h.2]

theorem Ap.rd (h : Ap x X e M) : Ap (A.rd x) X (e + (M + e) / 2 ^ 53 + 1 / 2 ^ 200) M := by
  refine ⟨?_, h.2⟩
  have h1 := A.rd_err x
  have h2 := h.abs
  have h3 := abs_sub_le (A.rd x) x X
  have h4 : |x| / 2 ^ 53 ≤ (M + e) / 2 ^ 53 := by gcongr
  linarith [h.1]

theorem Ap.add (h : Ap x X e M) (g : Ap y Y f N) : Ap (x + y) (X + Y) (e + f) (M + N) := by
  constructor
  · rw [show x + y - (X + Y) = (x - X) + (y - Y) by ring]
    exact (abs_add_le _ _).trans (add_le_add h.1 g.1)
  · exact (abs_add_le _ _).trans (add_le_add h.2 g.2)

theorem Ap.sub (h : Ap x X e M) (g : Ap y Y f N) : Ap (x - y) (X - Y) (e + f) (M + N) := by
  constructor
  · rw [show x - y - (X - Y) = (x - X) - (y - Y) by ring]
    exact (abs_sub _ _).trans (add_le_add h.1 g.1)
  · exact (abs_sub _ _).trans (add_le_add h.2 g.2)

theorem Ap.mul (h : Ap x X e M) (g : Ap y Y f N) : Ap (x * y) (X * Y) (e * N + (M + e) * f) (M * N) := by
  constructor
  · rw [show x * y - X * Y = (x - X) * Y + x * (y - Y) by ring]
    refine (abs_add_le _ _).trans ?_
    rw [abs_mul, abs_mul]
    have := h.abs
    have := h.pos
    have := g.pos
    exact add_le_add (mul_le_mul h.1 g.2 (abs_nonneg _) (by tauto)) (mul_le_mul h.abs g.1 (abs_nonneg _) (by linarith))
  · rw [abs_mul]; exact mul_le_mul h.2 g.2 (abs_nonneg _) h.pos.2

theorem Ap.sin (h : Ap x X e M) : Ap (A.sin x) (Real.sin X) (e + 1 / 2 ^ 52) 1 := by
  refine ⟨?_, Real.abs_sin_le_one _⟩
  have := abs_sub_le (A.sin x) (Real.sin x) (Real.sin X)
  linarith [A.sin_err x, Real.abs_sin_sub_sin_le x X, h.1]

theorem Ap.cos (h : Ap x X e M) : Ap (A.cos x) (Real.cos X) (e + 1 / 2 ^ 52) 1 := by
  refine ⟨?_, Real.abs_cos_le_one _⟩
  have := abs_sub_le (A.cos x) (Real.cos x) (Real.cos X)
  linarith [A.cos_err x, Real.abs_cos_sub_cos_le x X, h.1]

theorem tanh_lip (x y : ℝ) : |Real.tanh x - Real.tanh y| ≤ |x - y| := by
  have hd : ∀ z, HasDerivAt Real.tanh (1 / Real.cosh z ^ 2) z := by
    intro z
    have h := (Real.hasDerivAt_sinh z).div (Real.hasDerivAt_cosh z) (Real.cosh_pos z).ne'
    have e : Real.tanh = Real.sinh / Real.cosh := by
      funext w; rw [Real.tanh_eq_sinh_div_cosh]; rfl
    rw [show Real.cosh z * Real.cosh z - Real.sinh z * Real.sinh z = 1 by have := Real.cosh_sq z; nlinarith] at h
    rw [e]
    exact h
  have := Convex.norm_image_sub_le_of_norm_hasDerivWithin_le (f := Real.tanh) (C := 1) (s := Set.univ) (x := y) (y := x)
    (fun z _ => (hd z).hasDerivWithinAt) (fun z _ => by
      rw [Real.norm_eq_abs, abs_of_nonneg (by positivity), div_le_one (by positivity [Real.cosh_pos z])]
      have := Real.one_le_cosh z
      nlinarith) convex_univ trivial trivial
  simpa using this

theorem Ap.tanh (h : Ap x X e M) : Ap (A.tanh x) (Real.tanh X) (e + 1 / 2 ^ 52) 1 := by
  refine ⟨?_, (Real.abs_tanh_lt_one _).le⟩
  have := abs_sub_le (A.tanh x) (Real.tanh x) (Real.tanh X)
  linarith [A.tanh_err x, tanh_lip x X, h.1]

theorem Ap.pow {n : ℕ} (hp : Ap (x ^ n) (X ^ n) f N) : Ap (A.pow x n) (X ^ n) (f + (N + f) / 2 ^ 52 + 1 / 2 ^ 200) N := by
  refine ⟨?_, hp.2⟩
  have h1 := A.pow_err x n
  have h2 := hp.abs
  have h3 := abs_sub_le (A.pow x n) (x ^ n) (X ^ n)
  have h4 : |x ^ n| / 2 ^ 52 ≤ (N + f) / 2 ^ 52 := by gcongr
  linarith [hp.1]

theorem pi_deg : |Real.pi / 180| ≤ 1 / 45 := by
  rw [abs_of_pos (by positivity)]
  have := Real.pi_le_four
  linarith

theorem Ap.deg : Ap A.deg (Real.pi / 180) (1 / 2 ^ 57) (1 / 45) := ⟨A.deg_err, pi_deg⟩

theorem Ap.lit : Ap A.lit (Real.pi / 180) (1 / 2 ^ 57) (1 / 45) := ⟨A.lit_err, pi_deg⟩

theorem Ap.radians {d : ℝ} (h : Ap x d e M) :
    Ap (radiansF A x) (Model.radians d) (e * (1 / 45) + (M + e) * (1 / 2 ^ 57) + (M * (1 / 45) + (e * (1 / 45) + (M + e) * (1 / 2 ^ 57))) / 2 ^ 53
      + 1 / 2 ^ 200) (M * (1 / 45)) := (h.mul Ap.deg).rd

/-- A complex number that is nearly known. -/
def ApC (z Z : ℂ) (e M : ℝ) : Prop := Ap z.re Z.re e M ∧ Ap z.im Z.im e M

variable {z w Z V : ℂ}

theorem ApC.le (h : ApC z Z e M) (h1 : e ≤ f) (h2 : M ≤ N) : ApC z Z f N := ⟨h.1.le h1 h2, h.2.le h1 h2⟩

theorem ApC.add (h : ApC z Z e M) (g : ApC w V f N) : ApC (addC A z w) (Z + V) (e + f + (M + N + (e + f)) / 2 ^ 53 + 1 / 2 ^ 200) (M + N) :=
  ⟨(h.1.add g.1).rd, (h.2.add g.2).rd⟩

theorem ApC.sub (h : ApC z Z e M) (g : ApC w V f N) : ApC (subC A z w) (Z - V) (e + f + (M + N + (e + f)) / 2 ^ 53 + 1 / 2 ^ 200) (M + N) :=
  ⟨(h.1.sub g.1).rd, (h.2.sub g.2).rd⟩

theorem ApC.mul (h : ApC z Z e M) (g : ApC w V f N) {d P : ℝ} (hd : 2 * (e * N + (M + e) * f + (M * N + (e * N + (M + e) * f)) / 2 ^ 53 + 1 / 2 ^ 200)
    + (2 * (M * N) + 2 * (e * N + (M + e) * f + (M * N + (e * N + (M + e) * f)) / 2 ^ 53 + 1 / 2 ^ 200)) / 2 ^ 53 + 1 / 2 ^ 200 ≤ d)
    (hP : 2 * (M * N) ≤ P) : ApC (mulC A z w) (Z * V) d P := by
  constructor
  · rw [Complex.mul_re]
    exact (((h.1.mul g.1).rd).sub ((h.2.mul g.2).rd)).rd.le (by rw [← two_mul, ← two_mul]; exact hd) (by rw [← two_mul]; exact hP)
  · rw [Complex.mul_im]
    exact (((h.1.mul g.2).rd).add ((h.2.mul g.1).rd)).rd.le (by rw [← two_mul, ← two_mul]; exact hd) (by rw [← two_mul]; exact hP)

theorem ApC.rect {r R t T : ℝ} (h : Ap r R e M) (g : Ap t T f N) :
    ApC (rectF A r t) (rectC R T) (e * 1 + (M + e) * (f + 1 / 2 ^ 52) + (M * 1 + (e * 1 + (M + e) * (f + 1 / 2 ^ 52))) / 2 ^ 53 + 1 / 2 ^ 200) (M * 1) :=
  ⟨(h.mul g.cos).rd, (h.mul g.sin).rd⟩

theorem ApC.cplx {x y : Int} (hx : |(x : ℝ)| ≤ M) (hy : |(y : ℝ)| ≤ M) : ApC (Model.cplx x y) (Model.cplx x y) 0 M :=
  ⟨Ap.const hx, Ap.const hy⟩

/-! ### Curves with a fixed number of points -/

/-- The coordinates of the pixel `p` are those of `z` without their fractions, with an error `d`, and `q` is the pixel without that error. -/
def PtCut (d : ℝ) (z : ℂ) (p q : Int × Int) : Prop := CutClose d z.re p.1 q.1 ∧ CutClose d z.im p.2 q.2

/-- The pixel `p` is nearest to `z`, with an error `d`, and `q` is the nearest pixel. -/
def PtRnd (d : ℝ) (z : ℂ) (p q : Int × Int) : Prop := RndClose d z.re p.1 q.1 ∧ RndClose d z.im p.2 q.2

theorem ApC.cut {d : ℝ} (h : ApC z Z e M) (hd : e ≤ d) (h1 : d < 1) : PtCut d Z (intC z) (intC Z) :=
  ⟨cutClose h1 (h.1.1.trans hd), cutClose h1 (h.2.1.trans hd)⟩

theorem ApC.rnd {d : ℝ} (h : ApC z Z e M) (hd : e ≤ d) (h1 : d < 1) : PtRnd d Z (roundC z) (roundC Z) :=
  ⟨rndClose h1 (h.1.1.trans hd), rndClose h1 (h.2.1.trans hd)⟩

/-- C175: a flower computed with floats has the pixels of the exact flower, but for points that are nearer than a
thousandth to the border between two pixels, where the next pixel may be taken. -/
theorem C175_flower (A : Floats) {cx cy r : Int} {petals : Nat} {angrot : ℝ} (hx : |(cx : ℝ)| ≤ 2 ^ 20) (hy : |(cy : ℝ)| ≤ 2 ^ 20)
    (hr : |(r : ℝ)| ≤ 2 ^ 20) (hp : petals ≤ 2 ^ 12) (ha : |angrot| ≤ 2 ^ 12) :
    (iterflowerF A cx cy r petals angrot).length = 360 * petals ∧
    ∀ k, k < 360 * petals → ∃ p q, (iterflowerF A cx cy r petals angrot)[k]? = some p ∧ (iterflower cx cy r petals angrot)[k]? = some q ∧
      PtCut (1 / 1000) ⟨cx - r * Real.cos (k * (Real.pi / 360)) ^ 2 * Real.sin (k / petals * (Real.pi / 180) + angrot * (Real.pi / 180)),
        cy - r * Real.cos (k * (Real.pi / 360)) ^ 2 * Real.cos (k / petals * (Real.pi / 180) + angrot * (Real.pi / 180))⟩ p q := by
  constructor
  · unfold iterflowerF pyRange
    simp
    omega
  intro k hk
  have hp0 : 0 < petals := by by_contra h; have : petals = 0 := by omega
                              subst this; omega
  have hpR : (0 : ℝ) < petals := by exact_mod_cast hp0
  have g : (iterflowerF A cx cy r petals angrot)[k]? = some
      (truncR (A.rd (cx - A.rd (A.rd (A.pow (A.cos (A.rd (A.rd (((petals : Int) : ℝ) / 2) * radiansF A (A.rd ((((k : Int) : ℝ) / ((petals : Int) : ℝ))))))) 2 * r)
          * A.sin (A.rd (radiansF A (A.rd (((k : Int) : ℝ) / ((petals : Int) : ℝ))) + radiansF A angrot))))),
       truncR (A.rd (cy - A.rd (A.rd (A.pow (A.cos (A.rd (A.rd (((petals : Int) : ℝ) / 2) * radiansF A (A.rd ((((k : Int) : ℝ) / ((petals : Int) : ℝ))))))) 2 * r)
          * A.cos (A.rd (radiansF A (A.rd (((k : Int) : ℝ) / ((petals : Int) : ℝ))) + radiansF A angrot)))))) := by
    unfold iterflowerF
    dsimp only
    rw [List.getElem?_map]
    have : (pyRange 0 (360 * (petals : Int)))[k]? = some (k : Int) := by
      unfold pyRange
      rw [List.getElem?_map, List.getElem?_range (by omega)]
      simp
    rw [this]
    rfl
  refine ⟨_, _, g, flower_get cx cy r angrot (by omega), ?_⟩
  have hkp : |(((k : Int) : ℝ) / ((petals : Int) : ℝ))| ≤ 360 := by
    rw [abs_of_nonneg (by positivity), div_le_iff₀ (by exact_mod_cast hp0)]
    have : (k : ℝ) ≤ 360 * petals := by exact_mod_cast hk.le
    exact_mod_cast this
  have hang : Ap (radiansF A (A.rd (((k : Int) : ℝ) / ((petals : Int) : ℝ)))) (radians (((k : Int) : ℝ) / ((petals : Int) : ℝ))) (1 / 2 ^ 46) 8 :=
    ((Ap.const hkp).rd.radians).le (by norm_num) (by norm_num)
  have hrot : Ap (radiansF A angrot) (radians angrot) (1 / 2 ^ 43) 100 := ((Ap.const ha).radians).le (by norm_num) (by norm_num)
  have hrang : Ap (A.rd (radiansF A (A.rd (((k : Int) : ℝ) / ((petals : Int) : ℝ))) + radiansF A angrot)) (radians (((k : Int) : ℝ) / ((petals : Int) : ℝ)) + radians angrot)
      (1 / 2 ^ 42) 108 := ((hang.add hrot).rd).le (by norm_num) (by norm_num)
  have hpe : |((petals : Int) : ℝ) / 2| ≤ 2 ^ 11 := by
    rw [abs_of_nonneg (by positivity)]
    have : (petals : ℝ) ≤ 2 ^ 12 := by exact_mod_cast hp
    push_cast; linarith
  have hcos : Ap (A.cos (A.rd (A.rd (((petals : Int) : ℝ) / 2) * radiansF A (A.rd ((((k : Int) : ℝ) / ((petals : Int) : ℝ)))))))
      (Real.cos (((petals : Int) : ℝ) / 2 * radians (((k : Int) : ℝ) / ((petals : Int) : ℝ)))) (1 / 2 ^ 34) 1 :=
    (((Ap.const hpe).rd.mul hang).rd.cos).le (by norm_num) (by norm_num)
  have hsq := (hcos.mul hcos)
  rw [← pow_two, ← pow_two] at hsq
  have hf := ((Ap.pow (A := A) hsq).mul (Ap.const hr)).rd (A := A)
  have hX := ((Ap.const hx).sub ((hf.mul (hrang.sin (A := A))).rd (A := A))).rd (A := A)
  have hY := ((Ap.const hy).sub ((hf.mul (hrang.cos (A := A))).rd (A := A))).rd (A := A)
  simp only [Int.cast_natCast] at hX hY ⊢
  have e0 : (k : ℝ) * (Real.pi / 360) = petals / 2 * radians ((k : ℝ) / petals) := by
    unfold radians
    field_simp
    ring
  have e1 : (k : ℝ) / petals * (Real.pi / 180) + angrot * (Real.pi / 180) = radians ((k : ℝ) / petals) + radians angrot := rfl
  rw [e0, e1, mul_comm (r : ℝ)]
  exact ⟨cutClose (by norm_num) (hX.1.trans (by norm_num)), cutClose (by norm_num) (hY.1.trans (by norm_num))⟩

/-- C175: a gear curve computed with floats. -/
theorem C175_gear (A : Floats) {cx cy a b n : Int} (hx : |(cx : ℝ)| ≤ 2 ^ 20) (hy : |(cy : ℝ)| ≤ 2 ^ 20)
    (ha : |(a : ℝ)| ≤ 2 ^ 20) (hb : |(b : ℝ)| ≤ 2 ^ 12) (hn : |(n : ℝ)| ≤ 2 ^ 10) :
    (itergearcurveF A cx cy a b n).length = 360 ∧
    ∀ i : ℕ, i < 360 → ∃ p q, (itergearcurveF A cx cy a b n)[i]? = some p ∧ (itergearcurve cx cy a b n)[i]? = some q ∧
      PtCut (1 / 1000) (centre cx cy + polar (a + b * Real.tanh (b * Real.sin (n * (i * (Real.pi / 180))))) (i * (Real.pi / 180))) p q := by
  constructor
  · unfold itergearcurveF; simp
  intro i hi
  have hiR : |((i : ℕ) : ℝ)| ≤ 360 := by
    rw [abs_of_nonneg (by positivity)]; exact_mod_cast hi.le
  unfold itergearcurveF itergearcurve
  dsimp only
  rw [List.getElem?_map, List.getElem?_map, List.getElem?_range hi]
  refine ⟨_, _, rfl, rfl, ?_⟩
  have ht : Ap (radiansF A i) (radians i) (1 / 2 ^ 47) 8 := ((Ap.const hiR).radians).le (by norm_num) (by norm_num)
  have hs : Ap (A.rd (b * A.sin (A.rd (n * radiansF A i)))) (b * Real.sin (n * radians i)) (1 / 2 ^ 24) (2 ^ 12) :=
    ((Ap.const hb).mul ((Ap.const hn).mul ht).rd.sin).rd.le (by norm_num) (by norm_num)
  have hR : Ap (A.rd (a + A.rd (b * A.tanh (A.rd (b * A.sin (A.rd (n * radiansF A i))))))) (a + b * Real.tanh (b * Real.sin (n * radians i)))
      (1 / 2 ^ 11) (2 ^ 21) :=
    ((Ap.const ha).add ((Ap.const hb).mul hs.tanh).rd).rd.le (by norm_num) (by norm_num)
  have h := ((ApC.rect (A := A) hR ht).add (A := A) (ApC.cplx hx hy)).cut (d := 1 / 1000) (by norm_num) (by norm_num)
  rw [show centre cx cy + polar (a + b * Real.tanh (b * Real.sin (n * (i * (Real.pi / 180))))) (i * (Real.pi / 180)) =
    rectC (a + b * Real.tanh (b * Real.sin (n * radians i))) (radians i) + cplx cx cy by rw [rectC_polar, cplx_centre, add_comm]; rfl]
  exact h

/-- C175: a heart computed with floats. -/
theorem C175_heart (A : Floats) {cx cy s : Int} (hs : |(s : ℝ)| ≤ 2 ^ 20) :
    (iterheartcurveF A cx cy s).length = 360 ∧
    ∀ i : ℕ, i < 360 → ∃ p q, (iterheartcurveF A cx cy s)[i]? = some p ∧ (iterheartcurve cx cy s)[i]? = some q ∧
      PtCut (1 / 1000) ⟨s * (16 * Real.sin (i * (Real.pi / 180)) ^ 3),
        s * (13 * Real.cos (i * (Real.pi / 180)) - 5 * Real.cos (2 * (i * (Real.pi / 180)))
          - 2 * Real.cos (3 * (i * (Real.pi / 180))) - Real.cos (4 * (i * (Real.pi / 180))))⟩ (p.1 - cx, cy - p.2) (q.1 - cx, cy - q.2) := by
  constructor
  · unfold iterheartcurveF; simp
  intro i hi
  have hiR : |((i : ℕ) : ℝ)| ≤ 360 := by
    rw [abs_of_nonneg (by positivity)]; exact_mod_cast hi.le
  unfold iterheartcurveF iterheartcurve
  dsimp only
  rw [List.getElem?_map, List.getElem?_map, List.getElem?_range hi]
  refine ⟨_, _, rfl, rfl, ?_⟩
  dsimp only
  unfold PtCut
  rw [add_sub_cancel_left, add_sub_cancel_left, sub_sub_cancel, sub_sub_cancel]
  have ht : Ap (A.rd (i * A.lit)) (i * (Real.pi / 180)) (1 / 2 ^ 47) 8 := ((Ap.const hiR).mul Ap.lit).rd.le (by norm_num) (by norm_num)
  have h2 := ((Ap.const (X := 2) (M := 2) (by norm_num)).mul ht).rd (A := A)
  have h3 := ((Ap.const (X := 3) (M := 3) (by norm_num)).mul ht).rd (A := A)
  have h4 := ((Ap.const (X := 4) (M := 4) (by norm_num)).mul ht).rd (A := A)
  have hsin := ht.sin (A := A)
  have hcube := (hsin.mul hsin).mul hsin
  rw [show ∀ v : ℝ, v * v * v = v ^ 3 from fun v => by ring, show ∀ v : ℝ, v * v * v = v ^ 3 from fun v => by ring] at hcube
  have hx := ((Ap.const (X := 16) (M := 16) (by norm_num)).mul (Ap.pow (A := A) hcube)).rd (A := A)
  have c1 := ((Ap.const (X := 13) (M := 13) (by norm_num)).mul (ht.cos (A := A))).rd (A := A)
  have c2 := ((Ap.const (X := 5) (M := 5) (by norm_num)).mul (h2.cos (A := A))).rd (A := A)
  have c3 := ((Ap.const (X := 2) (M := 2) (by norm_num)).mul (h3.cos (A := A))).rd (A := A)
  have c4 := h4.cos (A := A)
  have hy := (((c1.sub c2).rd (A := A)).sub c3).rd (A := A) |>.sub c4 |>.rd (A := A)
  have kx := ((Ap.const hs).mul hx).rd (A := A)
  have ky := ((Ap.const hs).mul hy).rd (A := A)
  exact ⟨cutClose (by norm_num) (kx.1.trans (by norm_num)), cutClose (by norm_num) (ky.1.trans (by norm_num))⟩

theorem scan_range {α : Type} (f : α → α → α) (g : ℕ → α) (z : ℕ → α) (h : ∀ i, z (i + 1) = f (z i) (g i)) (n : ℕ) :
    ∀ i, i ≤ n → (((List.range n).map g).scanl f (z 0))[i]? = some (z i) := by
  intro i
  induction i with
  | zero => intro _; simp
  | succ i ih =>
    intro hi
    rw [List.getElem?_succ_scanl, ih (by omega), List.getElem?_map, List.getElem?_range (by omega)]
    simp [h]

/-- C175: a Cornu spiral computed with floats: `z` goes by steps of the length `r` times one degree, whose direction is the
square of the angle. -/
theorem C175_cornu (A : Floats) {cx cy r : Int} (hx : |(cx : ℝ)| ≤ 2 ^ 20) (hy : |(cy : ℝ)| ≤ 2 ^ 20) (hr : |(r : ℝ)| ≤ 2 ^ 20) :
    (itercornuspiralF A cx cy r).length = 360 ∧ ∃ z : ℕ → ℂ, z 0 = centre cx cy ∧
    (∀ i : ℕ, z (i + 1) = z i + polar (r * (Real.pi / 180)) ((i * (Real.pi / 180)) ^ 2)) ∧
    ∀ i : ℕ, i < 360 → ∃ p q, (itercornuspiralF A cx cy r)[i]? = some p ∧ (itercornuspiral cx cy r)[i]? = some q ∧
      PtCut (1 / 1000) (z (i + 1)) p q := by
  set gF : ℕ → ℂ := fun i => rectF A (A.rd (r * A.lit)) (A.rd (A.rd (i * A.lit) * A.rd (i * A.lit))) with hgF
  set g : ℕ → ℂ := fun i => rectC (r * (Real.pi / 180)) (i * (Real.pi / 180) * (i * (Real.pi / 180))) with hg
  let zF : ℕ → ℂ := fun i => Nat.rec (cplx cx cy) (fun i z => addC A z (gF i)) i
  let z : ℕ → ℂ := fun i => Nat.rec (cplx cx cy) (fun i z => z + g i) i
  have hzF : ∀ i, zF (i + 1) = addC A (zF i) (gF i) := fun _ => rfl
  have hz : ∀ i, z (i + 1) = z i + g i := fun _ => rfl
  have eF : itercornuspiralF A cx cy r = ((((List.range 360).map gF).scanl (addC A) (zF 0)).tail).map intC := rfl
  have e : itercornuspiral cx cy r = ((((List.range 360).map g).scanl (· + ·) (z 0)).tail).map intC := rfl
  refine ⟨by rw [eF]; simp, z, rfl, fun i => by rw [hz, hg, pow_two, ← rectC_polar], ?_⟩
  have hgap : ∀ i, i < 360 → ApC (gF i) (g i) (1 / 2 ^ 24) (2 ^ 15) := by
    intro i hi
    have hiR : |((i : ℕ) : ℝ)| ≤ 360 := by
      rw [abs_of_nonneg (by positivity)]; exact_mod_cast hi.le
    have ht : Ap (A.rd (i * A.lit)) (i * (Real.pi / 180)) (1 / 2 ^ 47) 8 := ((Ap.const hiR).mul Ap.lit).rd.le (by norm_num) (by norm_num)
    exact (ApC.rect (A := A) (((Ap.const hr).mul Ap.lit).rd (A := A)) ((ht.mul ht).rd (A := A))).le (by norm_num) (by norm_num)
  have key : ∀ i : ℕ, i ≤ 360 → ApC (zF i) (z i) (i * (1 / 2 ^ 23)) (2 ^ 20 + i * 2 ^ 15) := by
    intro i
    induction i with
    | zero => intro _; exact (ApC.cplx hx hy).le (by simp) (by simp)
    | succ i ih =>
      intro hi
      have := (ih (by omega)).add (A := A) (hgap i (by omega))
      rw [hzF, hz]
      have hiR : (i : ℝ) ≤ 360 := by exact_mod_cast (by omega : i ≤ 360)
      refine this.le ?_ ?_
      · push_cast
        have : (2 ^ 20 + (i : ℝ) * 2 ^ 15 + 2 ^ 15 + (i * (1 / 2 ^ 23) + 1 / 2 ^ 24)) / 2 ^ 53 ≤ 2 ^ 25 / 2 ^ 53 := by
          refine div_le_div_of_nonneg_right ?_ (by positivity)
          norm_num
          linarith
        norm_num at this ⊢
        linarith
      · push_cast; linarith
  intro i hi
  refine ⟨intC (zF (i + 1)), intC (z (i + 1)), ?_, ?_, ?_⟩
  · rw [eF, List.getElem?_map, List.getElem?_tail, scan_range _ gF zF hzF 360 (i + 1) (by omega)]; rfl
  · rw [e, List.getElem?_map, List.getElem?_tail, scan_range _ g z hz 360 (i + 1) (by omega)]; rfl
  · refine (key (i + 1) (by omega)).cut (le_trans ?_ (show (361 : ℝ) * (1 / 2 ^ 23) ≤ 1 / 1000 by norm_num)) (by norm_num)
    gcongr
    exact_mod_cast (by omega : i + 1 ≤ 361)

/-! ### Loops that add floats -/

theorem tF_err {delta : ℝ} (hd : 1 / 2 ^ 20 ≤ delta) : ∀ k : ℕ, k ≤ 2 ^ 20 → |tF A delta k - k * delta| ≤ k * (k * delta) / 2 ^ 52 := by
  intro k
  induction k with
  | zero => intro _; simp [tF]
  | succ k ih =>
    intro hk
    have h1 := ih (by omega)
    have hkR : (k : ℝ) ≤ 2 ^ 20 := by exact_mod_cast (by omega : k ≤ 2 ^ 20)
    have hk0 : (0 : ℝ) ≤ k := Nat.cast_nonneg k
    have hd0 : 0 < delta := lt_of_lt_of_le (by norm_num) hd
    have hkd : 0 ≤ k * delta := by positivity
    have h2 : (k : ℝ) * (k * delta) / 2 ^ 52 ≤ k * delta / 2 := by
      have : (k : ℝ) * (k * delta) ≤ 2 ^ 20 * (k * delta) := by gcongr
      norm_num at this ⊢
      linarith
    have h3 : |tF A delta k + delta| ≤ (k + 1) * delta + k * delta / 2 := by
      have := abs_add_le (tF A delta k - k * delta) (k * delta + delta)
      rw [show tF A delta k - k * delta + (k * delta + delta) = tF A delta k + delta by ring, abs_of_nonneg (show 0 ≤ k * delta + delta by positivity)] at this
      linarith
    have h4 := A.rd_err (tF A delta k + delta)
    have h5 := abs_sub_le (A.rd (tF A delta k + delta)) (tF A delta k + delta) (k * delta + delta)
    rw [show tF A delta k + delta - (k * delta + delta) = tF A delta k - k * delta by ring] at h5
    have h6 : |tF A delta k + delta| / 2 ^ 53 ≤ ((k + 1) * delta + k * delta / 2) / 2 ^ 53 := by gcongr
    show |A.rd (tF A delta k + delta) - ((k + 1 : ℕ) : ℝ) * delta| ≤ _
    push_cast
    rw [show ((k : ℝ) + 1) * delta = k * delta + delta by ring]
    rw [show ((k : ℝ) + 1) * (k * delta + delta) = k * (k * delta) + 2 * (k * delta) + delta by ring]
    norm_num at *
    linarith

/-- The loop over floats does as many rounds as the loop over exact numbers, or one more or less if `lim / delta` is
nearly a whole number, and every round is done with nearly the right `t`. -/
theorem loop_close {delta lim : ℝ} (hd : 1 / 2 ^ 20 ≤ delta) (hl : lim ≤ 2 ^ 6) (hn : lim / delta ≤ 2 ^ 13) {α : Type} (bodyF body : ℝ → α)
    (R : ℝ → α → α → Prop) (h : ∀ t T : ℝ, |t - T| ≤ 1 / 2 ^ 31 → |T| ≤ 2 ^ 7 → R T (bodyF t) (body T)) :
    ∃ L, loopF A delta lim bodyF = some L ∧ |(L.length : Int) - ((steps delta lim).map body).length| ≤ 1 ∧
      ((∀ m : Int, 1 / 2 ^ 20 < |lim / delta - m|) → L.length = ((steps delta lim).map body).length) ∧
      ∀ (k : ℕ) p, L[k]? = some p → ∃ q, R (k * delta) p q ∧ ∀ q', ((steps delta lim).map body)[k]? = some q' → q' = q := by
  have hd0 : 0 < delta := lt_of_lt_of_le (by norm_num) hd
  set K := ⌈lim / delta⌉₊ with hK
  have hlen : ((steps delta lim).map body).length = K := by unfold steps; simp [hK]
  have hK13 : K ≤ 2 ^ 13 := by rw [hK, Nat.ceil_le]; exact_mod_cast hn
  have hKle : lim ≤ K * delta := by
    have := Nat.le_ceil (lim / delta)
    rwa [div_le_iff₀ hd0] at this
  have err : ∀ k : ℕ, k ≤ 2 ^ 13 + 1 → |tF A delta k - k * delta| ≤ delta / 2 ^ 21 := by
    intro k hk
    refine (tF_err hd k (by omega)).trans ?_
    have hkR : (k : ℝ) ≤ 2 ^ 14 := by exact_mod_cast (by omega : k ≤ 2 ^ 14)
    have : (k : ℝ) * (k * delta) ≤ 2 ^ 14 * (2 ^ 14 * delta) := by gcongr
    norm_num at this ⊢
    linarith
  have hex : ∃ k, ¬ tF A delta k < lim := by
    refine ⟨K + 1, ?_⟩
    have := abs_le.mp (err (K + 1) (by omega))
    push_cast at this
    rw [not_lt]
    norm_num at this
    linarith
  refine ⟨(List.range (Nat.find hex)).map fun (k : ℕ) => bodyF (tF A delta k), by unfold loopF; rw [dif_pos hex], ?_⟩
  rw [hlen, List.length_map, List.length_range]
  obtain ⟨n, hnf⟩ : ∃ n, n = Nat.find hex := ⟨_, rfl⟩
  have hspec : ¬ tF A delta n < lim := by rw [hnf]; exact Nat.find_spec hex
  have hmin : ∀ k, k < n → tF A delta k < lim := by
    intro k hk
    rw [hnf] at hk
    have := Nat.find_min hex hk
    rwa [not_not] at this
  rw [← hnf]
  have first : ∀ k, ¬ tF A delta k < lim → n ≤ k := by
    intro k hk
    by_contra c
    exact hk (hmin k (by omega))
  have up : n ≤ K + 1 := by
    apply first
    have := abs_le.mp (err (K + 1) (by omega))
    push_cast at this
    rw [not_lt]
    norm_num at this
    linarith
  have lo : K ≤ n + 1 := by
    by_contra c
    have hf := hspec
    have e := abs_le.mp (err (n) (by omega))
    have : n + 1 < K := by omega
    rw [hK, Nat.lt_ceil, lt_div_iff₀ hd0] at this
    push_cast at this
    norm_num at e hf
    linarith
  refine ⟨by rw [abs_le]; omega, ?_, ?_⟩
  · intro hm
    apply le_antisymm
    · apply first
      have e := abs_le.mp (err K (by omega))
      have m := hm K
      rw [abs_of_nonpos (by have := Nat.le_ceil (lim / delta); push_cast; rw [← hK] at this; linarith)] at m
      push_cast at m
      have : lim + delta * (1 / 2 ^ 20) ≤ K * delta := by
        have : lim / delta ≤ K - 1 / 2 ^ 20 := by linarith
        rw [div_le_iff₀ hd0] at this
        linarith
      rw [not_lt]
      norm_num at this e
      linarith
    · by_contra c
      have hf := hspec
      have e := abs_le.mp (err (n) (by omega))
      have hlt : n < K := by omega
      rw [hK, Nat.lt_ceil] at hlt
      have m := hm (n)
      push_cast at m
      rw [abs_of_pos (by linarith)] at m
      have : (n : ℝ) * delta + delta * (1 / 2 ^ 20) ≤ lim := by
        have : (n : ℝ) + 1 / 2 ^ 20 ≤ lim / delta := by linarith
        rw [le_div_iff₀ hd0] at this
        linarith
      norm_num at this e hf
      linarith
  · intro k p hp
    rw [List.getElem?_map] at hp
    by_cases hk : k < n
    · rw [List.getElem?_range hk] at hp
      injection hp with hp
      subst hp
      have e := abs_le.mp (err k (by omega))
      have hlt := hmin k hk
      have hk0 : (0 : ℝ) ≤ k * delta := by positivity
      have hkd : k * delta ≤ 2 ^ 7 := by
        have h1 : delta / 2 ^ 21 ≤ 1 ∨ k = 0 := by
          by_cases g : k = 0
          · right; exact g
          · left
            have : (1 : ℝ) ≤ k := by exact_mod_cast (by omega : 1 ≤ k)
            have : delta ≤ k * delta := by nlinarith
            norm_num at e hl ⊢
            linarith
        rcases h1 with h1 | h1
        · norm_num at *
          linarith
        · subst h1; norm_num
      refine ⟨body (k * delta), h _ _ ?_ (by rw [abs_of_nonneg hk0]; exact hkd), ?_⟩
      · refine (tF_err hd k (by omega)).trans ?_
        have hkR : (k : ℝ) ≤ 2 ^ 14 := by exact_mod_cast (by omega : k ≤ 2 ^ 14)
        have : (k : ℝ) * (k * delta) ≤ 2 ^ 14 * 2 ^ 7 := by gcongr
        norm_num at this ⊢
        linarith
      · intro q' hq
        unfold steps at hq
        rw [List.getElem?_map, List.getElem?_map] at hq
        by_cases g : k < K
        · rw [List.getElem?_range g] at hq
          injection hq with hq
          exact hq.symm
        · rw [List.getElem?_eq_none (by rw [List.length_range]; omega)] at hq
          cases hq
    · rw [List.getElem?_eq_none (by rw [List.length_range]; omega)] at hp
      cases hp

/-- The list `F` of pixels of the curve `z` at the times `0`, `delta`, `2 * delta`, ... below `lim`, computed with errors, and
the list `E` computed without. `F` exists, so the loop ends. Its length is right or wrong by 1, the
latter only if `lim / delta` is nearly a whole number. Its pixels are nearest to points at most `d` away from the curve. They are the
right ones but for those whose point is nearly in the middle between two pixels, where the next pixel may be taken. -/
def LoopClose (d delta lim : ℝ) (z : ℝ → ℂ) (F : Option (List (Int × Int))) (E : List (Int × Int)) : Prop :=
  ∃ L, F = some L ∧ |(L.length : Int) - E.length| ≤ 1 ∧ ((∀ m : Int, 1 / 2 ^ 20 < |lim / delta - m|) → L.length = E.length) ∧
    ∀ (k : ℕ) p, L[k]? = some p → ∃ q, PtRnd d (z (k * delta)) p q ∧ ∀ q', E[k]? = some q' → q' = q

theorem RndClose.shift {d X : ℝ} {p q : Int} (h : RndClose d X p q) (x : Int) : RndClose d (x + X) (x + p) (x + q) := by
  refine ⟨?_, ?_, ?_, ?_⟩
  · push_cast; rw [add_sub_add_left_eq_sub]; exact h.right
  · push_cast; rw [add_sub_add_left_eq_sub]; exact h.near
  · rw [add_sub_add_left_eq_sub]; exact h.step
  · intro hm
    rw [h.same fun m => ?_]
    have := hm (x + m)
    push_cast at this
    rwa [add_sub_add_left_eq_sub] at this

variable {delta lim : ℝ}

/-- C175: a Lissajous curve computed with floats. -/
theorem C175_lissajous (A : Floats) (hd : 1 / 2 ^ 20 ≤ delta) (hl : lim ≤ 2 ^ 6) (hn : lim / delta ≤ 2 ^ 13) (x y : Int) {a b c d e : ℝ}
    (ha : |a| ≤ 2 ^ 12) (hb : |b| ≤ 2 ^ 12) (hc : |c| ≤ 2 ^ 7) (hd' : |d| ≤ 2 ^ 7) (he : |e| ≤ 2 ^ 7) :
    LoopClose (1 / 1000) delta lim (fun t => centre x y + (⟨a * Real.cos (c * t + e), b * Real.sin (d * t)⟩ : ℂ))
      (iterlissajouscurveF A x y a b c d e delta lim) (iterlissajouscurve x y a b c d e delta lim) := by
  refine loop_close hd hl hn _ _ (fun T p q => PtRnd (1 / 1000) (centre x y + (⟨a * Real.cos (c * T + e), b * Real.sin (d * T)⟩ : ℂ)) p q) ?_
  intro t T h hT
  have ht : Ap t T (1 / 2 ^ 31) (2 ^ 7) := ⟨h, hT⟩
  have kx := ((Ap.const ha).mul ((((((Ap.const hc).mul ht).rd (A := A)).add (Ap.const he)).rd (A := A)).cos (A := A))).rd (A := A)
  have ky := ((Ap.const hb).mul ((((Ap.const hd').mul ht).rd (A := A)).sin (A := A))).rd (A := A)
  exact ⟨(rndClose (by norm_num) (kx.1.trans (by norm_num))).shift x, (rndClose (by norm_num) (ky.1.trans (by norm_num))).shift y⟩

/-- C175: an epicycloid computed with floats. -/
theorem C175_epicycloid (A : Floats) (hd : 1 / 2 ^ 20 ≤ delta) (hl : lim ≤ 2 ^ 6) (hn : lim / delta ≤ 2 ^ 13) {x y : Int} {a b : ℝ}
    (hx : |(x : ℝ)| ≤ 2 ^ 20) (hy : |(y : ℝ)| ≤ 2 ^ 20) (ha : |a| ≤ 2 ^ 12) (hb : |b| ≤ 2 ^ 12) (hc : |a / b| ≤ 2 ^ 6) :
    LoopClose (1 / 1000) delta lim (fun t => centre x y + polar (a + b) t - polar b ((a / b + 1) * t))
      (iterepicycloidF A x y a b delta lim) (iterepicycloid x y a b delta lim) := by
  unfold LoopClose iterepicycloidF iterepicycloid
  dsimp only
  refine loop_close hd hl hn _ _ (fun T p q => PtRnd (1 / 1000) (centre x y + polar (a + b) T - polar b ((a / b + 1) * T)) p q) ?_
  intro t T h hT
  have ht : Ap t T (1 / 2 ^ 31) (2 ^ 7) := ⟨h, hT⟩
  have hp := ((Ap.const ha).add (Ap.const hb)).rd (A := A)
  have hcc := (((Ap.const hc).rd (A := A)).add (Ap.const (X := 1) (M := 1) (by norm_num))).rd (A := A)
  have k := (((ApC.rect (A := A) hp ht).sub (A := A) (ApC.rect (A := A) (Ap.const hb) ((hcc.mul ht).rd (A := A)))).add (A := A) (ApC.cplx hx hy)).rnd
    (d := 1 / 1000) (by norm_num) (by norm_num)
  rw [show centre x y + polar (a + b) T - polar b ((a / b + 1) * T) = rectC (a + b) T - rectC b ((a / b + 1) * T) + cplx x y by
    rw [rectC_polar, rectC_polar, cplx_centre]; ring]
  exact k

/-- C175: a hypotrochoid computed with floats. -/
theorem C175_hypotrochoid (A : Floats) (hd : 1 / 2 ^ 20 ≤ delta) (hl : lim ≤ 2 ^ 6) (hn : lim / delta ≤ 2 ^ 13) {x y : Int} {a b c : ℝ}
    (hx : |(x : ℝ)| ≤ 2 ^ 20) (hy : |(y : ℝ)| ≤ 2 ^ 20) (ha : |a| ≤ 2 ^ 12) (hb : |b| ≤ 2 ^ 12) (hc' : |c| ≤ 2 ^ 12) (hc : |a / b| ≤ 2 ^ 6) :
    LoopClose (1 / 1000) delta lim (fun t => centre x y + polar (a - b) t - polar c ((a / b + 1) * t))
      (iterhypotrochoidF A x y a b c delta lim) (iterhypotrochoid x y a b c delta lim) := by
  unfold LoopClose iterhypotrochoidF iterhypotrochoid
  dsimp only
  refine loop_close hd hl hn _ _ (fun T p q => PtRnd (1 / 1000) (centre x y + polar (a - b) T - polar c ((a / b + 1) * T)) p q) ?_
  intro t T h hT
  have ht : Ap t T (1 / 2 ^ 31) (2 ^ 7) := ⟨h, hT⟩
  have hp := ((Ap.const ha).sub (Ap.const hb)).rd (A := A)
  have hcc := (((Ap.const hc).rd (A := A)).add (Ap.const (X := 1) (M := 1) (by norm_num))).rd (A := A)
  have k := (((ApC.rect (A := A) hp ht).sub (A := A) (ApC.rect (A := A) (Ap.const hc') ((hcc.mul ht).rd (A := A)))).add (A := A) (ApC.cplx hx hy)).rnd
    (d := 1 / 1000) (by norm_num) (by norm_num)
  rw [show centre x y + polar (a - b) T - polar c ((a / b + 1) * T) = rectC (a - b) T - rectC c ((a / b + 1) * T) + cplx x y by
    rw [rectC_polar, rectC_polar, cplx_centre]; ring]
  exact k

theorem ApC.ofRe (h : Ap x X e M) : ApC (Model.ofRe x) (Model.ofRe X) e M :=
  ⟨h, by simpa [Model.ofRe] using h.pos.1, by simpa [Model.ofRe] using h.pos.2⟩

/-- C175: a spirograph computed with floats. -/
theorem C175_spirograph (A : Floats) (hd : 1 / 2 ^ 20 ≤ delta) (hl : lim ≤ 2 ^ 6) (hn : lim / delta ≤ 2 ^ 13) {x y r : Int} {l k : ℝ}
    (hx : |(x : ℝ)| ≤ 2 ^ 20) (hy : |(y : ℝ)| ≤ 2 ^ 20) (hr : |(r : ℝ)| ≤ 2 ^ 12) (hl' : |l| ≤ 2) (hk : |k| ≤ 1) (hk' : |1 / k| ≤ 2 ^ 5) :
    LoopClose (1 / 1000) delta lim (fun t => centre x y + r * (polar (1 - k) t + polar (l * k) (t * ((1 - k) / k))))
      (iterspirographF A x y r l k delta lim) (iterspirograph x y r l k delta lim) := by
  unfold LoopClose iterspirographF iterspirograph
  dsimp only
  refine loop_close hd hl hn _ _ (fun T p q => PtRnd (1 / 1000) (centre x y + r * (polar (1 - k) T + polar (l * k) (T * ((1 - k) / k)))) p q) ?_
  intro t T h hT
  have ht : Ap t T (1 / 2 ^ 31) (2 ^ 7) := ⟨h, hT⟩
  have he := ((Ap.const hl').mul (Ap.const hk)).rd (A := A)
  have hdd := ((Ap.const (X := 1) (M := 1) (by norm_num)).sub (Ap.const hk)).rd (A := A)
  have hf := (hdd.mul (Ap.const hk')).rd (A := A)
  rw [mul_one_div, mul_one_div] at hf
  have hin := ((ApC.rect (A := A) hdd ht).add (A := A) (ApC.rect (A := A) he ((ht.mul hf).rd (A := A))))
  have hm := (ApC.ofRe (Ap.const hr)).mul (A := A) hin (d := 1 / 2000) (P := 2 ^ 20) (by norm_num) (by norm_num)
  have kk := (hm.add (A := A) (ApC.cplx hx hy)).rnd (d := 1 / 1000) (by norm_num) (by norm_num)
  rw [show centre x y + r * (polar (1 - k) T + polar (l * k) (T * ((1 - k) / k))) =
    (r : ℂ) * (rectC (1 - k) T + rectC (l * k) (T * ((1 - k) / k))) + cplx x y by
    rw [rectC_polar, rectC_polar, cplx_centre]; ring]
  have er : Model.ofRe (r : ℝ) = (r : ℂ) := by rw [show Model.ofRe (r : ℝ) = ((r : ℝ) : ℂ) from rfl]; push_cast; rfl
  rw [← er]
  exact kk

/-- C175: the involute of a circle computed with floats. -/
theorem C175_involute (A : Floats) (hd : 1 / 2 ^ 20 ≤ delta) (hl : lim ≤ 2 ^ 6) (hn : lim / delta ≤ 2 ^ 13) {x y : Int} {a : ℝ}
    (hx : |(x : ℝ)| ≤ 2 ^ 20) (hy : |(y : ℝ)| ≤ 2 ^ 20) (ha : |a| ≤ 2 ^ 8) :
    LoopClose (1 / 1000) delta lim (fun t => centre x y + Complex.I * (a * t) * polar 1 (2 * t))
      (itercircleinvoluteF A x y a delta lim) (itercircleinvolute x y a delta lim) := by
  unfold LoopClose itercircleinvoluteF itercircleinvolute
  dsimp only
  refine loop_close hd hl hn _ _ (fun T p q => PtRnd (1 / 1000) (centre x y + Complex.I * (a * T) * polar 1 (2 * T)) p q) ?_
  intro t T h hT
  have ht : Ap t T (1 / 2 ^ 31) (2 ^ 7) := ⟨h, hT⟩
  have hz := ApC.rect (A := A) (Ap.const (X := 1) (M := 1) (by norm_num)) ht
  have h1 := (ApC.ofRe (Ap.const ha)).mul (A := A) hz (d := 11 / 10 / 2 ^ 22) (P := 2 ^ 9) (by norm_num) (by norm_num)
  have h2 := h1.mul (A := A) (ApC.ofRe ht) (d := 12 / 10 / 2 ^ 14) (P := 2 ^ 17) (by norm_num) (by norm_num)
  have hI : ApC Complex.I Complex.I 0 1 := ⟨Ap.const (by simp), Ap.const (by simp)⟩
  have h3 := h2.mul (A := A) hI (d := 13 / 10 / 2 ^ 13) (P := 2 ^ 18) (by norm_num) (by norm_num)
  have h4 := hz.mul (A := A) h3 (d := 37 / 10 / 2 ^ 12) (P := 2 ^ 19) (by norm_num) (by norm_num)
  have kk := (h4.add (A := A) (ApC.cplx hx hy)).rnd (d := 1 / 1000) (by norm_num) (by norm_num)
  have ep : polar 1 (2 * T) = rectC 1 T * rectC 1 T := by
    rw [rectC_polar]
    unfold polar
    push_cast
    rw [show (2 : ℂ) * T * Complex.I = T * Complex.I + T * Complex.I by ring, Complex.exp_add]
    ring
  rw [show centre x y + Complex.I * (a * T) * polar 1 (2 * T) =
    rectC 1 T * ((a : ℂ) * rectC 1 T * (T : ℂ) * Complex.I) + cplx x y by
    rw [ep, cplx_centre]; ring]
  exact kk

/-! ### Polygons and rotations -/

/-- C175: the corners of a regular polygon computed with floats are wrong by less than a millionth. -/
theorem C175_polygon (A : Floats) {cx cy r sides : Int} {angle : ℝ} (hx : |(cx : ℝ)| ≤ 2 ^ 20) (hy : |(cy : ℝ)| ≤ 2 ^ 20)
    (hr : |(r : ℝ)| ≤ 2 ^ 20) (ha : |angle| ≤ 2 ^ 12) :
    (∀ e, floatregpolygonvertF A cx cy r sides angle = .error e ↔ floatregpolygonvert cx cy r sides angle = .error e) ∧
    ∀ L, floatregpolygonvert cx cy r sides angle = .ok L → ∃ L', floatregpolygonvertF A cx cy r sides angle = .ok L' ∧
      List.Forall₂ (fun v' v => |v'.1 - v.1| ≤ 1 / 10 ^ 6 ∧ |v'.2 - v.2| ≤ 1 / 10 ^ 6) L' L := by
  unfold floatregpolygonvertF floatregpolygonvert
  by_cases h0 : sides = 0
  · simp [h0]
  rw [if_neg h0, if_neg h0]
  dsimp only
  cases hp : pyRange3 0 360 (Int.fdiv 360 sides) with
  | error e0 => exact ⟨fun e => Iff.rfl, fun L h => by cases h⟩
  | ok angs =>
    refine ⟨fun e => ⟨fun h => (by cases h), fun h => (by cases h)⟩, fun L h => ?_⟩
    injection h with h
    refine ⟨_, rfl, ?_⟩
    rw [← h, List.forall₂_map_left_iff, List.forall₂_map_right_iff, List.forall₂_same]
    intro a hm
    have hb : |(a : ℝ)| ≤ 360 := by
      rcases lt_trichotomy (Int.fdiv 360 sides) 0 with g | g | g
      · rw [pyRange3_neg g (by omega)] at hp
        injection hp with hp
        subst hp
        cases hm
      · rw [g] at hp
        cases hp
      · obtain ⟨l, hl, hmem⟩ := pyRange3_pos (a := 0) (z := 360) g
        rw [hl] at hp
        injection hp with hp
        subst hp
        obtain ⟨h1, k, hk, e⟩ := (hmem a).mp hm
        have h2 : 0 ≤ a := by rw [e]; positivity
        rw [abs_of_nonneg (by exact_mod_cast h2)]
        exact_mod_cast h1.le
    have h1 : Ap (radiansF A angle) (angle * (Real.pi / 180)) (1 / 2 ^ 43) 100 := ((Ap.const ha).radians).le (by norm_num) (by norm_num)
    have h2 : Ap (radiansF A a) (a * (Real.pi / 180)) (1 / 2 ^ 43) 8 := ((Ap.const hb).radians).le (by norm_num) (by norm_num)
    have h3 := (h1.add h2).rd (A := A)
    have h4 : ApC (⟨A.sin (A.rd (radiansF A angle + radiansF A a)), A.cos (A.rd (radiansF A angle + radiansF A a))⟩ : ℂ)
        ⟨Real.sin (angle * (Real.pi / 180) + a * (Real.pi / 180)), Real.cos (angle * (Real.pi / 180) + a * (Real.pi / 180))⟩ (11 / 10 / 2 ^ 42) 1 :=
      ⟨(h3.sin (A := A)).le (by norm_num) le_rfl, (h3.cos (A := A)).le (by norm_num) le_rfl⟩
    have h5 := (ApC.ofRe (Ap.const hr)).mul (A := A) h4 (d := 12 / 10 / 2 ^ 21) (P := 2 ^ 21) (by norm_num) (by norm_num)
    have h6 := (ApC.cplx hx hy).sub (A := A) h5
    have e1 : (Model.ofRe (r : ℝ) * (⟨Real.sin (angle * (Real.pi / 180) + a * (Real.pi / 180)), Real.cos (angle * (Real.pi / 180) + a * (Real.pi / 180))⟩ : ℂ)) =
      ⟨r * Real.sin (angle * (Real.pi / 180) + a * (Real.pi / 180)), r * Real.cos (angle * (Real.pi / 180) + a * (Real.pi / 180))⟩ := by
      apply Complex.ext <;> simp [Model.ofRe]
    rw [e1] at h6
    exact ⟨h6.1.1.trans (by norm_num), h6.2.1.trans (by norm_num)⟩

/-- C175: a rotated ellipse computed with floats. The point `v` of the upright ellipse is rotated about `(x, y)`. -/
theorem C175_ellipserot (A : Floats) {x y b a : Int} {degrot : ℝ} (hx : |(x : ℝ)| ≤ 2 ^ 20) (hy : |(y : ℝ)| ≤ 2 ^ 20) (hr : |degrot| ≤ 2 ^ 12) :
    (iterellipserotF A x y b a degrot).length = (iterellipserot x y b a degrot).length ∧
    ∀ (k : ℕ) v, ((iterellipsepart b a).flatMap (mirror1stquad x y))[k]? = some v → |(v.1 : ℝ) - x| ≤ 2 ^ 20 → |(v.2 : ℝ) - y| ≤ 2 ^ 20 →
      ∃ p q, (iterellipserotF A x y b a degrot)[k]? = some p ∧ (iterellipserot x y b a degrot)[k]? = some q ∧
        PtRnd (1 / 1000) (centre x y + polar 1 (degrot * (Real.pi / 180)) * ⟨(v.1 : ℝ) - x, (v.2 : ℝ) - y⟩) p q := by
  unfold iterellipserotF iterellipserot
  dsimp only
  rw [← List.map_flatMap, ← List.map_flatMap]
  refine ⟨by rw [List.length_map, List.length_map], ?_⟩
  intro k v hv h1 h2
  rw [List.getElem?_map, List.getElem?_map, hv]
  refine ⟨_, _, rfl, rfl, ?_⟩
  have ht : Ap (radiansF A degrot) (degrot * (Real.pi / 180)) (1 / 2 ^ 43) 100 := ((Ap.const hr).radians).le (by norm_num) (by norm_num)
  have hs : Ap (A.sin (radiansF A degrot)) (Real.sin (degrot * (Real.pi / 180))) (1 / 2 ^ 42) 1 := (ht.sin (A := A)).le (by norm_num) le_rfl
  have hc : Ap (A.cos (radiansF A degrot)) (Real.cos (degrot * (Real.pi / 180))) (1 / 2 ^ 42) 1 := (ht.cos (A := A)).le (by norm_num) le_rfl
  have kx := (((((Ap.const h1).mul hc).rd (A := A)).sub (((Ap.const h2).mul hs).rd (A := A))).rd (A := A)).add (Ap.const hx) |>.rd (A := A)
  have ky := (((((Ap.const h1).mul hs).rd (A := A)).add (((Ap.const h2).mul hc).rd (A := A))).rd (A := A)).add (Ap.const hy) |>.rd (A := A)
  have ez : centre x y + polar 1 (degrot * (Real.pi / 180)) * (⟨(v.1 : ℝ) - x, (v.2 : ℝ) - y⟩ : ℂ) =
    ⟨((v.1 : ℝ) - x) * Real.cos (degrot * (Real.pi / 180)) - ((v.2 : ℝ) - y) * Real.sin (degrot * (Real.pi / 180)) + x,
     ((v.1 : ℝ) - x) * Real.sin (degrot * (Real.pi / 180)) + ((v.2 : ℝ) - y) * Real.cos (degrot * (Real.pi / 180)) + y⟩ := by
    rw [← rectC_polar]
    unfold rectC centre
    apply Complex.ext
    · simp only [Complex.add_re, Complex.mul_re]; ring
    · simp only [Complex.add_im, Complex.mul_im]; ring
  rw [ez]
  exact ⟨rndClose (by norm_num) (kx.1.trans (by norm_num)), rndClose (by norm_num) (ky.1.trans (by norm_num))⟩

/-! ### An arithmetic of floats -/

/-- Rounding to 53 binary digits. -/
noncomputable def rd53 (x : ℝ) : ℝ := round (x * 2 ^ (52 - Int.log 2 |x|)) / 2 ^ (52 - Int.log 2 |x|)

theorem rd53_err (x : ℝ) : |rd53 x - x| ≤ |x| / 2 ^ 53 := by
  by_cases h : x = 0
  · subst h; simp [rd53]
  have hx : 0 < |x| := abs_pos.mpr h
  have h1 := Int.zpow_log_le_self (b := 2) (R := ℝ) (by norm_num) hx
  push_cast at h1
  set e := Int.log 2 |x| with he
  have hp : (0 : ℝ) < 2 ^ (52 - e) := by positivity
  have h2 := abs_sub_round (x * 2 ^ (52 - e))
  have h3 : |rd53 x - x| = |x * 2 ^ (52 - e) - round (x * 2 ^ (52 - e))| / 2 ^ (52 - e) := by
    unfold rd53
    rw [← he, abs_sub_comm, ← abs_of_pos hp, ← abs_div, abs_of_pos hp]
    congr 1
    field_simp
  rw [h3, div_le_iff₀ hp]
  refine h2.trans ?_
  have : (2 : ℝ) ^ (52 - e) * 2 ^ e = 2 ^ 52 := by
    rw [← zpow_add₀ (by norm_num)]; norm_num
  have h4 : 2 ^ 52 ≤ |x| * 2 ^ (52 - e) := by
    rw [← this, mul_comm]; gcongr
  have : |x| / 2 ^ 53 * 2 ^ (52 - e) = |x| * 2 ^ (52 - e) / 2 ^ 53 := by ring
  rw [this, le_div_iff₀ (by positivity)]
  norm_num at h4 ⊢
  linarith

/-- The arithmetic in which every operation is rounded to 53 binary digits. -/
noncomputable def floats53 : Floats where
  rd := rd53
  rd_err x := (rd53_err x).trans (by norm_num)
  sin x := rd53 (Real.sin x)
  sin_err x := (rd53_err _).trans (by have := Real.abs_sin_le_one x; norm_num at this ⊢; linarith)
  cos x := rd53 (Real.cos x)
  cos_err x := (rd53_err _).trans (by have := Real.abs_cos_le_one x; norm_num at this ⊢; linarith)
  tanh x := rd53 (Real.tanh x)
  tanh_err x := (rd53_err _).trans (by have := (Real.abs_tanh_lt_one x).le; norm_num at this ⊢; linarith)
  pow x n := rd53 (x ^ n)
  pow_err x n := (rd53_err _).trans (by
    have h := abs_nonneg (x ^ n)
    have : |x ^ n| / 2 ^ 53 ≤ |x ^ n| / 2 ^ 52 := by gcongr <;> norm_num
    linarith [show (0 : ℝ) < 1 / 2 ^ 200 by positivity])
  deg := rd53 (Real.pi / 180)
  deg_err := (rd53_err _).trans (by have := pi_deg; norm_num at this ⊢; linarith)
  lit := rd53 (Real.pi / 180)
  lit_err := (rd53_err _).trans (by have := pi_deg; norm_num at this ⊢; linarith)

/-- The first pixel of a flower that is turned by 30 degrees: the exact abscissa is 29.5. -/
example : ∃ p, (iterflowerF floats53 50 50 41 (3 : Nat) 30)[0]? = some p ∧ p.1 = 29 ∧ 13 ≤ p.2 ∧ p.2 ≤ 15 := by
  obtain ⟨p, q, h1, -, ⟨hx, hy⟩⟩ := (C175_flower floats53 (cx := 50) (cy := 50) (r := 41) (petals := 3) (angrot := 30) (by norm_num) (by norm_num)
    (by norm_num) (by norm_num) (by norm_num)).2 0 (by norm_num)
  have e1 : (30 : ℝ) * (Real.pi / 180) = Real.pi / 6 := by ring
  simp only [Nat.cast_zero, zero_mul, zero_div, zero_add, Real.cos_zero, e1, Real.sin_pi_div_six, Real.cos_pi_div_six] at hx hy
  norm_num at hx hy
  refine ⟨p, h1, ?_, ?_⟩
  · rw [hx.same fun m => ?_]
    · obtain ⟨c1, c2, c3⟩ := hx.right
      rw [abs_of_pos (show (0 : ℝ) < 59 / 2 by norm_num)] at c1 c2
      have c4 : (0 : ℝ) ≤ (q.1 : ℝ) := by nlinarith
      rw [abs_of_nonneg c4] at c1 c2
      have d1 : (q.1 : ℝ) < ((30 : Int) : ℝ) := by push_cast; linarith
      have d2 : ((28 : Int) : ℝ) < (q.1 : ℝ) := by push_cast; linarith
      have d1 : q.1 < 30 := by exact_mod_cast d1
      have d2 : 28 < q.1 := by exact_mod_cast d2
      omega
    · rw [lt_abs]
      rcases le_or_gt m 29 with g | g
      · left
        have : (m : ℝ) ≤ 29 := by exact_mod_cast g
        linarith
      · right
        have : (30 : ℝ) ≤ m := by exact_mod_cast g
        linarith
  · obtain ⟨c1, c2, c3⟩ := hy.right
    have s3 : Real.sqrt 3 ^ 2 = 3 := Real.sq_sqrt (by norm_num)
    have s0 := Real.sqrt_nonneg 3
    have s1 : Real.sqrt 3 < 174 / 100 := by nlinarith
    have s2 : 173 / 100 < Real.sqrt 3 := by nlinarith
    have st := abs_le.mp hy.step
    rw [abs_of_pos (show (0 : ℝ) < 50 - 41 * (Real.sqrt 3 / 2) by linarith)] at c1 c2
    have c4 : (0 : ℝ) ≤ (q.2 : ℝ) := by
      by_contra c
      rw [not_le] at c
      nlinarith
    rw [abs_of_nonneg c4] at c1 c2
    have d1 : (q.2 : ℝ) < ((15 : Int) : ℝ) := by push_cast; linarith
    have d2 : ((13 : Int) : ℝ) < (q.2 : ℝ) := by push_cast; linarith
    have d1 : q.2 < 15 := by exact_mod_cast d1
    have d2 : 13 < q.2 := by exact_mod_cast d2
    omega

/-- A Lissajous curve begins at the right pixel, and has about 600 points. -/
example : ∃ L, iterlissajouscurveF floats53 100 80 40 30 3 2 0 (1 / 100) 6 = some L ∧ 599 ≤ L.length ∧ L.length ≤ 601 ∧ L[0]? = some (140, 80) := by
  obtain ⟨L, h1, h2, -, h4⟩ := C175_lissajous floats53 (delta := 1 / 100) (lim := 6) (by norm_num) (by norm_num) (by norm_num) 100 80
    (a := 40) (b := 30) (c := 3) (d := 2) (e := 0) (by norm_num) (by norm_num) (by norm_num) (by norm_num) (by norm_num)
  have hl : (iterlissajouscurve 100 80 40 30 3 2 0 (1 / 100) 6).length = 600 := by
    unfold iterlissajouscurve steps
    rw [List.length_map, List.length_map, List.length_range, show (6 : ℝ) / (1 / 100) = ((600 : ℕ) : ℝ) by norm_num, Nat.ceil_natCast]
  rw [hl, abs_le] at h2
  have hlen : 599 ≤ L.length ∧ L.length ≤ 601 := by omega
  refine ⟨L, h1, hlen.1, hlen.2, ?_⟩
  have hp : L[0]? = some L[0] := List.getElem?_eq_getElem (by omega)
  obtain ⟨q, ⟨hx, hy⟩, -⟩ := h4 0 _ hp
  rw [hp]
  unfold centre at hx hy
  norm_num at hx hy
  have key : ∀ {n p q : Int}, RndClose (1 / 1000) (n : ℝ) p q → p = n := by
    intro n p q h
    have := abs_le.mp h.near
    have d1 : (p : ℝ) < ((n + 1 : Int) : ℝ) := by push_cast; linarith
    have d2 : ((n - 1 : Int) : ℝ) < (p : ℝ) := by push_cast; linarith
    have d1 : p < n + 1 := by exact_mod_cast d1
    have d2 : n - 1 < p := by exact_mod_cast d2
    omega
  rw [Option.some.injEq]
  exact Prod.ext (key (n := 140) (by exact_mod_cast hx)) (key (n := 80) (by exact_mod_cast hy))

end Verif.Props.Param
