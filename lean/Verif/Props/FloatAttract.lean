import Verif.Model.FloatAttract
import Verif.Props.Attract
import Verif.Props.Levels
import Verif.Props.FloatCurves
import Verif.Props.Plane
/-! Property C176: the attractors computed with floats, and their pictures. -/

namespace Verif.Props.FloatAttract
open Verif Spec Model Props Props.Attract Props.Hist2D

/-! ### Errors of numbers -/

/-- `x` is computed for the number `X`, whose terms have the absolute values `M` together, with an error of at most `k` roundings. -/
def Re (k : ℕ) (x : ℚ) (X M : ℝ) : Prop := |(x : ℝ) - X| ≤ k * M / 2 ^ 53 ∧ |X| ≤ M

variable {k l : ℕ} {x y : ℚ} {X Y M N : ℝ}

theorem Re.pos (h : Re k x X M) : 0 ≤ M := (abs_nonneg _).trans h.2

theorem Re.weak (h : Re k x X M) (hk : k ≤ l) : Re l x X M := by
  refine ⟨h.1.trans ?_, h.2⟩
  have := h.pos
  have : (k : ℝ) ≤ l := by exact_mod_cast hk
  gcongr

theorem Re.exact (x : ℚ) : Re 0 x x |(x : ℝ)| := ⟨by simp, le_rfl⟩

theorem Re.abs (h : Re k x X M) (hk : k ≤ 2 ^ 50) : |(x : ℝ)| ≤ 2 * M := by
  have h0 := h.pos
  have := abs_add_le ((x : ℝ) - X) X
  rw [sub_add_cancel] at this
  have hk : (k : ℝ) ≤ 2 ^ 50 := by exact_mod_cast hk
  have : (k : ℝ) * M / 2 ^ 53 ≤ M := by
    rw [div_le_iff₀ (by positivity)]; nlinarith
  linarith [h.1, h.2]

theorem flR_err (q : ℚ) : |((fl q : ℚ) : ℝ) - q| ≤ |(q : ℝ)| / 2 ^ 53 := by
  have := fl_err q
  exact_mod_cast this

theorem Re.fl (h : Re k x X M) (hk : k ≤ 2 ^ 50) : Re (k + 2) (fl x) X M := by
  refine ⟨?_, h.2⟩
  have h1 := flR_err x
  have h2 := h.abs hk
  have h3 := abs_sub_le ((Model.fl x : ℚ) : ℝ) x X
  have h4 : |(x : ℝ)| / 2 ^ 53 ≤ 2 * M / 2 ^ 53 := by gcongr
  push_cast
  have e : ((k : ℝ) + 2) * M / 2 ^ 53 = k * M / 2 ^ 53 + 2 * M / 2 ^ 53 := by ring
  linarith [h.1]

theorem Re.add (h : Re k x X M) (g : Re l y Y N) : Re (max k l) (x + y) (X + Y) (M + N) := by
  have h' := h.weak (le_max_left k l)
  have g' := g.weak (le_max_right k l)
  constructor
  · push_cast
    rw [show (x : ℝ) + y - (X + Y) = (x - X) + (y - Y) by ring]
    have e : ∀ m : ℝ, m * (M + N) / 2 ^ 53 = m * M / 2 ^ 53 + m * N / 2 ^ 53 := fun m => by ring
    rw [e]
    have := add_le_add h'.1 g'.1
    push_cast at this
    exact (abs_add_le _ _).trans this
  · exact (abs_add_le _ _).trans (add_le_add h.2 g.2)

theorem Re.neg (h : Re k x X M) : Re k (-x) (-X) M := by
  refine ⟨?_, by rw [abs_neg]; exact h.2⟩
  push_cast
  rw [show -(x : ℝ) - -X = -(x - X) by ring, abs_neg]
  exact h.1

theorem Re.sub (h : Re k x X M) (g : Re l y Y N) : Re (max k l) (x - y) (X - Y) (M + N) := by
  rw [sub_eq_add_neg, sub_eq_add_neg]; exact h.add g.neg

theorem Re.mul (h : Re k x X M) (g : Re l y Y N) (hk : k * l ≤ 2 ^ 50) : Re (k + l + 1) (x * y) (X * Y) (M * N) := by
  have hM := h.pos
  have hN := g.pos
  constructor
  · push_cast
    rw [show (x : ℝ) * y - X * Y = (x - X) * Y + X * (y - Y) + (x - X) * (y - Y) by ring]
    have t1 : |((x : ℝ) - X) * Y| ≤ k * M / 2 ^ 53 * N := by
      rw [abs_mul]; exact mul_le_mul h.1 g.2 (abs_nonneg _) (by positivity)
    have t2 : |X * ((y : ℝ) - Y)| ≤ M * (l * N / 2 ^ 53) := by
      rw [abs_mul]; exact mul_le_mul h.2 g.1 (abs_nonneg _) hM
    have t3 : |((x : ℝ) - X) * (y - Y)| ≤ k * M / 2 ^ 53 * (l * N / 2 ^ 53) := by
      rw [abs_mul]; exact mul_le_mul h.1 g.1 (abs_nonneg _) (by positivity)
    have t4 : (k : ℝ) * M / 2 ^ 53 * (l * N / 2 ^ 53) ≤ M * N / 2 ^ 53 := by
      have hk : (k : ℝ) * l ≤ 2 ^ 50 := by exact_mod_cast hk
      have e : (k : ℝ) * M / 2 ^ 53 * (l * N / 2 ^ 53) = (k * l / 2 ^ 53) * (M * N / 2 ^ 53) := by ring
      rw [e]
      have hle : (k : ℝ) * l / 2 ^ 53 ≤ 1 := by rw [div_le_iff₀ (by positivity)]; linarith
      have : 0 ≤ M * N / 2 ^ 53 := by positivity
      nlinarith
    have s1 := abs_add_le (((x : ℝ) - X) * Y + X * (y - Y)) ((x - X) * (y - Y))
    have s2 := abs_add_le (((x : ℝ) - X) * Y) (X * (y - Y))
    have e : ((k : ℝ) + l + 1) * (M * N) / 2 ^ 53 = k * M / 2 ^ 53 * N + M * (l * N / 2 ^ 53) + M * N / 2 ^ 53 := by ring
    rw [e]; linarith
  · rw [abs_mul]; exact mul_le_mul h.2 g.2 (abs_nonneg _) hM

theorem Re.sin (L : Libm) (h : Re k x X M) : Re (k + 2) (L.sin x) (Real.sin X) (1 + M) := by
  have hM := h.pos
  refine ⟨?_, (Real.abs_sin_le_one _).trans (by linarith)⟩
  have := abs_sub_le ((L.sin x : ℚ) : ℝ) (Real.sin x) (Real.sin X)
  have h2 := L.sin_err x
  have h3 := Real.abs_sin_sub_sin_le (x : ℝ) X
  have e : ((k + 2 : ℕ) : ℝ) * (1 + M) / 2 ^ 53 = k * M / 2 ^ 53 + 1 / 2 ^ 52 + (k + 2 * M) / 2 ^ 53 := by push_cast; ring
  have : 0 ≤ ((k : ℝ) + 2 * M) / 2 ^ 53 := by positivity
  linarith [h.1]

theorem Re.cos (L : Libm) (h : Re k x X M) : Re (k + 2) (L.cos x) (Real.cos X) (1 + M) := by
  have hM := h.pos
  refine ⟨?_, (Real.abs_cos_le_one _).trans (by linarith)⟩
  have := abs_sub_le ((L.cos x : ℚ) : ℝ) (Real.cos x) (Real.cos X)
  have h2 := L.cos_err x
  have h3 := Real.abs_cos_sub_cos_le (x : ℝ) X
  have e : ((k + 2 : ℕ) : ℝ) * (1 + M) / 2 ^ 53 = k * M / 2 ^ 53 + 1 / 2 ^ 52 + (k + 2 * M) / 2 ^ 53 := by push_cast; ring
  have : 0 ≤ ((k : ℝ) + 2 * M) / 2 ^ 53 := by positivity
  linarith [h.1]

theorem Re.cube (L : Libm) (x : ℚ) : Re 2 (L.cube x) ((x : ℝ) ^ 3) (|(x : ℝ)| ^ 3) := by
  refine ⟨?_, by rw [abs_pow]⟩
  have h := L.cube_err x
  have h' : |((L.cube x : ℚ) : ℝ) - (x : ℝ) ^ 3| ≤ |(x : ℝ) ^ 3| / 2 ^ 52 := by exact_mod_cast h
  rw [abs_pow] at h'
  refine h'.trans (le_of_eq ?_)
  push_cast; ring

/-- Numbers with a small relative error -/
theorem Re.small (h : Re k x X X) (hk : k ≤ 2 ^ 10) : X * (1 - 1 / 2 ^ 43) ≤ x ∧ x ≤ X * (1 + 1 / 2 ^ 43) := by
  have h0 := h.pos
  have hk : (k : ℝ) ≤ 2 ^ 10 := by exact_mod_cast hk
  have h1 := abs_le.mp h.1
  have h2 : (k : ℝ) * X / 2 ^ 53 ≤ X * (1 / 2 ^ 43) := by
    rw [div_le_iff₀ (by positivity)]; nlinarith
  constructor <;> linarith [h1.1, h1.2]

theorem Re.div (h : Re k x X M) (g : Re l y Y Y) (hY : 0 < Y) (hk : k ≤ 2 ^ 10) (hl : l ≤ 2 ^ 10) :
    Re (k + l + 2) (x / y) (X / Y) (M / Y) := by
  have hM := h.pos
  obtain ⟨s1, s2⟩ := g.small hl
  have hy : 0 < (y : ℝ) := lt_of_lt_of_le (by nlinarith) s1
  refine ⟨?_, by rw [abs_div, abs_of_pos hY]; exact div_le_div_of_nonneg_right h.2 hY.le⟩
  push_cast
  have e : (x : ℝ) / y - X / Y = ((x - X) - X / Y * (y - Y)) / y := by field_simp; ring
  rw [e, abs_div, abs_of_pos hy, div_le_iff₀ hy]
  have t1 : |X / Y * ((y : ℝ) - Y)| ≤ M / Y * (l * Y / 2 ^ 53) := by
    rw [abs_mul, abs_div, abs_of_pos hY]
    exact mul_le_mul (div_le_div_of_nonneg_right h.2 hY.le) g.1 (abs_nonneg _) (by positivity)
  have e2 : M / Y * (l * Y / 2 ^ 53) = l * M / 2 ^ 53 := by field_simp
  rw [e2] at t1
  have t2 := abs_sub ((x : ℝ) - X) (X / Y * (y - Y))
  have t3 : ((k : ℝ) + l + 2) * (M / Y) / 2 ^ 53 * (Y * (1 - 1 / 2 ^ 43)) ≤ ((k : ℝ) + l + 2) * (M / Y) / 2 ^ 53 * y := by gcongr
  have e3 : ((k : ℝ) + l + 2) * (M / Y) / 2 ^ 53 * (Y * (1 - 1 / 2 ^ 43)) = ((k : ℝ) + l + 2) * M / 2 ^ 53 * (1 - 1 / 2 ^ 43) := by
    field_simp
  rw [e3] at t3
  have hk : (k : ℝ) ≤ 2 ^ 10 := by exact_mod_cast hk
  have hl : (l : ℝ) ≤ 2 ^ 10 := by exact_mod_cast hl
  have t4 : (k : ℝ) * M / 2 ^ 53 + l * M / 2 ^ 53 ≤ ((k : ℝ) + l + 2) * M / 2 ^ 53 * (1 - 1 / 2 ^ 43) := by
    have : (k : ℝ) + l ≤ (k + l + 2) * (1 - 1 / 2 ^ 43) := by linarith
    have := mul_le_mul_of_nonneg_right this (by positivity : 0 ≤ M / 2 ^ 53)
    calc _ = ((k : ℝ) + l) * (M / 2 ^ 53) := by ring
      _ ≤ _ := this
      _ = _ := by ring
  linarith [h.1]

theorem Re.invsq (L : Libm) (h : Re k x X X) (hX : 0 < X) (hk : k ≤ 2 ^ 10) : Re (2 * k + 4) (L.invsq x) ((X ^ 2)⁻¹) ((X ^ 2)⁻¹) := by
  obtain ⟨s1, s2⟩ := h.small hk
  have hx : 0 < (x : ℝ) := lt_of_lt_of_le (by nlinarith) s1
  refine ⟨?_, by rw [abs_of_pos (by positivity)]⟩
  have h1 := L.invsq_err x
  have h1 : |((L.invsq x : ℚ) : ℝ) - ((x : ℝ) ^ 2)⁻¹| ≤ ((x : ℝ) ^ 2)⁻¹ / 2 ^ 52 := by exact_mod_cast h1
  have hq : ((x : ℝ) ^ 2)⁻¹ ≤ (X ^ 2)⁻¹ * (1 + 1 / 2 ^ 40) := by
    rw [inv_eq_one_div, div_le_iff₀ (by positivity)]
    have : X ^ 2 * (1 - 1 / 2 ^ 43) ^ 2 ≤ (x : ℝ) ^ 2 := by
      have := pow_le_pow_left₀ (by nlinarith : 0 ≤ X * (1 - 1 / 2 ^ 43)) s1 2
      linarith
    have h3 : (X ^ 2)⁻¹ * (1 + 1 / 2 ^ 40) * (X ^ 2 * (1 - 1 / 2 ^ 43) ^ 2) ≤ (X ^ 2)⁻¹ * (1 + 1 / 2 ^ 40) * (x : ℝ) ^ 2 := by gcongr
    have h4 : (X ^ 2)⁻¹ * (1 + 1 / 2 ^ 40) * (X ^ 2 * (1 - 1 / 2 ^ 43) ^ 2) = (1 + 1 / 2 ^ 40) * (1 - 1 / 2 ^ 43) ^ 2 := by field_simp
    rw [h4] at h3
    refine le_trans ?_ h3
    norm_num
  have hd : |((x : ℝ) ^ 2)⁻¹ - (X ^ 2)⁻¹| ≤ (2 * k + 1) * (X ^ 2)⁻¹ / 2 ^ 53 := by
    have e : ((x : ℝ) ^ 2)⁻¹ - (X ^ 2)⁻¹ = (X - x) * (X + x) * (((x : ℝ) ^ 2)⁻¹ * (X ^ 2)⁻¹) := by field_simp; ring
    rw [e, abs_mul, abs_mul, abs_of_pos (by positivity : 0 < X + (x : ℝ)), abs_of_pos (by positivity : 0 < ((x : ℝ) ^ 2)⁻¹ * (X ^ 2)⁻¹), abs_sub_comm]
    have hk' : (k : ℝ) ≤ 2 ^ 10 := by exact_mod_cast hk
    calc |(x : ℝ) - X| * (X + x) * (((x : ℝ) ^ 2)⁻¹ * (X ^ 2)⁻¹)
        ≤ (k * X / 2 ^ 53) * (X + X * (1 + 1 / 2 ^ 43)) * ((X ^ 2)⁻¹ * (1 + 1 / 2 ^ 40) * (X ^ 2)⁻¹) := by
          gcongr
          exact h.1
      _ = k * (2 + 1 / 2 ^ 43) * (1 + 1 / 2 ^ 40) * (X ^ 2)⁻¹ / 2 ^ 53 := by field_simp; ring
      _ ≤ (2 * k + 1) * (X ^ 2)⁻¹ / 2 ^ 53 := by
          gcongr
          nlinarith
  have t := abs_sub_le ((L.invsq x : ℚ) : ℝ) ((x : ℝ) ^ 2)⁻¹ (X ^ 2)⁻¹
  have t2 : ((x : ℝ) ^ 2)⁻¹ / 2 ^ 52 ≤ (X ^ 2)⁻¹ * (1 + 1 / 2 ^ 40) / 2 ^ 52 := by gcongr
  have t3 : (X ^ 2)⁻¹ * (1 + 1 / 2 ^ 40) / 2 ^ 52 + (2 * k + 1) * (X ^ 2)⁻¹ / 2 ^ 53 ≤ ((2 * k + 4 : ℕ) : ℝ) * (X ^ 2)⁻¹ / 2 ^ 53 := by
    push_cast
    have : 0 < (X ^ 2)⁻¹ := by positivity
    generalize (X ^ 2)⁻¹ = Q at *
    linarith
  linarith

theorem Re.hypot (L : Libm) {S : ℝ} (h : Re k x X S) (g : Re k y Y S) (hS : X ^ 2 + Y ^ 2 = S ^ 2) (hk : k ≤ 2 ^ 10) :
    Re (2 * k + 3) (L.hypot x y) S S := by
  have h0 := h.pos
  have hk' : (k : ℝ) ≤ 2 ^ 10 := by exact_mod_cast hk
  refine ⟨?_, by rw [abs_of_nonneg h0]⟩
  have hn : ∀ u v : ℝ, √(u ^ 2 + v ^ 2) = ‖(⟨u, v⟩ : ℂ)‖ := by
    intro u v
    rw [Complex.norm_def, Complex.normSq_mk]
    congr 1; ring
  have h1 := L.hypot_err x y
  have h2 : |√((x : ℝ) ^ 2 + (y : ℝ) ^ 2) - S| ≤ 2 * k * S / 2 ^ 53 := by
    have e : S = √(X ^ 2 + Y ^ 2) := by rw [hS, Real.sqrt_sq h0]
    nth_rw 1 [e]
    rw [hn, hn]
    refine (abs_norm_sub_norm_le _ _).trans ?_
    refine (Complex.norm_le_abs_re_add_abs_im _).trans ?_
    rw [Complex.sub_re, Complex.sub_im]
    dsimp only
    have := add_le_add h.1 g.1
    refine this.trans (le_of_eq ?_)
    ring
  have t := abs_sub_le ((L.hypot x y : ℚ) : ℝ) √((x : ℝ) ^ 2 + (y : ℝ) ^ 2) S
  have h3 := (abs_le.mp h2).2
  have h4 : 2 * k * S / 2 ^ 53 ≤ S / 2 ^ 42 := by
    rw [div_le_iff₀ (by positivity)]; nlinarith
  have h5 : √((x : ℝ) ^ 2 + (y : ℝ) ^ 2) / 2 ^ 52 ≤ (S + S / 2 ^ 42) / 2 ^ 52 := by gcongr; linarith
  have e : ((2 * k + 3 : ℕ) : ℝ) * S / 2 ^ 53 = 2 * k * S / 2 ^ 53 + 3 * S / 2 ^ 53 := by push_cast; ring
  rw [e]
  linarith

theorem Re.mag (h : Re k x X M) (hN : M ≤ N) : Re k x X N := by
  refine ⟨h.1.trans ?_, h.2.trans hN⟩
  gcongr

theorem Re.to (h : Re k x X M) (hX : X = Y) : Re k x Y M := hX ▸ h

/-- `x` is `X` with an error of at most `e / 2 ^ m`. -/
def Near (m : ℕ) (e : ℝ) (x : ℚ) (X : ℝ) : Prop := |(x : ℝ) - X| ≤ e / 2 ^ m

theorem Re.near (h : Re k x X M) {m j : ℕ} (hk : k ≤ 2 ^ j) (hj : j + m = 53) : Near m M x X := by
  refine h.1.trans ?_
  have h0 := h.pos
  have : (k : ℝ) ≤ 2 ^ j := by exact_mod_cast hk
  rw [← hj, pow_add, div_le_div_iff₀ (by positivity) (by positivity)]
  calc (k : ℝ) * M * 2 ^ m ≤ 2 ^ j * M * 2 ^ m := by gcongr
    _ = _ := by ring

/-! ### C176: the points -/

/-- `q` comes from `p` by one step of Peter de Jong's map. -/
def dejongNear (a b c d : ℚ) (p q : ℚ × ℚ) : Prop :=
      Near 45 (2 + |(a * p.2 : ℝ)| + |(b * p.1 : ℝ)|) q.1 (Real.sin (a * p.2) - Real.cos (b * p.1)) ∧
      Near 45 (2 + |(c * p.1 : ℝ)| + |(d * p.2 : ℝ)|) q.2 (Real.sin (c * p.1) - Real.cos (d * p.2))

theorem dejong_steps (L : Libm) (a b c d : ℚ) (n : Nat) :
    Steps (fun _ => dejongNear a b c d) (0, 0) n (peterdejongattractorlistF L a b c d n) := by
  apply trail_simple
  have key : ∀ u v : ℚ, Near 45 (2 + |(u : ℝ)| + |(v : ℝ)|) (Model.fl (L.sin (Model.fl u) - L.cos (Model.fl v))) (Real.sin u - Real.cos v) := by
    intro u v
    have h := ((((Re.exact u).fl (by norm_num)).sin L).sub (((Re.exact v).fl (by norm_num)).cos L)).fl (by norm_num)
    exact (h.mag (by linarith)).near (j := 8) (by norm_num) rfl
  intro s
  have h1 := key (a * s.2) (b * s.1)
  have h2 := key (c * s.1) (d * s.2)
  push_cast at h1 h2
  exact ⟨h1, h2⟩

/-- Two terms, one of them with a factor. -/
theorem wave (L : Libm) (f : ℚ → ℚ) (F : ℝ → ℝ) (hf : ∀ {k x X M}, Re k x X M → Re (k + 2) (f x) (F X) (1 + M)) (u v c : ℚ) :
    Near 45 (1 + |(u : ℝ)| + |(c : ℝ)| * (1 + |(v : ℝ)|)) (Model.fl (L.sin (Model.fl u) + Model.fl (c * f (Model.fl v)))) (Real.sin u + c * F v) := by
  have h := ((((Re.exact u).fl (by norm_num)).sin L).add
    (((Re.exact c).mul (hf ((Re.exact v).fl (by norm_num))) (by norm_num)).fl (by norm_num))).fl (by norm_num)
  exact h.near (j := 8) (by norm_num) rfl

/-- `q` comes from `p` by one step of Clifford Pickover's map. -/
def cliffordNear (a b c d : ℚ) (p q : ℚ × ℚ) : Prop :=
      Near 45 (1 + |(a * p.2 : ℝ)| + |(c : ℝ)| * (1 + |(a * p.1 : ℝ)|)) q.1 (Real.sin (a * p.2) + c * Real.cos (a * p.1)) ∧
      Near 45 (1 + |(b * p.1 : ℝ)| + |(d : ℝ)| * (1 + |(b * p.2 : ℝ)|)) q.2 (Real.sin (b * p.1) + d * Real.cos (b * p.2))

theorem clifford_steps (L : Libm) (a b c d : ℚ) (n : Nat) :
    Steps (fun _ => cliffordNear a b c d) (0, 0) n (cliffordattractorlistF L a b c d n) := by
  apply trail_simple
  intro s
  have h1 := wave L L.cos Real.cos (fun h => h.cos L) (a * s.2) (a * s.1) c
  have h2 := wave L L.cos Real.cos (fun h => h.cos L) (b * s.1) (b * s.2) d
  push_cast at h1 h2
  exact ⟨h1, h2⟩

/-- `q` comes from `p` by one step of the fractal dream map. -/
def dreamNear (a b c d : ℚ) (p q : ℚ × ℚ) : Prop :=
      Near 45 (1 + |(b * p.2 : ℝ)| + |(c : ℝ)| * (1 + |(b * p.1 : ℝ)|)) q.1 (Real.sin (b * p.2) + c * Real.sin (b * p.1)) ∧
      Near 45 (1 + |(a * p.1 : ℝ)| + |(d : ℝ)| * (1 + |(a * p.2 : ℝ)|)) q.2 (Real.sin (a * p.1) + d * Real.sin (a * p.2))

theorem dream_steps (L : Libm) (a b c d : ℚ) (n : Nat) :
    Steps (fun _ => dreamNear a b c d) ((Model.fl (1 / 10), Model.fl (1 / 10)) : ℚ × ℚ) n (fractaldreamattractorlistF L a b c d n) := by
  apply trail_simple
  intro s
  have h1 := wave L L.sin Real.sin (fun h => h.sin L) (b * s.2) (b * s.1) c
  have h2 := wave L L.sin Real.sin (fun h => h.sin L) (a * s.1) (a * s.2) d
  push_cast at h1 h2
  exact ⟨h1, h2⟩

/-- `q` comes from `p` by one step of the n attractor: the second coordinate is computed with the new first one. -/
def nNear (a b c d : ℚ) (p q : ℚ × ℚ) : Prop :=
      Near 45 (|(a : ℝ)| * (1 + |(a * p.2 : ℝ)|) + |(b : ℝ)| * (1 + |(b * p.1 : ℝ)|)) q.1 (a * Real.sin (a * p.2) + b * Real.cos (b * p.1)) ∧
      Near 45 (|(c : ℝ)| * (1 + |(c * q.1 : ℝ)|) + |(d : ℝ)| * (1 + |(d * p.2 : ℝ)|)) q.2 (c * Real.sin (c * q.1) + d * Real.cos (d * p.2))

theorem n_steps (L : Libm) (a b c d : ℚ) (n : Nat) :
    Steps (fun _ => nNear a b c d) (0, 0) n (nattractorlistF L a b c d n) := by
  have key : ∀ a u b v : ℚ, Near 45 (|(a : ℝ)| * (1 + |(u : ℝ)|) + |(b : ℝ)| * (1 + |(v : ℝ)|))
      (Model.fl (Model.fl (a * L.sin (Model.fl u)) + Model.fl (b * L.cos (Model.fl v)))) (a * Real.sin u + b * Real.cos v) := by
    intro a u b v
    have h := ((((Re.exact a).mul (((Re.exact u).fl (by norm_num)).sin L) (by norm_num)).fl (by norm_num)).add
      (((Re.exact b).mul (((Re.exact v).fl (by norm_num)).cos L) (by norm_num)).fl (by norm_num))).fl (by norm_num)
    exact h.near (j := 8) (by norm_num) rfl
  apply trail_simple
  intro s
  have h1 := key a (a * s.2) b (b * s.1)
  have h2 := key c (c * (nStep L a b c d s).1) d (d * s.2)
  push_cast at h1 h2
  exact ⟨h1, h2⟩

/-- The function of Gumowski and Mira, and the terms of its value. -/
noncomputable def gm (a x : ℝ) : ℝ := a * x + 2 * (1 - a) * x ^ 2 / (1 + x ^ 2) ^ 2

noncomputable def gmTerms (a x : ℝ) : ℝ := |a| * |x| + 2 * (1 + |a|) * x ^ 2 / (1 + x ^ 2) ^ 2

theorem gm_re (L : Libm) (a x : ℚ) : Re 64 (gumowskimiraF L a x) (gm a x) (gmTerms a x) := by
  have hx := Re.exact x
  have h1 : Re 0 (1 : ℚ) ((1 : ℚ) : ℝ) 1 := by simpa using Re.exact 1
  have h2 : Re 0 (2 : ℚ) ((2 : ℚ) : ℝ) 2 := by simpa using Re.exact 2
  have hk := (h2.mul ((h1.sub (Re.exact a)).fl (by norm_num)) (by norm_num)).fl (by norm_num)
  have hu := (h1.add ((hx.mul hx (by norm_num)).fl (by norm_num))).fl (by norm_num)
  have hU : ((1 : ℚ) : ℝ) + (x : ℝ) * x = 1 + |(x : ℝ)| * |(x : ℝ)| := by rw [abs_mul_abs_self]; norm_num
  have hu' := (hu.to hU).invsq L (by positivity) (by norm_num)
  have h := (((Re.exact a).mul hx (by norm_num)).fl (by norm_num)).add
    ((((((hk.mul hx (by norm_num)).fl (by norm_num)).mul hx (by norm_num)).fl (by norm_num)).mul hu' (by norm_num)).fl (by norm_num))
  have h' := (h.fl (by norm_num)).weak (l := 64) (by norm_num)
  refine (h'.mag (le_of_eq ?_)).to ?_
  · unfold gmTerms
    rw [← sq_abs (x : ℝ)]; ring
  · unfold gm
    rw [abs_mul_abs_self]
    push_cast; ring

/-- `q` comes from `p` by one step of the Gumowski-Mira map. -/
def gmNear (a b : ℚ) (p q : ℚ × ℚ) : Prop :=
      Near 45 (|(b * p.2 : ℝ)| + gmTerms a p.1) q.1 (b * p.2 + gm a p.1) ∧
      Near 45 (gmTerms a q.1 + |(p.1 : ℝ)|) q.2 (gm a q.1 - p.1)

theorem gm_steps (L : Libm) (x y a b : ℚ) (n : Nat) :
    Steps (fun _ => gmNear a b) (x, y) n (gumowskimiraattractorlistF L x y a b n) := by
  refine trail_steps (gumowskimiraStep L a b) (fun s : ℚ × ℚ × ℚ => (s.1, s.2.1)) _ (fun _ s => s.2.2 = gumowskimiraF L a s.1)
    (s := (x, y, gumowskimiraF L a x)) rfl ?_ n
  intro _ s hs
  refine ⟨rfl, ?_, ?_⟩
  · have h := (((Re.exact (b * s.2.1)).fl (by norm_num)).add (gm_re L a s.1)).fl (by norm_num)
    rw [← hs] at h
    push_cast at h
    exact h.near (j := 8) (by norm_num) rfl
  · have h := ((gm_re L a (gumowskimiraStep L a b s).1).sub (Re.exact s.1)).fl (by norm_num)
    exact h.near (j := 8) (by norm_num) rfl

theorem sqrt_close {u v : ℝ} (hu : 0 ≤ u) (hv : 0 ≤ v) : |√u - √v| ≤ √|u - v| := by
  have key : ∀ u v : ℝ, 0 ≤ u → 0 ≤ v → √u ≤ √v + √|u - v| := by
    intro u v hu hv
    rw [Real.sqrt_le_iff]
    refine ⟨by positivity, ?_⟩
    have h1 := Real.sq_sqrt hv
    have h2 := Real.sq_sqrt (abs_nonneg (u - v))
    have h3 := le_abs_self (u - v)
    have h4 : 0 ≤ √v * √|u - v| := by positivity
    nlinarith
  have h1 := key u v hu hv
  have h2 := key v u hv hu
  rw [abs_sub_comm v u] at h2
  rw [abs_le]; constructor <;> linarith

/-- `q` comes from `p` by one step of Barry Martin's map. -/
def hopNear (a b c : ℚ) (p q : ℚ × ℚ) : Prop :=
      (∃ s : ℝ, (0 < p.1 → s = 1) ∧ (p.1 = 0 → s = 0) ∧ (p.1 < 0 → s = -1) ∧
        |(q.1 : ℝ) - (p.2 - s * √|(b * p.1 - c : ℝ)|)| ≤ √(|(b * p.1 : ℝ)| + |(c : ℝ)|) / 2 ^ 24 + |(p.2 : ℝ)| / 2 ^ 52) ∧
      Near 45 (|(a : ℝ)| + |(p.1 : ℝ)|) q.2 (a - p.1)

theorem hop_steps (L : Libm) (a b c : ℚ) (n : Nat) :
    Steps (fun _ => hopNear a b c) (0, 0) n (hopalongattractorlistF L a b c n) := by
  apply trail_simple
  intro s
  refine ⟨⟨(signQ s.1 : ℚ), ?_, ?_, ?_, ?_⟩, ?_⟩
  · intro h; unfold signQ; rw [if_pos h]; norm_num
  · intro h; unfold signQ; rw [if_neg (by simp [h]), if_pos h]; norm_num
  · intro h; unfold signQ; rw [if_neg (by simp [h.le]), if_neg h.ne]; norm_num
  · have hw := ((((Re.exact b).mul (Re.exact s.1) (by norm_num)).fl (by norm_num)).sub (Re.exact c)).fl (by norm_num)
    rw [← abs_mul] at hw
    have hσ : |((signQ s.1 : ℚ) : ℝ)| ≤ 1 := by
      unfold signQ; split_ifs <;> norm_num
    dsimp only
    generalize hwe : Model.fl (Model.fl (b * s.1) - c) = w at *
    have hB := hw.pos
    have hw2 := hw.abs (by norm_num)
    have hw1 := hw.1
    generalize hWe : (b : ℝ) * s.1 - c = W at *
    generalize hBe : |(b : ℝ) * s.1| + |(c : ℝ)| = B at *
    have d1 : |√(|w| : ℚ) - √(|W|)| ≤ √B / 2 ^ 25 := by
      push_cast
      refine (sqrt_close (abs_nonneg _) (abs_nonneg _)).trans ?_
      have e : √B / 2 ^ 25 = √(B / 2 ^ 50) := by
        rw [Real.sqrt_div hB, show (2 : ℝ) ^ 50 = (2 ^ 25) ^ 2 by norm_num, Real.sqrt_sq (by positivity)]
      rw [e]
      apply Real.sqrt_le_sqrt
      refine (abs_abs_sub_abs_le _ _).trans (hw1.trans ?_)
      norm_num
      linarith
    have d2 := L.sqrt_err |w|
    have d3 : √((|w| : ℚ) : ℝ) ≤ 2 * √B := by
      rw [show (2 : ℝ) * √B = √(2 ^ 2 * B) by rw [Real.sqrt_mul (by positivity), Real.sqrt_sq (by norm_num)]]
      apply Real.sqrt_le_sqrt
      push_cast
      linarith
    have hS := Real.sqrt_nonneg B
    have hWB : √(|W|) ≤ √B := Real.sqrt_le_sqrt (by have := hw.2; exact this)
    have hR0 : 0 ≤ √(|W|) := Real.sqrt_nonneg _
    generalize √(|W|) = R at *
    generalize √((|w| : ℚ) : ℝ) = r at *
    generalize √B = T at *
    have d4 : |((L.sqrt |w| : ℚ) : ℝ) - R| ≤ T / 2 ^ 25 + T / 2 ^ 51 := by
      have := abs_sub_le ((L.sqrt |w| : ℚ) : ℝ) r R
      have : r / 2 ^ 52 ≤ 2 * T / 2 ^ 52 := by gcongr
      linarith
    have d5 : |((s.2 - signQ s.1 * L.sqrt |w| : ℚ) : ℝ) - (s.2 - (signQ s.1 : ℚ) * R)| ≤ T / 2 ^ 25 + T / 2 ^ 51 := by
      push_cast
      rw [show (s.2 : ℝ) - (signQ s.1 : ℚ) * (L.sqrt |w| : ℚ) - (s.2 - (signQ s.1 : ℚ) * R) = -((signQ s.1 : ℚ) * ((L.sqrt |w| : ℚ) - R)) by ring, abs_neg, abs_mul]
      have := mul_le_mul hσ d4 (abs_nonneg _) (by norm_num)
      linarith
    have d6 : |(s.2 : ℝ) - (signQ s.1 : ℚ) * R| ≤ |(s.2 : ℝ)| + T := by
      refine (abs_sub _ _).trans ?_
      rw [abs_mul, abs_of_nonneg hR0]
      have := mul_le_mul hσ hWB hR0 (by norm_num)
      linarith
    have d7 := flR_err (s.2 - signQ s.1 * L.sqrt |w|)
    generalize s.2 - signQ s.1 * L.sqrt |w| = q at *
    generalize (s.2 : ℝ) - (signQ s.1 : ℚ) * R = Q at *
    have d8 := abs_sub_le ((Model.fl q : ℚ) : ℝ) q Q
    have d9 : |(q : ℝ)| ≤ |(s.2 : ℝ)| + T + (T / 2 ^ 25 + T / 2 ^ 51) := by
      have := abs_add_le ((q : ℝ) - Q) Q
      rw [sub_add_cancel] at this
      linarith
    have d10 : |(q : ℝ)| / 2 ^ 53 ≤ (|(s.2 : ℝ)| + T + (T / 2 ^ 25 + T / 2 ^ 51)) / 2 ^ 53 := by gcongr
    have := abs_nonneg (s.2 : ℝ)
    linarith
  · have h := ((Re.exact a).sub (Re.exact s.1)).fl (by norm_num)
    exact h.near (j := 8) (by norm_num) rfl

/-- `q` comes from `p` by one step of Duffing's equation, in steps of the length `dt`. The sum of the steps drifts from the exact time. -/
def duffingNear (dt a b w : ℚ) (i : ℕ) (p q : ℚ × ℚ) : Prop := ∃ t : ℝ, (i ≤ 2 ^ 50 → |t - i * dt| ≤ i ^ 2 * |(dt : ℝ)| / 2 ^ 52) ∧
      Near 45 (|(p.1 : ℝ)| + |(p.2 * dt : ℝ)|) q.1 (p.1 + p.2 * dt) ∧
      Near 45 (|(p.2 : ℝ)| + (|(p.1 : ℝ)| + |(p.1 : ℝ)| ^ 3 + |(a * p.2 : ℝ)| + |(b : ℝ)| * (1 + |(w * t : ℝ)|)) * |(dt : ℝ)|) q.2
        (p.2 + (p.1 - p.1 ^ 3 - a * p.2 + b * Real.cos (w * t)) * dt)

theorem duffing_steps (L : Libm) (dt a b w : ℚ) {n : Nat} :
    Steps (duffingNear dt a b w) (0, 0) n (duffingattractorlistF L 0 0 0 dt a b w n) := by
  refine trail_steps (duffingStep L dt a b w) (fun s : ℚ × ℚ × ℚ => (s.1, s.2.1)) _
    (fun i s => i ≤ 2 ^ 50 → |(s.2.2 : ℝ) - i * dt| ≤ i ^ 2 * |(dt : ℝ)| / 2 ^ 52)
    (s := (0, 0, 0)) (by simp) ?_ n
  intro i s hs
  refine ⟨?_, s.2.2, hs, ?_, ?_⟩
  · intro hi
    have h1 := hs (by omega)
    have h2 := flR_err (s.2.2 + dt)
    have hi' : (i : ℝ) + 1 ≤ 2 ^ 50 := by exact_mod_cast hi
    have hi0 : (0 : ℝ) ≤ i := by positivity
    have hD := abs_nonneg (dt : ℝ)
    have h3 : (i : ℝ) ^ 2 * |(dt : ℝ)| / 2 ^ 52 ≤ i * |(dt : ℝ)| := by
      rw [div_le_iff₀ (by positivity)]
      nlinarith [mul_nonneg hi0 hD]
    have h4 : |((s.2.2 + dt : ℚ) : ℝ)| ≤ 2 * (i + 1) * |(dt : ℝ)| := by
      push_cast
      have e : (s.2.2 : ℝ) + dt = (s.2.2 - i * dt) + (i + 1) * dt := by ring
      rw [e]
      refine (abs_add_le _ _).trans ?_
      rw [abs_mul, abs_of_nonneg (by linarith : (0 : ℝ) ≤ i + 1)]
      nlinarith
    have h5 := abs_sub_le (((duffingStep L dt a b w s).2.2 : ℚ) : ℝ) ((s.2.2 + dt : ℚ) : ℝ) (((i + 1 : ℕ) : ℝ) * dt)
    have h6 : |((s.2.2 + dt : ℚ) : ℝ) - ((i + 1 : ℕ) : ℝ) * dt| = |(s.2.2 : ℝ) - i * dt| := by
      push_cast; congr 1; ring
    have h7 : |((s.2.2 + dt : ℚ) : ℝ)| / 2 ^ 53 ≤ (2 * (i + 1) * |(dt : ℝ)|) / 2 ^ 53 := by gcongr
    have h8 : |(((duffingStep L dt a b w s).2.2 : ℚ) : ℝ) - ((s.2.2 + dt : ℚ) : ℝ)| ≤ |((s.2.2 + dt : ℚ) : ℝ)| / 2 ^ 53 := h2
    have h9 : (i : ℝ) ^ 2 * |(dt : ℝ)| / 2 ^ 52 + (2 * (i + 1) * |(dt : ℝ)|) / 2 ^ 53 ≤ ((i + 1 : ℕ) : ℝ) ^ 2 * |(dt : ℝ)| / 2 ^ 52 := by
      push_cast
      have : ((i : ℝ) + 1) ^ 2 * |(dt : ℝ)| / 2 ^ 52 = (i : ℝ) ^ 2 * |(dt : ℝ)| / 2 ^ 52 + (2 * (i + 1) * |(dt : ℝ)|) / 2 ^ 53 + i * |(dt : ℝ)| / 2 ^ 52 := by ring
      rw [this]
      have : 0 ≤ (i : ℝ) * |(dt : ℝ)| / 2 ^ 52 := by positivity
      linarith
    rw [h6] at h5
    linarith
  · have h := ((Re.exact s.1).add (((Re.exact (s.2.1 * dt))).fl (by norm_num))).fl (by norm_num)
    push_cast at h
    exact h.near (j := 8) (by norm_num) rfl
  · have hc := ((Re.exact b).mul (((Re.exact (w * s.2.2)).fl (by norm_num)).cos L) (by norm_num)).fl (by norm_num)
    have h1 := ((((Re.exact s.1).sub (Re.cube L s.1)).fl (by norm_num)).sub ((Re.exact (a * s.2.1)).fl (by norm_num))).fl (by norm_num)
    have h2 := (((h1.add hc).fl (by norm_num)).mul (Re.exact dt) (by norm_num)).fl (by norm_num)
    have h := ((Re.exact s.2.1).add h2).fl (by norm_num)
    push_cast at h
    exact h.near (j := 8) (by norm_num) rfl

/-! ### Complex numbers -/

/-- The complex number of a pair. -/
def toC (z : ℚ × ℚ) : ℂ := ⟨(z.1 : ℚ), (z.2 : ℚ)⟩

/-- Both parts -/
def ReC (k : ℕ) (z : ℚ × ℚ) (Z : ℂ) (M : ℝ) : Prop := Re k z.1 Z.re M ∧ Re k z.2 Z.im M

variable {z w : ℚ × ℚ} {Z V : ℂ}

theorem ReC.exact (z : ℚ × ℚ) : ReC 0 z (toC z) (|(z.1 : ℝ)| + |(z.2 : ℝ)|) :=
  ⟨(Re.exact z.1).mag (by linarith [abs_nonneg (z.2 : ℝ)]), (Re.exact z.2).mag (by linarith [abs_nonneg (z.1 : ℝ)])⟩

theorem ReC.real (h : Re k x X M) : ReC k (x, 0) (X : ℂ) M := by
  refine ⟨by simpa using h, ?_, ?_⟩
  · have := h.pos
    simp only [Complex.ofReal_im, Rat.cast_zero, sub_zero, abs_zero]
    positivity
  · simpa using h.pos

theorem ReC.mul (h : ReC k z Z M) (g : ReC l w V N) (hk : k * l ≤ 2 ^ 49) (hk2 : k + l ≤ 2 ^ 49) : ReC (k + l + 5) (cmulF z w) (Z * V) (2 * (M * N)) := by
  have hkl : k + l + 1 ≤ 2 ^ 50 := by norm_num at *; omega
  have hkl' : max (k + l + 1 + 2) (k + l + 1 + 2) ≤ 2 ^ 50 := by norm_num at *; omega
  have p : ∀ {x y X Y}, Re k x X M → Re l y Y N → Re (k + l + 1 + 2) (Model.fl (x * y)) (X * Y) (M * N) :=
    fun hx hy => (hx.mul hy (by omega)).fl hkl
  have a1 := (((p h.1 g.1).sub (p h.2 g.2)).fl hkl').weak (l := k + l + 5) (by rw [max_self])
  have a2 := (((p h.1 g.2).add (p h.2 g.1)).fl hkl').weak (l := k + l + 5) (by rw [max_self])
  constructor
  · rw [Complex.mul_re]; exact a1.mag (by linarith)
  · rw [Complex.mul_im]; exact a2.mag (by linarith)

theorem ReC.add (h : ReC k z Z M) (g : ReC l w V N) (hk : max k l ≤ 2 ^ 50) : ReC (max k l + 2) (caddF z w) (Z + V) (M + N) :=
  ⟨(h.1.add g.1).fl hk, (h.2.add g.2).fl hk⟩

theorem ReC.sub (h : ReC k z Z M) (g : ReC l w V N) (hk : max k l ≤ 2 ^ 50) : ReC (max k l + 2) (csubF z w) (Z - V) (M + N) :=
  ⟨(h.1.sub g.1).fl hk, (h.2.sub g.2).fl hk⟩

theorem ReC.conj (h : ReC k z Z M) : ReC k (z.1, -z.2) (starRingEnd ℂ Z) M :=
  ⟨by rw [Complex.conj_re]; exact h.1, by rw [Complex.conj_im]; exact h.2.neg⟩

/-- Both parts of `z` are those of `Z` with an error of at most `e / 2 ^ m`. -/
def NearC (m : ℕ) (e : ℝ) (z : ℚ × ℚ) (Z : ℂ) : Prop := Near m e z.1 Z.re ∧ Near m e z.2 Z.im

theorem ReC.near (h : ReC k z Z M) {m j : ℕ} (hk : k ≤ 2 ^ j) (hj : j + m = 53) : NearC m M z Z := ⟨h.1.near hk hj, h.2.near hk hj⟩

theorem ReC.mag (h : ReC k z Z M) (hN : M ≤ N) : ReC k z Z N := ⟨h.1.mag hN, h.2.mag hN⟩

theorem ReC.to (h : ReC k z Z M) (hZ : Z = V) : ReC k z V M := hZ ▸ h

theorem ReC.weak (h : ReC k z Z M) (hk : k ≤ l) : ReC l z Z M := ⟨h.1.weak hk, h.2.weak hk⟩

theorem ReC.exp (L : Libm) (h : Re k x X M) : ReC (k + 2) (L.cos x, L.sin x) (Complex.exp (Complex.I * X)) (1 + M) := by
  rw [mul_comm, Complex.exp_mul_I, ← Complex.ofReal_cos, ← Complex.ofReal_sin]
  refine ⟨?_, ?_⟩
  · simp only [Complex.add_re, Complex.mul_re, Complex.ofReal_re, Complex.ofReal_im, Complex.I_re, Complex.I_im, mul_zero, sub_self, add_zero, zero_mul]
    exact h.cos L
  · simp only [Complex.add_im, Complex.mul_im, Complex.ofReal_re, Complex.ofReal_im, Complex.I_re, Complex.I_im, mul_zero, mul_one, add_zero, zero_add]
    exact h.sin L

/-- `w` comes from `z` by one step of Ikeda's map. -/
def ikedaNear (a b k p : ℚ) (z w : ℚ × ℚ) : Prop := NearC 45 (|(a : ℝ)| + 4 * |(b : ℝ)| * (|(z.1 : ℝ)| + |(z.2 : ℝ)|) * (1 + |(k : ℝ)| + |(p : ℝ)|)) w
      (a + b * toC z * Complex.exp (Complex.I * ((k - p / (1 + ‖toC z‖ ^ 2) : ℝ) : ℂ)))

theorem ikeda_steps (L : Libm) (a b k p : ℚ) (n : Nat) :
    Steps (fun _ => ikedaNear a b k p) (0, 0) n (ikedaattractorlistF L a b k p n) := by
  apply trail_simple
  intro z
  have hx := Re.exact z.1
  have hy := Re.exact z.2
  have hS : ‖toC z‖ ^ 2 = |(z.1 : ℝ)| * |(z.1 : ℝ)| + |(z.2 : ℝ)| * |(z.2 : ℝ)| := by
    rw [← Complex.normSq_eq_norm_sq, toC, Complex.normSq_mk, abs_mul_abs_self, abs_mul_abs_self]
  have z1 := (((hx.mul hx (by norm_num)).fl (by norm_num)).sub ((hy.mul hy (by norm_num)).fl (by norm_num))).fl (by norm_num)
  have z2 := ((((hx.mul hy (by norm_num)).fl (by norm_num)).add ((hy.mul hx (by norm_num)).fl (by norm_num))).fl (by norm_num)).mag
    (N := |(z.1 : ℝ)| * |(z.1 : ℝ)| + |(z.2 : ℝ)| * |(z.2 : ℝ)|) (by nlinarith [sq_nonneg (|(z.1 : ℝ)| - |(z.2 : ℝ)|)])
  have hh := Re.hypot L z1 z2 (by
    rw [abs_mul_abs_self, abs_mul_abs_self]; ring) (by norm_num)
  have h1 : Re 0 (1 : ℚ) (1 : ℝ) 1 := by simpa using Re.exact 1
  have hu := (h1.add hh).fl (by norm_num)
  have hp := ((Re.exact p).div hu (by positivity) (by norm_num) (by norm_num)).fl (by norm_num)
  have hp' := hp.mag (N := |(p : ℝ)|) (by
    apply div_le_self (abs_nonneg _)
    nlinarith [abs_nonneg (z.1 : ℝ), abs_nonneg (z.2 : ℝ)])
  have ht := ((Re.exact k).sub hp').fl (by norm_num)
  have he := ReC.exp L ht
  have hb := (((ReC.real (Re.exact b)).mul (ReC.exact z) (by norm_num) (by norm_num)).mul he (by norm_num) (by norm_num))
  have h := (ReC.real (Re.exact a)).add hb (by norm_num)
  refine ((h.to ?_).mag ?_).near (m := 45) (j := 8) (by norm_num) rfl
  · rw [hS]
    simp only [Complex.ofReal_ratCast]
  · apply le_of_eq; ring

theorem norm_le_of_parts {a b A B u : ℝ} (hu : 0 ≤ u) (ha : |a| ≤ u * |A|) (hb : |b| ≤ u * |B|) : ‖(⟨a, b⟩ : ℂ)‖ ≤ u * ‖(⟨A, B⟩ : ℂ)‖ := by
  rw [Complex.norm_def, Complex.norm_def, ← Real.sqrt_sq hu, ← Real.sqrt_mul (sq_nonneg u)]
  apply Real.sqrt_le_sqrt
  rw [Complex.normSq_mk, Complex.normSq_mk]
  have h1 : a * a ≤ (u * |A|) * (u * |A|) := by rw [← abs_mul_abs_self a]; exact mul_self_le_mul_self (abs_nonneg _) ha
  have h2 : b * b ≤ (u * |B|) * (u * |B|) := by rw [← abs_mul_abs_self b]; exact mul_self_le_mul_self (abs_nonneg _) hb
  have e1 := abs_mul_abs_self A
  have e2 := abs_mul_abs_self B
  nlinarith

/-- The error of a sum of complex numbers -/
theorem cadd_err (z w : ℚ × ℚ) : ‖toC (caddF z w) - (toC z + toC w)‖ ≤ 1 / 2 ^ 53 * ‖toC z + toC w‖ := by
  have h1 := flR_err (z.1 + w.1)
  have h2 := flR_err (z.2 + w.2)
  push_cast at h1 h2
  have e1 : toC (caddF z w) - (toC z + toC w) = ⟨((fl (z.1 + w.1) : ℚ) : ℝ) - (z.1 + w.1), ((fl (z.2 + w.2) : ℚ) : ℝ) - (z.2 + w.2)⟩ := by
    apply Complex.ext <;> simp [toC, caddF]
  have e2 : toC z + toC w = ⟨z.1 + w.1, z.2 + w.2⟩ := by apply Complex.ext <;> simp [toC]
  rw [e1, e2]
  exact norm_le_of_parts (by positivity) (h1.trans (by rw [div_eq_inv_mul, one_div])) (h2.trans (by rw [div_eq_inv_mul, one_div]))

theorem csub_err (z w : ℚ × ℚ) : ‖toC (csubF z w) - (toC z - toC w)‖ ≤ 1 / 2 ^ 53 * ‖toC z - toC w‖ := by
  have h := cadd_err z (-w.1, -w.2)
  have e1 : caddF z (-w.1, -w.2) = csubF z w := by simp [caddF, csubF, sub_eq_add_neg]
  have e2 : toC (-w.1, -w.2) = -toC w := by apply Complex.ext <;> simp [toC]
  rwa [e1, e2, ← sub_eq_add_neg] at h

theorem fl_two (p q : ℚ) {m : ℝ} (hm : |(p : ℝ)| + |(q : ℝ)| ≤ m) :
    |((fl (fl p + fl q) : ℚ) : ℝ) - (p + q)| ≤ 17 / 8 / 2 ^ 53 * m := by
  have h1 := flR_err p
  have h2 := flR_err q
  have h3 := flR_err (fl p + fl q)
  push_cast at h3
  have a1 := abs_add_le (((fl p : ℚ) : ℝ) - p) (((fl q : ℚ) : ℝ) - q)
  have a2 := abs_add_le ((((fl p : ℚ) : ℝ) - p) + (((fl q : ℚ) : ℝ) - q)) (p + q)
  rw [show (((fl p : ℚ) : ℝ) - p) + (((fl q : ℚ) : ℝ) - q) + (p + q) = ((fl p : ℚ) : ℝ) + (fl q : ℚ) by ring] at a2
  have a3 := abs_add_le (p : ℝ) q
  have a4 := abs_add_le (((fl (fl p + fl q) : ℚ) : ℝ) - ((fl p : ℚ) + (fl q : ℚ))) ((((fl p : ℚ) : ℝ) - p) + (((fl q : ℚ) : ℝ) - q))
  rw [show ((fl (fl p + fl q) : ℚ) : ℝ) - ((fl p : ℚ) + (fl q : ℚ)) + ((((fl p : ℚ) : ℝ) - p) + (((fl q : ℚ) : ℝ) - q)) =
    ((fl (fl p + fl q) : ℚ) : ℝ) - (p + q) by ring] at a4
  have b1 : |((fl p : ℚ) : ℝ) + (fl q : ℚ)| / 2 ^ 53 ≤ (|(p : ℝ)| / 2 ^ 53 + |(q : ℝ)| / 2 ^ 53 + (|(p : ℝ)| + |(q : ℝ)|)) / 2 ^ 53 := by
    gcongr; linarith
  have hm' : (|(p : ℝ)| + |(q : ℝ)|) / 2 ^ 53 ≤ m / 2 ^ 53 := by gcongr
  have p0 := abs_nonneg (p : ℝ)
  have q0 := abs_nonneg (q : ℝ)
  linarith

/-- The error of a product of complex numbers -/
theorem cmul_err (z w : ℚ × ℚ) : ‖toC (cmulF z w) - toC z * toC w‖ ≤ 4 / 2 ^ 53 * (‖toC z‖ * ‖toC w‖) := by
  have cs : ∀ a b c d : ℝ, |a * c| + |b * d| ≤ ‖(⟨a, b⟩ : ℂ)‖ * ‖(⟨c, d⟩ : ℂ)‖ := by
    intro a b c d
    rw [← norm_mul]
    have : ‖(⟨a, b⟩ : ℂ) * ⟨c, d⟩‖ = ‖(⟨|a|, |b|⟩ : ℂ) * ⟨|c|, -|d|⟩‖ := by
      rw [norm_mul, norm_mul]
      congr 1 <;> rw [Complex.norm_def, Complex.norm_def, Complex.normSq_mk, Complex.normSq_mk] <;> simp
    rw [this]
    refine le_trans ?_ (Complex.abs_re_le_norm _)
    refine le_trans (le_of_eq ?_) (le_abs_self _)
    simp [Complex.mul_re, abs_mul]
  have sw : ‖(⟨w.2, w.1⟩ : ℂ)‖ = ‖(⟨w.1, w.2⟩ : ℂ)‖ := by
    rw [Complex.norm_def, Complex.norm_def, Complex.normSq_mk, Complex.normSq_mk, add_comm]
  have c1 := cs z.1 (z.2) w.1 w.2
  have c2 := cs z.1 (z.2) w.2 w.1
  rw [sw] at c2
  have r := fl_two (z.1 * w.1) (-(z.2 * w.2)) (m := ‖toC z‖ * ‖toC w‖) (by push_cast; rw [abs_neg]; simpa [toC] using c1)
  have i := fl_two (z.1 * w.2) (z.2 * w.1) (m := ‖toC z‖ * ‖toC w‖) (by push_cast; simpa [toC] using c2)
  rw [Plane.fl_neg] at r
  push_cast at r i
  have e : toC (cmulF z w) - toC z * toC w = ⟨((fl (fl (z.1 * w.1) + -fl (z.2 * w.2)) : ℚ) : ℝ) - (z.1 * w.1 + -(z.2 * w.2)),
      ((fl (fl (z.1 * w.2) + fl (z.2 * w.1)) : ℚ) : ℝ) - (z.1 * w.2 + z.2 * w.1)⟩ := by
    apply Complex.ext <;> simp [toC, cmulF, sub_eq_add_neg]
  have m0 : 0 ≤ ‖toC z‖ * ‖toC w‖ := by positivity
  rw [e, Complex.norm_def, Complex.normSq_mk]
  apply Real.sqrt_le_iff.mpr
  refine ⟨by positivity, ?_⟩
  set m := ‖toC z‖ * ‖toC w‖
  rw [← abs_mul_abs_self, ← abs_mul_abs_self (_ - (_ + (z.2 : ℝ) * _))]
  have k1 := mul_self_le_mul_self (abs_nonneg _) r
  have k2 := mul_self_le_mul_self (abs_nonneg _) i
  nlinarith [sq_nonneg m]

/-- `z` is computed for `Z` with the relative error of `k` products. -/
def Pow (k : ℕ) (z : ℚ × ℚ) (Z : ℂ) : Prop := ‖toC z - Z‖ ≤ ((1 + 4 / 2 ^ 53) ^ k - 1) * ‖Z‖

theorem Pow.mul (h : Pow k z Z) (g : Pow l w V) : Pow (k + l + 1) (cmulF z w) (Z * V) := by
  unfold Pow at *
  have hz : ‖toC z‖ ≤ (1 + 4 / 2 ^ 53) ^ k * ‖Z‖ := by
    have := norm_add_le (toC z - Z) Z
    rw [sub_add_cancel] at this
    linarith
  have hw : ‖toC w‖ ≤ (1 + 4 / 2 ^ 53) ^ l * ‖V‖ := by
    have := norm_add_le (toC w - V) V
    rw [sub_add_cancel] at this
    linarith
  have t1 : ‖toC z * toC w - Z * V‖ ≤ ((1 + 4 / 2 ^ 53) ^ (k + l) - 1) * (‖Z‖ * ‖V‖) := by
    rw [show toC z * toC w - Z * V = (toC z - Z) * toC w + Z * (toC w - V) by ring]
    refine (norm_add_le _ _).trans ?_
    rw [norm_mul, norm_mul]
    have s1 := mul_le_mul h hw (norm_nonneg _) ((norm_nonneg _).trans h)
    have s2 := mul_le_mul_of_nonneg_left g (norm_nonneg Z)
    rw [pow_add]
    nlinarith
  have t2 := cmul_err z w
  have t3 := mul_le_mul hz hw (norm_nonneg _) (by positivity)
  have t4 := norm_add_le (toC (cmulF z w) - toC z * toC w) (toC z * toC w - Z * V)
  rw [sub_add_sub_cancel] at t4
  rw [norm_mul]
  have e : (1 + 4 / 2 ^ 53 : ℝ) ^ k * ‖Z‖ * ((1 + 4 / 2 ^ 53) ^ l * ‖V‖) = (1 + 4 / 2 ^ 53) ^ (k + l) * (‖Z‖ * ‖V‖) := by rw [pow_add]; ring
  rw [e] at t3
  have e2 : ((1 + 4 / 2 ^ 53 : ℝ) ^ (k + l + 1) - 1) * (‖Z‖ * ‖V‖) =
      4 / 2 ^ 53 * ((1 + 4 / 2 ^ 53) ^ (k + l) * (‖Z‖ * ‖V‖)) + ((1 + 4 / 2 ^ 53) ^ (k + l) - 1) * (‖Z‖ * ‖V‖) := by rw [pow_succ]; ring
  rw [e2]
  have t5 : (4 : ℝ) / 2 ^ 53 * (‖toC z‖ * ‖toC w‖) ≤ 4 / 2 ^ 53 * ((1 + 4 / 2 ^ 53) ^ (k + l) * (‖Z‖ * ‖V‖)) := by gcongr
  linarith

theorem Pow.loop (n : ℕ) : ∀ {k l : ℕ} {r p : ℚ × ℚ} {R P : ℂ}, Pow k r R → Pow l p P → Pow (k + n * (l + 1)) (powLoop r p n) (R * P ^ n) := by
  induction n using Nat.strong_induction_on with
  | _ n ih =>
    intro k l r p R P hr hp
    rw [powLoop]
    by_cases h0 : n = 0
    · subst h0; simpa using hr
    · rw [dif_neg h0]
      have hpp := hp.mul hp
      have hn : n = n % 2 + 2 * (n / 2) := (Nat.mod_add_div n 2).symm
      rcases Nat.mod_two_eq_zero_or_one n with e | e
      · rw [if_neg (by omega)]
        have := ih (n / 2) (by omega) hr hpp
        rw [show R * P ^ n = R * (P * P) ^ (n / 2) by rw [← pow_two, ← pow_mul]; congr 2; omega]
        refine (show k + n * (l + 1) = k + n / 2 * (l + l + 1 + 1) from ?_) ▸ this
        conv_lhs => rw [hn, e]
        ring
      · rw [if_pos e]
        have := ih (n / 2) (by omega) (hr.mul hp) hpp
        rw [show R * P ^ n = R * P * (P * P) ^ (n / 2) by
          rw [← pow_two, ← pow_mul, mul_assoc, ← pow_succ']; congr 2; omega]
        refine (show k + n * (l + 1) = k + l + 1 + n / 2 * (l + l + 1 + 1) from ?_) ▸ this
        conv_lhs => rw [hn, e]
        ring

/-- The error of a power of a complex number -/
theorem cpow_err (z : ℚ × ℚ) {n : ℕ} (hn : n ≤ 100) : ‖toC (cpow z n) - toC z ^ n‖ ≤ 1 / 2 ^ 43 * ‖toC z‖ ^ n := by
  have h1 : Pow 0 (1, 0) 1 := by
    unfold Pow
    rw [show toC (1, 0) = 1 by apply Complex.ext <;> simp [toC]]; simp
  have hz : Pow 0 z (toC z) := by unfold Pow; simp
  have := Pow.loop n h1 hz
  unfold Pow at this
  rw [zero_add, zero_add, mul_one, one_mul, norm_pow] at this
  refine this.trans (mul_le_mul_of_nonneg_right ?_ (by positivity))
  have : (1 + 4 / 2 ^ 53 : ℝ) ^ n ≤ (1 + 4 / 2 ^ 53) ^ 100 := pow_le_pow_right₀ (by norm_num) hn
  have : (1 + 4 / 2 ^ 53 : ℝ) ^ 100 ≤ 1 + 1 / 2 ^ 43 := by norm_num
  linarith

theorem ReC.cpow (z : ℚ × ℚ) {n : ℕ} (hn : n ≤ 100) : ReC (2 ^ 13) (cpow z n) (toC z ^ n) (‖toC z‖ ^ n) := by
  have h : ‖toC (Model.cpow z n) - toC z ^ n‖ ≤ ((2 ^ 13 : ℕ) : ℝ) * ‖toC z‖ ^ n / 2 ^ 53 := by
    refine (cpow_err z hn).trans ?_
    have : 0 ≤ ‖toC z‖ ^ n := by positivity
    push_cast
    linarith
  have hr := (Complex.abs_re_le_norm _).trans h
  have hi := (Complex.abs_im_le_norm _).trans h
  have hn' : ‖toC z ^ n‖ = ‖toC z‖ ^ n := norm_pow _ _
  exact ⟨⟨hr, (Complex.abs_re_le_norm _).trans hn'.le⟩, ⟨hi, (Complex.abs_im_le_norm _).trans hn'.le⟩⟩

/-- `w` comes from `z` by one step of a symmetric icon of a degree up to 101, with the term of `o` as the program has it (C155). -/
def iconNear (a b g o l : ℚ) (d : ℕ) (z w : ℚ × ℚ) : Prop := NearC 36 ((|(a : ℝ)| * ‖toC z‖ ^ 2 + |(l : ℝ)| + |(b : ℝ)| * (|(z.1 : ℝ)| + |(z.2 : ℝ)|) * ‖toC z‖ ^ (d - 1)) * (|(z.1 : ℝ)| + |(z.2 : ℝ)|)
        + |(g : ℝ)| * ‖toC z‖ ^ (d - 1) + |(o : ℝ)| * (|(z.1 : ℝ)| + |(z.2 : ℝ)|)) w
      ((a * ‖toC z‖ ^ 2 + l + b * (toC z ^ d).re : ℝ) * toC z + g * starRingEnd ℂ (toC z) ^ (d - 1) - o * starRingEnd ℂ (toC z) * Complex.I)

theorem icon_steps (L : Libm) (x y a b g o l : ℚ) {d : ℕ} (hd : 0 < d) (hd2 : d ≤ 101) (n : Nat) :
    Steps (fun _ => iconNear a b g o l d) (x, y) n (symmetriciconattractorlistF L x y a b g o l d n) := by
  apply trail_simple
  intro z
  have hx := Re.exact z.1
  have hy := Re.exact z.2
  have hS : ‖toC z‖ ^ 2 = |(z.1 : ℝ)| * |(z.1 : ℝ)| + |(z.2 : ℝ)| * |(z.2 : ℝ)| := by
    rw [← Complex.normSq_eq_norm_sq, toC, Complex.normSq_mk, abs_mul_abs_self, abs_mul_abs_self]
  have hz := ReC.exact z
  have hp := ReC.cpow z (n := d - 1) (by omega)
  have z1 := (((hx.mul hx (by norm_num)).fl (by norm_num)).sub ((hy.mul hy.neg (by norm_num)).fl (by norm_num))).fl (by norm_num)
  have z2 := ((((hx.mul hy.neg (by norm_num)).fl (by norm_num)).add ((hy.mul hx (by norm_num)).fl (by norm_num))).fl (by norm_num)).mag
    (N := |(z.1 : ℝ)| * |(z.1 : ℝ)| + |(z.2 : ℝ)| * |(z.2 : ℝ)|) (by nlinarith [sq_nonneg (|(z.1 : ℝ)| - |(z.2 : ℝ)|)])
  have hh := Re.hypot L z1 z2 (by
    rw [abs_mul_abs_self, abs_mul_abs_self]; ring) (by norm_num)
  have ha := (((Re.exact a).mul hh (by norm_num)).fl (by norm_num)).add (Re.exact l)
  have hb := ((Re.exact b).mul ((((hx.mul hp.1 (by norm_num)).fl (by norm_num)).sub ((hy.mul hp.2 (by norm_num)).fl (by norm_num))).fl (by norm_num)) (by norm_num)).fl (by norm_num)
  have hs := ((ha.fl (by norm_num)).add hb).fl (by norm_num)
  have hsz := (ReC.real hs).mul hz (by norm_num) (by norm_num)
  have hg := ((ReC.real (Re.exact g)).mul hp (by norm_num) (by norm_num)).conj
  have h01 : ReC 0 (0, 1) Complex.I 1 := by
    refine ⟨⟨by simp, by simp⟩, ⟨by simp, by simp⟩⟩
  have ho := ((ReC.real (Re.exact o)).mul hz.conj (by norm_num) (by norm_num)).mul h01 (by norm_num) (by norm_num)
  have h := (hsz.add hg (by norm_num)).sub ho (by norm_num)
  have hr : (toC z ^ d).re = (z.1 : ℝ) * (toC z ^ (d - 1)).re - z.2 * (toC z ^ (d - 1)).im := by
    obtain ⟨e, rfl⟩ : ∃ e, d = e + 1 := ⟨d - 1, by omega⟩
    rw [Nat.add_sub_cancel, pow_succ, Complex.mul_re]
    unfold toC; ring
  have h' := h.near (m := 38) (j := 15) (by norm_num) rfl
  have hZ : ((a * ‖toC z‖ ^ 2 + l + b * (toC z ^ d).re : ℝ) * toC z + g * starRingEnd ℂ (toC z) ^ (d - 1) - o * starRingEnd ℂ (toC z) * Complex.I) =
      ((((a : ℝ) * (|(z.1 : ℝ)| * |(z.1 : ℝ)| + |(z.2 : ℝ)| * |(z.2 : ℝ)|) + l + b * (z.1 * (toC z ^ (d - 1)).re - z.2 * (toC z ^ (d - 1)).im) : ℝ) : ℂ) * toC z +
        starRingEnd ℂ (((g : ℝ) : ℂ) * toC z ^ (d - 1)) - ((o : ℝ) : ℂ) * starRingEnd ℂ (toC z) * Complex.I) := by
    rw [hr, hS, map_mul, map_pow, Complex.conj_ofReal]
    simp only [Complex.ofReal_ratCast]
  unfold iconNear
  rw [hZ]
  have hP : 0 ≤ ‖toC z‖ ^ (d - 1) := by positivity
  have hle : 2 * ((|(a : ℝ)| * (|(z.1 : ℝ)| * |(z.1 : ℝ)| + |(z.2 : ℝ)| * |(z.2 : ℝ)|) + |(l : ℝ)| +
      |(b : ℝ)| * (|(z.1 : ℝ)| * ‖toC z‖ ^ (d - 1) + |(z.2 : ℝ)| * ‖toC z‖ ^ (d - 1))) * (|(z.1 : ℝ)| + |(z.2 : ℝ)|)) +
      2 * (|(g : ℝ)| * ‖toC z‖ ^ (d - 1)) + 2 * (2 * (|(o : ℝ)| * (|(z.1 : ℝ)| + |(z.2 : ℝ)|)) * 1) ≤
      4 * ((|(a : ℝ)| * ‖toC z‖ ^ 2 + |(l : ℝ)| + |(b : ℝ)| * (|(z.1 : ℝ)| + |(z.2 : ℝ)|) * ‖toC z‖ ^ (d - 1)) * (|(z.1 : ℝ)| + |(z.2 : ℝ)|)
        + |(g : ℝ)| * ‖toC z‖ ^ (d - 1) + |(o : ℝ)| * (|(z.1 : ℝ)| + |(z.2 : ℝ)|)) := by
    rw [hS]
    generalize ‖toC z‖ ^ (d - 1) = P at *
    have : 0 ≤ (|(a : ℝ)| * (|(z.1 : ℝ)| * |(z.1 : ℝ)| + |(z.2 : ℝ)| * |(z.2 : ℝ)|) + |(l : ℝ)| +
      |(b : ℝ)| * (|(z.1 : ℝ)| + |(z.2 : ℝ)|) * P) * (|(z.1 : ℝ)| + |(z.2 : ℝ)|) := by positivity
    have : 0 ≤ |(g : ℝ)| * P := by positivity
    linarith
  have fin : ∀ {q : ℚ} {Q A B : ℝ}, A ≤ 4 * B → Near 38 A q Q → Near 36 B q Q := by
    intro q Q A B hAB hq
    refine le_trans hq ?_
    rw [div_le_div_iff₀ (by positivity) (by positivity)]
    norm_num
    linarith
  exact ⟨fin hle h'.1, fin hle h'.2⟩

/-! ### Bounds -/

theorem fl_abs {q c : ℚ} (h : |q| ≤ c) : |Model.fl q| ≤ c * (1 + 1 / 2 ^ 53) := by
  have h1 := fl_err q
  have h2 := abs_add_le (Model.fl q - q) q
  rw [sub_add_cancel] at h2
  have : |q| / 2 ^ 53 ≤ c / 2 ^ 53 := by gcongr
  linarith

/-- C176: some attractors stay near the origin, also with floats. -/
theorem C176_bounded (L : Libm) (a b c d : ℚ) (n : Nat) :
    (∀ p ∈ peterdejongattractorlistF L a b c d n, |p.1| ≤ 2 ∧ |p.2| ≤ 2) ∧
    (∀ p ∈ cliffordattractorlistF L a b c d n, |p.1| ≤ (1 + |c|) * (1 + 1 / 2 ^ 51) ∧ |p.2| ≤ (1 + |d|) * (1 + 1 / 2 ^ 51)) ∧
    (∀ p ∈ fractaldreamattractorlistF L a b c d n, |p.1| ≤ (1 + |c|) * (1 + 1 / 2 ^ 51) ∧ |p.2| ≤ (1 + |d|) * (1 + 1 / 2 ^ 51)) ∧
    (∀ p ∈ nattractorlistF L a b c d n, |p.1| ≤ (|a| + |b|) * (1 + 1 / 2 ^ 51) ∧ |p.2| ≤ (|c| + |d|) * (1 + 1 / 2 ^ 51)) := by
  have run : ∀ (step : ℚ × ℚ → ℚ × ℚ) (s : ℚ × ℚ) (P : ℚ × ℚ → Prop), (∀ s, P (step s)) → ∀ p ∈ trail step n s, P p := by
    intro step s P hP
    induction n generalizing s with
    | zero => intro p hp; simp [trail] at hp
    | succ n ih =>
      intro p hp
      simp only [trail, List.mem_cons] at hp
      rcases hp with rfl | hp
      · exact hP s
      · exact ih _ p hp
  have two : ∀ {u v : ℚ}, |u| ≤ 1 → |v| ≤ 1 → |Model.fl (u - v)| ≤ 2 := by
    intro u v hu hv
    have h := abs_le.mp ((abs_sub u v).trans (add_le_add hu hv))
    have h2 : Model.fl ((2 : Int) : ℚ) = (2 : Int) := fl_int (by norm_num)
    have h3 : Model.fl ((-2 : Int) : ℚ) = (-2 : Int) := fl_int (by norm_num)
    have u1 := Plane.fl_le (q := ((2 : Int) : ℚ)) (p := u - v) (by push_cast; linarith)
    have u2 := Plane.fl_le (p := ((-2 : Int) : ℚ)) (q := u - v) (by push_cast; linarith)
    rw [h2] at u1
    rw [h3] at u2
    push_cast at u1 u2
    exact abs_le.mpr ⟨u2, u1⟩
  have prod : ∀ {c u : ℚ}, |u| ≤ 1 → |Model.fl (c * u)| ≤ |c| * (1 + 1 / 2 ^ 53) := by
    intro c u hu
    refine fl_abs ?_
    rw [abs_mul]
    have := mul_le_mul_of_nonneg_left hu (abs_nonneg c)
    linarith
  have one : ∀ {c u v : ℚ}, |u| ≤ 1 → |v| ≤ 1 → |Model.fl (u + Model.fl (c * v))| ≤ (1 + |c|) * (1 + 1 / 2 ^ 51) := by
    intro c u v hu hv
    have h := fl_abs ((abs_add_le u (Model.fl (c * v))).trans (add_le_add hu (prod hv)))
    have := abs_nonneg c
    linarith
  have both : ∀ {c d u v : ℚ}, |u| ≤ 1 → |v| ≤ 1 → |Model.fl (Model.fl (c * u) + Model.fl (d * v))| ≤ (|c| + |d|) * (1 + 1 / 2 ^ 51) := by
    intro c d u v hu hv
    have h := fl_abs ((abs_add_le (Model.fl (c * u)) (Model.fl (d * v))).trans (add_le_add (prod hu) (prod hv)))
    have := abs_nonneg c
    have := abs_nonneg d
    linarith
  exact ⟨run _ _ _ fun s => ⟨two (L.sin_le _) (L.cos_le _), two (L.sin_le _) (L.cos_le _)⟩,
    run _ _ _ fun s => ⟨one (L.sin_le _) (L.cos_le _), one (L.sin_le _) (L.cos_le _)⟩,
    run _ _ _ fun s => ⟨one (L.sin_le _) (L.sin_le _), one (L.sin_le _) (L.sin_le _)⟩,
    run _ _ _ fun s => ⟨both (L.sin_le _) (L.cos_le _), both (L.sin_le _) (L.cos_le _)⟩⟩

/-! ### Pictures -/

/-- `r` is the result of drawing the points `v`, not all in one row or column: an image that shows how often the bins are hit, with
the header and palette of a new image, or a division by zero if all bins are hit equally often. -/
def Pictured (v : List (ℚ × ℚ)) (W H bits : Nat) (r : Py Bytes) : Prop :=
  Depth bits → 2 ≤ W ∧ W < 2 ^ 24 → 2 ≤ H ∧ H < 2 ^ 24 → ∀ x1 x2 y1 y2 : ℚ,
    Least x1 (v.map Prod.fst) → Greatest x2 (v.map Prod.fst) → Least y1 (v.map Prod.snd) → Greatest y2 (v.map Prod.snd) →
    x1 < x2 → y1 < y2 →
    ∃ bx by', Binned v x1 x2 y1 y2 W H bx by' ∧
      ((∃ k, ∀ x < W, ∀ y < H, hits v bx by' x y = k) → r = .error .zeroDivision) ∧
      ((¬ ∃ k, ∀ x < W, ∀ y < H, hits v bx by' x y = k) → ∃ b0 b lo hi, newBMP W H bits = .ok b0 ∧ r = .ok b ∧
        Valid b W H bits ∧ SameHeader b0 b bits ∧ Density b W H bits (hits v bx by') lo hi)

/-- The function `save` writes the image `r` to the file, or fails with the exception of `r`. -/
def SavedAs (r : Py Bytes) (save : Files → String → Py Files) : Prop :=
  (∀ b, r = .ok b → ∀ fs file, ∃ fs', save fs file = .ok fs' ∧ Saved fs fs' file (· = b)) ∧
  ∀ e, r = .error e → ∀ fs file, save fs file = .error e

theorem pictured (v : List (ℚ × ℚ)) (W H bits : Nat) : Pictured v W H bits (plotattractor v W H bits) := by
  intro hd hW hH x1 x2 y1 y2 h1 h2 h3 h4 hx hy
  exact C156_picture hd hW hH h1 h2 h3 h4 hx hy

theorem saved (r : Py Bytes) : SavedAs r (fun fs file => (do
    let b ← r
    pure (writeFile fs file b))) := by
  constructor
  · rintro b rfl fs file
    exact ⟨_, rfl, Escape.write_saved fs file rfl⟩
  · rintro e rfl fs file
    rfl

/-- C176: the points of Peter de Jong's map, computed with floats, and their picture. -/
theorem C176_dejong (L : Libm) (a b c d : ℚ) (n W H bits : Nat) :
    ∃ v, Steps (fun _ => dejongNear a b c d) (0, 0) n v ∧ Pictured v W H bits (peterdejongattractor L W H bits a b c d n) ∧
      SavedAs (peterdejongattractor L W H bits a b c d n) fun fs file => savepeterdejongattractor2file L fs file W H bits a b c d n :=
  ⟨_, dejong_steps L a b c d n, pictured _ W H bits, saved _⟩

/-- C176: the points of Clifford Pickover's map, computed with floats, and their picture. -/
theorem C176_clifford (L : Libm) (a b c d : ℚ) (n W H bits : Nat) :
    ∃ v, Steps (fun _ => cliffordNear a b c d) (0, 0) n v ∧ Pictured v W H bits (cliffordattractor L W H bits a b c d n) ∧
      SavedAs (cliffordattractor L W H bits a b c d n) fun fs file => savecliffordattractor2file L fs file W H bits a b c d n :=
  ⟨_, clifford_steps L a b c d n, pictured _ W H bits, saved _⟩

/-- C176: the points of the fractal dream map, computed with floats, and their picture. -/
theorem C176_dream (L : Libm) (a b c d : ℚ) (n W H bits : Nat) :
    ∃ v, Steps (fun _ => dreamNear a b c d) ((Model.fl (1 / 10), Model.fl (1 / 10)) : ℚ × ℚ) n v ∧ Pictured v W H bits (fractaldreamattractor L W H bits a b c d n) ∧
      SavedAs (fractaldreamattractor L W H bits a b c d n) fun fs file => savefractaldreamattractor2file L fs file W H bits a b c d n :=
  ⟨_, dream_steps L a b c d n, pictured _ W H bits, saved _⟩

/-- C176: the points of the n attractor, computed with floats, and their picture. -/
theorem C176_nattractor (L : Libm) (a b c d : ℚ) (n W H bits : Nat) :
    ∃ v, Steps (fun _ => nNear a b c d) (0, 0) n v ∧ Pictured v W H bits (nattractor L W H bits a b c d n) ∧
      SavedAs (nattractor L W H bits a b c d n) fun fs file => savenattractor2file L fs file W H bits a b c d n :=
  ⟨_, n_steps L a b c d n, pictured _ W H bits, saved _⟩

/-- C176: the points of the Gumowski-Mira map, computed with floats, and their picture. -/
theorem C176_gumowskimira (L : Libm) (x y a b : ℚ) (n W H bits : Nat) :
    ∃ v, Steps (fun _ => gmNear a b) (x, y) n v ∧ Pictured v W H bits (gumowskimiraattractor L W H bits x y a b n) ∧
      SavedAs (gumowskimiraattractor L W H bits x y a b n) fun fs file => savegumowskimiraattractor2file L fs file W H bits x y a b n :=
  ⟨_, gm_steps L x y a b n, pictured _ W H bits, saved _⟩

/-- C176: the points of Barry Martin's map, computed with floats, and their picture. -/
theorem C176_hopalong (L : Libm) (a b c : ℚ) (n W H bits : Nat) :
    ∃ v, Steps (fun _ => hopNear a b c) (0, 0) n v ∧ Pictured v W H bits (hopalongattractor L W H bits a b c n) ∧
      SavedAs (hopalongattractor L W H bits a b c n) fun fs file => savehopalongattractor2file L fs file W H bits a b c n :=
  ⟨_, hop_steps L a b c n, pictured _ W H bits, saved _⟩

/-- C176: the points of Duffing's equation, in steps of the length `dt`, computed with floats, and their picture. -/
theorem C176_duffing (L : Libm) (dt a b w : ℚ) (n W H bits : Nat) :
    ∃ v, Steps (duffingNear dt a b w) (0, 0) n v ∧ Pictured v W H bits (duffingattractor L W H bits a b w dt n) ∧
      SavedAs (duffingattractor L W H bits a b w dt n) fun fs file => saveduffingattractor2file L fs file W H bits a b w dt n :=
  ⟨_, duffing_steps L dt a b w, pictured _ W H bits, saved _⟩

/-- C176: the points of Ikeda's map, computed with floats, and their picture. -/
theorem C176_ikeda (L : Libm) (a b k p : ℚ) (n W H bits : Nat) :
    ∃ v, Steps (fun _ => ikedaNear a b k p) (0, 0) n v ∧ Pictured v W H bits (ikedaattractor L W H bits a b k p n) ∧
      SavedAs (ikedaattractor L W H bits a b k p n) fun fs file => saveikedaattractor2file L fs file W H bits a b k p n :=
  ⟨_, ikeda_steps L a b k p n, pictured _ W H bits, saved _⟩

/-- C176: the points of a symmetric icon of a degree up to 101, with the term of `o` as the program
has it (C155), computed with floats, and their picture. -/
theorem C176_icon (L : Libm) (x y a b g o l : ℚ) {d : ℕ} (hd : 0 < d) (hd2 : d ≤ 101) (n W H bits : Nat) :
    ∃ v, Steps (fun _ => iconNear a b g o l d) (x, y) n v ∧ Pictured v W H bits (symmetriciconattractor L W H bits x y a b g o l d n) ∧
      SavedAs (symmetriciconattractor L W H bits x y a b g o l d n) fun fs file => savesymmetriciconattractor2file L fs file W H bits x y a b g o l d n :=
  ⟨_, icon_steps L x y a b g o l hd hd2 n, pictured _ W H bits, saved _⟩

/-- C176: more points do not move the earlier ones. -/
theorem C176_prefix (L : Libm) (a b c d : ℚ) {n m : Nat} (h : n ≤ m) :
    (peterdejongattractorlistF L a b c d m).take n = peterdejongattractorlistF L a b c d n ∧
    (cliffordattractorlistF L a b c d m).take n = cliffordattractorlistF L a b c d n ∧
    (fractaldreamattractorlistF L a b c d m).take n = fractaldreamattractorlistF L a b c d n ∧
    (nattractorlistF L a b c d m).take n = nattractorlistF L a b c d n ∧
    (ikedaattractorlistF L a b c d m).take n = ikedaattractorlistF L a b c d n ∧
    (hopalongattractorlistF L a b c m).take n = hopalongattractorlistF L a b c n ∧
    (gumowskimiraattractorlistF L a b c d m).take n = gumowskimiraattractorlistF L a b c d n := by
  have key : ∀ {α : Type} (step : α → α) (s : α), (trail step m s).take n = trail step n s := by
    intro α step s
    apply List.ext_getElem?
    intro i
    rw [List.getElem?_take, trail_get, trail_get]
    split_ifs <;> first | rfl | omega
  refine ⟨key _ _, key _ _, key _ _, key _ _, key _ _, key _ _, ?_⟩
  unfold gumowskimiraattractorlistF
  rw [← List.map_take, key]

/-! ### A library as it is required -/

/-- A rational number near a given one. -/
theorem rat_near (r : ℝ) (h : 0 ≤ r) : ∃ q : ℚ, |(q : ℝ) - r| ≤ r / 2 ^ 52 := by
  rcases h.eq_or_lt with rfl | h
  · exact ⟨0, by simp⟩
  · obtain ⟨q, h1, h2⟩ := exists_rat_btwn (show r - r / 2 ^ 52 < r by linarith [show 0 < r / 2 ^ 52 by positivity])
    exact ⟨q, by rw [abs_le]; constructor <;> linarith [show 0 < r / 2 ^ 52 by positivity]⟩

/-- A rational number near a given one between -1 and 1. -/
noncomputable def cut (r : ℝ) : ℚ := (⌊r * 2 ^ 60⌋ : ℚ) / 2 ^ 60

theorem cut_err (r : ℝ) : |((cut r : ℚ) : ℝ) - r| ≤ 1 / 2 ^ 52 := by
  have h1 := Int.floor_le (r * 2 ^ 60)
  have h2 := Int.lt_floor_add_one (r * 2 ^ 60)
  unfold cut
  push_cast
  rw [show (⌊r * 2 ^ 60⌋ : ℝ) / 2 ^ 60 - r = ((⌊r * 2 ^ 60⌋ : ℝ) - r * 2 ^ 60) / 2 ^ 60 by field_simp, abs_div, abs_of_pos (by positivity : (0 : ℝ) < 2 ^ 60),
    div_le_div_iff₀ (by positivity) (by positivity)]
  rw [abs_of_nonpos (by linarith)]
  nlinarith

theorem cut_le {r : ℝ} (h : |r| ≤ 1) : |cut r| ≤ 1 := by
  obtain ⟨h1, h2⟩ := abs_le.mp h
  have f1 : ⌊r * 2 ^ 60⌋ ≤ 2 ^ 60 := by
    have : (⌊r * 2 ^ 60⌋ : ℝ) ≤ ((2 ^ 60 : Int) : ℝ) := (Int.floor_le _).trans (by push_cast; nlinarith)
    exact_mod_cast this
  have f2 : -2 ^ 60 ≤ ⌊r * 2 ^ 60⌋ := by
    rw [Int.le_floor]; push_cast; nlinarith
  have f1 : (⌊r * 2 ^ 60⌋ : ℚ) ≤ 2 ^ 60 := by exact_mod_cast f1
  have f2 : -2 ^ 60 ≤ (⌊r * 2 ^ 60⌋ : ℚ) := by exact_mod_cast f2
  unfold cut
  rw [abs_le, le_div_iff₀ (by positivity), div_le_iff₀ (by positivity)]
  constructor <;> linarith

/-- There are libraries of the required quality. -/
noncomputable def libm : Libm where
  sin x := cut (Real.sin x)
  sin_err x := cut_err _
  sin_le x := cut_le (Real.abs_sin_le_one _)
  cos x := cut (Real.cos x)
  cos_err x := cut_err _
  cos_le x := cut_le (Real.abs_cos_le_one _)
  hypot x y := (rat_near _ (Real.sqrt_nonneg ((x : ℝ) ^ 2 + (y : ℝ) ^ 2))).choose
  hypot_err x y := (rat_near _ (Real.sqrt_nonneg ((x : ℝ) ^ 2 + (y : ℝ) ^ 2))).choose_spec
  sqrt x := (rat_near _ (Real.sqrt_nonneg (x : ℝ))).choose
  sqrt_err x := (rat_near _ (Real.sqrt_nonneg (x : ℝ))).choose_spec
  cube x := x ^ 3
  cube_err x := by rw [sub_self, abs_zero]; positivity
  invsq x := (x ^ 2)⁻¹
  invsq_err x := by rw [sub_self, abs_zero]; positivity

/-! ### A picture -/

/-- Three points of Barry Martin's map on three corners of a square: with every library the picture with two colours has three
white pixels. -/
theorem hop_square (L : Libm) : hopalongattractorlistF L 1 0 0 3 = [(0, 1), (1, 1), (1, 0)] := by
  have h0 : L.sqrt 0 = 0 := by
    have := L.sqrt_err 0
    simp only [Rat.cast_zero, Real.sqrt_zero, zero_div, sub_zero] at this
    exact_mod_cast abs_nonpos_iff.mp this
  have f0 : Model.fl 0 = 0 := fl_zero
  have f1 : Model.fl 1 = 1 := by simpa using fl_int (k := 1) (by norm_num)
  simp [hopalongattractorlistF, trail, h0, f0, f1, signQ]

example (L : Libm) : ((hopalongattractor L 2 2 1 1 0 0 3).map fun b =>
    (pix b 2 2 1 0 0, pix b 2 2 1 1 0, pix b 2 2 1 0 1, pix b 2 2 1 1 1)).toOption = some (0, 1, 1, 1) := by
  unfold hopalongattractor
  rw [hop_square]
  decide +kernel

end Verif.Props.FloatAttract
