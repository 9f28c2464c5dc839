import Verif.Model.Misc
import Verif.Props.Escape
import Verif.Props.FractalFiles
import Mathlib.Algebra.Polynomial.Splits
import Mathlib.Analysis.Complex.Polynomial.Basic
import Mathlib.Analysis.Calculus.Deriv.Polynomial
/-! Property C168: Newton's method with the functions of `funcparamdict`. -/

namespace Verif.Props.Newton
open Verif Spec Model Props Props.Escape Polynomial

/-! ### The table -/

/-- A polynomial with leading coefficient 1, as a function, and its derivative. -/
def Pair (n : Nat) (f g : ℂ → ℂ) : Prop := ∃ P : ℂ[X], P.Monic ∧ P.natDegree = n ∧ (∀ z, f z = P.eval z) ∧ ∀ z, g z = P.derivative.eval z

theorem pair_of {n : Nat} {f g : ℂ → ℂ} (Q : ℂ[X]) (hQ : Q.natDegree < n) (hf : ∀ z, f z = z ^ n + Q.eval z) (hg : ∀ z, g z = n * z ^ (n - 1) + Q.derivative.eval z) :
    Pair n f g := by
  have hdeg : Q.degree < n := lt_of_le_of_lt degree_le_natDegree (by exact_mod_cast hQ)
  refine ⟨X ^ n + Q, monic_X_pow_add hdeg, ?_, ?_, ?_⟩
  · rw [add_comm]
    exact natDegree_add_eq_right_of_natDegree_lt (by rwa [natDegree_X_pow]) |>.trans (natDegree_X_pow n)
  · intro z; simp [hf]
  · intro z; rw [derivative_add, derivative_X_pow]; simp [hg]

/-- C168: the dictionary has eight entries with different keys; each is a polynomial with leading coefficient 1, whose degree is the whole part of the key,
and its derivative. -/
theorem C168_table : (funcparamdict.map (·.1)).Nodup ∧ ∀ e ∈ funcparamdict, Pair ⌊e.1⌋.toNat e.2.1 e.2.2 ∧ ∀ z, HasDerivAt e.2.1 (e.2.2 z) z := by
  constructor
  · unfold funcparamdict
    simp only [List.map_cons, List.map_nil]
    norm_num
  · have hd : ∀ {n : Nat} {f g : ℂ → ℂ}, Pair n f g → ∀ z, HasDerivAt f (g z) z := by
      rintro n f g ⟨P, _, _, hf, hg⟩ z
      have : f = fun z => P.eval z := funext hf
      rw [this, hg]
      exact P.hasDerivAt z
    intro e he
    suffices hp : Pair ⌊e.1⌋.toNat e.2.1 e.2.2 from ⟨hp, hd hp⟩
    unfold funcparamdict at he
    simp only [List.mem_cons, List.not_mem_nil, or_false] at he
    rcases he with rfl | rfl | rfl | rfl | rfl | rfl | rfl | rfl
    · change Pair ⌊(3 : ℚ)⌋.toNat _ _
      rw [show ⌊(3 : ℚ)⌋.toNat = 3 by rw [show ⌊(3 : ℚ)⌋ = 3 by norm_num [Int.floor_eq_iff]]; rfl]
      exact pair_of (n := 3) (-1) (by simp) (fun z => by simp; ring) (fun z => by simp; ring)
    · change Pair ⌊(4 : ℚ)⌋.toNat _ _
      rw [show ⌊(4 : ℚ)⌋.toNat = 4 by rw [show ⌊(4 : ℚ)⌋ = 4 by norm_num [Int.floor_eq_iff]]; rfl]
      exact pair_of (n := 4) (-1) (by simp) (fun z => by simp; ring) (fun z => by simp; ring)
    · change Pair ⌊(4.1 : ℚ)⌋.toNat _ _
      rw [show ⌊(4.1 : ℚ)⌋.toNat = 4 by rw [show ⌊(4.1 : ℚ)⌋ = 4 by norm_num [Int.floor_eq_iff]]; rfl]
      exact pair_of (n := 4) (-X) (by simp) (fun z => by simp; ring) (fun z => by simp; ring)
    · change Pair ⌊(5 : ℚ)⌋.toNat _ _
      rw [show ⌊(5 : ℚ)⌋.toNat = 5 by rw [show ⌊(5 : ℚ)⌋ = 5 by norm_num [Int.floor_eq_iff]]; rfl]
      exact pair_of (n := 5) (-1) (by simp) (fun z => by simp; ring) (fun z => by simp; ring)
    · change Pair ⌊(5.1 : ℚ)⌋.toNat _ _
      rw [show ⌊(5.1 : ℚ)⌋.toNat = 5 by rw [show ⌊(5.1 : ℚ)⌋ = 5 by norm_num [Int.floor_eq_iff]]; rfl]
      exact pair_of (n := 5) (-X) (by simp) (fun z => by simp; ring) (fun z => by simp; ring)
    · change Pair ⌊(5.3 : ℚ)⌋.toNat _ _
      rw [show ⌊(5.3 : ℚ)⌋.toNat = 5 by rw [show ⌊(5.3 : ℚ)⌋ = 5 by norm_num [Int.floor_eq_iff]]; rfl]
      exact pair_of (n := 5) (-X ^ 3) (by simp) (fun z => by simp; ring) (fun z => by simp; ring)
    · change Pair ⌊(6 : ℚ)⌋.toNat _ _
      rw [show ⌊(6 : ℚ)⌋.toNat = 6 by rw [show ⌊(6 : ℚ)⌋ = 6 by norm_num [Int.floor_eq_iff]]; rfl]
      exact pair_of (n := 6) (-1) (by simp) (fun z => by simp; ring) (fun z => by simp; ring)
    · change Pair ⌊(6.3 : ℚ)⌋.toNat _ _
      rw [show ⌊(6.3 : ℚ)⌋.toNat = 6 by rw [show ⌊(6.3 : ℚ)⌋ = 6 by norm_num [Int.floor_eq_iff]]; rfl]
      exact pair_of (n := 6) (-X ^ 3 - 1) (by compute_degree!) (fun z => by simp; ring) (fun z => by simp; ring)

/-- Where the quotient of Newton's method is small, a root is near. -/
theorem near_root {P : ℂ[X]} {z : ℂ} (h' : P.derivative.eval z ≠ 0) {ε : ℝ} (h : ‖P.eval z / P.derivative.eval z‖ < ε) :
    ∃ w, P.eval w = 0 ∧ ‖z - w‖ < P.natDegree * ε := by
  have hε : 0 < ε := lt_of_le_of_lt (norm_nonneg _) h
  have hn : 0 < P.natDegree := by
    rcases Nat.eq_zero_or_pos P.natDegree with h0 | h0
    · rw [derivative_of_natDegree_zero h0] at h'
      simp at h'
    · exact h0
  have hn' : (0 : ℝ) < P.natDegree := by exact_mod_cast hn
  by_cases hz : P.eval z = 0
  · exact ⟨z, hz, by rw [sub_self, norm_zero]; positivity⟩
  · by_contra hc
    push Not at hc
    have hs := (IsAlgClosed.splits P).eval_derivative_div_eval_of_ne_zero hz
    have hb : ‖(P.roots.map fun w => 1 / (z - w)).sum‖ ≤ P.natDegree * (1 / (P.natDegree * ε)) := by
      refine (norm_multiset_sum_le _).trans ?_
      rw [Multiset.map_map]
      have h1 : ∀ x ∈ (P.roots.map (norm ∘ fun w => 1 / (z - w))), x ≤ 1 / (P.natDegree * ε) := by
        intro x hx
        rw [Multiset.mem_map] at hx
        obtain ⟨w, hw, rfl⟩ := hx
        have hr := hc w (isRoot_of_mem_roots hw)
        rw [Function.comp_apply, norm_div, norm_one]
        exact one_div_le_one_div_of_le (by positivity) hr
      refine (Multiset.sum_le_card_nsmul _ _ h1).trans ?_
      rw [Multiset.card_map, nsmul_eq_mul]
      exact mul_le_mul_of_nonneg_right (by exact_mod_cast card_roots' P) (by positivity)
    rw [← hs] at hb
    have e : (P.natDegree : ℝ) * (1 / (P.natDegree * ε)) = 1 / ε := by field_simp
    rw [e, norm_div, div_le_div_iff₀ (norm_pos_iff.mpr hz) hε] at hb
    rw [norm_div, div_lt_iff₀ (norm_pos_iff.mpr h')] at h
    linarith

/-! ### Distances of roots -/

/-- Different roots are at least 1/10 apart. -/
def Sep (f : ℂ → ℂ) : Prop := ∀ w w', f w = 0 → f w' = 0 → w ≠ w' → 1 / 10 ≤ ‖w - w'‖

theorem unity {q : ℂ} {n : Nat} (hn : 0 < n) (h : q ^ n = 1) (hq : q ≠ 1) : 1 / n ≤ ‖q - 1‖ := by
  have hq1 : ‖q‖ = 1 := by
    have : ‖q‖ ^ n = 1 := by rw [← norm_pow, h, norm_one]
    exact (pow_eq_one_iff_of_nonneg (norm_nonneg _) hn.ne').mp this
  have hi : ∀ i ∈ Finset.range n, ‖q ^ i - 1‖ ≤ n * ‖q - 1‖ := by
    intro i hi
    have : ∀ i : Nat, ‖q ^ i - 1‖ ≤ i * ‖q - 1‖ := by
      intro i
      induction i with
      | zero => simp
      | succ i ih =>
        have : q ^ (i + 1) - 1 = q * (q ^ i - 1) + (q - 1) := by ring
        rw [this]
        refine (norm_add_le _ _).trans ?_
        rw [norm_mul, hq1, one_mul]
        push_cast
        linarith
    refine (this i).trans ?_
    exact mul_le_mul_of_nonneg_right (by exact_mod_cast (Finset.mem_range.mp hi).le) (norm_nonneg _)
  have hs : ∑ i ∈ Finset.range n, (q ^ i - 1) = -n := by
    rw [Finset.sum_sub_distrib]
    have := geom_sum_mul q n
    rw [h, sub_self] at this
    rcases mul_eq_zero.mp this with h0 | h0
    · rw [h0]; simp
    · exact absurd (sub_eq_zero.mp h0) hq
  have h1 := norm_sum_le_of_le (Finset.range n) hi
  rw [hs, norm_neg, Complex.norm_natCast, Finset.sum_const, Finset.card_range, nsmul_eq_mul] at h1
  have hn' : (0 : ℝ) < n := by exact_mod_cast hn
  rw [div_le_iff₀ hn']
  have : (n : ℝ) * 1 ≤ n * (n * ‖q - 1‖) := by linarith
  have := le_of_mul_le_mul_left this hn'
  linarith

theorem same_power {w w' : ℂ} {n : Nat} (hn : 0 < n) (h0 : w ≠ 0) (h : w' ^ n = w ^ n) (hne : w ≠ w') : ‖w‖ / n ≤ ‖w - w'‖ := by
  have hq : (w' / w) ^ n = 1 := by rw [div_pow, h, div_self (pow_ne_zero _ h0)]
  have h1 := unity hn hq (fun e => hne (by rw [div_eq_one_iff_eq h0] at e; exact e.symm))
  have e : w - w' = -(w * (w' / w - 1)) := by field_simp; ring
  rw [e, norm_neg, norm_mul, div_eq_mul_one_div]
  exact mul_le_mul_of_nonneg_left h1 (norm_nonneg _)

theorem unit_sep {w w' : ℂ} {n : Nat} (hn : 0 < n) (hn6 : n ≤ 6) (h : w ^ n = 1) (h' : w' ^ n = 1) (hne : w ≠ w') : 1 / 10 ≤ ‖w - w'‖ := by
  have hw : ‖w‖ = 1 := by
    have : ‖w‖ ^ n = 1 := by rw [← norm_pow, h, norm_one]
    exact (pow_eq_one_iff_of_nonneg (norm_nonneg _) hn.ne').mp this
  have := same_power hn (fun e => by rw [e, norm_zero] at hw; norm_num at hw) (by rw [h, h']) hne
  rw [hw] at this
  refine le_trans ?_ this
  have hn' : (0 : ℝ) < n := by exact_mod_cast hn
  have : (n : ℝ) ≤ 6 := by exact_mod_cast hn6
  rw [div_le_div_iff₀ (by norm_num) hn']
  linarith

theorem zero_sep {w w' : ℂ} {n : Nat} (hn : 0 < n) (h : w = 0) (h' : w' ^ n = 1) : 1 / 10 ≤ ‖w - w'‖ := by
  have hw : ‖w'‖ = 1 := by
    have : ‖w'‖ ^ n = 1 := by rw [← norm_pow, h', norm_one]
    exact (pow_eq_one_iff_of_nonneg (norm_nonneg _) hn.ne').mp this
  rw [h, zero_sub, norm_neg, hw]
  norm_num

theorem mixed_sep {f : ℂ → ℂ} {n : Nat} (hn : 0 < n) (hn6 : n ≤ 6) (hf : ∀ w, f w = 0 → w = 0 ∨ w ^ n = 1) : Sep f := by
  intro w w' h h' hne
  rcases hf w h with a | a <;> rcases hf w' h' with c | c
  · exact absurd (a.trans c.symm) hne
  · exact zero_sep hn a c
  · rw [norm_sub_rev]; exact zero_sep hn c a
  · exact unit_sep hn hn6 a c hne

theorem golden_sep {f : ℂ → ℂ} (hf : ∀ w, f w = 0 → (w ^ 3) ^ 2 = w ^ 3 + 1) : Sep f := by
  have hb : ∀ w : ℂ, (w ^ 3) ^ 2 = w ^ 3 + 1 → 4 / 5 ≤ ‖w‖ ∧ ‖w‖ ≤ 6 / 5 := by
    intro w h
    have h1 : ‖w ^ 3‖ ^ 2 ≤ ‖w ^ 3‖ + 1 := by
      rw [← norm_pow, h]
      exact (norm_add_le _ _).trans (by rw [norm_one])
    have h2 : 1 ≤ ‖w ^ 3‖ ^ 2 + ‖w ^ 3‖ := by
      have : (1 : ℂ) = (w ^ 3) ^ 2 - w ^ 3 := by rw [h]; ring
      calc (1 : ℝ) = ‖(1 : ℂ)‖ := norm_one.symm
        _ = ‖(w ^ 3) ^ 2 - w ^ 3‖ := by rw [← this]
        _ ≤ ‖(w ^ 3) ^ 2‖ + ‖w ^ 3‖ := norm_sub_le _ _
        _ = _ := by rw [norm_pow]
    rw [norm_pow] at h1 h2
    have h0 : 0 ≤ ‖w‖ := norm_nonneg _
    generalize ‖w‖ = a at *
    have h3 : 0 ≤ a ^ 3 := by positivity
    constructor
    · by_contra hc
      push Not at hc
      have : a ^ 3 ≤ (4 / 5) ^ 3 := pow_le_pow_left₀ h0 hc.le 3
      nlinarith
    · by_contra hc
      push Not at hc
      have : (6 / 5 : ℝ) ^ 3 ≤ a ^ 3 := pow_le_pow_left₀ (by norm_num) hc.le 3
      nlinarith
  intro w w' h h' hne
  have e := hf w h
  have e' := hf w' h'
  obtain ⟨l, u⟩ := hb w e
  obtain ⟨l', u'⟩ := hb w' e'
  by_cases hu : w' ^ 3 = w ^ 3
  · have h0 : w ≠ 0 := fun h => by rw [h, norm_zero] at l; norm_num at l
    have := same_power (by norm_num) h0 hu hne
    push_cast at this
    linarith
  · have hsum : w ^ 3 + w' ^ 3 = 1 := by
      have : (w' ^ 3 - w ^ 3) * (w ^ 3 + w' ^ 3 - 1) = 0 := by linear_combination e' - e
      rcases mul_eq_zero.mp this with h0 | h0
      · exact absurd (sub_eq_zero.mp h0) hu
      · linear_combination h0
    have hsq : (w ^ 3 - w' ^ 3) ^ 2 = 5 := by
      have : w' ^ 3 = 1 - w ^ 3 := by linear_combination hsum
      rw [this]
      linear_combination 4 * e
    have hn : ‖w ^ 3 - w' ^ 3‖ ^ 2 = 5 := by
      rw [← norm_pow, hsq]
      simp
    have hfac : w ^ 3 - w' ^ 3 = (w - w') * (w ^ 2 + w * w' + w' ^ 2) := by ring
    have hq : ‖w ^ 2 + w * w' + w' ^ 2‖ ≤ 3 * (6 / 5) ^ 2 := by
      refine (norm_add₃_le).trans ?_
      rw [norm_pow, norm_mul, norm_pow]
      have a0 := norm_nonneg w
      have b0 := norm_nonneg w'
      nlinarith
    have h2 : 2 ≤ ‖w ^ 3 - w' ^ 3‖ := by
      by_contra hc
      push Not at hc
      have := norm_nonneg (w ^ 3 - w' ^ 3)
      nlinarith
    rw [hfac, norm_mul] at h2
    have d0 := norm_nonneg (w - w')
    nlinarith

theorem table_sep : ∀ e ∈ funcparamdict, Sep e.2.1 := by
  intro e he
  unfold funcparamdict at he
  simp only [List.mem_cons, List.not_mem_nil, or_false] at he
  rcases he with rfl | rfl | rfl | rfl | rfl | rfl | rfl | rfl
  · exact mixed_sep (n := 3) (by norm_num) (by norm_num) fun w h => .inr (by dsimp only at h; linear_combination h)
  · exact mixed_sep (n := 4) (by norm_num) (by norm_num) fun w h => .inr (by dsimp only at h; linear_combination h)
  · refine mixed_sep (n := 3) (by norm_num) (by norm_num) fun w h => ?_
    have : w * (w ^ 3 - 1) = 0 := by dsimp only at h; linear_combination h
    exact (mul_eq_zero.mp this).imp id fun h => by linear_combination h
  · exact mixed_sep (n := 5) (by norm_num) (by norm_num) fun w h => .inr (by dsimp only at h; linear_combination h)
  · refine mixed_sep (n := 4) (by norm_num) (by norm_num) fun w h => ?_
    have : w * (w ^ 4 - 1) = 0 := by dsimp only at h; linear_combination h
    exact (mul_eq_zero.mp this).imp id fun h => by linear_combination h
  · refine mixed_sep (n := 2) (by norm_num) (by norm_num) fun w h => ?_
    have : w ^ 3 * (w ^ 2 - 1) = 0 := by dsimp only at h; linear_combination h
    exact (mul_eq_zero.mp this).imp (pow_eq_zero_iff (by norm_num)).mp fun h => by linear_combination h
  · exact mixed_sep (n := 6) (by norm_num) (by norm_num) fun w h => .inr (by dsimp only at h; linear_combination h)
  · exact golden_sep fun w h => by dsimp only at h; linear_combination h

/-! ### Pictures -/

/-- Newton's method for `f` with derivative `g` from `z` stops after `c` steps, fewer than `m`, because the quotient is small, near the root `w`. -/
def Leads (f g : ℂ → ℂ) (m : Nat) (z w : ℂ) (c : Nat) : Prop :=
  ∃ s : Nat → ℂ, s 0 = z ∧ (∀ i, s (i + 1) = s i - f (s i) / g (s i)) ∧ c < m ∧ (∀ i ≤ c, g (s i) ≠ 0) ∧
    (∀ i < c, 1 / 10 ^ 8 ≤ ‖f (s i) / g (s i)‖) ∧ ‖f (s c) / g (s c)‖ < 1 / 10 ^ 8 ∧ f w = 0 ∧ ‖s c - w‖ < 6 / 10 ^ 8

open Classical in
theorem newtonFrom_iff (f g : ℂ → ℂ) : ∀ (fuel i : Nat) (x z : ℂ) (n : Nat),
    newtonFrom (fun x => if g x ≠ 0 then some (f x / g x) else none) (fun x dx => x - dx) (fun dx => decide (‖dx‖ < 1 / 10 ^ 8)) fuel i x = some (z, n) ↔
      ∃ c < fuel, n = i + c ∧ z = (fun x => x - f x / g x)^[c] x ∧ (∀ k ≤ c, g ((fun x => x - f x / g x)^[k] x) ≠ 0) ∧
        (∀ k < c, 1 / 10 ^ 8 ≤ ‖f ((fun x => x - f x / g x)^[k] x) / g ((fun x => x - f x / g x)^[k] x)‖) ∧
        ‖f ((fun x => x - f x / g x)^[c] x) / g ((fun x => x - f x / g x)^[c] x)‖ < 1 / 10 ^ 8
  | 0, i, x, z, n => by simp [newtonFrom]
  | fuel + 1, i, x, z, n => by
    unfold newtonFrom
    by_cases hg : g x = 0
    · simp only [hg, ne_eq, not_true_eq_false, if_false]
      constructor
      · intro h; exact absurd h (by simp)
      · rintro ⟨c, _, _, _, h, _⟩
        exact absurd hg (h 0 (by omega))
    · simp only [hg, ne_eq, not_false_eq_true, if_true, decide_eq_true_eq]
      split_ifs with hs
      · simp only [Option.some.injEq, Prod.mk.injEq]
        constructor
        · rintro ⟨rfl, rfl⟩
          exact ⟨0, by omega, rfl, rfl, fun k hk => by obtain rfl : k = 0 := by omega
                                                       exact hg, fun k hk => by omega, hs⟩
        · rintro ⟨c, hc, rfl, rfl, h1, h2, h3⟩
          have : c = 0 := by
            by_contra h0
            exact absurd (h2 0 (by omega)) (not_le.mpr hs)
          subst this
          exact ⟨rfl, rfl⟩
      · have ih := newtonFrom_iff f g fuel (i + 1) (x - f x / g x) z n
        rw [show (fun x => if ¬g x = 0 then some (f x / g x) else none) = (fun x => if g x ≠ 0 then some (f x / g x) else none) from rfl, ih]
        constructor
        · rintro ⟨c, hc, rfl, rfl, h1, h2, h3⟩
          refine ⟨c + 1, by omega, by omega, rfl, ?_, ?_, h3⟩
          · intro k hk
            cases k with
            | zero => exact hg
            | succ k => exact h1 k (by omega)
          · intro k hk
            cases k with
            | zero => exact not_lt.mp hs
            | succ k => exact h2 k (by omega)
        · rintro ⟨c, hc, rfl, rfl, h1, h2, h3⟩
          cases c with
          | zero => exact absurd h3 hs
          | succ c => exact ⟨c, by omega, by omega, rfl, fun k hk => h1 (k + 1) (by omega), fun k hk => h2 (k + 1) (by omega), h3⟩

theorem iterate_eq {f g : ℂ → ℂ} {s : Nat → ℂ} (hs : ∀ i, s (i + 1) = s i - f (s i) / g (s i)) (k : Nat) : s k = (fun x => x - f x / g x)^[k] (s 0) := by
  induction k with
  | zero => rfl
  | succ k ih => rw [Function.iterate_succ_apply', ← ih, hs]

section
variable {k : ℚ} {f g : ℂ → ℂ} (he : (k, f, g) ∈ funcparamdict)
include he

theorem entry_le : ⌊k⌋.toNat ≤ 6 := by
  unfold funcparamdict at he
  simp only [List.mem_cons, List.not_mem_nil, or_false, Prod.mk.injEq] at he
  have hk : k < 7 := by rcases he with ⟨rfl, _⟩ | ⟨rfl, _⟩ | ⟨rfl, _⟩ | ⟨rfl, _⟩ | ⟨rfl, _⟩ | ⟨rfl, _⟩ | ⟨rfl, _⟩ | ⟨rfl, _⟩ <;> norm_num
  have : ⌊k⌋ < 7 := Int.floor_lt.mpr (by exact_mod_cast hk)
  omega

theorem near_entry {z : ℂ} (hg : g z ≠ 0) (h : ‖f z / g z‖ < 1 / 10 ^ 8) : ∃ w, f w = 0 ∧ ‖z - w‖ < 6 / 10 ^ 8 := by
  obtain ⟨P, _, hn, hf, hg'⟩ := (C168_table.2 _ he).1
  dsimp only at hf hg' hn
  rw [hf, hg'] at h
  rw [hg'] at hg
  obtain ⟨w, hw, hd⟩ := near_root hg h
  refine ⟨w, by rw [hf, hw], hd.trans_le ?_⟩
  have := entry_le he
  have : (P.natDegree : ℝ) ≤ 6 := by rw [hn]; exact_mod_cast this
  nlinarith

theorem newton_leads {m : Nat} {p q : ℚ} {z : ℂ} {c : Nat} (h : newton (f, g) m p q = some (z, c)) :
    ∃ w, Leads f g m ⟨p, q⟩ w c ∧ f w = 0 ∧ ‖z - w‖ < 6 / 10 ^ 8 := by
  unfold newton newtonmethod at h
  rw [newtonFrom_iff] at h
  obtain ⟨c', hc, e, rfl, h1, h2, h3⟩ := h
  obtain rfl : c = c' := by omega
  obtain ⟨w, hw, hd⟩ := near_entry he (h1 c le_rfl) h3
  exact ⟨w, ⟨fun i => (fun x => x - f x / g x)^[i] ⟨p, q⟩, rfl, fun i => Function.iterate_succ_apply' _ _ _, hc, h1, h2, h3, hw, hd⟩, hw, hd⟩

omit he in
theorem leads_newton {m : Nat} {p q : ℚ} {w : ℂ} {c : Nat} (h : Leads f g m ⟨p, q⟩ w c) :
    ∃ z, newton (f, g) m p q = some (z, c) ∧ f w = 0 ∧ ‖z - w‖ < 6 / 10 ^ 8 := by
  obtain ⟨s, h0, hs, hc, h1, h2, h3, hw, hd⟩ := h
  refine ⟨s c, ?_, hw, hd⟩
  unfold newton newtonmethod
  rw [newtonFrom_iff]
  have hi := iterate_eq hs
  rw [h0] at hi
  exact ⟨c, hc, by omega, hi c, fun k hk => by rw [← hi]; exact h1 k hk, fun k hk => by rw [← hi]; exact h2 k hk, by rw [← hi]; exact h3⟩

/-- Near different roots there are at most as many points as the degree. -/
theorem count_roots {l : List ℂ} (ha : Apart l) (hl : ∀ t ∈ l, ∃ w, f w = 0 ∧ ‖t - w‖ < 6 / 10 ^ 8) : l.length ≤ ⌊k⌋.toNat := by
  classical
  obtain ⟨P, hm, hn, hf, _⟩ := (C168_table.2 _ he).1
  dsimp only at hf hn
  have hex : ∀ t : ℂ, ∃ w, t ∈ l → f w = 0 ∧ ‖t - w‖ < 6 / 10 ^ 8 := by
    intro t
    by_cases ht : t ∈ l
    · obtain ⟨w, h⟩ := hl t ht
      exact ⟨w, fun _ => h⟩
    · exact ⟨0, fun h => absurd h ht⟩
  choose w hw using hex
  have hnd : (l.map w).Nodup := by
    rw [List.nodup_iff_pairwise_ne, List.pairwise_map]
    refine List.Pairwise.imp_of_mem ?_ ha
    intro s t hs ht hst e
    have h1 := (hw s hs).2
    have h2 := (hw t ht).2
    rw [e] at h1
    have : ‖s - t‖ ≤ ‖s - w t‖ + ‖t - w t‖ := by
      have : s - t = (s - w t) - (t - w t) := by ring
      rw [this]
      exact norm_sub_le _ _
    norm_num at h1 h2 hst
    linarith
  have hsub : (l.map w).toFinset ⊆ P.roots.toFinset := by
    intro x hx
    rw [List.mem_toFinset, List.mem_map] at hx
    obtain ⟨t, ht, rfl⟩ := hx
    rw [Multiset.mem_toFinset, mem_roots hm.ne_zero]
    have := (hw t ht).1
    rw [hf] at this
    exact this
  have hcard := Finset.card_le_card hsub
  rw [List.toFinset_card_of_nodup hnd, List.length_map] at hcard
  refine hcard.trans ((Multiset.toFinset_card_le _).trans ?_)
  rw [← hn]
  exact card_roots' P

/-- The number of a point in the list is the number of the root near it. -/
theorem number_eq {roots : List ℂ} (hr : ∀ t ∈ roots, ∃ w, f w = 0 ∧ ‖t - w‖ < 6 / 10 ^ 8) {z w : ℂ} (hw : f w = 0) (hz : ‖z - w‖ < 6 / 10 ^ 8) :
    rootNumber roots z = rootNumber roots w := by
  classical
  unfold rootNumber
  have key : ∀ t ∈ roots, (‖t - z‖ < 1 / 100 ↔ ‖t - w‖ < 1 / 100) := by
    intro t ht
    obtain ⟨v, hv, hd⟩ := hr t ht
    have a1 : ‖t - z‖ ≤ ‖t - w‖ + ‖z - w‖ := by
      rw [show t - z = (t - w) - (z - w) by ring]; exact norm_sub_le _ _
    have a2 : ‖t - w‖ ≤ ‖t - z‖ + ‖z - w‖ := by
      rw [show t - w = (t - z) + (z - w) by ring]; exact norm_add_le _ _
    by_cases e : v = w
    · subst e
      norm_num at hz hd ⊢
      constructor <;> intro _ <;> linarith
    · have a3 := table_sep _ he v w hv hw e
      have a4 : ‖v - w‖ ≤ ‖t - w‖ + ‖t - v‖ := by
        rw [show v - w = (t - w) - (t - v) by ring]; exact norm_sub_le _ _
      norm_num at hz hd ⊢
      constructor <;> intro _ <;> linarith
  have gen : ∀ l : List ℂ, (∀ t ∈ l, t ∈ roots) → l.findIdx (fun t => decide (‖t - z‖ < 1 / 100)) = l.findIdx (fun t => decide (‖t - w‖ < 1 / 100)) := by
    intro l
    induction l with
    | nil => intro _; rfl
    | cons a l ih =>
      intro hl
      rw [List.findIdx_cons, List.findIdx_cons, ih fun t ht => hl t (by simp [ht])]
      have := key a (hl a (by simp))
      simp only [this]
  exact gen roots fun t ht => ht

/-- C168: the file with the picture for a function of the dictionary. The list of roots that is returned has at most as many entries as the degree, each
near a root of the function. The pixels from which the method leads to a root have the colour of that root, with a number that belongs to this
root only, shaded by the number of steps; the other pixels are 0. -/
theorem C168_picture (fs : Files) (file : String) {W H m : Nat} (hW : 0 < W ∧ W < 2 ^ 24) (hH : 0 < H ∧ H < 2 ^ 24) (dom : ℚ × ℚ × ℚ × ℚ)
    {factors : List (List ℚ)} (hF : Triples factors) (hn : ⌊k⌋.toNat ≤ factors.length) :
    ∃ fs' roots, ∃ number : ℂ → Nat, savenewtonsfractal2file fs file W H (newton (f, g) m) dom factors 24 = .ok (fs', roots) ∧ roots.length ≤ ⌊k⌋.toNat ∧
      (∀ t ∈ roots, ∃ w, f w = 0 ∧ ‖t - w‖ < 6 / 10 ^ 8) ∧
      (∀ w w' : ℂ, f w = 0 → f w' = 0 → number w < roots.length → number w' = number w → w' = w) ∧
      Saved fs fs' file (fun n => Valid n W H 24 ∧ ∀ x y : Nat, x < W → y < H →
        (∀ w c, Leads f g m (FractalFiles.point W H dom x y) w c → number w < roots.length ∧ pix n W H 24 x y = newtonColour 24 factors (number w) c) ∧
        ((∀ w c, ¬ Leads f g m (FractalFiles.point W H dom x y) w c) → pix n W H 24 x y = 0)) := by
  classical
  have hfun : ∀ t, (∃ p q c, newton (f, g) m p q = some (t, c)) → ∃ w, f w = 0 ∧ ‖t - w‖ < 6 / 10 ^ 8 := by
    rintro t ⟨p, q, c, h⟩
    obtain ⟨w, _, h1, h2⟩ := newton_leads he h
    exact ⟨w, h1, h2⟩
  obtain ⟨n0, e0, v0, -, -, -, -, hz, -⟩ := C01_newBMP_valid W H 24 (.inr (.inr (.inr rfl))) hW.2 hH.2
  obtain ⟨n, roots, e, v, -, ha, ho, hpx⟩ := C154_newton v0 (x1 := 0) (y1 := 0) (x2 := W) (y2 := H) (by omega) (by omega) (newton (f, g) m)
    dom.1 dom.2.1 dom.2.2.1 dom.2.2.2 hF (fun _ l hl ht => (count_roots he hl fun t h => hfun t (ht t h)).trans hn)
  have hr : ∀ t ∈ roots, ∃ w, f w = 0 ∧ ‖t - w‖ < 6 / 10 ^ 8 := fun t ht => hfun t (ho t ht)
  refine ⟨writeFile fs file n, roots, rootNumber roots, ?_, count_roots he ha hr, hr, ?_, write_saved fs file ⟨v, ?_⟩⟩
  · unfold savenewtonsfractal2file
    have e' : newtonsfractal n0 0 0 W H (newton (f, g) m) dom factors = .ok (n, roots) := e
    rw [show (24 : Int) = ((24 : Nat) : Int) from rfl, e0, ok_bind, if_neg (by omega), e', ok_bind]
    rfl
  · intro w w' hw hw' hlt e1
    unfold rootNumber at hlt e1
    have h1 := List.findIdx_getElem (w := hlt)
    have h2 : decide (‖roots[roots.findIdx fun t => decide (‖t - w‖ < 1 / 100)] - w'‖ < 1 / 100) = true := by
      have := List.findIdx_getElem (xs := roots) (p := fun t => decide (‖t - w'‖ < 1 / 100)) (w := by rw [e1]; exact hlt)
      simp only [e1] at this
      exact this
    have h1' := of_decide_eq_true h1
    have h2' := of_decide_eq_true h2
    by_contra hne
    have := table_sep _ he w' w hw' hw hne
    generalize roots[roots.findIdx fun t => decide (‖t - w‖ < 1 / 100)] = t at h1' h2'
    have h3 : ‖w' - w‖ ≤ ‖t - w‖ + ‖t - w'‖ := by
      rw [show w' - w = (t - w) - (t - w') by ring]; exact norm_sub_le _ _
    linarith
  · intro x y hx hy
    have := hpx x y hx hy
    dsimp only at this
    rw [min_eq_left (by omega), max_eq_right (by omega), min_eq_left (by omega), max_eq_right (by omega)] at this
    constructor
    · intro w c hl
      obtain ⟨z, hnw, hw, hd⟩ := leads_newton hl
      obtain ⟨⟨t, ht, htz⟩, hp⟩ := this.1 z c (by omega) hnw
      rw [number_eq he hr hw hd] at hp
      refine ⟨?_, hp⟩
      rw [← number_eq he hr hw hd]
      unfold rootNumber
      rw [List.findIdx_lt_length]
      exact ⟨t, ht, by simpa using htz⟩
    · intro hno
      rw [this.2 (.inr ?_), hz x y hx hy]
      cases hv : newton (f, g) m (domainAt dom.1 dom.2.1 0 W x) (domainAt dom.2.2.1 dom.2.2.2 0 H y) with
      | none => rfl
      | some zc =>
        obtain ⟨z, c⟩ := zc
        obtain ⟨w, hl, _⟩ := newton_leads he hv
        exact absurd hl (hno w c)

end

/-! Newton's method for the third roots of unity stops at once at 1, so a picture whose middle is there shows the first colour. -/
example : (3, (fun z : ℂ => z * z * z - 1), fun z => 3 * (z * z)) ∈ funcparamdict ∧
    Leads (fun z : ℂ => z * z * z - 1) (fun z => 3 * (z * z)) 40 1 1 0 ∧ ¬ Leads (fun z : ℂ => z * z * z - 1) (fun z => 3 * (z * z)) 40 0 1 0 := by
  refine ⟨by unfold funcparamdict; simp, ⟨fun _ => 1, rfl, fun i => by norm_num, by norm_num, fun i _ => by norm_num, fun i hi => by omega, by norm_num, by norm_num, by norm_num⟩, ?_⟩
  rintro ⟨s, h0, _, _, hg, _⟩
  have := hg 0 le_rfl
  rw [h0] at this
  norm_num at this

/-! ### Domains -/

/-- C168: every named domain has its larger bound first on both axes; the ones called `eqdim` are squares about the origin, and all lie in the larger one of these. -/
theorem C168_domains : (fractaldomainparamdict.map (·.1)).Nodup ∧ (∀ e ∈ fractaldomainparamdict, e.2.2.1 < e.2.1 ∧ e.2.2.2.2 < e.2.2.2.1) ∧
    (∀ e ∈ fractaldomainparamdict, (e.1 = "maxeqdim" ∨ e.1 = "mineqdim") → e.2.1 = -e.2.2.1 ∧ e.2.2.2.1 = e.2.1 ∧ e.2.2.2.2 = e.2.2.1) ∧
    ∀ e ∈ fractaldomainparamdict, -1.75 ≤ e.2.2.1 ∧ e.2.1 ≤ 1.75 ∧ -1.75 ≤ e.2.2.2.2 ∧ e.2.2.2.1 ≤ 1.75 := by
  refine ⟨by decide +kernel, by decide +kernel, by decide +kernel, by decide +kernel⟩

end Verif.Props.Newton
