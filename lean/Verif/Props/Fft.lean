import Verif.Model.MathLib
import Mathlib.Tactic.Ring
import Mathlib.Tactic.Linarith
import Mathlib.Tactic.FieldSimp
import Mathlib.Algebra.Field.GeomSum
import Mathlib.Analysis.SpecialFunctions.Complex.Circle
/-! The Fourier transform of mathlib.py with exact complex numbers (C112). -/

namespace Verif.Props
open Verif Model Finset

/-- The discrete Fourier transform of a list, from its definition: `s` is `-i` for the forward transform and
`i` for the inverse one. -/
noncomputable def dft (s : ℂ) (v : List ℂ) (k : Nat) : ℂ :=
  ∑ j ∈ range v.length, v.getD j 0 * Complex.exp (2 * Real.pi * ((j * k : Nat) : ℂ) / v.length * s)

theorem evens_odds (v : List ℂ) : (evens v).length = (v.length + 1) / 2 ∧ (odds v).length = v.length / 2 ∧
    (∀ i, (evens v).getD i 0 = v.getD (2 * i) 0) ∧ ∀ i, (odds v).getD i 0 = v.getD (2 * i + 1) 0 := by
  induction v using evens.induct with
  | case1 => simp [evens, odds]
  | case2 a =>
    refine ⟨by simp [evens], by simp [odds], ?_, ?_⟩
    · intro i
      cases i with
      | zero => rfl
      | succ i => simp [evens]
    · intro i; simp [odds]
  | case3 a b t ih =>
    obtain ⟨h1, h2, h3, h4⟩ := ih
    refine ⟨by simp only [evens, List.length_cons, h1]; omega, by simp only [odds, List.length_cons, h2]; omega, ?_, ?_⟩
    · intro i
      cases i with
      | zero => rfl
      | succ i =>
        have := h3 i
        rw [show 2 * (i + 1) = 2 * i + 1 + 1 by omega]
        simpa [evens] using this
    · intro i
      cases i with
      | zero => rfl
      | succ i =>
        have := h4 i
        rw [show 2 * (i + 1) + 1 = 2 * i + 1 + 1 + 1 by omega]
        simpa [odds] using this

/-- The loop sets the lower half to `f` and the upper half to `g`. -/
theorem halves (f g : Nat → ℂ) (l : Nat) (v : List ℂ) (hv : 2 * l ≤ v.length) (m : Nat) (hm : m ≤ l) :
    ((List.range m).foldl (fun v m => (v.set m (f m)).set (m + l) (g m)) v).length = v.length ∧
    ∀ k, ((List.range m).foldl (fun v m => (v.set m (f m)).set (m + l) (g m)) v).getD k 0 =
      if k < m then f k else if l ≤ k ∧ k < l + m then g (k - l) else v.getD k 0 := by
  induction m with
  | zero =>
    refine ⟨rfl, ?_⟩
    intro k
    rw [if_neg (by omega), if_neg (by omega)]
    rfl
  | succ m ih =>
    obtain ⟨h1, h2⟩ := ih (by omega)
    rw [List.range_succ, List.foldl_append, List.foldl_cons, List.foldl_nil]
    generalize (List.range m).foldl (fun v m => (v.set m (f m)).set (m + l) (g m)) v = u at *
    refine ⟨by simp [h1], ?_⟩
    intro k
    have hk := h2 k
    simp only [List.getD_eq_getElem?_getD, List.getElem?_set, List.length_set] at hk ⊢
    by_cases e1 : m + l = k
    · rw [if_pos e1, if_pos (by omega), if_neg (by omega), if_pos (by omega)]
      rw [← e1, Nat.add_sub_cancel]
      rfl
    · rw [if_neg e1]
      by_cases e2 : m = k
      · rw [if_pos e2, if_pos (by omega), if_pos (by omega), e2]
        rfl
      · rw [if_neg e2, hk]
        split_ifs <;> first | rfl | omega

theorem sum_halves (a : Nat → ℂ) (l : Nat) : ∑ j ∈ range (2 * l), a j = ∑ i ∈ range l, a (2 * i) + ∑ i ∈ range l, a (2 * i + 1) := by
  induction l with
  | zero => simp
  | succ l ih =>
    rw [show 2 * (l + 1) = 2 * l + 1 + 1 by omega, sum_range_succ, sum_range_succ, ih, sum_range_succ, sum_range_succ]
    ring

theorem applyfft_eq {s : ℂ} (hs : s = Complex.I ∨ s = -Complex.I) (p : Nat) : ∀ (fuel : Nat) (v : List ℂ), p ≤ fuel → v.length = 2 ^ p →
    (applyfft (fun m n => Complex.exp (2 * Real.pi * m / n * s)) fuel v).length = v.length ∧
    ∀ k < 2 ^ p, (applyfft (fun m n => Complex.exp (2 * Real.pi * m / n * s)) fuel v).getD k 0 = dft s v k := by
  have full : ∀ i : Nat, Complex.exp (2 * Real.pi * (i : ℂ) * s) = 1 := by
    intro i
    rcases hs with rfl | rfl
    · rw [show 2 * (Real.pi : ℂ) * i * Complex.I = (i : ℂ) * (2 * Real.pi * Complex.I) by ring, Complex.exp_nat_mul, Complex.exp_two_pi_mul_I, one_pow]
    · rw [show 2 * (Real.pi : ℂ) * i * -Complex.I = -((i : ℂ) * (2 * Real.pi * Complex.I)) by ring, Complex.exp_neg, Complex.exp_nat_mul,
        Complex.exp_two_pi_mul_I, one_pow, inv_one]
  have half : Complex.exp (Real.pi * s) = -1 := by
    rcases hs with rfl | rfl
    · exact Complex.exp_pi_mul_I
    · rw [mul_neg, Complex.exp_neg, Complex.exp_pi_mul_I]; norm_num
  induction p with
  | zero =>
    intro fuel v _ hv
    have he : applyfft (fun m n => Complex.exp (2 * Real.pi * m / n * s)) fuel v = v := by
      cases fuel with
      | zero => rfl
      | succ fuel =>
        unfold applyfft
        dsimp only
        rw [if_neg (by rw [hv]; norm_num)]
    rw [he]
    refine ⟨rfl, ?_⟩
    intro k hk
    have : k = 0 := by simpa using hk
    subst this
    simp [dft, hv]
  | succ p ih =>
    intro fuel v hf hv
    obtain ⟨fuel, rfl⟩ : ∃ f, fuel = f + 1 := ⟨fuel - 1, by omega⟩
    have hl : v.length / 2 = 2 ^ p := by rw [hv, pow_succ]; omega
    have hl0 : 0 < 2 ^ p := Nat.two_pow_pos p
    have hv' : v.length = 2 * 2 ^ p := by rw [hv, pow_succ]; ring
    obtain ⟨a1, a2, a3, a4⟩ := evens_odds v
    have a1 : (evens v).length = 2 ^ p := by rw [a1]; omega
    have a2 : (odds v).length = 2 ^ p := by rw [a2]; omega
    obtain ⟨_, e1⟩ := ih fuel (evens v) (by omega) a1
    obtain ⟨_, o1⟩ := ih fuel (odds v) (by omega) a2
    unfold applyfft
    dsimp only
    rw [if_pos (by omega), hl]
    generalize applyfft (fun m n => Complex.exp (2 * Real.pi * m / n * s)) fuel (evens v) = ve at *
    generalize applyfft (fun m n => Complex.exp (2 * Real.pi * m / n * s)) fuel (odds v) = vo at *
    obtain ⟨h1, h2⟩ := halves (fun m => ve.getD m 0 + Complex.exp (2 * Real.pi * m / v.length * s) * vo.getD m 0)
      (fun m => ve.getD m 0 - Complex.exp (2 * Real.pi * m / v.length * s) * vo.getD m 0) (2 ^ p) v (by omega) (2 ^ p) (le_refl _)
    refine ⟨h1, ?_⟩
    intro k hk
    refine (h2 k).trans ?_
    have hnz : ((2 ^ p : Nat) : ℂ) ≠ 0 := by exact_mod_cast hl0.ne'
    have hd : ∀ k, dft s v k = ∑ i ∈ range (2 ^ p), (evens v).getD i 0 * Complex.exp (2 * Real.pi * ((2 * i * k : Nat) : ℂ) / ((2 * 2 ^ p : Nat) : ℂ) * s) +
        ∑ i ∈ range (2 ^ p), (odds v).getD i 0 * Complex.exp (2 * Real.pi * (((2 * i + 1) * k : Nat) : ℂ) / ((2 * 2 ^ p : Nat) : ℂ) * s) := by
      intro k
      unfold dft
      rw [hv', sum_halves]
      congr 1
      · apply sum_congr rfl; intro i _; rw [a3]
      · apply sum_congr rfl; intro i _; rw [a4]
    rw [hd k]
    by_cases hkl : k < 2 ^ p
    · rw [if_pos hkl, e1 k hkl, o1 k hkl]
      unfold dft
      rw [a1, a2, mul_sum, hv']
      congr 1
      · apply sum_congr rfl
        intro i _
        congr 2
        push_cast
        field_simp
      · apply sum_congr rfl
        intro i _
        rw [mul_left_comm, ← Complex.exp_add]
        congr 2
        push_cast at hnz ⊢
        field_simp
        ring
    · obtain ⟨m, rfl⟩ : ∃ m, k = m + 2 ^ p := ⟨k - 2 ^ p, by omega⟩
      have hm : m < 2 ^ p := by rw [pow_succ] at hk; omega
      rw [if_neg hkl, if_pos (by rw [pow_succ] at hk; omega), Nat.add_sub_cancel, e1 m hm, o1 m hm]
      unfold dft
      rw [a1, a2, mul_sum, hv', sub_eq_add_neg, ← sum_neg_distrib]
      congr 1
      · apply sum_congr rfl
        intro i _
        congr 1
        have e : 2 * (Real.pi : ℂ) * ((2 * i * (m + 2 ^ p) : Nat) : ℂ) / ((2 * 2 ^ p : Nat) : ℂ) * s =
            2 * Real.pi * ((i * m : Nat) : ℂ) / ((2 ^ p : Nat) : ℂ) * s + 2 * Real.pi * (i : ℂ) * s := by
          push_cast at hnz ⊢
          field_simp
        rw [e, Complex.exp_add, full, mul_one]
      · apply sum_congr rfl
        intro i _
        have e : 2 * (Real.pi : ℂ) * (((2 * i + 1) * (m + 2 ^ p) : Nat) : ℂ) / ((2 * 2 ^ p : Nat) : ℂ) * s =
            2 * Real.pi * (m : ℂ) / ((2 * 2 ^ p : Nat) : ℂ) * s + 2 * Real.pi * ((i * m : Nat) : ℂ) / ((2 ^ p : Nat) : ℂ) * s +
              2 * Real.pi * (i : ℂ) * s + Real.pi * s := by
          push_cast at hnz ⊢
          field_simp
          ring
        rw [e, Complex.exp_add, Complex.exp_add, Complex.exp_add, full, half]
        ring

theorem dft_ext {u v : List ℂ} (hl : u.length = v.length) (h : ∀ k < u.length, u.getD k 0 = v.getD k 0) : u = v := by
  apply List.ext_getElem hl
  intro k h1 h2
  have := h k h1
  simpa [List.getD_eq_getElem?_getD, h1, h2] using this

/-- C112: for a length that is a power of 2 `fft` computes the discrete Fourier transform. -/
theorem C112_fft {v : List ℂ} {p : Nat} (h : v.length = 2 ^ p) : fft v = (List.range v.length).map (dft (-Complex.I) v) := by
  have hp : p ≤ v.length := by rw [h]; exact Nat.lt_two_pow_self.le
  obtain ⟨h1, h2⟩ := applyfft_eq (Or.inr rfl) p v.length v hp h
  apply dft_ext
  · rw [fft, h1]; simp
  · intro k hk
    rw [fft, h1, h] at hk
    rw [fft, h2 k hk]
    simp [List.getD_eq_getElem?_getD, h, hk]

/-- C112: and `ifft` the one with the opposite sign. -/
theorem C112_ifft {v : List ℂ} {p : Nat} (h : v.length = 2 ^ p) : ifft v = (List.range v.length).map (dft Complex.I v) := by
  have hp : p ≤ v.length := by rw [h]; exact Nat.lt_two_pow_self.le
  obtain ⟨h1, h2⟩ := applyfft_eq (Or.inl rfl) p v.length v hp h
  apply dft_ext
  · rw [ifft, h1]; simp
  · intro k hk
    rw [ifft, h1, h] at hk
    rw [ifft, h2 k hk]
    simp [List.getD_eq_getElem?_getD, h, hk]

/-- The sum of the powers of a root of unity. -/
theorem roots_sum {n : Nat} (hn : 0 < n) (i k : Nat) (hi : i < n) (hk : k < n) :
    ∑ j ∈ range n, Complex.exp (2 * Real.pi * ((i * j : Nat) : ℂ) / n * -Complex.I) * Complex.exp (2 * Real.pi * ((j * k : Nat) : ℂ) / n * Complex.I) =
      if i = k then (n : ℂ) else 0 := by
  have hnz : (n : ℂ) ≠ 0 := by exact_mod_cast hn.ne'
  have term : ∀ j : Nat, Complex.exp (2 * Real.pi * ((i * j : Nat) : ℂ) / n * -Complex.I) * Complex.exp (2 * Real.pi * ((j * k : Nat) : ℂ) / n * Complex.I) =
      Complex.exp (((k : ℂ) - i) / n * (2 * Real.pi * Complex.I)) ^ j := by
    intro j
    rw [← Complex.exp_add, ← Complex.exp_nat_mul]
    congr 1
    push_cast
    field_simp
    ring
  simp only [term]
  split_ifs with e
  · subst e
    simp
  · have h1 : Complex.exp (((k : ℂ) - i) / n * (2 * Real.pi * Complex.I)) ≠ 1 := by
      rw [Ne, Complex.exp_eq_one_iff]
      rintro ⟨m, hm⟩
      have h2 : ((k : ℂ) - i) / n = m := mul_right_cancel₀ Complex.two_pi_I_ne_zero hm
      rw [div_eq_iff hnz] at h2
      have h3 : (k : Int) - i = m * n := by exact_mod_cast h2
      have hlt : |(k : Int) - i| < n := by rw [abs_lt]; omega
      have hm0 : m = 0 := by
        by_contra hm0
        have : (n : Int) ≤ |m * n| := by
          rw [abs_mul, Nat.abs_cast]
          have := Int.one_le_abs hm0
          nlinarith
        rw [h3] at hlt
        omega
      rw [hm0, zero_mul] at h3
      omega
    rw [geom_sum_eq h1, ← Complex.exp_nat_mul]
    have h4 : (n : ℂ) * (((k : ℂ) - i) / n * (2 * Real.pi * Complex.I)) = ((k : Int) - (i : Int) : Int) * (2 * Real.pi * Complex.I) := by
      push_cast
      field_simp
    rw [h4, Complex.exp_int_mul_two_pi_mul_I]
    simp

/-- C112: the two transforms after another give the list times its length: `ifft` does not divide by
the length, so it is the inverse only up to this factor. -/
theorem C112_inverse {v : List ℂ} {p : Nat} (h : v.length = 2 ^ p) : ifft (fft v) = v.map (fun z => (v.length : ℂ) * z) := by
  have hl : (fft v).length = v.length := by rw [C112_fft h]; simp
  have hn : 0 < v.length := by rw [h]; exact Nat.two_pow_pos p
  rw [C112_ifft (p := p) (by rw [hl, h])]
  apply dft_ext
  · simp [hl]
  · intro k hk
    have hk : k < v.length := by simpa [hl] using hk
    have hg : ∀ j < v.length, (fft v).getD j 0 = dft (-Complex.I) v j := by
      intro j hj
      rw [C112_fft h]
      simp [List.getD_eq_getElem?_getD, hj]
    have lhs : (List.map (dft Complex.I (fft v)) (List.range (fft v).length)).getD k 0 = dft Complex.I (fft v) k := by
      simp [List.getD_eq_getElem?_getD, hl, hk]
    have rhs : (v.map (fun z => (v.length : ℂ) * z)).getD k 0 = (v.length : ℂ) * v.getD k 0 := by
      simp [List.getD_eq_getElem?_getD, hk]
    rw [lhs, rhs, dft, hl]
    calc ∑ j ∈ range v.length, (fft v).getD j 0 * Complex.exp (2 * Real.pi * ((j * k : Nat) : ℂ) / v.length * Complex.I)
        = ∑ j ∈ range v.length, ∑ i ∈ range v.length, v.getD i 0 * (Complex.exp (2 * Real.pi * ((i * j : Nat) : ℂ) / v.length * -Complex.I) *
            Complex.exp (2 * Real.pi * ((j * k : Nat) : ℂ) / v.length * Complex.I)) := by
          apply sum_congr rfl
          intro j hj
          rw [hg j (mem_range.mp hj), dft, sum_mul]
          apply sum_congr rfl
          intro i _
          ring
      _ = ∑ i ∈ range v.length, v.getD i 0 * (if i = k then (v.length : ℂ) else 0) := by
          rw [sum_comm]
          apply sum_congr rfl
          intro i hi
          rw [← mul_sum, roots_sum hn i k (mem_range.mp hi) hk]
      _ = (v.length : ℂ) * v.getD k 0 := by
          rw [sum_eq_single k]
          · rw [if_pos rfl]; ring
          · intro i _ hik; rw [if_neg hik, mul_zero]
          · intro hnk; exact absurd (mem_range.mpr hk) hnk

theorem fft_two (a b : ℂ) : fft [a, b] = [a + b, a - b] ∧ ifft [a, b] = [a + b, a - b] := by
  simp [fft, ifft, applyfft, evens, odds, List.range_succ]

/-- C112: `ifft` alone is not the inverse. -/
theorem C112_inverse_false : ifft (fft [1, 0]) = [2, 0] := by
  rw [(fft_two _ _).1, (fft_two _ _).2]
  norm_num

/-- C112: for other lengths the result is not the Fourier transform: the last of three values is left as
it was. -/
theorem C112_length_false : fft [1, 0, 0] = [1, 1, 0] ∧ dft (-Complex.I) [1, 0, 0] 2 = 1 := by
  constructor
  · simp [fft, applyfft, evens, odds, List.range_succ]
  · simp [dft, sum_range_succ]

example : fft [1, 2, 3, 4] = [10, -2 + 2 * Complex.I, -2, -2 - 2 * Complex.I] := by
  have e : Complex.exp (-(2 * (Real.pi : ℂ) / 4 * Complex.I)) = -Complex.I := by
    rw [show -(2 * (Real.pi : ℂ) / 4 * Complex.I) = -(Real.pi / 2 * Complex.I) by ring, Complex.exp_neg, Complex.exp_pi_div_two_mul_I,
      Complex.inv_I]
  simp [fft, applyfft, evens, odds, List.range_succ, e]
  refine ⟨by ring, by ring, by ring, by ring⟩

end Verif.Props
