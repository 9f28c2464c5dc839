import Mathlib.Data.List.Chain
import Mathlib.Data.List.Nodup
import Mathlib.Tactic.Ring
import Mathlib.Tactic.Linarith
import Mathlib.Tactic.NormNum
import Mathlib.Tactic.Positivity
import Mathlib.Tactic.FieldSimp
import Verif.Lemmas.Float
import Verif.Model.Hilbert
/-! C106: the vertices of the Hilbert curve. -/

namespace Verif.Props
open Verif Model

/-- Two cells that share a side. -/
def Beside (p q : Int × Int) : Prop := |p.1 - q.1| + |p.2 - q.2| = 1

/-- A walk over the cells of an `m` by `m` board: every cell once, each step to a cell beside, from
`(0, 0)` to `(0, m - 1)`. -/
structure Tour (m : Nat) (cells : List (Int × Int)) : Prop where
  all : ∀ i j : Int, (i, j) ∈ cells ↔ (0 ≤ i ∧ i < m) ∧ (0 ≤ j ∧ j < m)
  once : cells.Nodup
  steps : cells.IsChain Beside
  first : cells.head? = some (0, 0)
  last : cells.getLast? = some (0, (m : Int) - 1)

/-- The integer nearest to the middle of cell `(i, j)`, of one coordinate, of a board of `2^n` by `2^n`
cells with corner `u` and edges `a` and `b`. -/
def middle (u a b : ℚ) (n : Nat) (i j : Int) : Int := rnd (u + ((2 * i + 1) * a + (2 * j + 1) * b) / 2 ^ (n + 1))

/-- Scaling by a power of two does not disturb the rounding. -/
theorem log_scale {r : ℚ} (hr : 0 < r) (e : Int) : Int.log 2 (r * (2 : ℚ) ^ e) = Int.log 2 r + e := by
  have h2 : (0 : ℚ) < 2 ^ e := zpow_pos (by norm_num) e
  have hp : 0 < r * (2 : ℚ) ^ e := mul_pos hr h2
  have l1 := Int.zpow_log_le_self (b := 2) (by omega) hr
  have l2 := Int.lt_zpow_succ_log_self (b := 2) (by omega) r
  push_cast at l1 l2
  apply le_antisymm
  · have := (Int.lt_zpow_iff_log_lt (R := ℚ) (b := 2) (by omega) (x := Int.log 2 r + e + 1) hp).mp (by
      push_cast
      rw [show Int.log 2 r + e + 1 = (Int.log 2 r + 1) + e by ring, zpow_add₀ (by norm_num)]
      exact mul_lt_mul_of_pos_right l2 h2)
    omega
  · apply (Int.zpow_le_iff_le_log (R := ℚ) (b := 2) (by omega) hp).mp
    push_cast
    rw [zpow_add₀ (by norm_num)]
    exact mul_le_mul_of_nonneg_right l1 h2.le

theorem fl_scale (q : ℚ) (e : Int) : fl (q * (2 : ℚ) ^ e) = fl q * (2 : ℚ) ^ e := by
  by_cases h0 : q = 0
  · subst h0; rw [zero_mul, fl_zero, zero_mul]
  · have h2 : (0 : ℚ) < 2 ^ e := zpow_pos (by norm_num) e
    have hu : ulp (q * (2 : ℚ) ^ e) = ulp q * (2 : ℚ) ^ e := by
      unfold ulp
      rw [abs_mul, abs_of_pos h2, log_scale (abs_pos.mpr h0), ← zpow_add₀ (by norm_num)]
      congr 1; ring
    have hup : ulp q ≠ 0 := by unfold ulp; exact (zpow_pos (by norm_num) _).ne'
    unfold fl
    rw [hu, mul_div_mul_right _ _ h2.ne']
    ring

/-- `q` is a whole number of `2^-M` and not beyond `R` in size. -/
def Grid (M : Nat) (q : ℚ) : Prop := ∃ k : Int, q = k / 2 ^ M

theorem fl_grid {M : Nat} {q R : ℚ} (hg : Grid M q) (hq : |q| ≤ R) (hR : R * 2 ^ M ≤ 2 ^ 53) : fl q = q := by
  obtain ⟨k, rfl⟩ := hg
  have hp : (0 : ℚ) < 2 ^ M := by positivity
  have hk : |k| ≤ 2 ^ 53 := by
    have : |(k : ℚ)| ≤ 2 ^ 53 := by
      rw [abs_div, abs_of_pos hp, div_le_iff₀ hp] at hq
      exact le_trans hq hR
    rw [← Int.cast_abs] at this
    exact_mod_cast this
  have e : (k : ℚ) / 2 ^ M = k * (2 : ℚ) ^ (-(M : Int)) := by rw [zpow_neg, zpow_natCast]; rfl
  rw [e, fl_scale, fl_int hk]

theorem Grid.add {M : Nat} {p q : ℚ} (hp : Grid M p) (hq : Grid M q) : Grid M (p + q) := by
  obtain ⟨k, rfl⟩ := hp; obtain ⟨l, rfl⟩ := hq
  exact ⟨k + l, by push_cast; ring⟩

theorem Grid.neg {M : Nat} {p : ℚ} (hp : Grid M p) : Grid M (-p) := by
  obtain ⟨k, rfl⟩ := hp
  exact ⟨-k, by push_cast; ring⟩

/-- The numbers of a board: corner on the grid, edges still divisible `n + 1` times, all corners within `R`. -/
structure Board (M n : Nat) (R u a b : ℚ) : Prop where
  gu : Grid M u
  ga : Grid M (a / 2 ^ (n + 1))
  gb : Grid M (b / 2 ^ (n + 1))
  c0 : |u| ≤ R
  ca : |u + a| ≤ R
  cb : |u + b| ≤ R
  cab : |u + a + b| ≤ R

theorem Grid.mul_nat {M : Nat} {p : ℚ} (hp : Grid M p) (k : Nat) : Grid M (p * k) := by
  obtain ⟨l, rfl⟩ := hp
  exact ⟨l * k, by push_cast; ring⟩

theorem Grid.up {M : Nat} {a : ℚ} {m k : Nat} (h : Grid M (a / 2 ^ (m + k))) : Grid M (a / 2 ^ m) := by
  have := h.mul_nat (2 ^ k)
  have e : a / 2 ^ (m + k) * ((2 ^ k : Nat) : ℚ) = a / 2 ^ m := by
    push_cast; rw [pow_add]; field_simp
  rwa [e] at this

/-- The cells in the order of the code. -/
def hcells : Nat → List (Int × Int)
  | 0 => [(0, 0)]
  | n + 1 => (hcells n).map (fun c => (c.2, c.1)) ++ ((hcells n).map (fun c => (c.1 + 2 ^ n, c.2)) ++
      ((hcells n).map (fun c => (c.1 + 2 ^ n, c.2 + 2 ^ n)) ++
      (hcells n).map (fun c => (2 ^ n - 1 - c.2, 2 ^ n + (2 ^ n - 1 - c.1)))))

theorem hcells_tour (n : Nat) : Tour (2 ^ n) (hcells n) := by
  induction n with
  | zero =>
    refine ⟨?_, by simp [hcells], by simp [hcells], rfl, rfl⟩
    intro i j
    simp only [hcells, List.mem_singleton, Prod.mk.injEq, pow_zero, Nat.cast_one]
    omega
  | succ n ih =>
    have hp : (0 : Int) < 2 ^ n := by positivity
    have e : ((2 ^ (n + 1) : Nat) : Int) = 2 * 2 ^ n := by push_cast; ring
    have e1 : ((2 ^ n : Nat) : Int) = 2 ^ n := by push_cast; ring
    have mem : ∀ i j : Int, (i, j) ∈ hcells n ↔ (0 ≤ i ∧ i < 2 ^ n) ∧ (0 ≤ j ∧ j < 2 ^ n) := by
      intro i j; have := ih.all i j; rwa [e1] at this
    have m1 : ∀ i j : Int, (i, j) ∈ (hcells n).map (fun c => (c.2, c.1)) ↔ (0 ≤ i ∧ i < 2 ^ n) ∧ (0 ≤ j ∧ j < 2 ^ n) := by
      intro i j
      rw [List.mem_map]
      constructor
      · rintro ⟨⟨a, b⟩, h, he⟩
        have := (mem a b).mp h
        simp only [Prod.mk.injEq] at he
        omega
      · intro h; exact ⟨(j, i), (mem j i).mpr ⟨h.2, h.1⟩, rfl⟩
    have m2 : ∀ i j : Int, (i, j) ∈ (hcells n).map (fun c => (c.1 + 2 ^ n, c.2)) ↔
        (2 ^ n ≤ i ∧ i < 2 * 2 ^ n) ∧ (0 ≤ j ∧ j < 2 ^ n) := by
      intro i j
      rw [List.mem_map]
      constructor
      · rintro ⟨⟨a, b⟩, h, he⟩
        have := (mem a b).mp h
        simp only [Prod.mk.injEq] at he
        omega
      · intro h; exact ⟨(i - 2 ^ n, j), (mem _ _).mpr (by omega), by simp⟩
    have m3 : ∀ i j : Int, (i, j) ∈ (hcells n).map (fun c => (c.1 + 2 ^ n, c.2 + 2 ^ n)) ↔
        (2 ^ n ≤ i ∧ i < 2 * 2 ^ n) ∧ (2 ^ n ≤ j ∧ j < 2 * 2 ^ n) := by
      intro i j
      rw [List.mem_map]
      constructor
      · rintro ⟨⟨a, b⟩, h, he⟩
        have := (mem a b).mp h
        simp only [Prod.mk.injEq] at he
        omega
      · intro h; exact ⟨(i - 2 ^ n, j - 2 ^ n), (mem _ _).mpr (by omega), by simp⟩
    have m4 : ∀ i j : Int, (i, j) ∈ (hcells n).map (fun c => (2 ^ n - 1 - c.2, 2 ^ n + (2 ^ n - 1 - c.1))) ↔
        (0 ≤ i ∧ i < 2 ^ n) ∧ (2 ^ n ≤ j ∧ j < 2 * 2 ^ n) := by
      intro i j
      rw [List.mem_map]
      constructor
      · rintro ⟨⟨a, b⟩, h, he⟩
        have := (mem a b).mp h
        simp only [Prod.mk.injEq] at he
        omega
      · intro h
        exact ⟨(2 * 2 ^ n - 1 - j, 2 ^ n - 1 - i), (mem _ _).mpr (by omega), by simp only [Prod.mk.injEq]; omega⟩
    have hf := ih.first
    have hl := ih.last
    rw [e1] at hl
    constructor
    · intro i j
      rw [hcells, List.mem_append, List.mem_append, List.mem_append, m1, m2, m3, m4, e]
      omega
    · rw [hcells, List.nodup_append', List.nodup_append', List.nodup_append']
      refine ⟨ih.once.map ?_, ⟨ih.once.map ?_, ⟨ih.once.map ?_, ih.once.map ?_, ?_⟩, ?_⟩, ?_⟩
      · rintro ⟨a, b⟩ ⟨c, d⟩ h; simp only [Prod.mk.injEq] at h ⊢; omega
      · rintro ⟨a, b⟩ ⟨c, d⟩ h; simp only [Prod.mk.injEq] at h ⊢; omega
      · rintro ⟨a, b⟩ ⟨c, d⟩ h; simp only [Prod.mk.injEq] at h ⊢; omega
      · rintro ⟨a, b⟩ ⟨c, d⟩ h; simp only [Prod.mk.injEq] at h ⊢; omega
      · rintro ⟨i, j⟩ h h'; rw [m3] at h; rw [m4] at h'; omega
      · rintro ⟨i, j⟩ h h'; rw [m2] at h; rw [List.mem_append, m3, m4] at h'; omega
      · rintro ⟨i, j⟩ h h'; rw [m1] at h; rw [List.mem_append, List.mem_append, m2, m3, m4] at h'; omega
    · have key : ∀ {f : Int × Int → Int × Int}, (∀ p q, Beside p q → Beside (f p) (f q)) →
          ((hcells n).map f).IsChain Beside := by
        intro f hf
        rw [List.isChain_map]
        exact ih.steps.imp hf
      rw [hcells]
      refine List.IsChain.append (key ?_) (List.IsChain.append (key ?_) (List.IsChain.append (key ?_) (key ?_) ?_) ?_) ?_
      · rintro ⟨a, b⟩ ⟨c, d⟩ h; simp only [Beside] at *; omega
      · rintro ⟨a, b⟩ ⟨c, d⟩ h; simp only [Beside] at *; rw [← h]; congr 2; ring
      · rintro ⟨a, b⟩ ⟨c, d⟩ h; simp only [Beside] at *; rw [← h]; congr 2 <;> ring
      · rintro ⟨a, b⟩ ⟨c, d⟩ h
        simp only [Beside] at *
        rw [← h, abs_sub_comm a c, abs_sub_comm b d, add_comm]
        congr 2 <;> ring
      · intro p hp q hq
        rw [List.getLast?_map, hl] at hp
        rw [List.head?_map, hf] at hq
        simp only [Option.map_some, Option.mem_def, Option.some.injEq] at hp hq
        subst hp hq
        simp only [Beside]
        have h1 : (0 : Int) + 2 ^ n - (2 ^ n - 1 - 0) = 1 := by ring
        have h2 : (2 : Int) ^ n - 1 + 2 ^ n - (2 ^ n + (2 ^ n - 1 - 0)) = 0 := by ring
        rw [h1, h2]; rfl
      · intro p hp q hq
        rw [List.getLast?_map, hl] at hp
        rw [List.head?_append, List.head?_map, hf] at hq
        simp only [Option.map_some, Option.mem_def, Option.some.injEq, Option.some_or] at hp hq
        subst hp hq
        simp only [Beside]
        have h1 : (0 : Int) + 2 ^ n - (0 + 2 ^ n) = 0 := by ring
        have h2 : (2 : Int) ^ n - 1 - (0 + 2 ^ n) = -1 := by ring
        rw [h1, h2]; rfl
      · intro p hp q hq
        rw [List.getLast?_map, hl] at hp
        rw [List.head?_append, List.head?_map, hf] at hq
        simp only [Option.map_some, Option.mem_def, Option.some.injEq, Option.some_or] at hp hq
        subst hp hq
        simp only [Beside]
        have h1 : (2 : Int) ^ n - 1 - (0 + 2 ^ n) = -1 := by ring
        rw [h1]; rfl
    · rw [hcells, List.head?_append, List.head?_map, hf]; rfl
    · rw [hcells, List.getLast?_append, List.getLast?_append, List.getLast?_append, List.getLast?_map, hl, e]
      simp only [Option.map_some, Option.some_or, Option.some.injEq, Prod.mk.injEq]
      constructor <;> ring

/-- The float operations of one level are exact, and the four quarters are boards again. -/
theorem Board.split {M n : Nat} {R u a b : ℚ} (h : Board M (n + 1) R u a b) (hR : 2 * R * 2 ^ M ≤ 2 ^ 53) :
    (fl (a * (1 / 2)) = a / 2 ∧ fl (b * (1 / 2)) = b / 2) ∧
    (fl (a / 2 + b / 2) = a / 2 + b / 2 ∧ fl (a / 2 + b) = a / 2 + b ∧ fl (a / 2 * -1) = -(a / 2) ∧ fl (b / 2 * -1) = -(b / 2)) ∧
    (fl (u + a / 2) = u + a / 2 ∧ fl (u + (a / 2 + b / 2)) = u + (a / 2 + b / 2) ∧ fl (u + (a / 2 + b)) = u + (a / 2 + b)) ∧
    Board M n R u (b / 2) (a / 2) ∧ Board M n R (u + a / 2) (a / 2) (b / 2) ∧
    Board M n R (u + (a / 2 + b / 2)) (a / 2) (b / 2) ∧ Board M n R (u + (a / 2 + b)) (-(b / 2)) (-(a / 2)) := by
  have h0 := abs_le.mp h.c0
  have ha := abs_le.mp h.ca
  have hb := abs_le.mp h.cb
  have hab := abs_le.mp h.cab
  have ga2 : Grid M (a / 2) := by
    have := (show Grid M (a / 2 ^ (1 + (n + 1))) by rw [Nat.add_comm 1]; exact h.ga).up
    rwa [pow_one] at this
  have gb2 : Grid M (b / 2) := by
    have := (show Grid M (b / 2 ^ (1 + (n + 1))) by rw [Nat.add_comm 1]; exact h.gb).up
    rwa [pow_one] at this
  have gb1 : Grid M b := by
    have := gb2.add gb2
    rwa [add_halves] at this
  have gan : Grid M (a / 2 / 2 ^ (n + 1)) := by
    have e : a / 2 / 2 ^ (n + 1) = a / 2 ^ (n + 1 + 1) := by rw [pow_succ 2 (n + 1)]; field_simp
    rw [e]; exact h.ga
  have gbn : Grid M (b / 2 / 2 ^ (n + 1)) := by
    have e : b / 2 / 2 ^ (n + 1) = b / 2 ^ (n + 1 + 1) := by rw [pow_succ 2 (n + 1)]; field_simp
    rw [e]; exact h.gb
  have ex : ∀ q, Grid M q → -(2 * R) ≤ q → q ≤ 2 * R → fl q = q := fun q g l1 l2 => fl_grid g (abs_le.mpr ⟨l1, l2⟩) hR
  refine ⟨⟨?_, ?_⟩, ⟨?_, ?_, ?_, ?_⟩, ⟨?_, ?_, ?_⟩, ⟨?_, ?_, ?_, ?_, ?_, ?_, ?_⟩, ⟨?_, ?_, ?_, ?_, ?_, ?_, ?_⟩,
    ⟨?_, ?_, ?_, ?_, ?_, ?_, ?_⟩, ⟨?_, ?_, ?_, ?_, ?_, ?_, ?_⟩⟩
  · rw [show a * (1 / 2) = a / 2 by ring]; exact ex _ ga2 (by linarith) (by linarith)
  · rw [show b * (1 / 2) = b / 2 by ring]; exact ex _ gb2 (by linarith) (by linarith)
  · exact ex _ (ga2.add gb2) (by linarith) (by linarith)
  · exact ex _ (ga2.add gb1) (by linarith) (by linarith)
  · rw [mul_neg_one]; exact ex _ ga2.neg (by linarith) (by linarith)
  · rw [mul_neg_one]; exact ex _ gb2.neg (by linarith) (by linarith)
  · exact ex _ (h.gu.add ga2) (by linarith) (by linarith)
  · exact ex _ (h.gu.add (ga2.add gb2)) (by linarith) (by linarith)
  · exact ex _ (h.gu.add (ga2.add gb1)) (by linarith) (by linarith)
  · exact h.gu
  · exact gbn
  · exact gan
  all_goals first
    | exact gan
    | exact gbn
    | (rw [neg_div]; exact gan.neg)
    | (rw [neg_div]; exact gbn.neg)
    | exact h.gu.add ga2
    | exact h.gu.add (ga2.add gb2)
    | exact h.gu.add (ga2.add gb1)
    | (rw [abs_le]; constructor <;> linarith)

theorem Board.last {M : Nat} {R u a b : ℚ} (h : Board M 0 R u a b) (hR : 2 * R * 2 ^ M ≤ 2 ^ 53) :
    fl (u + fl (fl (a + b) / 2)) = u + (a + b) / 2 := by
  have h0 := abs_le.mp h.c0
  have ha := abs_le.mp h.ca
  have hb := abs_le.mp h.cb
  have hab := abs_le.mp h.cab
  have ga := h.ga
  have gb := h.gb
  rw [zero_add, pow_one] at ga gb
  have g2 : Grid M ((a + b) / 2) := by rw [add_div]; exact ga.add gb
  have g1 : Grid M (a + b) := by have := g2.add g2; rwa [add_halves] at this
  have ex : ∀ q, Grid M q → -(2 * R) ≤ q → q ≤ 2 * R → fl q = q := fun q g l1 l2 => fl_grid g (abs_le.mpr ⟨l1, l2⟩) hR
  rw [ex _ g1 (by linarith) (by linarith), ex _ g2 (by linarith) (by linarith),
    ex _ (h.gu.add g2) (by linarith) (by linarith)]

theorem hilbertN_eq {M : Nat} {R : ℚ} (hR : 2 * R * 2 ^ M ≤ 2 ^ 53) (n : Nat) :
    ∀ (l : List (Int × Int)) (u1 u2 v0 v1 v2 v3 : ℚ), Board M n R u1 v0 v2 → Board M n R u2 v1 v3 →
      hilbertN l (u1, u2) (v0, v1, v2, v3) n =
        l ++ (hcells n).map fun c => (middle u1 v0 v2 n c.1 c.2, middle u2 v1 v3 n c.1 c.2) := by
  induction n with
  | zero =>
    intro l u1 u2 v0 v1 v2 v3 h1 h2
    simp only [hilbertN, hcells, List.map_cons, List.map_nil]
    rw [h1.last hR, h2.last hR]
    simp [middle]
  | succ n ih =>
    intro l u1 u2 v0 v1 v2 v3 h1 h2
    obtain ⟨⟨a1, a2⟩, ⟨a3, a4, a5, a6⟩, ⟨a7, a8, a9⟩, p1, p2, p3, p4⟩ := h1.split hR
    obtain ⟨⟨b1, b2⟩, ⟨b3, b4, b5, b6⟩, ⟨b7, b8, b9⟩, q1, q2, q3, q4⟩ := h2.split hR
    simp only [hilbertN]
    rw [a1, a2, b1, b2, a3, a4, a5, a6, b3, b4, b5, b6, a7, a8, a9, b7, b8, b9]
    rw [ih _ _ _ _ _ _ _ p1 q1, ih _ _ _ _ _ _ _ p2 q2, ih _ _ _ _ _ _ _ p3 q3, ih _ _ _ _ _ _ _ p4 q4]
    simp only [hcells, List.map_append, List.map_map, List.append_assoc]
    have e1 : ∀ (u a b : ℚ) (i j : Int), middle u (b / 2) (a / 2) n i j = middle u a b (n + 1) j i := by
      intro u a b i j; unfold middle; congr 1; rw [pow_succ 2 (n + 1)]; field_simp; ring
    have e2 : ∀ (u a b : ℚ) (i j : Int), middle (u + a / 2) (a / 2) (b / 2) n i j = middle u a b (n + 1) (i + 2 ^ n) j := by
      intro u a b i j; unfold middle; congr 1; push_cast; rw [pow_succ 2 (n + 1), pow_succ 2 n]; field_simp; ring
    have e3 : ∀ (u a b : ℚ) (i j : Int), middle (u + (a / 2 + b / 2)) (a / 2) (b / 2) n i j
        = middle u a b (n + 1) (i + 2 ^ n) (j + 2 ^ n) := by
      intro u a b i j; unfold middle; congr 1; push_cast; rw [pow_succ 2 (n + 1), pow_succ 2 n]; field_simp; ring
    have e4 : ∀ (u a b : ℚ) (i j : Int), middle (u + (a / 2 + b)) (-(b / 2)) (-(a / 2)) n i j
        = middle u a b (n + 1) (2 ^ n - 1 - j) (2 ^ n + (2 ^ n - 1 - i)) := by
      intro u a b i j; unfold middle; congr 1; push_cast; rw [pow_succ 2 (n + 1), pow_succ 2 n]; field_simp; ring
    simp only [Function.comp_def, e2, e3, e4]
    simp only [e1]

theorem board_int {n : Nat} {u a b : Int} {m : Nat} (hu : |u| ≤ m) (ha : |u + a| ≤ m) (hb : |u + b| ≤ m) (hab : |u + a + b| ≤ m) :
    Board (n + 1) n (m : ℚ) (u : ℚ) (a : ℚ) (b : ℚ) := by
  have g : ∀ k : Int, Grid (n + 1) ((k : ℚ) / 2 ^ (n + 1)) := fun k => ⟨k, rfl⟩
  refine ⟨⟨u * 2 ^ (n + 1), ?_⟩, g a, g b, ?_, ?_, ?_, ?_⟩
  · push_cast; field_simp
  · exact_mod_cast hu
  · exact_mod_cast ha
  · exact_mod_cast hb
  · exact_mod_cast hab

/-- C106: `hilbertvert` appends the middles of the `4^n` cells of the parallelogram spanned by
`(v0, v1)` and `(v2, v3)` at `u`, in the order of a walk that visits every cell once and only steps
between cells with a common side. The corners may have any size up to `m` with `m 2^(n+2) ≤ 2^53`. -/
theorem C106_hilbert (l : List (Int × Int)) {u v : Int × Int} {w : Int × Int} {n m : Nat} (hm : m * 2 ^ (n + 2) ≤ 2 ^ 53)
    (h1 : |u.1| ≤ m ∧ |u.1 + v.1| ≤ m ∧ |u.1 + w.1| ≤ m ∧ |u.1 + v.1 + w.1| ≤ m)
    (h2 : |u.2| ≤ m ∧ |u.2 + v.2| ≤ m ∧ |u.2 + w.2| ≤ m ∧ |u.2 + v.2 + w.2| ≤ m) :
    ∃ cells, Tour (2 ^ n) cells ∧ hilbertvert l u (v.1, v.2, w.1, w.2) n =
      l ++ cells.map fun c => (middle u.1 v.1 w.1 n c.1 c.2, middle u.2 v.2 w.2 n c.1 c.2) := by
  refine ⟨hcells n, hcells_tour n, ?_⟩
  unfold hilbertvert
  rw [Int.toNat_natCast]
  apply hilbertN_eq (M := n + 1) (R := (m : ℚ))
  · have : ((m * 2 ^ (n + 2) : Nat) : ℚ) ≤ ((2 ^ 53 : Nat) : ℚ) := by exact_mod_cast hm
    push_cast at this
    calc 2 * (m : ℚ) * 2 ^ (n + 1) = m * 2 ^ (n + 2) := by rw [pow_succ 2 (n + 1)]; ring
      _ ≤ _ := this
  · exact board_int h1.1 h1.2.1 h1.2.2.1 h1.2.2.2
  · exact board_int h2.1 h2.2.1 h2.2.2.1 h2.2.2.2

/-- C106: when the edges are multiples of `2^(n+1)`, no rounding is needed and the vertices are all
different. -/
theorem C106_exact (l : List (Int × Int)) {u v w : Int × Int} {n m : Nat} (hm : m * 2 ^ (n + 2) ≤ 2 ^ 53)
    {a b : Int × Int} (hv : v = (2 ^ (n + 1) * a.1, 2 ^ (n + 1) * a.2)) (hw : w = (2 ^ (n + 1) * b.1, 2 ^ (n + 1) * b.2))
    (h1 : |u.1| ≤ m ∧ |u.1 + v.1| ≤ m ∧ |u.1 + w.1| ≤ m ∧ |u.1 + v.1 + w.1| ≤ m)
    (h2 : |u.2| ≤ m ∧ |u.2 + v.2| ≤ m ∧ |u.2 + w.2| ≤ m ∧ |u.2 + v.2 + w.2| ≤ m) :
    ∃ cells, Tour (2 ^ n) cells ∧ hilbertvert l u (v.1, v.2, w.1, w.2) n =
      l ++ cells.map fun c => (u.1 + (2 * c.1 + 1) * a.1 + (2 * c.2 + 1) * b.1, u.2 + (2 * c.1 + 1) * a.2 + (2 * c.2 + 1) * b.2) := by
  obtain ⟨cells, t, e⟩ := C106_hilbert l hm h1 h2
  refine ⟨cells, t, ?_⟩
  rw [e]
  congr 1
  apply List.map_congr_left
  intro c _
  have key : ∀ u a b : Int, middle (u : ℚ) ((2 ^ (n + 1) * a : Int) : ℚ) ((2 ^ (n + 1) * b : Int) : ℚ) n c.1 c.2
      = u + (2 * c.1 + 1) * a + (2 * c.2 + 1) * b := by
    intro u a b
    unfold middle
    rw [← rnd_int (u + (2 * c.1 + 1) * a + (2 * c.2 + 1) * b)]
    congr 1
    push_cast
    field_simp
    ring
  subst hv hw
  rw [key, key]

/-- C106: with one edge along each axis, consecutive vertices lie on a common horizontal or vertical line,
whatever the rounding does. -/
theorem C106_axes {x y n m : Nat} (hm : m * 2 ^ (n + 2) ≤ 2 ^ 53) (hx : x ≤ m) (hy : y ≤ m) :
    (hilbertvert [] (0, 0) (x, 0, 0, y) n).IsChain (fun p q => p.1 = q.1 ∨ p.2 = q.2) ∧
    (hilbertvert [] (0, 0) (0, x, y, 0) n).IsChain (fun p q => p.1 = q.1 ∨ p.2 = q.2) := by
  have step : ∀ p q : Int × Int, Beside p q → p.1 = q.1 ∨ p.2 = q.2 := by
    rintro ⟨a, b⟩ ⟨c, d⟩ h
    simp only [Beside] at h ⊢
    by_contra hc
    rw [not_or] at hc
    have h1 : 0 < |a - c| := abs_pos.mpr (sub_ne_zero.mpr hc.1)
    have h2 : 0 < |b - d| := abs_pos.mpr (sub_ne_zero.mpr hc.2)
    omega
  constructor
  · obtain ⟨cells, t, e⟩ := C106_hilbert [] (u := (0, 0)) (v := ((x : Int), 0)) (w := (0, (y : Int))) (n := n) hm
      (by simp; omega) (by simp; omega)
    rw [e, List.nil_append, List.isChain_map]
    apply t.steps.imp
    rintro p q h
    rcases step p q h with h | h
    · left; simp [middle, h]
    · right; simp [middle, h]
  · obtain ⟨cells, t, e⟩ := C106_hilbert [] (u := (0, 0)) (v := (0, (x : Int))) (w := ((y : Int), 0)) (n := n) hm
      (by simp; omega) (by simp; omega)
    rw [e, List.nil_append, List.isChain_map]
    apply t.steps.imp
    rintro p q h
    rcases step p q h with h | h
    · right; simp [middle, h]
    · left; simp [middle, h]

example : hilbertvert [] (0, 0) (8, 0, 0, 8) 1 = [(2, 2), (6, 2), (6, 6), (2, 6)] := by decide +kernel
example : hilbertvert [] (0, 0) (5, 0, 0, 7) 1 = [(1, 2), (4, 2), (4, 5), (1, 5)] := by decide +kernel

end Verif.Props
