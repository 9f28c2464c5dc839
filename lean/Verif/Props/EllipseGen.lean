import Verif.Model.Shapes
import Mathlib.Tactic.Ring
import Mathlib.Tactic.Linarith
import Mathlib.Tactic.SplitIfs
/-! Property C97: the points that `iterellipsepart` produces for a quarter of an ellipse. -/

namespace Verif.Props
open Verif Model

theorem isChain_cons' {R : Int × Int → Int × Int → Prop} {a : Int × Int} {l : List (Int × Int)} :
    List.IsChain R (a :: l) ↔ (∀ p ∈ l.head?, R a p) ∧ List.IsChain R l := by
  cases l with
  | nil => simp
  | cons c l => simp

/-- In column `c` the ellipse `b²x² + a²y² = a²b²` passes between the rows next to `w`: the mean of
`b²x² + a²y²` over `w - 1` and `w` is below, over `w` and `w + 1` it is not. -/
def NearE (b a c w : Int) : Prop :=
  b ^ 2 * c ^ 2 + a ^ 2 * w ^ 2 + (b ^ 2 * c ^ 2 + a ^ 2 * (w - 1) ^ 2) < 2 * (a ^ 2 * b ^ 2) ∧
  2 * (a ^ 2 * b ^ 2) ≤ b ^ 2 * c ^ 2 + a ^ 2 * w ^ 2 + (b ^ 2 * c ^ 2 + a ^ 2 * (w + 1) ^ 2)

/-- One pixel to the right, down, or both. -/
def EStep (p q : Int × Int) : Prop :=
  (q.1 = p.1 ∨ q.1 = p.1 + 1) ∧ (q.2 = p.2 ∨ q.2 = p.2 - 1) ∧ q ≠ p

theorem shl1 (v : Int) : pyShl v 1 = 2 * v := by simp [pyShl]; ring
theorem shl2 (v : Int) : pyShl v 2 = 4 * v := by simp [pyShl]; ring

section
variable {A B : Int}

/-- The lower and the upper half of `NearE` for `A = a²`, `B = b²`. -/
def LoE (A B c w : Int) : Prop := A * (2 * w * w - 2 * w + 1) + 2 * B * (c * c) < 2 * A * B
def UpE (A B c w : Int) : Prop := 2 * A * B ≤ A * (2 * w * w + 2 * w + 1) + 2 * B * (c * c)

theorem near_iff (b a c w : Int) : NearE b a c w ↔ LoE (a * a) (b * b) c w ∧ UpE (a * a) (b * b) c w := by
  unfold NearE LoE UpE
  constructor <;> rintro ⟨g1, g2⟩ <;> constructor <;> nlinarith

/-- The value of `d` in the first loop. -/
def dE (A B c w : Int) : Int := A * (2 * w * w - 2 * w + 1) + 2 * B * ((c + 1) * (c + 1)) - 2 * A * B

theorem w_le {row w : Int} (hr : 0 ≤ row) (hw : 0 ≤ w) (h : w * (w - 1) < row * (row + 1)) : w ≤ row := by
  by_contra g
  have h1 : 0 ≤ w - row - 1 := by omega
  have h2 : 0 ≤ w + row := by omega
  nlinarith [mul_nonneg h1 h2]

theorem loop1_spec (hA : 0 < A) (hB : 0 < B) : ∀ (n : Nat) (row col d : Int), d = dE A B col row → 0 ≤ col → 0 ≤ row → (0 < col ∨ 1 ≤ row) →
    UpE A B col row → (row * A ≥ col * B → LoE A B col row) → row * A - col * B < n →
    (∀ c w, (c, w) ∈ (ellLoop1 A B n row col d).1 ↔ col ≤ c ∧ c * B ≤ w * A ∧ LoE A B c w ∧ UpE A B c w) ∧
    0 ≤ (ellLoop1 A B n row col d).2.1 ∧ (ellLoop1 A B n row col d).2.1 ≤ row ∧
    0 ≤ (ellLoop1 A B n row col d).2.2 ∧
    (ellLoop1 A B n row col d).2.1 * A < (ellLoop1 A B n row col d).2.2 * B := by
  have stop : ∀ row col : Int, 0 ≤ col → 0 ≤ row → UpE A B col row → row * A < col * B →
      ∀ c w, (c, w) ∈ ([] : List (Int × Int)) ↔ col ≤ c ∧ c * B ≤ w * A ∧ LoE A B c w ∧ UpE A B c w := by
    intro row col hc hr hu hlt c w
    refine ⟨fun g => absurd g (by simp), ?_⟩
    rintro ⟨g1, g2, g3, _⟩
    exfalso
    have hw : 0 ≤ w := by
      by_contra g
      have : w * A < 0 := by nlinarith
      have : 0 ≤ c * B := by apply mul_nonneg <;> omega
      omega
    have hcc : col * col ≤ c * c := by nlinarith
    have : w ≤ row := by
      apply w_le (by omega) hw
      unfold LoE at g3; unfold UpE at hu
      have h1 : 2 * B * (col * col) ≤ 2 * B * (c * c) := by nlinarith
      have h2 : A * (2 * w * w - 2 * w + 1) < A * (2 * row * row + 2 * row + 1) := by omega
      have h3 := lt_of_mul_lt_mul_left h2 hA.le
      nlinarith
    have : w * A ≤ row * A := by nlinarith
    have : col * B ≤ c * B := by nlinarith
    omega
  intro n
  induction n with
  | zero =>
    intro row col d _ hc hr _ hu _ hn
    exact ⟨stop row col hc hr hu (by push_cast at hn; omega), hr, le_rfl, hc, by
      show row * A < col * B; push_cast at hn; omega⟩
  | succ n ih =>
    intro row col d hd hc hr hs hu hl hn
    by_cases hcond : row * A ≥ col * B
    · have hlo := hl hcond
      have hrow : 1 ≤ row := by
        rcases hs with g | g
        · have : 0 < col * B := by positivity
          by_contra g'
          have : row * A ≤ 0 := by nlinarith
          omega
        · exact g
      have e0 : ellLoop1 A B (n + 1) row col d =
          (((col, row) :: (ellLoop1 A B n (if d ≥ 0 then row - 1 else row) (col + 1)
              ((if d ≥ 0 then d - 4 * A * (row - 1) else d) + 2 * B * (3 + 2 * col))).1),
            (ellLoop1 A B n (if d ≥ 0 then row - 1 else row) (col + 1)
              ((if d ≥ 0 then d - 4 * A * (row - 1) else d) + 2 * B * (3 + 2 * col))).2) := by
        rw [ellLoop1, if_pos hcond]
        simp only [shl1, shl2]
        split_ifs <;> rfl
      rw [e0]
      have main := ih (if d ≥ 0 then row - 1 else row) (col + 1)
        ((if d ≥ 0 then d - 4 * A * (row - 1) else d) + 2 * B * (3 + 2 * col))
        (by rw [hd]; unfold dE; split_ifs <;> ring) (by omega) (by split_ifs <;> omega) (by omega)
        (by
          unfold UpE at hu ⊢; unfold dE at hd
          split_ifs with g
          · nlinarith
          · nlinarith)
        (by
          unfold LoE at hlo ⊢; unfold dE at hd
          split_ifs with g
          · intro g'; nlinarith
          · intro _; nlinarith)
        (by
          have : (if d ≥ 0 then row - 1 else row) * A ≤ row * A := by
            apply mul_le_mul_of_nonneg_right _ hA.le; split_ifs <;> omega
          push_cast at hn
          nlinarith)
      refine ⟨?_, main.2.1, le_trans main.2.2.1 (by split_ifs <;> omega), main.2.2.2⟩
      intro c w
      rw [List.mem_cons, main.1 c w, Prod.mk.injEq]
      constructor
      · rintro (⟨rfl, rfl⟩ | ⟨g1, g2⟩)
        · exact ⟨le_rfl, hcond, hlo, hu⟩
        · exact ⟨by omega, g2⟩
      · rintro ⟨g1, g2, g3, g4⟩
        by_cases hcc : c = col
        · subst hcc
          left
          have hw : 0 ≤ w := by
            by_contra g
            have : w * A < 0 := by nlinarith
            have : 0 ≤ c * B := by apply mul_nonneg <;> omega
            omega
          have a1 : w ≤ row := by
            apply w_le (by omega) hw
            unfold LoE at g3; unfold UpE at hu
            have h2 : A * (2 * w * w - 2 * w + 1) < A * (2 * row * row + 2 * row + 1) := by omega
            have h3 := lt_of_mul_lt_mul_left h2 hA.le
            nlinarith
          have a2 : row ≤ w := by
            apply w_le (by omega) (by omega)
            unfold LoE at hlo; unfold UpE at g4
            have h2 : A * (2 * row * row - 2 * row + 1) < A * (2 * w * w + 2 * w + 1) := by omega
            have h3 := lt_of_mul_lt_mul_left h2 hA.le
            nlinarith
          exact ⟨rfl, by omega⟩
        · right; exact ⟨by omega, g2, g3, g4⟩
    · have e0 : ellLoop1 A B (n + 1) row col d = ([], (row, col)) := by rw [ellLoop1, if_neg hcond]
      rw [e0]
      exact ⟨stop row col hc hr hu (by omega), hr, le_rfl, hc, by show row * A < col * B; omega⟩

theorem loop2_spec : ∀ (n : Nat) (row col d : Int), n = (row + 1).toNat →
    (∀ p ∈ ellLoop2 A B n row col d, col ≤ p.1 ∧ 0 ≤ p.2 ∧ p.2 ≤ row) ∧
    (∀ w, 0 ≤ w → w ≤ row → ∃ c, (c, w) ∈ ellLoop2 A B n row col d) ∧
    List.IsChain EStep (ellLoop2 A B n row col d) ∧
    (∀ p ∈ (ellLoop2 A B n row col d).head?, p = (col, row)) ∧
    (∀ p ∈ (ellLoop2 A B n row col d).getLast?, p.2 = 0) ∧
    (ellLoop2 A B n row col d = [] ↔ row < 0) := by
  intro n
  induction n with
  | zero =>
    intro row col d hn
    refine ⟨by simp [ellLoop2], fun w _ _ => by omega, by simp [ellLoop2], by simp [ellLoop2], by simp [ellLoop2], ?_⟩
    simp only [ellLoop2, true_iff]; omega
  | succ n ih =>
    intro row col d hn
    have hrow : row > -1 := by omega
    rw [ellLoop2, if_pos hrow]
    dsimp only
    set col' := (if d ≥ 0 then (col + 1, d - pyShl B 2 * (col + 1)) else (col, d)).1 with hcol
    set d' := (if d ≥ 0 then (col + 1, d - pyShl B 2 * (col + 1)) else (col, d)).2 + pyShl A 1 * (3 + pyShl row 1)
    have hc : col' = col ∨ col' = col + 1 := by rw [hcol]; split_ifs <;> simp
    obtain ⟨i1, i2, i3, i4, i5, i6⟩ := ih (row - 1) col' d' (by omega)
    refine ⟨?_, ?_, ?_, ?_, ?_, ?_⟩
    · intro p hp
      rcases List.mem_cons.mp hp with rfl | hp
      · exact ⟨le_rfl, by show 0 ≤ row; omega, le_rfl⟩
      · have := i1 p hp; omega
    · intro w w0 w1
      by_cases g : w = row
      · exact ⟨col, by rw [g]; exact List.mem_cons_self⟩
      · obtain ⟨c, hm⟩ := i2 w w0 (by omega)
        exact ⟨c, List.mem_cons_of_mem _ hm⟩
    · rw [isChain_cons']
      refine ⟨fun p hp => ?_, i3⟩
      rw [i4 p hp]
      refine ⟨hc, Or.inr rfl, ?_⟩
      intro g; have := congrArg Prod.snd g; simp at this
    · intro p hp; simpa using hp.symm
    · intro p hp
      rw [List.getLast?_cons] at hp
      cases hl : (ellLoop2 A B n (row - 1) col' d').getLast? with
      | none =>
        rw [hl] at hp
        have : row - 1 < 0 := i6.mp (List.getLast?_eq_none_iff.mp hl)
        simp at hp; rw [← hp]; show row = 0; omega
      | some q =>
        rw [hl] at hp; simp at hp; rw [← hp]; exact i5 q hl
    · simp; omega

theorem loop1_chain : ∀ (n : Nat) (row col d : Int) (R : List (Int × Int)), List.IsChain EStep R →
    (∀ p ∈ R.head?, p = ((ellLoop1 A B n row col d).2.2, (ellLoop1 A B n row col d).2.1)) →
    List.IsChain EStep ((ellLoop1 A B n row col d).1 ++ R) ∧
    (∀ p ∈ ((ellLoop1 A B n row col d).1 ++ R).head?, p = (col, row)) := by
  intro n
  induction n with
  | zero => intro row col d R hR hh; exact ⟨hR, hh⟩
  | succ n ih =>
    intro row col d R hR hh
    by_cases hcond : row * A ≥ col * B
    · rw [ellLoop1, if_pos hcond] at hh ⊢
      dsimp only at hh ⊢
      obtain ⟨c1, c2⟩ := ih _ _ _ R hR hh
      refine ⟨?_, ?_⟩
      · rw [List.cons_append, isChain_cons']
        refine ⟨fun p hp => ?_, c1⟩
        rw [c2 p hp]
        refine ⟨Or.inr rfl, ?_, ?_⟩
        · dsimp only; split_ifs <;> simp
        · intro g; have := congrArg Prod.fst g; simp at this
      · intro p hp; simpa using hp.symm
    · rw [ellLoop1, if_neg hcond] at hh ⊢
      exact ⟨hR, hh⟩
end

/-- The list is the two loops; facts at the point where they meet. -/
theorem part_eq {b a : Int} (hb : 1 ≤ b) (ha : a ≠ 0) :
    ∃ L row col d, iterellipsepart b a = L ++ ellLoop2 (a * a) (b * b) (row + 1).toNat row col d ∧
      (∀ c w, (c, w) ∈ L ↔ 0 ≤ c ∧ c * (b * b) ≤ w * (a * a) ∧ NearE b a c w) ∧
      0 ≤ row ∧ row ≤ b ∧ 0 ≤ col ∧ row * (a * a) < col * (b * b) ∧
      List.IsChain EStep (iterellipsepart b a) ∧ ∀ p ∈ (iterellipsepart b a).head?, p = (0, b) := by
  have hA : 0 < a * a := mul_self_pos.mpr ha
  have hB : 0 < b * b := by positivity
  have habs : (b.natAbs : Int) = b := by omega
  have hN : (((a * a) * (b.natAbs : Int) + 2).toNat : Int) = a * a * b + 2 := by
    rw [habs]; exact Int.toNat_of_nonneg (by positivity)
  have hd : pyShl (a * a) 1 * ((b - 1) * b) + a * a + pyShl (b * b) 1 * (1 - a * a) = dE (a * a) (b * b) 0 b := by
    unfold dE; rw [shl1, shl1]; ring
  obtain ⟨s1, s2, s3, s4, s5⟩ := loop1_spec hA hB ((a * a) * (b.natAbs : Int) + 2).toNat b 0 _ hd le_rfl (by omega) (by omega)
    (by unfold UpE; nlinarith) (by intro _; unfold LoE; nlinarith) (by rw [hN]; nlinarith)
  have key : ∀ r, r = ellLoop1 (a * a) (b * b) ((a * a) * (b.natAbs : Int) + 2).toNat b 0
      (pyShl (a * a) 1 * ((b - 1) * b) + a * a + pyShl (b * b) 1 * (1 - a * a)) →
      ∃ d, iterellipsepart b a = r.1 ++ ellLoop2 (a * a) (b * b) (r.2.1 + 1).toNat r.2.1 r.2.2 d := by
    rintro r rfl; exact ⟨_, rfl⟩
  obtain ⟨d, e⟩ := key _ rfl
  obtain ⟨_, _, t3, t4, _, _⟩ := loop2_spec (A := a * a) (B := b * b) _ (ellLoop1 (a * a) (b * b)
    ((a * a) * (b.natAbs : Int) + 2).toNat b 0
      (pyShl (a * a) 1 * ((b - 1) * b) + a * a + pyShl (b * b) 1 * (1 - a * a))).2.1 (ellLoop1 (a * a) (b * b)
    ((a * a) * (b.natAbs : Int) + 2).toNat b 0
      (pyShl (a * a) 1 * ((b - 1) * b) + a * a + pyShl (b * b) 1 * (1 - a * a))).2.2 d rfl
  obtain ⟨c1, c2⟩ := loop1_chain (A := a * a) (B := b * b) ((a * a) * (b.natAbs : Int) + 2).toNat b 0
    (pyShl (a * a) 1 * ((b - 1) * b) + a * a + pyShl (b * b) 1 * (1 - a * a)) _ t3 t4
  refine ⟨_, _, _, d, e, ?_, s2, s3, s4, s5, ?_, ?_⟩
  · intro c w; rw [near_iff]; exact s1 c w
  · rw [e]; exact c1
  · rw [e]; exact c2

/-- C97, the flat part: where the ellipse is at most as steep as a diagonal, `iterellipsepart` gives
exactly the pixel nearest to the ellipse in every column. Missing: the steep part, which is wrong
(`C97_reach_wrong`). -/
theorem C97_flat_partial {b a : Int} (hb : 1 ≤ b) (ha : a ≠ 0) {c w : Int} (hc : 0 ≤ c) (hflat : c * b ^ 2 ≤ w * a ^ 2) :
    (c, w) ∈ iterellipsepart b a ↔ NearE b a c w := by
  obtain ⟨L, row, col, d, e, hL, h1, h2, h3, h4, _⟩ := part_eq hb ha
  rw [pow_two, pow_two] at hflat
  rw [e, List.mem_append, hL]
  constructor
  · rintro (g | g)
    · exact g.2.2
    · exfalso
      obtain ⟨g1, g2, g3⟩ := (loop2_spec (A := a * a) (B := b * b) _ row col d rfl).1 _ g
      simp only at g1 g2 g3
      have hA : 0 < a * a := mul_self_pos.mpr ha
      have hB : 0 < b * b := by positivity
      have : w * (a * a) ≤ row * (a * a) := by nlinarith
      have : col * (b * b) ≤ c * (b * b) := by nlinarith
      omega
  · intro g; exact Or.inl ⟨hc, hflat, g⟩

/-- C97, the whole list: it begins at the top `(0, b)`, goes one pixel right, down or both at a time,
and ends on the axis. -/
theorem C97_path {b a : Int} (hb : 1 ≤ b) (ha : a ≠ 0) :
    (iterellipsepart b a).head? = some (0, b) ∧ List.IsChain EStep (iterellipsepart b a) ∧
    ∀ p ∈ (iterellipsepart b a).getLast?, p.2 = 0 := by
  obtain ⟨L, row, col, d, e, hL, h1, h2, h3, h4, h5, h6⟩ := part_eq hb ha
  obtain ⟨_, _, _, _, t5, t6⟩ := loop2_spec (A := a * a) (B := b * b) _ row col d rfl
  refine ⟨?_, h5, fun p hp => ?_⟩
  swap
  · have hne : ellLoop2 (a * a) (b * b) (row + 1).toNat row col d ≠ [] := fun g => by have := t6.mp g; omega
    rw [e, List.getLast?_append, Option.or_of_isSome (by simpa using hne)] at hp
    exact t5 p hp
  have hm : (0, b) ∈ iterellipsepart b a := by
    rw [e, List.mem_append, hL]
    left
    have hA : 0 < a * a := mul_self_pos.mpr ha
    refine ⟨le_rfl, by nlinarith, ?_⟩
    rw [near_iff]; unfold LoE UpE
    have hB : 0 < b * b := by positivity
    constructor <;> nlinarith
  cases hh : (iterellipsepart b a).head? with
  | none => rw [List.head?_eq_none_iff.mp hh] at hm; simp at hm
  | some p => rw [h6 p hh]

theorem chain_mono {l : List (Int × Int)} (h : List.IsChain EStep l) :
    ∀ p ∈ l.head?, ∀ q ∈ l, p.1 ≤ q.1 ∧ q.2 ≤ p.2 := by
  induction l with
  | nil => simp
  | cons a l ih =>
    intro p hp q hq
    have hp' : a = p := by simpa using hp
    subst hp'
    rcases List.mem_cons.mp hq with rfl | hq
    · exact ⟨le_rfl, le_rfl⟩
    · rw [isChain_cons'] at h
      cases l with
      | nil => simp at hq
      | cons c l =>
        have h1 := h.1 c rfl
        have h2 := ih h.2 c rfl q hq
        unfold EStep at h1
        omega

/-- C97: every point lies in the quarter plane and in the rows of the ellipse, and every row has one. -/
theorem C97_rows {b a : Int} (hb : 1 ≤ b) (ha : a ≠ 0) :
    (∀ p ∈ iterellipsepart b a, 0 ≤ p.1 ∧ 0 ≤ p.2 ∧ p.2 ≤ b) ∧
    ∀ w, 0 ≤ w → w ≤ b → ∃ c, (c, w) ∈ iterellipsepart b a := by
  obtain ⟨L, row, col, d, e, hL, h1, h2, h3, h4, h5, h6⟩ := part_eq hb ha
  obtain ⟨t1, t2, _, t4, _, t6⟩ := loop2_spec (A := a * a) (B := b * b) _ row col d rfl
  obtain ⟨hhead, _, hend⟩ := C97_path hb ha
  have hlow : ∀ p ∈ iterellipsepart b a, 0 ≤ p.2 := by
    intro p hp
    rw [e, List.mem_append] at hp
    rcases hp with hp | hp
    · obtain ⟨g1, g2, _⟩ := (hL p.1 p.2).mp hp
      have hA : 0 < a * a := mul_self_pos.mpr ha
      have hB : 0 ≤ p.1 * (b * b) := by positivity
      by_contra g
      have : p.2 * (a * a) < 0 := by nlinarith
      omega
    · exact (t1 p hp).2.1
  refine ⟨fun p hp => ?_, fun w w0 w1 => ?_⟩
  · have := chain_mono h5 (0, b) hhead p hp
    have := hlow p hp
    simp only at *
    omega
  · -- rows of a chain from `b` down to a last row `≤ 0` are all visited
    have walk : ∀ l : List (Int × Int), List.IsChain EStep l → ∀ p q, l.head? = some p → l.getLast? = some q →
        q.2 ≤ w → w ≤ p.2 → ∃ c, (c, w) ∈ l := by
      intro l
      induction l with
      | nil => intro _ p q hp; simp at hp
      | cons x l ih =>
        intro hch p q hp hq g1 g2
        have hp' : x = p := by simpa using hp
        subst hp'
        by_cases g : w = x.2
        · exact ⟨x.1, by rw [g]; exact List.mem_cons_self⟩
        · cases l with
          | nil => simp at hq; subst hq; omega
          | cons y l =>
            rw [isChain_cons'] at hch
            have hs := hch.1 y rfl
            unfold EStep at hs
            obtain ⟨c, hm⟩ := ih hch.2 y q rfl (by simpa using hq) g1 (by omega)
            exact ⟨c, List.mem_cons_of_mem _ hm⟩
    by_cases g : w ≤ row
    · obtain ⟨c, hm⟩ := t2 w w0 g
      exact ⟨c, by rw [e]; exact List.mem_append_right _ hm⟩
    · -- the first loop reaches the row where it stops
      cases hlast : (iterellipsepart b a).getLast? with
      | none => rw [List.getLast?_eq_none_iff.mp hlast] at hhead; simp at hhead
      | some q =>
        refine walk _ h5 (0, b) q hhead hlast ?_ w1
        have := hend q hlast
        omega

/-- C97 is false for the steep part: the quarter of the circle of radius 4 reaches column 5, and the
ellipse with half axes 1 and 30 ends at column 22. -/
theorem C97_reach_wrong : (5, 0) ∈ iterellipsepart 4 4 ∧ (4, 0) ∉ iterellipsepart 4 4 ∧
    (∀ p ∈ iterellipsepart 1 30, p.1 ≤ 22) ∧ NearE 4 4 0 4 := by
  refine ⟨by decide +kernel, by decide +kernel, by decide +kernel, ?_⟩
  unfold NearE; decide

/-- C97: for half axes 0 and 0 the first loop never ends: after any number of rounds it has produced
as many points. -/
theorem C97_endless (n : Nat) (row col d : Int) : (ellLoop1 0 0 n row col d).1.length = n := by
  induction n generalizing row col d with
  | zero => rfl
  | succ n ih =>
    rw [ellLoop1, if_pos (by simp)]
    simp [ih]

example : iterellipsepart 3 6 = [(0, 3), (1, 3), (2, 3), (3, 3), (4, 2), (5, 2), (6, 1), (6, 0)] := by decide +kernel

end Verif.Props
