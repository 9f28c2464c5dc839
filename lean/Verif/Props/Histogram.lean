import Verif.Model.Compare
import Verif.Props.Iterate
/-! The colour histogram. -/

namespace Verif.Props
open Spec Model

/-- Number of pixels of colour `c`. -/
def pixCount (b : Bytes) (W H bits c : Nat) : Nat :=
  ((List.range H).map fun y => (List.range W).countP fun x => pix b W H bits x y = c).sum

/-- The dictionary holds the counts of the colours of `l`. -/
structure Counts (d : List (Int × Nat)) (l : List Int) : Prop where
  nodup : (d.map (·.1)).Nodup
  mem : ∀ c n, (c, n) ∈ d ↔ 0 < n ∧ n = l.count c
  sum : (d.map (·.2)).sum = l.length

theorem countColor_keys (c k : Int) (d : List (Int × Nat)) :
    k ∈ (countColor c d).map (·.1) ↔ k = c ∨ k ∈ d.map (·.1) := by
  induction d with
  | nil => simp [countColor]
  | cons p d ih =>
    obtain ⟨q, n⟩ := p
    unfold countColor
    split_ifs with h
    · subst h; simp
    · simp only [List.map_cons, List.mem_cons, ih]; tauto

theorem countColor_nodup (c : Int) (d : List (Int × Nat)) (h : (d.map (·.1)).Nodup) :
    ((countColor c d).map (·.1)).Nodup := by
  induction d with
  | nil => simp [countColor]
  | cons p d ih =>
    obtain ⟨q, n⟩ := p
    rw [List.map_cons, List.nodup_cons] at h
    unfold countColor
    split_ifs with e
    · rw [List.map_cons, List.nodup_cons]; exact h
    · rw [List.map_cons, List.nodup_cons]
      refine ⟨?_, ih h.2⟩
      rw [countColor_keys]
      rintro (e' | e')
      · exact e e'
      · exact h.1 e'

theorem countColor_sum (c : Int) (d : List (Int × Nat)) :
    ((countColor c d).map (·.2)).sum = (d.map (·.2)).sum + 1 := by
  induction d with
  | nil => simp [countColor]
  | cons p d ih =>
    obtain ⟨q, n⟩ := p
    unfold countColor
    split_ifs
    · simp; omega
    · simp [ih]; omega

/-- The entries after one more colour. -/
theorem countColor_mem (c : Int) (d : List (Int × Nat)) (h : (d.map (·.1)).Nodup) (k : Int) (n : Nat) :
    (k, n) ∈ countColor c d ↔
      (k ≠ c ∧ (k, n) ∈ d) ∨ (k = c ∧ ((∃ m, (c, m) ∈ d ∧ n = m + 1) ∨ (c ∉ d.map (·.1) ∧ n = 1))) := by
  induction d with
  | nil => simp [countColor]
  | cons p d ih =>
    obtain ⟨q, m⟩ := p
    rw [List.map_cons, List.nodup_cons] at h
    unfold countColor
    dsimp only at h ⊢
    split_ifs with e
    · subst e
      simp only [List.mem_cons, Prod.mk.injEq, List.map_cons]
      by_cases hk : k = q
      · subst hk
        have hn : ∀ m', (k, m') ∉ d := fun m' hm => h.1 (List.mem_map.mpr ⟨_, hm, rfl⟩)
        simp [hn]
      · simp [hk]
    · simp only [List.mem_cons, Prod.mk.injEq, ih h.2, List.map_cons]
      have e' : ¬ c = q := fun hh => e hh.symm
      by_cases hk : k = q
      · subst hk
        have hn : ∀ m', (k, m') ∉ d := fun m' hm => h.1 (List.mem_map.mpr ⟨_, hm, rfl⟩)
        simp [hn, e]
      · simp [hk, e']

theorem Counts.step {d : List (Int × Nat)} {l : List Int} (h : Counts d l) (c : Int) :
    Counts (countColor c d) (l ++ [c]) where
  nodup := countColor_nodup c d h.nodup
  sum := by rw [countColor_sum, h.sum]; simp
  mem k n := by
    rw [countColor_mem c d h.nodup, List.count_append, h.mem]
    by_cases hk : k = c
    · subst hk
      simp only [ne_eq, not_true_eq_false, false_and, true_and, false_or, List.count_singleton_self]
      constructor
      · rintro (⟨m, hm, rfl⟩ | ⟨hm, rfl⟩)
        · have := (h.mem k m).mp hm
          omega
        · have : l.count k = 0 := by
            rcases Nat.eq_zero_or_pos (l.count k) with e | e
            · exact e
            · exact absurd (List.mem_map.mpr ⟨_, (h.mem k (l.count k)).mpr ⟨e, rfl⟩, rfl⟩) hm
          omega
      · rintro ⟨h1, h2⟩
        rcases Nat.eq_zero_or_pos (l.count k) with e | e
        · right
          refine ⟨?_, by omega⟩
          intro hm
          obtain ⟨⟨k', m⟩, hm', e2⟩ := List.mem_map.mp hm
          dsimp only at e2
          subst e2
          have := (h.mem k' m).mp hm'
          omega
        · left
          exact ⟨l.count k, (h.mem _ _).mpr ⟨e, rfl⟩, h2⟩
    · have : List.count k [c] = 0 := by
        rw [List.count_eq_zero]; simpa using hk
      simp [hk, this]

theorem counts_foldl {α : Type} (col : α → Int) (it : List α) : ∀ (d : List (Int × Nat)) (l : List Int), Counts d l →
    Counts (it.foldl (fun d v => countColor (col v) d) d) (l ++ it.map col) := by
  induction it with
  | nil => intro d l h; simpa using h
  | cons v it ih =>
    intro d l h
    have := ih _ _ (h.step (col v))
    simpa using this

theorem counts_nil : Counts [] [] where
  nodup := by simp
  mem c n := by simp; omega
  sum := rfl

/-- The colours of all pixels, counted. -/
theorem count_scan (W H : Nat) (f : Nat → Nat → Nat) (c : Nat) :
    ((scan W H fun x y => (f x y : Int)).map (·.2)).count (c : Int)
      = ((List.range H).map fun y => (List.range W).countP fun x => f x y = c).sum := by
  unfold scan scanRow
  rw [List.map_flatMap, List.count_flatMap, List.map_reverse, List.sum_reverse]
  congr 1
  apply List.map_congr_left
  intro y _
  simp only [Function.comp_apply, List.map_map, List.count, List.countP_map]
  apply List.countP_congr
  intro x _
  simp

theorem lexLe_trans (p q r : Nat × Int) (h1 : lexLe p q = true) (h2 : lexLe q r = true) : lexLe p r = true := by
  unfold lexLe at *
  rw [decide_eq_true_eq] at *
  omega

theorem lexLe_total (p q : Nat × Int) : (lexLe p q || lexLe q p) = true := by
  unfold lexLe
  rw [Bool.or_eq_true, decide_eq_true_eq, decide_eq_true_eq]
  omega

theorem insertLex_perm (p : Nat × Int) (l : List (Nat × Int)) : (insertLex p l).Perm (p :: l) := by
  induction l with
  | nil => exact List.Perm.refl _
  | cons q l ih =>
    unfold insertLex
    split_ifs
    · exact List.Perm.refl _
    · exact (ih.cons q).trans (List.Perm.swap p q l)

theorem sortLex_perm (l : List (Nat × Int)) : (sortLex l).Perm l := by
  induction l with
  | nil => exact List.Perm.refl _
  | cons p l ih => exact (insertLex_perm p _).trans (ih.cons p)

theorem insertLex_sorted (p : Nat × Int) (l : List (Nat × Int)) (h : l.Pairwise fun a b => lexLe a b = true) :
    (insertLex p l).Pairwise fun a b => lexLe a b = true := by
  induction l with
  | nil => simp [insertLex]
  | cons q l ih =>
    have h' := List.pairwise_cons.mp h
    unfold insertLex
    split_ifs with c
    · refine List.pairwise_cons.mpr ⟨?_, h⟩
      intro r hr
      rcases List.mem_cons.mp hr with rfl | hr
      · exact c
      · exact lexLe_trans p q r c (h'.1 r hr)
    · refine List.pairwise_cons.mpr ⟨?_, ih h'.2⟩
      intro r hr
      rcases List.mem_cons.mp ((insertLex_perm p l).mem_iff.mp hr) with rfl | hr
      · have := lexLe_total r q
        rw [Bool.or_eq_true] at this
        exact this.resolve_left c
      · exact h'.1 r hr

theorem sortLex_sorted (l : List (Nat × Int)) : (sortLex l).Pairwise fun a b => lexLe a b = true := by
  induction l with
  | nil => simp [sortLex]
  | cons p l ih => exact insertLex_sorted p _ ih

theorem perm_sum {l l' : List Nat} (h : l.Perm l') : l.sum = l'.sum := by
  induction h with
  | nil => rfl
  | cons _ _ ih => simp [ih]
  | swap _ _ _ => simp; omega
  | trans _ _ ih1 ih2 => exact ih1.trans ih2

theorem length_scan {α : Type} (W H : Nat) (f : Nat → Nat → α) : (scan W H f).length = W * H := by
  unfold scan scanRow
  simp [List.length_flatMap, Nat.mul_comm]

/-- C51: `(n, c)` is listed exactly when `n > 0` pixels have the colour `c`; every colour is listed
once, the counts descend and sum up to the number of pixels. -/
theorem C51_colorhistogram {b : Bytes} {W H bits : Nat} (h : Valid b W H bits) :
    ∃ l, colorhistogram b = .ok l ∧
      (∀ n c : Nat, (n, (c : Int)) ∈ l ↔ 0 < n ∧ n = pixCount b W H bits c) ∧
      (∀ p ∈ l, 0 ≤ p.2) ∧ (l.map (·.2)).Nodup ∧ l.Pairwise (fun p q => p.1 ≥ q.1) ∧
      (l.map (·.1)).sum = W * H := by
  have hc := counts_foldl (fun v : (Int × Int) × Int => v.2) (scan W H fun x y => (pix b W H bits x y : Int)) [] []
    counts_nil
  rw [List.nil_append] at hc
  unfold colorhistogram
  rw [C38_iterimagecolor h]
  simp only [ok_bind, pure_eq_ok]
  refine ⟨_, rfl, ?_⟩
  generalize List.foldl (fun d (v : (Int × Int) × Int) => countColor v.2 d) []
    (scan W H fun x y => (pix b W H bits x y : Int)) = d at *
  have hperm : (dict2descorderlist d).Perm (d.map fun p => (p.2, p.1)) := by
    unfold dict2descorderlist
    exact (List.reverse_perm _).trans (sortLex_perm _)
  have hmem : ∀ n c, (n, c) ∈ dict2descorderlist d ↔ (c, n) ∈ d := by
    intro n c
    rw [hperm.mem_iff]
    simp
  refine ⟨?_, ?_, ?_, ?_, ?_⟩
  · intro n c
    rw [hmem, hc.mem, count_scan]
    rfl
  · rintro ⟨n, c⟩ hp
    have h1 := (hc.mem c n).mp ((hmem n c).mp hp)
    have h2 : c ∈ (scan W H fun x y => (pix b W H bits x y : Int)).map (·.2) := by
      apply List.count_pos_iff.mp
      omega
    obtain ⟨⟨q, v⟩, hq, rfl⟩ := List.mem_map.mp h2
    unfold scan scanRow at hq
    rw [List.mem_flatMap] at hq
    obtain ⟨y, _, hq⟩ := hq
    obtain ⟨x, _, hq⟩ := List.mem_map.mp hq
    simp only [Prod.mk.injEq] at hq
    dsimp only
    rw [← hq.2]
    omega
  · have := (hperm.map (fun p : Nat × Int => p.2)).nodup_iff
    rw [this, List.map_map]
    exact hc.nodup
  · unfold dict2descorderlist
    rw [List.pairwise_reverse]
    have := sortLex_sorted (d.map fun p => (p.2, p.1))
    apply this.imp
    intro p q hpq
    unfold lexLe at hpq
    rw [decide_eq_true_eq] at hpq
    omega
  · rw [perm_sum (hperm.map (fun p : Nat × Int => p.1)), List.map_map]
    have := hc.sum
    rw [List.length_map, length_scan] at this
    exact this

example : (do let b ← newBMP 3 2 4; let b ← plotxybit b 1 0 9; let b ← plotxybit b 2 1 9; let b ← plotxybit b 0 1 5
              colorhistogram b) = .ok [(3, 0), (2, 9), (1, 5)] := by decide +kernel

end Verif.Props
