import Verif.Props.RetryEnds
/-! Property C203: exchanging calls and leaving them out, without exception of any number or depth. -/

namespace Verif.Props.Session
open Verif Spec Model Model.Run Verif.Props Verif.Props.Beyond Verif.Props.Far Verif.Props.Overlay Verif.Props.Abort

variable {b : Bytes} {W H bits : Nat}

/-- Specification: the two pixels of each byte that a slanted line in a negative number may change on a 4-bit image: those in its first
column, if that is odd, and their left neighbours. -/
def beside (W H : Nat) (f : Figure) (px py : Nat) : Prop :=
  match f with
  | .segment p q => clampTo p.1 W % 2 = 1 ∧ ((px : Int) = clampTo p.1 W ∨ (px : Int) + 1 = clampTo p.1 W) ∧
      py ∈ firstRows (clampTo p.1 W) (clampTo p.2 H) (clampTo q.1 W) (clampTo q.2 H)
  | _ => False

open Classical in
/-- Specification: the pixels that a call may change, for all calls. -/
noncomputable def reach (W H bits : Nat) (t : Figure × Int) (px py : Nat) : Prop :=
  if Adding W H bits t then beside W H t.1 px py else touched W H bits t px py

theorem spoil_outside {c : Int} {x : Nat} {ys : List Nat} {g : Nat → Nat → Nat} {px py : Nat}
    (h : ¬ ((px = x ∨ px + 1 = x) ∧ py ∈ ys)) : spoil c x ys g px py = g px py := by
  induction ys generalizing g with
  | nil => rfl
  | cons y ys ih =>
    rw [List.mem_cons] at h
    unfold spoil
    split_ifs
    · rfl
    · rw [ih (by tauto)]
      unfold borrow
      rw [if_neg (by tauto), if_neg (by tauto)]

theorem spoil_local {c : Int} {x : Nat} (hx : 0 < x) {Y : List Nat} (ys : List Nat) (hy : ∀ y ∈ ys, y ∈ Y) {g g' : Nat → Nat → Nat}
    (h : ∀ px py, (px = x ∨ px + 1 = x) → py ∈ Y → g px py = g' px py) {px py : Nat} (hp : px = x ∨ px + 1 = x) (hq : py ∈ Y) :
    spoil c x ys g px py = spoil c x ys g' px py := by
  induction ys generalizing g g' with
  | nil => exact h px py hp hq
  | cons y ys ih =>
    have e := h (x - 1) y (by omega) (hy y (by simp))
    unfold spoil
    rw [e]
    split_ifs
    · exact h px py hp hq
    · refine ih (fun z hz => hy z (by simp [hz])) fun qx qy h1 h2 => ?_
      unfold borrow
      rw [e, h qx qy h1 h2]

theorem effect_adding {p q : Int × Int} {c : Int} (ha : Adding W H bits (.segment p q, c)) :
    effect W H bits (.segment p q, c) = if clampTo p.1 W % 2 = 0 then id
      else spoil c (clampTo p.1 W).toNat (firstRows (clampTo p.1 W) (clampTo p.2 H) (clampTo q.1 W) (clampTo q.2 H)) := by
  obtain ⟨rfl, hc, sl⟩ := id ha
  dsimp only at hc
  funext g
  unfold effect shown
  dsimp only
  rw [if_neg (by omega), if_pos ⟨rfl, hc, sl⟩]
  split_ifs <;> rfl

theorem effect_outside (hW : 0 < W) {t : Figure × Int} {g : Nat → Nat → Nat} {px py : Nat} (h : ¬ reach W H bits t px py) :
    effect W H bits t g px py = g px py := by
  by_cases ha : Adding W H bits t
  · rw [reach, if_pos ha] at h
    obtain ⟨f, c⟩ := t
    cases f with
    | segment p q =>
      have hX : 0 ≤ clampTo p.1 W ∧ clampTo p.1 W < W := by unfold clampTo; omega
      rw [effect_adding ha]
      split_ifs with he
      · rfl
      · refine spoil_outside fun k => h ⟨by omega, ?_, k.2⟩
        have := k.1
        omega
    | _ => exact absurd ha id
  · rw [reach, if_neg ha] at h
    rw [effect_eq ha, if_neg h]

theorem effect_local (hH : 0 < H) {t : Figure × Int} {g g' : Nat → Nat → Nat}
    (h : ∀ px py, px < W → py < H → reach W H bits t px py → g px py = g' px py) {px py : Nat} (hpx : px < W) (hpy : py < H)
    (hr : reach W H bits t px py) : effect W H bits t g px py = effect W H bits t g' px py := by
  by_cases ha : Adding W H bits t
  · simp only [reach, if_pos ha] at h hr
    obtain ⟨f, c⟩ := t
    cases f with
    | segment p q =>
      have hX : 0 ≤ clampTo p.1 W ∧ clampTo p.1 W < W := by unfold clampTo; omega
      obtain ⟨-, -, sl⟩ := id ha
      obtain ⟨h1, h2, h3⟩ := hr
      rw [effect_adding ha, if_neg (by omega)]
      refine spoil_local (by omega) _ (fun _ k => k) (fun qx qy k1 k2 => ?_) (by omega) h3
      exact h qx qy (by omega) (firstRows_lt hH _ _ _ _ sl.1 sl.2 qy k2) ⟨h1, by omega, k2⟩
    | _ => exact absurd ha id
  · have e := h px py hpx hpy hr
    rw [effect_eq ha, effect_eq ha, e]

/-- **C203**: two calls whose pixels are different can be exchanged, for all figures that delete no bytes, all numbers and all depths. -/
theorem C203_order_all (h : Valid b W H bits) (hW : 0 < W) (hH : 0 < H) {k l : List (Figure × Int)} {s t : Figure × Int}
    (hk : ∀ u ∈ k, Safe W H bits u.1) (hs : Safe W H bits s.1) (ht : Safe W H bits t.1) (hl : ∀ u ∈ l, Safe W H bits u.1)
    (hd : ∀ px py, px < W → py < H → ¬ (reach W H bits s px py ∧ reach W H bits t px py)) :
    SamePicture W H bits (session (k ++ [s, t] ++ l) b) (session (k ++ [t, s] ++ l) b) := by
  refine same_of_effects h hW hH ?_ ?_ fun g px py hpx hpy => ?_
  · intro u hu
    simp only [List.mem_append, List.mem_cons, List.not_mem_nil, or_false] at hu
    rcases hu with (hu | rfl | rfl) | hu
    exacts [hk u hu, hs, ht, hl u hu]
  · intro u hu
    simp only [List.mem_append, List.mem_cons, List.not_mem_nil, or_false] at hu
    rcases hu with (hu | rfl | rfl) | hu
    exacts [hk u hu, ht, hs, hl u hu]
  · show effect W H bits t (effect W H bits s g) px py = effect W H bits s (effect W H bits t g) px py
    by_cases h1 : reach W H bits s px py
    · rw [effect_outside hW fun k => hd px py hpx hpy ⟨h1, k⟩]
      refine (effect_local hH (fun qx qy hqx hqy k => ?_) hpx hpy h1).symm
      exact effect_outside hW fun k' => hd qx qy hqx hqy ⟨k, k'⟩
    · rw [effect_outside hW h1]
      by_cases h2 : reach W H bits t px py
      · refine effect_local hH (fun qx qy hqx hqy k => ?_) hpx hpy h2
        exact effect_outside hW fun k' => hd qx qy hqx hqy ⟨k', k⟩
      · rw [effect_outside hW h2, effect_outside hW h2, effect_outside hW h1]

/-- **C203**: a call whose pixels are all drawn over by the next one, in a proper colour, can be left out, for all numbers and depths. -/
theorem C203_covered_all (h : Valid b W H bits) (hW : 0 < W) (hH : 0 < H) {k l : List (Figure × Int)} {s t : Figure × Int}
    (hk : ∀ u ∈ k, Safe W H bits u.1) (hs : Safe W H bits s.1) (ht : Safe W H bits t.1) (hl : ∀ u ∈ l, Safe W H bits u.1)
    (hc : IsColour bits t.2) (hd : ∀ px py, px < W → py < H → reach W H bits s px py → area W H bits t.1 px py) :
    SamePicture W H bits (session (k ++ [s, t] ++ l) b) (session (k ++ [t] ++ l) b) := by
  have hnt : ¬ Adding W H bits t := by
    obtain ⟨f, c⟩ := t
    cases f with
    | segment p q =>
      rintro ⟨-, k, -⟩
      unfold IsColour at hc
      dsimp only at hc k
      omega
    | _ => exact fun k => k
  have et : ∀ px py, touched W H bits t px py = area W H bits t.1 px py := fun px py => if_neg fun k => k.2 (k.1 ▸ hc)
  refine same_of_effects h hW hH ?_ ?_ fun g px py hpx hpy => ?_
  · intro u hu
    simp only [List.mem_append, List.mem_cons, List.not_mem_nil, or_false] at hu
    rcases hu with (hu | rfl | rfl) | hu
    exacts [hk u hu, hs, ht, hl u hu]
  · intro u hu
    simp only [List.mem_append, List.mem_cons, List.not_mem_nil, or_false] at hu
    rcases hu with (hu | rfl) | hu
    exacts [hk u hu, ht, hl u hu]
  · show effect W H bits t (effect W H bits s g) px py = effect W H bits t g px py
    rw [effect_eq hnt (effect W H bits s g), effect_eq hnt g]
    by_cases h2 : touched W H bits t px py
    · rw [if_pos h2, if_pos h2]
      exact ink_colour hc _ _
    · rw [if_neg h2, if_neg h2, effect_outside hW fun h1 => h2 ((et px py).symm ▸ hd px py hpx hpy h1)]

/-- The line from (1, 0) in the number -3 subtracts from the pixel at (0, 0). It can be exchanged with a point elsewhere, and left out before
a box that covers this pixel. -/
example : (do let b ← newBMP 4 2 4
              let p (l : List (Figure × Int)) : Py (List Int) := do pure ((← iterimagecolor (session ((.point 0 0, 9) :: l) b)).map Prod.snd)
              pure (← p [(.segment (1, 0) (3, 1), -3), (.point 2 0, 5)], ← p [(.point 2 0, 5), (.segment (1, 0) (3, 1), -3)],
                ← p [(.segment (1, 0) (3, 1), -3), (.box 0 0 1 1, 7)], ← p [(.box 0 0 1 1, 7)])) =
    .ok ([0, 0, 0, 0, 8, 13, 5, 0], [0, 0, 0, 0, 8, 13, 5, 0], [7, 7, 0, 0, 7, 7, 0, 0], [7, 7, 0, 0, 7, 7, 0, 0]) := by decide +kernel

end Verif.Props.Session
