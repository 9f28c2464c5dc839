import Verif.Props.NegativeExact
/-! Property C203: repeating a drawing call and exchanging two of them, whether they raise exceptions or not. -/

namespace Verif.Props.Session
open Verif Spec Model Model.Run Verif.Props Verif.Props.Beyond Verif.Props.Far Verif.Props.Overlay Verif.Props.Abort

variable {b b' : Bytes} {W H bits : Nat}

/-- Specification: the calls that add a negative number to bytes of a 4-bit image (C200). -/
def Adding (W H bits : Nat) (t : Figure × Int) : Prop :=
  match t.1 with
  | .segment p q => bits = 4 ∧ t.2 < 0 ∧ Slanted W H p q
  | _ => False

open Classical in
/-- Specification: the pixels that a call may change. -/
noncomputable def touched (W H bits : Nat) (t : Figure × Int) (px py : Nat) : Prop :=
  if bits = 24 ∧ ¬ IsColour 24 t.2 then stain W H t.1 px py else area W H bits t.1 px py

open Classical in
/-- Specification: the colour that such a pixel gets from the colour it had. -/
noncomputable def ink (W H bits : Nat) (t : Figure × Int) (v : Nat) : Nat :=
  if bits = 24 then (if IsColour 24 t.2 then t.2.toNat else v / 65536 * 65536 + (t.2 % 65536).toNat)
  else (shade W H bits t.1 t.2).getD v

theorem ink_twice (t : Figure × Int) (v : Nat) : ink W H bits t (ink W H bits t v) = ink W H bits t v := by
  unfold ink
  split_ifs
  · rfl
  · omega
  · cases shade W H bits t.1 t.2 <;> rfl

/-- Specification of a call on images of all depths. -/
noncomputable def effect (W H bits : Nat) (t : Figure × Int) (g : Nat → Nat → Nat) : Nat → Nat → Nat :=
  if bits = 24 then after W H t g else shown W H bits t g

open Classical in
theorem effect_eq {t : Figure × Int} (ht : ¬ Adding W H bits t) (g : Nat → Nat → Nat) (px py : Nat) :
    effect W H bits t g px py = if touched W H bits t px py then ink W H bits t (g px py) else g px py := by
  by_cases h24 : bits = 24
  · subst h24
    unfold effect ink
    rw [if_pos rfl, if_pos rfl]
    unfold after
    by_cases hc : IsColour 24 t.2
    · have e : touched W H 24 t px py = area W H 24 t.1 px py := if_neg fun k => k.2 hc
      rw [if_pos hc, if_pos hc, e]
    · have e : touched W H 24 t px py = stain W H t.1 px py := if_pos ⟨rfl, hc⟩
      rw [if_neg hc, if_neg hc, e]
  · have e : touched W H bits t px py = area W H bits t.1 px py := if_neg fun k => h24 k.1
    unfold effect ink
    rw [if_neg h24, if_neg h24, e]
    have e : shown W H bits t g = coloured W H bits t g := by
      obtain ⟨f, c⟩ := t
      cases f with
      | segment p q =>
        unfold shown
        exact if_neg ht
      | _ => rfl
    rw [e]
    unfold coloured
    cases shade W H bits t.1 t.2 with
    | none => simp
    | some c => rfl

theorem effect_congr (hH : 0 < H) {t : Figure × Int} {g g' : Nat → Nat → Nat} (h : ∀ px py, px < W → py < H → g px py = g' px py)
    {px py : Nat} (hpx : px < W) (hpy : py < H) : effect W H bits t g px py = effect W H bits t g' px py := by
  unfold effect
  split_ifs
  · exact after_congr (h px py hpx hpy)
  · exact shown_congr hH h hpx hpy

theorem effects_congr (hH : 0 < H) (l : List (Figure × Int)) {g g' : Nat → Nat → Nat} (h : ∀ px py, px < W → py < H → g px py = g' px py)
    {px py : Nat} (hpx : px < W) (hpy : py < H) :
    l.foldl (fun g t => effect W H bits t g) g px py = l.foldl (fun g t => effect W H bits t g) g' px py := by
  induction l generalizing g g' with
  | nil => exact h px py hpx hpy
  | cons t l ih => exact ih fun qx qy hqx hqy => effect_congr hH h hqx hqy

theorem session_effect (h : Valid b W H bits) (hW : 0 < W) (hH : 0 < H) {l : List (Figure × Int)} (hl : ∀ t ∈ l, Safe W H bits t.1) :
    Redraws b (session l b) W H bits (l.foldl (fun g t => effect W H bits t g) (pix b W H bits)) := by
  by_cases h24 : bits = 24
  · subst h24
    have := C202_session h hW hH hl
    unfold effect
    simpa using this
  · have := C202_palette h h24 hW hH hl
    unfold effect
    simpa only [if_neg h24] using this

theorem same_of_effects (h : Valid b W H bits) (hW : 0 < W) (hH : 0 < H) {k m m' l : List (Figure × Int)}
    (hl : ∀ t ∈ k ++ m ++ l, Safe W H bits t.1) (hl' : ∀ t ∈ k ++ m' ++ l, Safe W H bits t.1)
    (e : ∀ (g : Nat → Nat → Nat) (px py : Nat), px < W → py < H →
      m.foldl (fun g t => effect W H bits t g) g px py = m'.foldl (fun g t => effect W H bits t g) g px py) :
    SamePicture W H bits (session (k ++ m ++ l) b) (session (k ++ m' ++ l) b) := by
  have r := session_effect h hW hH hl
  have r' := session_effect h hW hH hl'
  refine ⟨⟨r'.header.1.trans r.header.1.symm, fun i hi => (r'.header.2 i hi).trans (r.header.2 i hi).symm⟩, fun x y hx hy => ?_⟩
  rw [r.pixels x y hx hy, r'.pixels x y hx hy, List.foldl_append, List.foldl_append, List.foldl_append, List.foldl_append]
  exact effects_congr hH l (fun px py hpx hpy => (e _ px py hpx hpy).symm) hx hy

/-- **C203**: repeating a call changes nothing, also if it raises an exception, on images of all depths. -/
theorem C203_retry (h : Valid b W H bits) (hW : 0 < W) (hH : 0 < H) {k l : List (Figure × Int)} {t : Figure × Int}
    (hk : ∀ s ∈ k, Safe W H bits s.1) (ht : Safe W H bits t.1) (hl : ∀ s ∈ l, Safe W H bits s.1) (hn : ¬ Adding W H bits t) :
    SamePicture W H bits (session (k ++ [t] ++ l) b) (session (k ++ [t, t] ++ l) b) := by
  refine same_of_effects h hW hH ?_ ?_ fun g px py _ _ => ?_
  · intro s hs
    simp only [List.mem_append, List.mem_cons, List.not_mem_nil, or_false] at hs
    rcases hs with (hs | rfl) | hs
    exacts [hk s hs, ht, hl s hs]
  · intro s hs
    simp only [List.mem_append, List.mem_cons, List.not_mem_nil, or_false, or_self] at hs
    rcases hs with (hs | rfl) | hs
    exacts [hk s hs, ht, hl s hs]
  · show effect W H bits t g px py = effect W H bits t (effect W H bits t g) px py
    rw [effect_eq hn (effect W H bits t g), effect_eq hn g]
    by_cases hd : touched W H bits t px py
    · simp only [if_pos hd, ink_twice]
    · simp only [if_neg hd]

/-- **C203**: two calls that touch no pixel in common can be exchanged, also if one of them raises an exception. -/
theorem C203_order (h : Valid b W H bits) (hW : 0 < W) (hH : 0 < H) {k l : List (Figure × Int)} {s t : Figure × Int}
    (hk : ∀ u ∈ k, Safe W H bits u.1) (hs : Safe W H bits s.1) (ht : Safe W H bits t.1) (hl : ∀ u ∈ l, Safe W H bits u.1)
    (hns : ¬ Adding W H bits s) (hnt : ¬ Adding W H bits t)
    (hd : ∀ px py, px < W → py < H → ¬ (touched W H bits s px py ∧ touched W H bits t px py)) :
    SamePicture W H bits (session (k ++ [s, t] ++ l) b) (session (k ++ [t, s] ++ l) b) := by
  refine same_of_effects h hW hH ?_ ?_ fun g px py hpx hpy => ?_
  · intro u hu
    simp only [List.mem_append, List.mem_cons, List.not_mem_nil, or_false] at hu
    rcases hu with (hu | rfl | rfl) | hu
    exacts [hk u hu, hs, ht, hl u hu]
  · intro u hu
    simp only [List.mem_append, List.mem_cons, List.not_mem_nil, or_false] at hu
    rcases hu with (hu | rfl | rfl) | hu
    exacts [hk u hu, ht, hs, hl u hu]
  · show effect W H bits t (effect W H bits s g) px py = effect W H bits s (effect W H bits t g) px py
    rw [effect_eq hnt (effect W H bits s g), effect_eq hns g, effect_eq hns (effect W H bits t g), effect_eq hnt g]
    have := hd px py hpx hpy
    by_cases h1 : touched W H bits s px py
    · have h2 : ¬ touched W H bits t px py := fun k => this ⟨h1, k⟩
      simp only [if_pos h1, if_neg h2]
    · simp only [if_neg h1]

/-- C203 is false for slanted lines in negative numbers on 4-bit images: each attempt subtracts once more from the pixel at (0, 0). -/
theorem C203_retry_false :
    (do let b ← newBMP 4 3 4
        let m := session [(.point 0 0, 9), (.segment (1, 0) (3, 1), -3)] b
        let n := session [(.point 0 0, 9), (.segment (1, 0) (3, 1), -3), (.segment (1, 0) (3, 1), -3)] b
        pure (← getxybit m 0 0, ← getxybit n 0 0)) = .ok (8, 7) := by decide +kernel

/-- A column that raises an exception, once and twice, and after a row elsewhere. -/
example : (do let b ← newBMP 2 2 24
              let p (l : List (Figure × Int)) : Py (List Int) := do pure ((← iterimagecolor (session l b)).map Prod.snd)
              pure (← p [(.column 0 0 1, 0x1000007)], ← p [(.column 0 0 1, 0x1000007), (.column 0 0 1, 0x1000007)],
                ← p [(.column 0 0 1, 0x1000007), (.column 1 0 0, 5)], ← p [(.column 1 0 0, 5), (.column 0 0 1, 0x1000007)])) =
    .ok ([7, 0, 7, 0], [7, 0, 7, 0], [7, 0, 7, 5], [7, 0, 7, 5]) := by decide +kernel

end Verif.Props.Session
