import Verif.Props.RetryAll
/-! Property C203: calls with different pixels can be made in any order. -/

namespace Verif.Props.Session
open Verif Spec Model Model.Run Verif.Props Verif.Props.Beyond Verif.Props.Far Verif.Props.Overlay Verif.Props.Abort

variable {b : Bytes} {W H bits : Nat}

/-- Specification: two calls that change no pixel in common. -/
def Apart (W H bits : Nat) (s t : Figure × Int) : Prop :=
  ∀ px py, px < W → py < H → ¬ (reach W H bits s px py ∧ reach W H bits t px py)

theorem Apart.symm {s t : Figure × Int} (h : Apart W H bits s t) : Apart W H bits t s :=
  fun px py hx hy k => h px py hx hy ⟨k.2, k.1⟩

theorem effect_swap (hW : 0 < W) (hH : 0 < H) {s t : Figure × Int} (hd : Apart W H bits s t) (g : Nat → Nat → Nat) {px py : Nat}
    (hpx : px < W) (hpy : py < H) :
    effect W H bits t (effect W H bits s g) px py = effect W H bits s (effect W H bits t g) px py := by
  by_cases h1 : reach W H bits s px py
  · rw [effect_outside hW fun k => hd px py hpx hpy ⟨h1, k⟩]
    refine (effect_local hH (fun qx qy hqx hqy k => ?_) hpx hpy h1).symm
    exact effect_outside hW fun k' => hd qx qy hqx hqy ⟨k, k'⟩
  · rw [effect_outside hW h1]
    by_cases h2 : reach W H bits t px py
    · refine effect_local hH (fun qx qy hqx hqy k => ?_) hpx hpy h2
      exact effect_outside hW fun k' => hd qx qy hqx hqy ⟨k', k⟩
    · rw [effect_outside hW h2, effect_outside hW h2, effect_outside hW h1]

theorem effects_perm (hW : 0 < W) (hH : 0 < H) {m m' : List (Figure × Int)} (p : m.Perm m') (hd : m.Pairwise (Apart W H bits))
    (g : Nat → Nat → Nat) {px py : Nat} (hpx : px < W) (hpy : py < H) :
    m.foldl (fun g t => effect W H bits t g) g px py = m'.foldl (fun g t => effect W H bits t g) g px py := by
  induction p generalizing g with
  | nil => rfl
  | cons t _ ih => exact ih (List.pairwise_cons.mp hd).2 _
  | swap s t l =>
    have := (List.pairwise_cons.mp hd).1 s (by simp)
    exact effects_congr hH l (fun qx qy hqx hqy => effect_swap hW hH this g hqx hqy) hpx hpy
  | trans p _ ih ih' => exact (ih hd g).trans (ih' (p.pairwise hd Apart.symm) g)

/-- **C203**: calls of which no two change the same pixel can be made in any order, whether they raise exceptions or not. -/
theorem C203_any_order (h : Valid b W H bits) (hW : 0 < W) (hH : 0 < H) {k m m' l : List (Figure × Int)} (p : m.Perm m')
    (hk : ∀ u ∈ k, Safe W H bits u.1) (hm : ∀ u ∈ m, Safe W H bits u.1) (hl : ∀ u ∈ l, Safe W H bits u.1)
    (hd : m.Pairwise (Apart W H bits)) :
    SamePicture W H bits (session (k ++ m ++ l) b) (session (k ++ m' ++ l) b) := by
  refine same_of_effects h hW hH ?_ ?_ fun g px py hpx hpy => effects_perm hW hH p hd g hpx hpy
  · intro u hu
    simp only [List.mem_append] at hu
    rcases hu with (hu | hu) | hu
    exacts [hk u hu, hm u hu, hl u hu]
  · intro u hu
    simp only [List.mem_append] at hu
    rcases hu with (hu | hu) | hu
    exacts [hk u hu, hm u (p.mem_iff.mpr hu), hl u hu]

/-- A line that raises an exception, a row and a point, in three orders. -/
example : (do let b ← newBMP 4 2 4
              let p (l : List (Figure × Int)) : Py (List Int) := do pure ((← iterimagecolor (session ((.point 0 0, 9) :: l) b)).map Prod.snd)
              pure (← p [(.segment (1, 0) (3, 1), -3), (.row 1 0 3, 2), (.point 2 0, 5)],
                ← p [(.point 2 0, 5), (.segment (1, 0) (3, 1), -3), (.row 1 0 3, 2)],
                ← p [(.row 1 0 3, 2), (.point 2 0, 5), (.segment (1, 0) (3, 1), -3)])) =
    .ok ([2, 2, 2, 2, 8, 13, 5, 0], [2, 2, 2, 2, 8, 13, 5, 0], [2, 2, 2, 2, 8, 13, 5, 0]) := by decide +kernel

end Verif.Props.Session
