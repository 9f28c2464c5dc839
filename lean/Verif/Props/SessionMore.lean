import Verif.Props.Padding
import Verif.Props.Retry
/-! Properties C201 and C202: sessions on files that differ in bytes that are no pixels, and sessions in parts. -/

namespace Verif.Props.Session
open Verif Spec Model Model.Run Verif.Props Verif.Props.Beyond Verif.Props.Far Verif.Props.Overlay Verif.Props.Abort Verif.Props.Laws

variable {u v b : Bytes} {W H bits : Nat}

/-- **C201**: programs that go on after exceptions show the same on two files that differ only in bytes that are no pixels. -/
theorem C201_session (s : SameImage u v W H bits) (hW : 0 < W) (hH : 0 < H) {l : List (Figure × Int)} (hl : ∀ t ∈ l, Safe W H bits t.1) :
    SameImage (session l u) (session l v) W H bits := by
  have r := session_effect s.left hW hH hl
  have r' := session_effect s.right hW hH hl
  refine ⟨r.valid, r'.valid, fun h24 c hc => ?_, fun x y hx hy => ?_⟩
  · rw [palRGB_same r.header s.left.depth h24 hc, palRGB_same r'.header s.left.depth h24 hc]
    exact s.palette h24 c hc
  · rw [r.pixels x y hx hy, r'.pixels x y hx hy]
    exact effects_congr hH l s.pixels hx hy

/-- **C202**: pixels that no call touches keep their colour. -/
theorem C202_untouched (h : Valid b W H bits) (hW : 0 < W) (hH : 0 < H) {l : List (Figure × Int)} (hl : ∀ t ∈ l, Safe W H bits t.1)
    (hn : ∀ t ∈ l, ¬ Adding W H bits t) {px py : Nat} (hpx : px < W) (hpy : py < H) (ht : ∀ t ∈ l, ¬ touched W H bits t px py) :
    pix (session l b) W H bits px py = pix b W H bits px py := by
  rw [(session_effect h hW hH hl).pixels px py hpx hpy]
  generalize pix b W H bits = g
  induction l generalizing g with
  | nil => rfl
  | cons t l ih =>
    rw [List.foldl_cons, ih (fun s hs => hl s (by simp [hs])) (fun s hs => hn s (by simp [hs])) (fun s hs => ht s (by simp [hs])),
      effect_eq (hn t (by simp)), if_neg (ht t (by simp))]

/-- **C202**: a figure in a proper colour is seen as a whole as long as the calls after it do not touch it, whatever happened before it. -/
theorem C202_last (h : Valid b W H bits) (hW : 0 < W) (hH : 0 < H) {k l : List (Figure × Int)} {f : Figure} {c : Int}
    (hc : IsColour bits c) (hf : Safe W H bits f) (hk : ∀ t ∈ k, Safe W H bits t.1) (hl : ∀ t ∈ l, Safe W H bits t.1)
    (hn : ∀ t ∈ l, ¬ Adding W H bits t) {px py : Nat} (hpx : px < W) (hpy : py < H) (ht : ∀ t ∈ l, ¬ touched W H bits t px py)
    (ha : area W H bits f px py) : pix (session (k ++ (f, c) :: l) b) W H bits px py = c.toNat := by
  have hv := (C202_intact h hW hH hk).1
  obtain ⟨b', e, p⟩ := drawn hv hf hc
  have e2 := run_ok ((drawR_outcome f c (session k b)).trans e)
  have es : session (k ++ (f, c) :: l) b = session l b' := by
    unfold session at e2 ⊢
    rw [List.foldl_append, List.foldl_cons, e2]
  rw [es, C202_untouched p.valid hW hH hl hn hpx hpy ht]
  exact p.inside px py hpx hpy ha

/-- A column that raises, a row over it that is seen as a whole, and a pixel that no call touches. -/
example : (do let b ← newBMP 2 2 24
              pure ((← iterimagecolor (session [(.column 0 0 1, 0x1000007), (.row 0 0 1, 0x20304), (.ring 0 0 0, -1)] b)).map Prod.snd)) =
    .ok [7, 0, 0x20304, 0x20304] := by decide +kernel

theorem ink_colour {t : Figure × Int} (hc : IsColour bits t.2) (v w : Nat) : ink W H bits t v = ink W H bits t w := by
  unfold ink
  by_cases h24 : bits = 24
  · subst h24
    rw [if_pos rfl, if_pos rfl, if_pos hc, if_pos hc]
  · rw [if_neg h24, if_neg h24]
    have : shade W H bits t.1 t.2 ≠ none := by
      obtain ⟨f, c⟩ := t
      cases f with
      | ring x y r =>
        unfold shade
        dsimp only at hc ⊢
        rw [if_neg (by rintro ⟨rfl, k⟩; exact k hc)]
        exact Option.some_ne_none _
      | segment p q =>
        unfold shade
        dsimp only
        split_ifs
        · exact Option.some_ne_none _
        · exact Option.some_ne_none _
      | _ => exact Option.some_ne_none _
    cases e : shade W H bits t.1 t.2 with
    | none => exact absurd e this
    | some k => rfl

/-- **C203**: a call that is drawn over as a whole by the next one, in a proper colour, can be left out, also if it raises an exception. -/
theorem C203_covered (h : Valid b W H bits) (hW : 0 < W) (hH : 0 < H) {k l : List (Figure × Int)} {s t : Figure × Int}
    (hk : ∀ u ∈ k, Safe W H bits u.1) (hs : Safe W H bits s.1) (ht : Safe W H bits t.1) (hl : ∀ u ∈ l, Safe W H bits u.1)
    (hns : ¬ Adding W H bits s) (hc : IsColour bits t.2)
    (hd : ∀ px py, px < W → py < H → touched W H bits s px py → area W H bits t.1 px py) :
    SamePicture W H bits (session (k ++ [s, t] ++ l) b) (session (k ++ [t] ++ l) b) := by
  have hnt : ¬ Adding W H bits t := by
    obtain ⟨f, c⟩ := t
    cases f with
    | segment p q =>
      rintro ⟨-, k, -⟩
      unfold IsColour at hc
      dsimp only at hc k
      omega
    | _ => exact fun k => k
  have et : ∀ px py, touched W H bits t px py = area W H bits t.1 px py := fun px py => if_neg fun k => k.2 (k.1 ▸ hc)
  refine same_of_effects h hW hH ?_ ?_ fun g px py hpx hpy => ?_
  · intro u hu
    simp only [List.mem_append, List.mem_cons, List.not_mem_nil, or_false] at hu
    rcases hu with (hu | rfl | rfl) | hu
    exacts [hk u hu, hs, ht, hl u hu]
  · intro u hu
    simp only [List.mem_append, List.mem_cons, List.not_mem_nil, or_false] at hu
    rcases hu with (hu | rfl) | hu
    exacts [hk u hu, ht, hl u hu]
  · show effect W H bits t (effect W H bits s g) px py = effect W H bits t g px py
    rw [effect_eq hnt (effect W H bits s g), effect_eq hns g, effect_eq hnt g]
    by_cases h2 : touched W H bits t px py
    · rw [if_pos h2, if_pos h2]
      exact ink_colour hc _ _
    · rw [if_neg h2, if_neg h2, if_neg fun h1 => h2 ((et px py).symm ▸ hd px py hpx hpy h1)]

example : (do let b ← newBMP 2 2 24
              let p (l : List (Figure × Int)) : Py (List Int) := do pure ((← iterimagecolor (session l b)).map Prod.snd)
              pure (← p [(.column 0 0 1, 0x1000007), (.box 0 0 1 1, 5), (.point 1 0, 6)], ← p [(.box 0 0 1 1, 5), (.point 1 0, 6)])) =
    .ok ([5, 5, 5, 6], [5, 5, 5, 6]) := by decide +kernel

end Verif.Props.Session
