import Verif.Props.RetryPerm
/-! Property C202: which pixels of a session keep their colour, and which figure is seen last, for all numbers. -/

namespace Verif.Props.Session
open Verif Spec Model Model.Run Verif.Props Verif.Props.Beyond Verif.Props.Far Verif.Props.Overlay Verif.Props.Abort

variable {b : Bytes} {W H bits : Nat}

/-- **C202**: pixels that no call reaches keep their colour, for all numbers and all depths. -/
theorem C202_untouched_all (h : Valid b W H bits) (hW : 0 < W) (hH : 0 < H) {l : List (Figure × Int)} (hl : ∀ t ∈ l, Safe W H bits t.1)
    {px py : Nat} (hpx : px < W) (hpy : py < H) (ht : ∀ t ∈ l, ¬ reach W H bits t px py) :
    pix (session l b) W H bits px py = pix b W H bits px py := by
  rw [(session_effect h hW hH hl).pixels px py hpx hpy]
  generalize pix b W H bits = g
  induction l generalizing g with
  | nil => rfl
  | cons t l ih =>
    rw [List.foldl_cons, ih (fun s hs => hl s (by simp [hs])) (fun s hs => ht s (by simp [hs])), effect_outside hW (ht t (by simp))]

/-- **C202**: a pixel of a figure in a proper colour has this colour in the end unless a later call reaches it. -/
theorem C202_last_all (h : Valid b W H bits) (hW : 0 < W) (hH : 0 < H) {k l : List (Figure × Int)} {f : Figure} {c : Int}
    (hc : IsColour bits c) (hf : Safe W H bits f) (hk : ∀ t ∈ k, Safe W H bits t.1) (hl : ∀ t ∈ l, Safe W H bits t.1)
    {px py : Nat} (hpx : px < W) (hpy : py < H) (ht : ∀ t ∈ l, ¬ reach W H bits t px py) (ha : area W H bits f px py) :
    pix (session (k ++ (f, c) :: l) b) W H bits px py = c.toNat := by
  have hv := (C202_intact h hW hH hk).1
  obtain ⟨b', e, p⟩ := drawn hv hf hc
  have e2 := run_ok ((drawR_outcome f c (session k b)).trans e)
  have es : session (k ++ (f, c) :: l) b = session l b' := by
    unfold session at e2 ⊢
    rw [List.foldl_append, List.foldl_cons, e2]
  rw [es, C202_untouched_all p.valid hW hH hl hpx hpy ht]
  exact p.inside px py hpx hpy ha

/-- The line in -3 reaches the first two pixels of its first row only; the box and the rest of the row keep their colours. -/
example : (do let b ← newBMP 4 2 4
              pure ((← iterimagecolor (session [(.box 0 0 3 1, 9), (.segment (1, 0) (3, 1), -3)] b)).map Prod.snd)) =
    .ok [9, 9, 9, 9, 8, 13, 9, 9] := by decide +kernel

end Verif.Props.Session
