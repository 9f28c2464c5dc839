import Verif.Props.SessionAll
/-! Property C203: exactly when a second attempt changes something. -/

namespace Verif.Props.Session
open Verif Spec Model Model.Run Verif.Props Verif.Props.Beyond Verif.Props.Far Verif.Props.Overlay Verif.Props.Abort

variable {b : Bytes} {W H : Nat}

/-- **C203**: a second attempt to draw a slanted line in a negative number on a 4-bit image changes nothing exactly if the line starts in an
even column or if, after the first attempt, the pixel left of its first point is too small for the number to be added. -/
theorem C203_retry_exact (h : Valid b W H 4) (hW : 0 < W) (hH : 0 < H) {k : List (Figure × Int)} {p q : Int × Int} {c : Int}
    (hk : ∀ s ∈ k, Safe W H 4 s.1) (ht : Safe W H 4 (.segment p q)) (hc : c < 0) (sl : Slanted W H p q) :
    SamePicture W H 4 (session (k ++ [(.segment p q, c)]) b) (session (k ++ [(.segment p q, c), (.segment p q, c)]) b) ↔
      clampTo p.1 W % 2 = 0 ∨
      ∀ y ∈ (firstRows (clampTo p.1 W) (clampTo p.2 H) (clampTo q.1 W) (clampTo q.2 H)).head?,
        16 * (pix (session (k ++ [(.segment p q, c)]) b) W H 4 ((clampTo p.1 W).toNat - 1) y : Int) + c < 0 := by
  have ha : Adding W H 4 (.segment p q, c) := ⟨rfl, hc, sl⟩
  have hX : 0 ≤ clampTo p.1 W ∧ clampTo p.1 W < W := by unfold clampTo; omega
  have h1 : ∀ s ∈ k ++ [((.segment p q, c) : Figure × Int)], Safe W H 4 s.1 := by
    intro s hs
    simp only [List.mem_append, List.mem_singleton] at hs
    rcases hs with hs | rfl
    exacts [hk s hs, ht]
  have hv := (C202_intact h hW hH h1).1
  have e : session (k ++ [(.segment p q, c), (.segment p q, c)]) b = session [(.segment p q, c)] (session (k ++ [(.segment p q, c)]) b) := by
    rw [← session_append, List.append_assoc]
    rfl
  rw [e]
  generalize session (k ++ [(.segment p q, c)]) b = m at hv ⊢
  have r := session_effect hv hW hH (l := [(.segment p q, c)]) (by simpa using ht)
  have hp : ∀ px py, px < W → py < H → pix (session [(.segment p q, c)] m) W H 4 px py =
      effect W H 4 (.segment p q, c) (pix m W H 4) px py := r.pixels
  rw [effect_adding ha] at hp
  have hl := firstRows_lt hH (clampTo p.1 W) (clampTo q.1 W) p.2 q.2 sl.1 sl.2
  constructor
  · intro s
    by_cases he : clampTo p.1 W % 2 = 0
    · exact .inl he
    · right
      intro y hy
      rw [if_neg he] at hp
      by_contra hs
      cases er : firstRows (clampTo p.1 W) (clampTo p.2 H) (clampTo q.1 W) (clampTo q.2 H) with
      | nil => rw [er] at hy; simp at hy
      | cons z zs =>
        rw [er] at hy hp hl
        obtain rfl : z = y := by simpa using hy
        have lt := spoil_lt hc (by omega) zs hs
        have e1 := hp ((clampTo p.1 W).toNat - 1) z (by omega) (hl z (by simp))
        have e2 := s.2 ((clampTo p.1 W).toNat - 1) z (by omega) (hl z (by simp))
        omega
  · intro hs
    refine ⟨r.header, fun x y hx hy => ?_⟩
    rw [hp x y hx hy]
    split_ifs with he
    · rfl
    · have hs := hs.resolve_left he
      cases er : firstRows (clampTo p.1 W) (clampTo p.2 H) (clampTo q.1 W) (clampTo q.2 H) with
      | nil => rfl
      | cons z zs =>
        rw [er] at hs
        rw [spoil, if_pos (hs z (by simp))]

/-- With 2 at (0, 0) the first attempt leaves 1 and the second one 0; with 1 the first leaves 0 and the second changes nothing. -/
example : (do let b ← newBMP 4 2 4
              let p (v : Int) (n : Nat) : Py (List Int) := do
                pure ((← iterimagecolor (session ((.point 0 0, v) :: List.replicate n (.segment (1, 0) (3, 1), -3)) b)).map Prod.snd)
              pure (← p 2 1, ← p 2 2, ← p 1 1, ← p 1 2)) =
    .ok ([0, 0, 0, 0, 1, 13, 0, 0], [0, 0, 0, 0, 0, 13, 0, 0], [0, 0, 0, 0, 0, 13, 0, 0], [0, 0, 0, 0, 0, 13, 0, 0]) := by decide +kernel

end Verif.Props.Session
