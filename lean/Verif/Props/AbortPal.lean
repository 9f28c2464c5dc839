import Verif.Model.AbortMore
import Verif.Props.Abort
import Verif.Props.Palette
/-! Property C200 for palettes. -/

namespace Verif.Props.Abort
open Verif Spec Model Model.Run Verif.Props

variable {b b' : Bytes} {W H bits : Nat}

theorem outcome_setpalLoop (l : List RGB) (s : Int) (b : Bytes) : outcome (setpalLoopR l s) b = setpalLoop l s b := by
  induction l generalizing s b with
  | nil => rfl
  | cons p l ih =>
    obtain ⟨r, g, bl⟩ := p
    unfold setpalLoopR setpalLoop
    rw [outcome_look]
    refine bind_congr fun a => ?_
    rw [outcome_seq, outcome_assign]
    exact ih _ _

theorem C200_setbmppal (l : List RGB) (b : Bytes) : outcome (setbmppalR l) b = setbmppal b l := by
  unfold setbmppalR setbmppal
  rw [outcome_look]
  refine bind_congr fun m => ?_
  rw [outcome_ite, outcome_setpalLoop, outcome_pure]
  rfl

theorem C200_setbmppalwithBGRAlist (l : List (List Int)) (b : Bytes) :
    outcome (setbmppalwithBGRAlistR l) b = setbmppalwithBGRAlist b l := by
  unfold setbmppalwithBGRAlistR setbmppalwithBGRAlist
  rw [outcome_look]
  refine bind_congr fun m => ?_
  rw [outcome_ite, outcome_look]
  simp only [outcome_assign, outcome_pure]
  rfl

theorem C200_setRGBpal (c r g bl : Int) (b : Bytes) : outcome (setRGBpalR c r g bl) b = setRGBpal b c r g bl := by
  unfold setRGBpalR setRGBpal
  rw [outcome_look]
  simp only [outcome_assign]

/-- C200: one palette entry is set completely or not at all. -/
theorem C200_setRGBpal_safe (c r g bl : Int) (b : Bytes) : Unharmed (setRGBpalR c r g bl) b :=
  unharmed_look fun _ _ => unharmed_assign _ _

/-- C200: with four numbers for each colour the palette is set completely or not at all. -/
theorem C200_bgra_safe (l : List (List Int)) (b : Bytes) : Unharmed (setbmppalwithBGRAlistR l) b := by
  refine unharmed_look fun m _ => ?_
  by_cases hm : (l.length : Int) = m
  · rw [if_pos hm]
    exact unharmed_look fun _ _ => unharmed_assign _ _
  · rw [if_neg hm]
    exact unharmed_ok (b' := b) rfl

theorem loop_left {l w : List RGB} {p : RGB} (hl : ∀ q ∈ l, ByteRGB q) (hp : ¬ ByteRGB p) {s : Nat} (hs : s + 4 * l.length ≤ b.length) :
    setpalLoopR (l ++ p :: w) (s : Int) b = (.error .overflowError, palW l s b) := by
  induction l generalizing s b with
  | nil =>
    obtain ⟨r, g, bl⟩ := p
    have : ∃ v ∈ [bl, g, r], v < 0 ∨ 256 ≤ v := by
      unfold ByteRGB at hp
      dsimp only at hp
      by_contra h
      apply hp
      have h1 := fun v (hv : v ∈ [bl, g, r]) => not_or.mp (not_exists.mp h v ∘ And.intro hv)
      have a1 := h1 r (by simp)
      have a2 := h1 g (by simp)
      have a3 := h1 bl (by simp)
      exact ⟨⟨by omega, by omega⟩, ⟨by omega, by omega⟩, by omega, by omega⟩
    obtain ⟨v, hv, hb⟩ := this
    exact run_look_error (mkArray_err hv hb)
  | cons q l ih =>
    obtain ⟨r, g, bl⟩ := q
    have hq := hl _ (List.mem_cons_self)
    have e : setpalLoop [(r, g, bl)] (s : Int) b = .ok (palW [(r, g, bl)] s b) :=
      setpalLoop_eq _ _ _ (by intro x hx; rw [List.mem_singleton] at hx; subst hx; exact hq) (by simp at hs ⊢; omega)
    have h1 : mkArray [bl, g, r] = .ok (bgr (r, g, bl)) := mkArray_bgr (p := (r, g, bl)) hq
    unfold setpalLoop setpalLoop at e
    rw [h1] at e
    show setpalLoopR ((r, g, bl) :: (l ++ p :: w)) (s : Int) b = _
    unfold setpalLoopR
    rw [run_look h1]
    have hlen : (palW [(r, g, bl)] s b).length = b.length := length_palW _ _ _ (by simp at hs ⊢; omega)
    refine (run_seq (b' := palW [(r, g, bl)] s b) (run_assign e)).trans ?_
    exact ih (s := s + 4) (fun x hx => hl x (by simp [hx])) (by rw [hlen]; simp at hs; omega)

/-- C200: a list of colours with an entry that is no colour raises `OverflowError`; the entries of the palette before that
place are the new ones, all others are as before, and so is the rest of the file. -/
theorem C200_setbmppal_left (h : Valid b W H bits) (h24 : bits ≠ 24) {l w : List RGB} {p : RGB} (hl : ∀ q ∈ l, ByteRGB q)
    (hp : ¬ ByteRGB p) (hn : (l ++ p :: w).length = 2 ^ bits) :
    ∃ b', setbmppalR (l ++ p :: w) b = (.error .overflowError, b') ∧ Valid b' W H bits ∧ SamePixels b b' bits ∧
      (∀ c (hc : c < l.length), rgbI (palRGB b' c) = l[c]) ∧ ∀ c, l.length ≤ c → c < 2 ^ bits → palRGB b' c = palRGB b c := by
  have hoff : 54 + 4 * 2 ^ bits = dataOff bits := by rw [dataOff, palSize, if_neg h24]
  have hlen := h.len
  have hlt : l.length < 2 ^ bits := by rw [← hn]; simp
  have hfit : 54 + 4 * l.length ≤ b.length := by omega
  have out := byte_palW_outside l 54 b hfit
  refine ⟨palW l 54 b, ?_, ?_, ⟨length_palW _ _ _ hfit, fun i hi => out i (.inl hi), fun i hi => out i (.inr (.inl (by omega)))⟩, ?_, ?_⟩
  · unfold setbmppalR
    rw [run_look h.getmaxcolors_eq, if_pos (by rw [hn])]
    exact loop_left hl hp hfit
  · exact valid_congr h (length_palW _ _ _ hfit) (palW_bytes _ _ _ hl h.bytes) (fun i hi => out i (.inl hi))
  · intro c hc
    exact palRGB_palW l b hfit c hc hl
  · intro c hc _
    unfold palRGB
    rw [out _ (.inr (.inl (by omega))), out _ (.inr (.inl (by omega))), out _ (.inr (.inl (by omega)))]

/-- C200 is false for palettes: the first of two colours is set although the second one is rejected. -/
theorem C200_palette_false :
    (do let b ← newBMP 1 1 1; let r := setbmppalR [(1, 2, 3), (4, 5, 256)] b; pure (r.1, ← getallRGBpal r.2)) =
      .ok (.error .overflowError, [(1, 2, 3), (255, 255, 255)]) := by decide +kernel

example : (do let b ← newBMP 1 1 1; let r := setbmppalwithBGRAlistR [[1, 2, 3, 0], [4, 5, 256, 0]] b; pure (r.1, decide (r.2 = b))) =
    .ok (.error .overflowError, true) := by decide +kernel
example : (do let b ← newBMP 1 1 1; let r := setRGBpalR 1 9 256 9 b; pure (r.1, decide (r.2 = b))) =
    .ok (.error .overflowError, true) := by decide +kernel
example : (do let b ← newBMP 1 1 1; let r := setbmppalR [(1, 2, 3), (4, 5, 255)] b; pure (r.1, ← getallRGBpal r.2)) =
    .ok (.ok (), [(1, 2, 3), (4, 5, 255)]) := by decide +kernel

end Verif.Props.Abort
