import Verif.Props.Beyond

/-! Property C145 on 24-bit images: faces that look exactly along the negative third axis. -/

namespace Verif.Props.Plane
open Verif Spec Model Verif.Props Verif.Props.Beyond

variable {b : Bytes} {W H bits : Nat}

/-- C119: a polygon in the image with a colour that needs more than three bytes. -/
theorem C119_polyfill_wide (h : Valid b W H 24) {c : Int} (hc : TooWide c) {v : List (ℚ × ℚ)} (hv : v ≠ []) (hw : Whole W H v) :
    plotpolyfill b v c = .error .overflowError := by
  obtain ⟨l, hl, -, hne, hmem⟩ := PolyFill.C119_boundary hv
  obtain ⟨lo, hi, hbox, hall, ⟨p1, m1, g1⟩, ⟨p2, m2, g2⟩, ⟨p3, m3, g3⟩, ⟨p4, m4, g4⟩⟩ := C100_boundingbox hne
  have w1 := hw p1 ((hmem p1).mp m1)
  have w2 := hw p2 ((hmem p2).mp m2)
  have w3 := hw p3 ((hmem p3).mp m3)
  have w4 := hw p4 ((hmem p4).mp m4)
  have a3 := hall p3 m3
  unfold plotpolyfill fillpolydata
  rw [hl, ok_bind, show getmaxx b = .ok (W : Int) from h.getmaxx_eq, ok_bind, show getmaxy b = .ok (H : Int) from h.getmaxy_eq, ok_bind, hbox, ok_bind]
  dsimp only
  rw [if_pos ⟨⟨by omega, by omega⟩, by omega, by omega⟩, pure_eq_ok, ok_bind]
  obtain ⟨rest, hr⟩ : ∃ rest, pyRange lo.2 (hi.2 + 1) = lo.2 :: rest := by
    unfold pyRange
    obtain ⟨k, hk⟩ : ∃ k, (hi.2 + 1 - lo.2).toNat = k + 1 := ⟨(hi.2 - lo.2).toNat, by omega⟩
    rw [hk, List.range_succ_eq_map]
    simp
  unfold fillboundary
  rw [hr, List.map_cons, List.foldlM_cons]
  have hm : p3.1 ∈ (pyRange lo.1 (hi.1 + 1)).filter fun x => (x, lo.2) ∈ l := by
    rw [List.mem_filter, mem_pyRange]
    exact ⟨⟨by omega, by omega⟩, by simpa [← g3] using m3⟩
  have hin : ∀ x ∈ (pyRange lo.1 (hi.1 + 1)).filter fun x => (x, lo.2) ∈ l, 0 ≤ x ∧ x < W := by
    intro x hx
    rw [List.mem_filter, mem_pyRange] at hx
    omega
  generalize (pyRange lo.1 (hi.1 + 1)).filter (fun x => (x, lo.2) ∈ l) = xs at hm hin
  rcases xs with - | ⟨x, - | ⟨z, xs⟩⟩
  · cases hm
  · have hx := hin x (by simp)
    dsimp only
    have := (C196_truecolour h (f := .point x lo.2) hc trivial).1 ⟨hx.1, hx.2, by omega, by omega⟩
    rw [show plotxybit b x lo.2 c = _ from this]
    rfl
  · have hx := hin x (by simp)
    have hz := hin z (by simp)
    dsimp only [List.tail_cons, List.zip_cons_cons]
    rw [List.foldlM_cons, row_wide h hc, if_pos ⟨⟨by omega, by omega⟩, x.toNat, by omega, by omega, by omega⟩]
    rfl

theorem away_wide {f : ℚ × ℚ × ℚ} (hf : Pals.Unit f) (hf1 : ¬ Dim f) : TooWide (colormixF ((-1 : Int) : ℚ) f) := by
  have part : ∀ g : ℚ, 0 ≤ g ∧ g ≤ 1 → (fl g < 1 ∧ trunc (fl (g * ((-1 : Int) : ℚ))) = 0) ∨ (¬ fl g < 1 ∧ trunc (fl (g * ((-1 : Int) : ℚ))) = -1) := by
    intro g hg
    by_cases c : fl g < 1
    · exact .inl ⟨c, trunc_dim hg.1 c⟩
    · exact .inr ⟨c, trunc_full hg.2 c⟩
  left
  unfold colormixF Dim at *
  rw [RGB2int_eq]
  unfold rgbValue
  rcases part _ hf.1 with ⟨c1, e1⟩ | ⟨c1, e1⟩ <;> rcases part _ hf.2.1 with ⟨c2, e2⟩ | ⟨c2, e2⟩ <;>
    rcases part _ hf.2.2 with ⟨c3, e3⟩ | ⟨c3, e3⟩ <;> rw [e1, e2, e3]
  · exact absurd ⟨c1, c2, c3⟩ hf1
  all_goals norm_num

theorem foldlM_err {α : Type} {f : Bytes → α → Py Bytes} {P : Bytes → Prop} {Q : α → Prop} {e : PyErr} (l : List α)
    (hf : ∀ b, P b → ∀ t ∈ l, (Q t → f b t = .error e) ∧ (¬ Q t → ∃ b', f b t = .ok b' ∧ P b')) {b : Bytes} (hb : P b)
    (hq : ∃ t ∈ l, Q t) : l.foldlM f b = .error e := by
  induction l generalizing b with
  | nil => obtain ⟨t, ht, -⟩ := hq; cases ht
  | cons t l ih =>
    rw [List.foldlM_cons]
    by_cases g : Q t
    · rw [(hf b hb t (by simp)).1 g]
      rfl
    · obtain ⟨b', e1, h1⟩ := (hf b hb t (by simp)).2 g
      rw [e1]
      simp only [ok_bind]
      refine ih (fun b hb s hs => hf b hb s (by simp [hs])) h1 ?_
      obtain ⟨u, hu, hu'⟩ := hq
      rcases List.mem_cons.mp hu with rfl | hu
      · exact absurd hu' g
      · exact ⟨u, hu, hu'⟩

/-- One face on a 24-bit image. -/
theorem face_true (h : Valid b W H 24) {f : ℚ × ℚ × ℚ} (hf : Pals.Unit f) (hf1 : ¬ Dim f) (t : Face) (hne : t.1 ≠ []) :
    (Away t.2 ∧ Whole W H t.1 → (do
      let l ← faceLum [t.2.1, t.2.2.1, t.2.2.2]
      let c ← palColour b (colormixF l f)
      plotpolyfill b t.1 c) = .error .overflowError) ∧
    (¬ (Away t.2 ∧ Whole W H t.1) → ∃ b' k, (do
      let l ← faceLum [t.2.1, t.2.2.1, t.2.2.2]
      let c ← palColour b (colormixF l f)
      plotpolyfill b t.1 c) = .ok b' ∧ (Away t.2 ∨ FaceColour b 24 f t.2 k) ∧
        Paints b b' W H 24 (fun px py => Whole W H t.1 ∧ FillSet W 24 t.1 px py) k) := by
  by_cases g : Away t.2
  · obtain ⟨l, el, -, -, -, lm, -⟩ := C145_light t.2.1 t.2.2.1 t.2.2.2
    have := lm.mpr g
    subst this
    have ep : palColour b (colormixF ((-1 : Int) : ℚ) f) = .ok (colormixF ((-1 : Int) : ℚ) f) := by
      unfold palColour
      rw [h.bits_eq, ok_bind, if_neg (by norm_num)]
      rfl
    rw [el, ok_bind, ep, ok_bind]
    refine ⟨fun w => C119_polyfill_wide h (away_wide hf hf1) hne w.2, fun w => ?_⟩
    have w' : ¬ Whole W H t.1 := fun c => w ⟨g, c⟩
    exact ⟨b, 0, PolyFill.C119_outside h _ (not_whole w'), .inl g, Paints.refl h _ fun _ _ _ _ c => w' c.1⟩
  · refine ⟨fun c => absurd c.1 g, fun _ => ?_⟩
    obtain ⟨l, k, el, ek, hk, hs⟩ := face_colour h hf (n := t.2) (fun c => absurd c g)
    have hs' : Away t.2 ∨ FaceColour b 24 f t.2 k := .inr (hs.resolve_right fun c => g c.1).2
    rw [el, ok_bind, ek, ok_bind]
    by_cases w : Whole W H t.1
    · obtain ⟨b2, e2, p2⟩ := PolyFill.C119_polyfill_partial h hk hne w
      rw [Int.toNat_natCast] at p2
      exact ⟨b2, k, e2, hs', p2.congr fun px py _ _ => ⟨fun c => c.2, fun c => ⟨w, c⟩⟩⟩
    · exact ⟨b, k, PolyFill.C119_outside h _ (not_whole w), hs', Paints.refl h _ fun _ _ _ _ c => w c.1⟩

/-- C145 on 24-bit images with a factor 1: a face that looks exactly along the negative third axis makes the call fail if all of its
boundary is in the image. -/
theorem C145_away_truecolour (h : Valid b W H 24) {f : ℚ × ℚ × ℚ} (hf : Pals.Unit f) (hf1 : ¬ Dim f) {fs : List Face}
    (hne : ∀ t ∈ fs, t.1 ≠ []) (ha : ∃ t ∈ fs, Away t.2 ∧ Whole W H t.1) : plotpolyfillist b (sidesOf fs) f = .error .overflowError := by
  rw [plotpolyfillist_faces]
  refine foldlM_err (P := fun b => Valid b W H 24) (Q := fun t : Face => Away t.2 ∧ Whole W H t.1) fs ?_ h ha
  intro b hb t ht
  obtain ⟨g1, g2⟩ := face_true hb hf hf1 t (hne t ht)
  refine ⟨g1, fun g => ?_⟩
  obtain ⟨b', k, e, -, p⟩ := g2 g
  exact ⟨b', e, p.valid⟩

/-- C145 on 24-bit images with a factor 1: if all such faces have a boundary pixel outside of the image, they are left out and the others
are filled as usual. -/
theorem C145_away_left_out (h : Valid b W H 24) {f : ℚ × ℚ × ℚ} (hf : Pals.Unit f) (hf1 : ¬ Dim f) {fs : List Face}
    (hne : ∀ t ∈ fs, t.1 ≠ []) (ha : ∀ t ∈ fs, Away t.2 → ¬ Whole W H t.1) :
    ∃ b' ks, plotpolyfillist b (sidesOf fs) f = .ok b' ∧ List.Forall₂ (fun t k => Away t.2 ∨ FaceColour b 24 f t.2 k) fs ks ∧
      Layered b b' W H 24 (List.zipWith (fun t k => (fun px py => Whole W H t.1 ∧ FillSet W 24 t.1 px py, k)) fs ks) := by
  rw [plotpolyfillist_faces]
  refine foldl_shades (b0 := b) _ (fun t px py => Whole W H t.1 ∧ FillSet W 24 t.1 px py) (fun t k => Away t.2 ∨ FaceColour b 24 f t.2 k) fs ?_ h
    ⟨rfl, fun _ _ => rfl⟩
  intro b1 h1 hh t ht
  obtain ⟨b', k, e, c, p⟩ := (face_true h1 hf hf1 t (hne t ht)).2 (fun g => ha t ht g.1 g.2)
  refine ⟨b', k, e, c.imp id ?_, p⟩
  rintro ⟨l, p, h1, h2, h3⟩
  exact ⟨l, p, h1, h2, Gradient.shown_header hh h3⟩

/-- The colour of a white square that looks away is negative: it fails in the image, and is left out if a corner is outside. -/
example : Away (0, 0, -1) ∧ ¬ Dim (1, 1, 1) ∧ colormixF ((-1 : Int) : ℚ) (1, 1, 1) = -65793 ∧
    (do let b ← newBMP 4 4 24; plotpolyfill b [(0, 0), (2, 0), (2, 2), (0, 2)] (-65793)) = .error .overflowError ∧
    (do let b ← newBMP 4 4 24; let b ← plotpolyfill b [(0, 0), (9, 0), (9, 2), (0, 2)] (-65793); getxybit b 1 1) = .ok 0 := by
  refine ⟨by unfold Away; norm_num, ?_, by decide +kernel, by decide +kernel, by decide +kernel⟩
  rintro ⟨g, -⟩
  rw [show fl 1 = 1 by have := fl_int (k := 1) (by norm_num); simpa using this] at g
  exact absurd g (by norm_num)

end Verif.Props.Plane
