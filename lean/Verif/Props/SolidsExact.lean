import Verif.Props.Plane
/-! Property C145 for solids that leave the image: faces that lie partly outside are not filled, all others are. -/

namespace Verif.Props.Plane
open Verif Spec Model Verif.Props

variable {b : Bytes} {W H bits : Nat}

/-- All boundary pixels of the polygon are in the image. -/
def Whole (W H : Nat) (v : List (ℚ × ℚ)) : Prop := ∀ r, PolyFill.OnBoundary v r → 0 ≤ r.1 ∧ r.1 < W ∧ 0 ≤ r.2 ∧ r.2 < H

theorem plotpolyfillist_faces (b : Bytes) (fs : List Face) (f : ℚ × ℚ × ℚ) :
    plotpolyfillist b (sidesOf fs) f = fs.foldlM (fun bmp (t : Face) => do
      let l ← faceLum [t.2.1, t.2.2.1, t.2.2.2]
      let c ← palColour bmp (colormixF l f)
      plotpolyfill bmp t.1 c) b := by
  unfold plotpolyfillist sidesOf
  dsimp only
  rw [List.zipIdx_map, List.foldlM_map]
  have key : ∀ (l : List Face) (n : Nat) (b : Bytes), (∀ i t, l[i]? = some t → fs[n + i]? = some t) →
      (l.zipIdx n).foldlM (fun bmp (e : Face × Nat) => do
        let n ← nth (fs.map fun f => [f.2.1, f.2.2.1, f.2.2.2]) e.2
        let l ← faceLum n
        let c ← palColour bmp (colormixF l f)
        let poly ← (e.1.1.map fun v => [v.1, v.2]).mapM vert2
        plotpolyfill bmp poly c) b = l.foldlM (fun bmp (t : Face) => do
          let l ← faceLum [t.2.1, t.2.2.1, t.2.2.2]
          let c ← palColour bmp (colormixF l f)
          plotpolyfill bmp t.1 c) b := by
    intro l
    induction l with
    | nil => intros; rfl
    | cons t l ih =>
      intro n b hl
      rw [List.zipIdx_cons, List.foldlM_cons, List.foldlM_cons]
      dsimp only
      have e0 := hl 0 t rfl
      rw [add_zero] at e0
      have e1 : nth (fs.map fun f => [f.2.1, f.2.2.1, f.2.2.2]) n = .ok [t.2.1, t.2.2.1, t.2.2.2] := by
        unfold nth; rw [List.getElem?_map, e0]; rfl
      have e2 : (t.1.map fun v => [v.1, v.2]).mapM vert2 = .ok t.1 := by
        generalize t.1 = q
        induction q with
        | nil => rfl
        | cons v q ih => rw [List.map_cons, List.mapM_cons, ih]; rfl
      rw [e1, ok_bind, e2]
      simp only [ok_bind]
      congr 1
      funext b2
      apply ih
      intro i t' hi
      rw [show n + 1 + i = n + (i + 1) by omega]
      exact hl (i + 1) t' (by simpa using hi)
  exact key fs 0 b (fun i t hi => by simpa using hi)

/-- The normal vector points exactly along the negative third axis. -/
def Away (n : ℚ × ℚ × ℚ) : Prop := n.1 = 0 ∧ n.2.1 = 0 ∧ n.2.2 < 0

/-- All factors are less than 1. -/
def Dim (f : ℚ × ℚ × ℚ) : Prop := fl f.1 < 1 ∧ fl f.2.1 < 1 ∧ fl f.2.2 < 1

/-- The colour of a face, that of faces turned away included: they are black. -/
def AnyColour (b : Bytes) (bits : Nat) (f : ℚ × ℚ × ℚ) (n : ℚ × ℚ × ℚ) (k : Nat) : Prop :=
  (¬ Away n ∧ FaceColour b bits f n k) ∨ (Away n ∧ Gradient.Shown b bits (0, 0, 0) k)

theorem trunc_dim {g : ℚ} (h0 : 0 ≤ g) (h : fl g < 1) : trunc (fl (g * ((-1 : Int) : ℚ))) = 0 := by
  have h1 : 0 ≤ fl g := by
    have := fl_le h0
    rwa [show fl 0 = 0 by have := fl_int (k := 0) (by norm_num); simpa using this] at this
  rw [show g * ((-1 : Int) : ℚ) = -g by push_cast; ring, fl_neg]
  unfold trunc
  split_ifs with c
  · rw [show fl g = 0 by linarith]; simp
  · rw [neg_neg, neg_eq_zero, Int.floor_eq_iff]; constructor <;> push_cast <;> linarith

theorem trunc_full {g : ℚ} (h1 : g ≤ 1) (h : ¬ fl g < 1) : trunc (fl (g * ((-1 : Int) : ℚ))) = -1 := by
  have h2 : fl g ≤ 1 := by
    have := fl_le h1
    rwa [show fl 1 = 1 by have := fl_int (k := 1) (by norm_num); simpa using this] at this
  rw [show g * ((-1 : Int) : ℚ) = -g by push_cast; ring, fl_neg, show fl g = 1 by linarith]
  decide +kernel

/-- The colour number of one face. -/
theorem face_colour (h : Valid b W H bits) {f : ℚ × ℚ × ℚ} (hf : Pals.Unit f) {n : ℚ × ℚ × ℚ} (hd : Away n → Dim f) :
    ∃ (l : Int) (k : Nat), faceLum [n.1, n.2.1, n.2.2] = .ok l ∧ palColour b (colormixF l f) = .ok (k : Int) ∧ IsColour bits (k : Int) ∧
      AnyColour b bits f n k := by
  obtain ⟨l, el, hl, l0, l1, lm, -⟩ := C145_light n.1 n.2.1 n.2.2
  by_cases ha : Away n
  · have := lm.mpr ha
    subst this
    obtain ⟨d1, d2, d3⟩ := hd ha
    obtain ⟨k, ek, hk, hs⟩ := Gradient.palColour_ok h (p := (0, 0, 0)) (by unfold Verif.ByteRGB; norm_num)
    refine ⟨-1, k, el, ?_, hk, .inr ⟨ha, hs⟩⟩
    unfold colormixF
    rw [trunc_dim hf.1.1 d1, trunc_dim hf.2.1.1 d2, trunc_dim hf.2.2.1 d3]
    exact ek
  · have hl0 : 0 ≤ l := by
      have : l ≠ -1 := fun g => ha (lm.mp g)
      omega
    obtain ⟨p, ep, mp⟩ := Gradient.colormix_mixed hf (l := l) (m := l) ⟨by exact_mod_cast hl0, by exact_mod_cast l1⟩ (by norm_num)
    obtain ⟨k, ek, hk, hs⟩ := Gradient.palColour_ok h (Gradient.mixed_byte mp)
    exact ⟨l, k, el, by rw [ep, ek], hk, .inl ⟨ha, l, p, hl, mp, hs⟩⟩

theorem anyColour_header {b b' : Bytes} (hh : SameHeader b b' bits) {f n : ℚ × ℚ × ℚ} {k : Nat} (h : AnyColour b' bits f n k) :
    AnyColour b bits f n k := by
  rcases h with ⟨g, l, p, h1, h2, h3⟩ | ⟨g, h3⟩
  · exact .inl ⟨g, l, p, h1, h2, Gradient.shown_header hh h3⟩
  · exact .inr ⟨g, Gradient.shown_header hh h3⟩

theorem not_whole {v : List (ℚ × ℚ)} (g : ¬ Whole W H v) :
    ∃ r, PolyFill.OnBoundary v r ∧ ¬ (0 ≤ r.1 ∧ r.1 < W ∧ 0 ≤ r.2 ∧ r.2 < H) := by
  unfold Whole at g
  push Not at g
  obtain ⟨r, h1, h2⟩ := g
  exact ⟨r, h1, fun ⟨a, b, c, d⟩ => absurd d (by have := h2 a b c; omega)⟩

/-- C145 for all polygons: face by face, those with all boundary pixels in the image are filled with the share of their brightness, and
those with a boundary pixel outside are left out. Faces that look exactly along the negative third axis are black, provided that no
factor is 1. -/
theorem C145_fill_any (h : Valid b W H bits) {f : ℚ × ℚ × ℚ} (hf : Pals.Unit f) {fs : List Face} (hne : ∀ t ∈ fs, t.1 ≠ [])
    (hd : ∀ t ∈ fs, Away t.2 → Dim f) :
    ∃ b' ks, plotpolyfillist b (sidesOf fs) f = .ok b' ∧ List.Forall₂ (fun t k => AnyColour b bits f t.2 k) fs ks ∧
      Layered b b' W H bits (List.zipWith (fun t k => (fun px py => Whole W H t.1 ∧ FillSet W bits t.1 px py, k)) fs ks) := by
  rw [plotpolyfillist_faces]
  refine foldl_shades (b0 := b) _ (fun t px py => Whole W H t.1 ∧ FillSet W bits t.1 px py) (fun t k => AnyColour b bits f t.2 k) fs ?_ h
    ⟨rfl, fun _ _ => rfl⟩
  intro b1 h1 hh t ht
  obtain ⟨l, k, el, ek, hk, hs⟩ := face_colour h1 hf (hd t ht)
  by_cases g : Whole W H t.1
  · obtain ⟨b2, e2, p2⟩ := PolyFill.C119_polyfill_partial h1 hk (hne t ht) g
    refine ⟨b2, k, ?_, anyColour_header hh hs, ?_⟩
    · rw [el, ok_bind, ek, ok_bind, e2]
    · rw [Int.toNat_natCast] at p2
      exact p2.congr fun px py _ _ => ⟨fun c => c.2, fun c => ⟨g, c⟩⟩
  · refine ⟨b1, k, ?_, anyColour_header hh hs, Paints.refl h1 _ fun _ _ _ _ c => g c.1⟩
    rw [el, ok_bind, ek, ok_bind, PolyFill.C119_outside h1 _ (not_whole g)]

/-- C145, images with a palette: with a factor 1 a single face that looks exactly along the negative third axis makes the call fail,
whatever the other faces are. -/
theorem C145_away_exact (h : Valid b W H bits) (h24 : bits ≠ 24) {f : ℚ × ℚ × ℚ} (hf : Pals.Unit f) (hf1 : ¬ Dim f) {fs : List Face}
    (hne : ∀ t ∈ fs, t.1 ≠ []) (ha : ∃ t ∈ fs, Away t.2) : plotpolyfillist b (sidesOf fs) f = .error .overflowError := by
  rw [plotpolyfillist_faces]
  induction fs generalizing b with
  | nil => obtain ⟨t, ht, _⟩ := ha; cases ht
  | cons t fs ih =>
    rw [List.foldlM_cons]
    by_cases g : Away t.2
    · obtain ⟨l, el, -, -, -, lm, -⟩ := C145_light t.2.1 t.2.2.1 t.2.2.2
      have := lm.mpr g
      subst this
      have hbad : palColour b (colormixF ((-1 : Int) : ℚ) f) = .error .overflowError := by
        have part : ∀ g : ℚ, 0 ≤ g ∧ g ≤ 1 → (fl g < 1 ∧ trunc (fl (g * ((-1 : Int) : ℚ))) = 0) ∨ (¬ fl g < 1 ∧ trunc (fl (g * ((-1 : Int) : ℚ))) = -1) := by
          intro g hg
          by_cases c : fl g < 1
          · exact .inl ⟨c, trunc_dim hg.1 c⟩
          · exact .inr ⟨c, trunc_full hg.2 c⟩
        unfold palColour colormixF Dim at *
        rw [h.bits_eq, ok_bind, if_pos (by omega)]
        rcases part _ hf.1 with ⟨c1, e1⟩ | ⟨c1, e1⟩ <;> rcases part _ hf.2.1 with ⟨c2, e2⟩ | ⟨c2, e2⟩ <;>
          rcases part _ hf.2.2 with ⟨c3, e3⟩ | ⟨c3, e3⟩ <;> rw [e1, e2, e3]
        · exact absurd ⟨c1, c2, c3⟩ hf1
        all_goals rfl
      rw [el, ok_bind, hbad]
      rfl
    · have ha' : ∃ t ∈ fs, Away t.2 := by
        obtain ⟨u, hu, hu'⟩ := ha
        rcases List.mem_cons.mp hu with rfl | hu
        · exact absurd hu' g
        · exact ⟨u, hu, hu'⟩
      have hne' : ∀ t ∈ fs, t.1 ≠ [] := fun u hu => hne u (List.mem_cons_of_mem _ hu)
      obtain ⟨l, k, el, ek, hk, hs⟩ := face_colour h hf (n := t.2) (fun c => absurd c g)
      by_cases w : Whole W H t.1
      · obtain ⟨b2, e2, p2⟩ := PolyFill.C119_polyfill_partial h hk (hne t (by simp)) w
        rw [el, ok_bind, ek, ok_bind, e2, ok_bind]
        exact ih p2.valid hne' ha'
      · rw [el, ok_bind, ek, ok_bind, PolyFill.C119_outside h _ (not_whole w), ok_bind]
        exact ih h hne' ha'

/-- C145 with outlines for all polygons: the borders of all faces, also of those that are not filled, are drawn over the fillings. Missing: diagonals
that end in the first row or, unless the image is wide, in the last row (C24). -/
theorem C145_outline_any (h : Valid b W H bits) (hW : 0 < W) (hH : 0 < H) {f : ℚ × ℚ × ℚ} (hf : Pals.Unit f) {fs : List Face}
    (hne : ∀ t ∈ fs, t.1 ≠ []) (hd : ∀ t ∈ fs, Away t.2 → Dim f) {color : Int} (hc : IsColour bits color)
    (hok : ∀ v ∈ fs.map (fun t => t.1.map roundvect2), ∀ p q, Consec v p q ∨ (v.head? = some p ∧ v.getLast? = some q) → LineOK W H bits p q) :
    ∃ b' ks, plot3d b (sidesOf fs) true f true color = .ok b' ∧ List.Forall₂ (fun t k => AnyColour b bits f t.2 k) fs ks ∧
      Layered b b' W H bits (List.zipWith (fun t k => (fun px py => Whole W H t.1 ∧ FillSet W bits t.1 px py, k)) fs ks ++
        [(fun px py => ∃ t ∈ fs, ∃ p q, (Consec (t.1.map roundvect2) p q ∨
          ((t.1.map roundvect2).head? = some p ∧ (t.1.map roundvect2).getLast? = some q)) ∧ LineSet W H bits p q px py, color.toNat)]) := by
  obtain ⟨b1, ks, e1, c1, p1⟩ := C145_fill_any h hf hne hd
  obtain ⟨b2, e2, p2⟩ := C93_plotpolylist_partial p1.valid hW hH hc (l := fs.map (fun t => t.1.map roundvect2)) (by
    intro g
    obtain ⟨t, ht, g⟩ := List.mem_map.mp g
    exact hne t ht (List.map_eq_nil_iff.mp g)) hok
  refine ⟨b2, ks, ?_, c1, p1.append (Layered.one (p2.congr ?_))⟩
  · unfold plot3d
    rw [if_pos rfl, e1, ok_bind]
    dsimp only
    rw [if_pos rfl]
    have : (sidesOf fs).1.mapM (fun p => p.mapM vert2) = .ok (fs.map (·.1)) := by
      unfold sidesOf
      dsimp only
      clear e1 c1 p1 e2 p2 hok hne hd
      induction fs with
      | nil => rfl
      | cons t l ih =>
        have e2 : (t.1.map fun v => [v.1, v.2]).mapM vert2 = .ok t.1 := by
          generalize t.1 = q
          induction q with
          | nil => rfl
          | cons v q ih => rw [List.map_cons, List.mapM_cons, ih]; rfl
        rw [List.map_cons, List.mapM_cons, ih, e2]; rfl
    rw [this, ok_bind, List.map_map]
    exact e2
  · intro px py _ _
    constructor
    · rintro ⟨t, ht, g⟩; exact ⟨_, List.mem_map.mpr ⟨t, ht, rfl⟩, g⟩
    · rintro ⟨v, hv, g⟩
      obtain ⟨t, ht, rfl⟩ := List.mem_map.mp hv
      exact ⟨t, ht, g⟩

/-- C145 is false at the edge: if every face has a boundary pixel outside the image, nothing is filled. -/
theorem C145_edge_false (h : Valid b W H bits) {f : ℚ × ℚ × ℚ} (hf : Pals.Unit f) {fs : List Face} (hd : ∀ t ∈ fs, Away t.2 → Dim f)
    (hout : ∀ t ∈ fs, ¬ Whole W H t.1) : plotpolyfillist b (sidesOf fs) f = .ok b := by
  rw [plotpolyfillist_faces]
  induction fs with
  | nil => rfl
  | cons t fs ih =>
    rw [List.foldlM_cons]
    obtain ⟨l, k, el, ek, hk, hs⟩ := face_colour h hf (hd t (by simp))
    rw [el, ok_bind, ek, ok_bind, PolyFill.C119_outside h _ (not_whole (hout t (by simp))), ok_bind]
    exact ih (fun t ht => hd t (List.mem_cons_of_mem _ ht)) (fun t ht => hout t (List.mem_cons_of_mem _ ht))

/-- A square that leaves the image is not a whole one, a square in it is. -/
example : ¬ Whole 3 3 [(0, 0), (5, 0), (5, 2), (0, 2)] ∧ (do
    let b ← newBMP 3 3 24
    let b ← plotpolyfill b [(0, 0), (5, 0), (5, 2), (0, 2)] 7
    let c ← plotpolyfill b [(0, 0), (2, 0), (2, 2), (0, 2)] 7
    pure (← getxybit b 1 1, ← getxybit c 1 1)) = .ok (0, 7) := by
  refine ⟨fun g => ?_, by decide +kernel⟩
  have hr : PolyFill.rounded [(0, 0), (5, 0), (5, 2), (0, 2)] = [(0, 0), (5, 0), (5, 2), (0, 2)] := by decide +kernel
  have := g (5, 0) ⟨(0, 0), (5, 0), .inl ⟨[], [(5, 2), (0, 2)], by rw [hr]; rfl⟩, (PolyFill.mem_iterline_iff ..).mp (by decide +kernel)⟩
  norm_num at this

end Verif.Props.Plane
