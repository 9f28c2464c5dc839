import Verif.Props.SolidsExact
/-! Property C191: `plot3Dsolid` from the vertices of a body to the picture. -/

namespace Verif.Props.Plane
open Verif Spec Model Verif.Props

variable {b : Bytes} {W H bits : Nat}

abbrev Vec := ℚ × ℚ × ℚ

/-- A vertex as the observer in the origin sees it: turned about the second, the third and the first axis, with
the first coordinate mirrored, and moved by `t`. -/
def cam (r : (ℚ × ℚ) × (ℚ × ℚ) × (ℚ × ℚ)) (t v : Vec) : Vec :=
  let yaw : Vec := (-(r.2.2.2 * v.1 + r.2.2.1 * v.2.2), v.2.1, r.2.2.2 * v.2.2 - r.2.2.1 * v.1)
  let roll : Vec := (r.1.2 * yaw.1 + r.1.1 * yaw.2.1, r.1.2 * yaw.2.1 - r.1.1 * yaw.1, yaw.2.2)
  (roll.1 + t.1, r.2.1.2 * roll.2.1 + r.2.1.1 * roll.2.2 + t.2.1, r.2.1.2 * roll.2.2 - r.2.1.1 * roll.2.1 + t.2.2)

/-- The point of the screen, at distance `d` behind the observer, moved by `s`. -/
def onScreen (d : ℚ) (s : ℚ × ℚ) (c : Vec) : ℚ × ℚ := (s.1 - d * c.1 / c.2.2, s.2 - d * c.2.1 / c.2.2)

/-- The vector product of two edges of a face. -/
def faceNormal (u v w : Vec) : Vec :=
  let a : Vec := (v.1 - u.1, v.2.1 - u.2.1, v.2.2 - u.2.2)
  let c : Vec := (w.1 - u.1, w.2.1 - u.2.1, w.2.2 - u.2.2)
  (a.2.1 * c.2.2 - a.2.2 * c.2.1, a.2.2 * c.1 - a.1 * c.2.2, a.1 * c.2.1 - a.2.1 * c.1)

/-- The normal vector points away from the observer in the origin. As `cam` mirrors the body, this is a face whose
normal vector on the body itself points to the observer (C116). -/
def shown (u n : Vec) : Bool := decide (0 ≤ n.1 * u.1 + n.2.1 * u.2.1 + n.2.2 * u.2.2)

/-- The first, second and third vertex of a face give its normal vector. -/
def sideNormal (cs : List Vec) (s : List Nat) : Vec :=
  faceNormal (cs.getD (s.getD 0 0) 0) (cs.getD (s.getD 1 0) 0) (cs.getD (s.getD 2 0) 0)

/-- The faces seen by the observer, with their polygons on the screen. -/
def seenFaces (cs : List Vec) (sides : List (List Nat)) (d : ℚ) (s : ℚ × ℚ) : List Face :=
  (sides.filter fun f => shown (cs.getD (f.getD 0 0) 0) (sideNormal cs f)).map fun f =>
    (f.map fun i => onScreen d s (cs.getD i 0), sideNormal cs f)

def vec (v : Vec) : List ℚ := [v.1, v.2.1, v.2.2]

theorem turn_cam (r : (ℚ × ℚ) × (ℚ × ℚ) × (ℚ × ℚ)) (t v : Vec) : turn r t (vec v) = .ok (vec (cam r t v)) := by
  obtain ⟨⟨a, b⟩, ⟨c, d⟩, e, f⟩ := r
  obtain ⟨t1, t2, t3⟩ := t
  obtain ⟨x, y, z⟩ := v
  unfold turn vec cam
  dsimp only
  congr 2
  · ring
  · congr 1
    · ring
    · congr 1; ring

theorem perspective_cam (r : (ℚ × ℚ) × (ℚ × ℚ) × (ℚ × ℚ)) (t : Vec) (d : ℚ) {vl : List Vec} (hz : ∀ v ∈ vl, (cam r t v).2.2 ≠ 0) :
    perspective (vl.map vec) r t d = .ok (vl.map fun v => vec (cam r t v),
      vl.map fun v => [-d * (cam r t v).1 / (cam r t v).2.2, -d * (cam r t v).2.1 / (cam r t v).2.2]) := by
  unfold perspective
  rw [mapM_ok (vl.map vec) _ (fun p => match p with
      | [x, y, z] => let c := cam r t (x, y, z); (vec c, [-d * c.1 / c.2.2, -d * c.2.1 / c.2.2])
      | _ => ([], []))]
  · rw [ok_bind, pure_eq_ok]
    simp only [List.map_map]
    rfl
  · intro p hp
    obtain ⟨v, hv, rfl⟩ := List.mem_map.mp hp
    rw [turn_cam, ok_bind]
    unfold project vec
    dsimp only
    rw [if_neg (hz v hv)]
    rfl

theorem gensides_cam {cs : List Vec} {sides : List (List Nat)} (hs : ∀ f ∈ sides, 3 ≤ f.length ∧ ∀ i ∈ f, i < cs.length) (d : ℚ) (s : ℚ × ℚ) :
    gensides (cs.map vec, cs.map fun c => [-d * c.1 / c.2.2, -d * c.2.1 / c.2.2]) [s.1, s.2] sides = .ok (sidesOf (seenFaces cs sides d s)) := by
  have hside : ∀ f ∈ sides, genside (cs.map vec, cs.map fun c => [-d * c.1 / c.2.2, -d * c.2.1 / c.2.2]) [s.1, s.2] f = .ok (
      if shown (cs.getD (f.getD 0 0) 0) (sideNormal cs f) = true then
        some (f.map fun i => [(onScreen d s (cs.getD i 0)).1, (onScreen d s (cs.getD i 0)).2], vec (sideNormal cs f)) else none) := by
    intro f hf
    obtain ⟨hf3, hfi⟩ := hs f hf
    match f, hf3, hfi with
    | s0 :: s1 :: s2 :: fs, _, hfi =>
      have hn1 : ∀ i < cs.length, nth (cs.map vec) i = .ok (vec (cs.getD i 0)) := by
        intro i hi
        unfold nth
        rw [List.getElem?_map, List.getElem?_eq_getElem hi, List.getD_eq_getElem _ _ hi]; rfl
      have hn2 : ∀ i < cs.length, nth (cs.map fun c => [-d * c.1 / c.2.2, -d * c.2.1 / c.2.2]) i =
          .ok [-d * (cs.getD i 0).1 / (cs.getD i 0).2.2, -d * (cs.getD i 0).2.1 / (cs.getD i 0).2.2] := by
        intro i hi
        unfold nth
        rw [List.getElem?_map, List.getElem?_eq_getElem hi, List.getD_eq_getElem _ _ hi]; rfl
      have i0 := hfi s0 (by simp)
      have i1 := hfi s1 (by simp)
      have i2 := hfi s2 (by simp)
      have hm := mapM_ok (s0 :: s1 :: s2 :: fs) (nth (cs.map fun c => [-d * c.1 / c.2.2, -d * c.2.1 / c.2.2])) _ (fun i hi => hn2 i (hfi i hi))
      have key : ∀ u v w : Vec, surfacetest (vec u) (vec v) (vec w) = .ok (-((faceNormal u v w).1 * u.1 + (faceNormal u v w).2.1 * u.2.1 +
          (faceNormal u v w).2.2 * u.2.2)) := by
        rintro ⟨a, b, c⟩ ⟨a', b', c'⟩ ⟨a'', b'', c''⟩
        unfold surfacetest vec faceNormal
        dsimp only
        congr 1
        ring
      have kn : ∀ u v w : Vec, getnormvec (vec u) (vec v) (vec w) = vec (faceNormal u v w) := by
        rintro ⟨a, b, c⟩ ⟨a', b', c'⟩ ⟨a'', b'', c''⟩
        rfl
      unfold genside
      dsimp only
      rw [hn1 _ i0, ok_bind, hn1 _ i1, ok_bind, hn1 _ i2, ok_bind, key, ok_bind, hm, ok_bind, kn]
      unfold shown sideNormal
      simp only [List.getD_cons_zero, List.getD_cons_succ, decide_eq_true_eq, Left.neg_nonpos_iff]
      split_ifs
      · rw [pure_eq_ok]
        congr 3
        unfold Model.trans
        rw [List.map_map]
        apply List.map_congr_left
        intro i _
        unfold onScreen addvect
        simp only [Function.comp, List.zipWith_cons_cons, List.zipWith_nil_left]
        congr 1
        · ring
        · congr 1; ring
      · rfl
  unfold gensides
  rw [mapM_ok sides _ _ hside, ok_bind, pure_eq_ok]
  have hk : (sides.map fun f => if shown (cs.getD (f.getD 0 0) 0) (sideNormal cs f) = true then
        some (f.map fun i => [(onScreen d s (cs.getD i 0)).1, (onScreen d s (cs.getD i 0)).2], vec (sideNormal cs f)) else none).filterMap id =
      (sides.filter fun f => shown (cs.getD (f.getD 0 0) 0) (sideNormal cs f)).map fun f =>
        (f.map fun i => [(onScreen d s (cs.getD i 0)).1, (onScreen d s (cs.getD i 0)).2], vec (sideNormal cs f)) := by
    clear hside hs
    induction sides with
    | nil => rfl
    | cons f l ih =>
      rw [List.map_cons, List.filter_cons]
      split_ifs
      · rw [List.filterMap_cons_some (b := _) (id_eq _), ih]; rfl
      · rw [List.filterMap_cons_none rfl, ih]
  rw [hk]
  unfold sidesOf seenFaces
  simp only [List.map_map]
  congr 2
  apply List.map_congr_left
  intro f _
  simp [List.map_map, Function.comp]

theorem solid_eq {vl : List Vec} {sides : List (List Nat)} (hs : ∀ f ∈ sides, 3 ≤ f.length ∧ ∀ i ∈ f, i < vl.length)
    {r : (ℚ × ℚ) × (ℚ × ℚ) × (ℚ × ℚ)} {t : Vec} (hz : ∀ v ∈ vl, (cam r t v).2.2 ≠ 0) (b : Bytes) (issolid outline : Bool) (f : ℚ × ℚ × ℚ)
    (color : Int) (d : ℚ) (s : ℚ × ℚ) :
    plot3Dsolid b (vl.map vec, sides) issolid f outline color r t d [s.1, s.2] =
      plot3d b (sidesOf (seenFaces (vl.map (cam r t)) sides d s)) issolid f outline color := by
  unfold plot3Dsolid
  dsimp only
  rw [perspective_cam r t d hz, ok_bind]
  have := gensides_cam (cs := vl.map (cam r t)) (sides := sides) (by simpa using hs) d s
  rw [List.map_map, List.map_map] at this
  rw [show (fun v => vec (cam r t v)) = vec ∘ cam r t from rfl]
  rw [show (fun v => [-d * (cam r t v).1 / (cam r t v).2.2, -d * (cam r t v).2.1 / (cam r t v).2.2]) =
    (fun c : Vec => [-d * c.1 / c.2.2, -d * c.2.1 / c.2.2]) ∘ cam r t from rfl, this, ok_bind]

theorem seen_ne {cs : List Vec} {sides : List (List Nat)} (hs : ∀ f ∈ sides, 3 ≤ f.length) (d : ℚ) (s : ℚ × ℚ) :
    ∀ t ∈ seenFaces cs sides d s, t.1 ≠ [] := by
  intro t ht
  unfold seenFaces at ht
  obtain ⟨f, hf, rfl⟩ := List.mem_map.mp ht
  have := hs f (List.mem_filter.mp hf).1
  intro e
  rw [List.map_eq_nil_iff] at e
  rw [e] at this
  simp at this

/-- C191: `plot3Dsolid` without outlines fills the faces that are seen by the observer, each in the
colour of its brightness, at the places of the perspective picture, in the order of the list. Faces with a
boundary pixel outside the image are left out (C145). -/
theorem C191_fill (h : Valid b W H bits) {f : ℚ × ℚ × ℚ} (hf : Pals.Unit f) {vl : List Vec} {sides : List (List Nat)}
    (hs : ∀ f ∈ sides, 3 ≤ f.length ∧ ∀ i ∈ f, i < vl.length)
    {r : (ℚ × ℚ) × (ℚ × ℚ) × (ℚ × ℚ)} {t : Vec} (hz : ∀ v ∈ vl, (cam r t v).2.2 ≠ 0) (color : Int) (d : ℚ) (s : ℚ × ℚ)
    (hd : ∀ g ∈ seenFaces (vl.map (cam r t)) sides d s, Away g.2 → Dim f) :
    ∃ b' ks, plot3Dsolid b (vl.map vec, sides) true f false color r t d [s.1, s.2] = .ok b' ∧
      List.Forall₂ (fun g k => AnyColour b bits f g.2 k) (seenFaces (vl.map (cam r t)) sides d s) ks ∧
      Layered b b' W H bits (List.zipWith (fun g k => (fun px py => Whole W H g.1 ∧ FillSet W bits g.1 px py, k))
        (seenFaces (vl.map (cam r t)) sides d s) ks) := by
  obtain ⟨b', ks, e, c, p⟩ := C145_fill_any h hf (seen_ne (cs := vl.map (cam r t)) (fun f hf => (hs f hf).1) d s) hd
  refine ⟨b', ks, ?_, c, p⟩
  rw [solid_eq hs hz]
  unfold plot3d
  rw [if_pos rfl, e, ok_bind]
  rfl

/-- C191: with outlines, the borders of the same faces are drawn over the fillings. -/
theorem C191_outline_partial (h : Valid b W H bits) (hW : 0 < W) (hH : 0 < H) {f : ℚ × ℚ × ℚ} (hf : Pals.Unit f) {vl : List Vec}
    {sides : List (List Nat)} (hs : ∀ f ∈ sides, 3 ≤ f.length ∧ ∀ i ∈ f, i < vl.length)
    {r : (ℚ × ℚ) × (ℚ × ℚ) × (ℚ × ℚ)} {t : Vec} (hz : ∀ v ∈ vl, (cam r t v).2.2 ≠ 0) {color : Int} (hc : IsColour bits color) (d : ℚ) (s : ℚ × ℚ)
    (hd : ∀ g ∈ seenFaces (vl.map (cam r t)) sides d s, Away g.2 → Dim f)
    (hok : ∀ v ∈ (seenFaces (vl.map (cam r t)) sides d s).map (fun g => g.1.map roundvect2), ∀ p q,
      Consec v p q ∨ (v.head? = some p ∧ v.getLast? = some q) → LineOK W H bits p q) :
    ∃ b' ks, plot3Dsolid b (vl.map vec, sides) true f true color r t d [s.1, s.2] = .ok b' ∧
      List.Forall₂ (fun g k => AnyColour b bits f g.2 k) (seenFaces (vl.map (cam r t)) sides d s) ks ∧
      Layered b b' W H bits (List.zipWith (fun g k => (fun px py => Whole W H g.1 ∧ FillSet W bits g.1 px py, k))
        (seenFaces (vl.map (cam r t)) sides d s) ks ++
        [(fun px py => ∃ g ∈ seenFaces (vl.map (cam r t)) sides d s, ∃ p q, (Consec (g.1.map roundvect2) p q ∨
          ((g.1.map roundvect2).head? = some p ∧ (g.1.map roundvect2).getLast? = some q)) ∧ LineSet W H bits p q px py, color.toNat)]) := by
  rw [solid_eq hs hz]
  exact C145_outline_any h hW hH hf (seen_ne (cs := vl.map (cam r t)) (fun f hf => (hs f hf).1) d s) hd hc hok

/-- C191: a vertex in the plane of the observer makes the call fail, whatever the faces. -/
theorem C191_plane_fails (b : Bytes) {vl : List Vec} (sides : List (List Nat)) (r : (ℚ × ℚ) × (ℚ × ℚ) × (ℚ × ℚ)) (t : Vec)
    (hz : ∃ v ∈ vl, (cam r t v).2.2 = 0) (issolid outline : Bool) (f : ℚ × ℚ × ℚ) (color : Int) (d : ℚ) (tv : List ℚ) :
    plot3Dsolid b (vl.map vec, sides) issolid f outline color r t d tv = .error .zeroDivision := by
  have : perspective (vl.map vec) r t d = .error .zeroDivision := by
    unfold perspective
    have key : (vl.map vec).mapM (fun p => do
        let c ← turn r t p
        pure (c, ← project d c)) = (.error .zeroDivision : Py (List (List ℚ × List ℚ))) := by
      clear b
      induction vl with
      | nil => obtain ⟨v, hv, -⟩ := hz; simp at hv
      | cons v l ih =>
        rw [List.map_cons, List.mapM_cons, turn_cam, ok_bind]
        by_cases h0 : (cam r t v).2.2 = 0
        · rw [show project d (vec (cam r t v)) = .error .zeroDivision by unfold project vec; dsimp only; rw [if_pos h0]]
          rfl
        · rw [show project d (vec (cam r t v)) = .ok [-d * (cam r t v).1 / (cam r t v).2.2, -d * (cam r t v).2.1 / (cam r t v).2.2] by
            unfold project vec; dsimp only; rw [if_neg h0]]
          rw [ih (by
            obtain ⟨w, hw, e⟩ := hz
            rcases List.mem_cons.mp hw with rfl | hw
            · exact absurd e h0
            · exact ⟨w, hw, e⟩)]
          rfl
    rw [key]
    rfl
  unfold plot3Dsolid
  dsimp only
  rw [this]
  rfl

/-- A unit square in front of the observer, once with each order of its vertices: one is seen, the other is not. -/
example : seenFaces ([(0, 0, 0), (1, 0, 0), (1, 1, 0), (0, 1, 0)].map (cam ((0, 1), (0, 1), (0, 1)) (0, 0, 2))) [[0, 1, 2, 3], [3, 2, 1, 0]] 4 (5, 5) =
    [([(5, 3), (7, 3), (7, 5), (5, 5)], (0, 0, 1))] := by decide +kernel

end Verif.Props.Plane
