import Verif.Props.Solids
import Mathlib.Algebra.BigOperators.Intervals
/-! C117: the tiles of spheres, cylinders and cones. -/

namespace Verif.Props.Rounds
open Verif Verif.Model Verif.Props.Solids

/-- The faces bound a body: every edge is passed as often in one direction as in the other. -/
def Balanced (faces : List (List Nat)) : Prop :=
  ∀ a b, (faces.flatMap faceEdges).count (a, b) = (faces.flatMap faceEdges).count (b, a)

/-- Passages of an edge in the direction of `(a, b)` less those against it. -/
def net (a b : Nat) (E : List (Nat × Nat)) : Int := (E.count (a, b) : Int) - E.count (b, a)

def dl (a b : Nat) (p q : Nat) : Int := net a b [(p, q)]

theorem balanced_iff (faces : List (List Nat)) : Balanced faces ↔ ∀ a b, net a b (faces.flatMap faceEdges) = 0 := by
  unfold Balanced net
  constructor
  · intro h a b; rw [h a b]; omega
  · intro h a b; have := h a b; omega

theorem net_append (a b : Nat) (E F : List (Nat × Nat)) : net a b (E ++ F) = net a b E + net a b F := by
  simp only [net, List.count_append]
  push_cast
  ring

theorem net_cons (a b p q : Nat) (E : List (Nat × Nat)) : net a b ((p, q) :: E) = dl a b p q + net a b E := by
  rw [dl, ← net_append]
  rfl

theorem net_nil (a b : Nat) : net a b [] = 0 := rfl

theorem dl_swap (a b p q : Nat) : dl a b q p = -dl a b p q := by
  simp only [dl, net, List.count_cons, List.count_nil, beq_iff_eq, Prod.mk.injEq]
  have h1 : (q = a ∧ p = b) ↔ (p = b ∧ q = a) := and_comm
  have h2 : (q = b ∧ p = a) ↔ (p = a ∧ q = b) := and_comm
  simp only [h1, h2]
  ring

theorem net_flatMap_range (a b n : Nat) (g : Nat → List (Nat × Nat)) :
    net a b ((List.range n).flatMap g) = ∑ i ∈ Finset.range n, net a b (g i) := by
  induction n with
  | zero => rfl
  | succ n ih =>
    rw [List.range_succ, List.flatMap_append, net_append, ih, Finset.sum_range_succ]
    simp

/-- The next position on a ring of `m` points. -/
def nx (m i : Nat) : Nat := if i + 1 = m then 0 else i + 1

theorem sum_nx (m : Nat) (g : Nat → Int) : ∑ i ∈ Finset.range m, g (nx m i) = ∑ i ∈ Finset.range m, g i := by
  cases m with
  | zero => rfl
  | succ n =>
    rw [Finset.sum_range_succ, Finset.sum_range_succ' g]
    congr 1
    · apply Finset.sum_congr rfl
      intro i hi
      have := Finset.mem_range.mp hi
      rw [nx, if_neg (by omega)]
    · rw [nx, if_pos rfl]

theorem nth_getD {l : List Nat} {k : Nat} (h : k < l.length) : nth l k = .ok (l.getD k 0) := by
  simp [nth, h]

theorem nth_getD' {l : List (List Nat)} {k : Nat} (h : k < l.length) : nth l k = .ok (l.getD k []) := by
  simp [nth, h]

theorem edges3 (p q r : Nat) : faceEdges [p, q, r] = [(p, q), (q, r), (r, p)] := rfl
theorem edges4 (p q r s : Nat) : faceEdges [p, q, r, s] = [(p, q), (q, r), (r, s), (s, p)] := rfl

/-- The tiles, with `rg k i` the point `i` of the inner ring `k`. -/
theorem sphere_tiles {N S m : Nat} {inner : List (List Nat)} (hne : inner ≠ [])
    (hm : ∀ r ∈ inner, r.length = m) :
    let rg (k i : Nat) : Nat := (inner.getD k []).getD i 0
    genspheresurfaces ([N] :: inner ++ [[S]]) = .ok
      ((List.range m).flatMap (fun i => [[N, rg 0 (nx m i), rg 0 i],
          [S, rg (inner.length - 1) i, rg (inner.length - 1) (nx m i)]]) ++
        (List.range (inner.length - 1)).flatMap (fun k => (List.range m).map fun i =>
          [rg (k + 1) (nx m i), rg (k + 1) i, rg k i, rg k (nx m i)])) := by
  intro rg
  have hpos : 0 < inner.length := List.length_pos_iff.mpr hne
  have hlen : ([N] :: inner ++ [[S]]).length = inner.length + 2 := by simp
  have hin : ∀ k < inner.length, ([N] :: inner ++ [[S]]).getD (k + 1) [] = inner.getD k [] := by
    intro k hk
    simp [List.getD_eq_getElem?_getD, List.getElem?_append_left hk]
  have hlast : ([N] :: inner ++ [[S]]).getD (inner.length + 1) [] = [S] := by
    simp [List.getD_eq_getElem?_getD]
  have hring : ∀ k < inner.length, (inner.getD k []).length = m := by
    intro k hk
    apply hm
    have e : inner.getD k [] = inner[k] := by simp [List.getD_eq_getElem?_getD, hk]
    rw [e]
    exact List.getElem_mem hk
  have hnx : ∀ i < m, nx m i < m := by
    intro i hi; unfold nx; split_ifs <;> omega
  have n0 : nth ([N] :: inner ++ [[S]]) 0 = .ok [N] := rfl
  have nlast : nth ([N] :: inner ++ [[S]]) (inner.length + 1) = .ok [S] := by
    rw [nth_getD' (by omega), hlast]
  have ninn : ∀ k < inner.length, nth ([N] :: inner ++ [[S]]) (k + 1) = .ok (inner.getD k []) := by
    intro k hk
    rw [nth_getD' (by omega), hin k hk]
  have hpole : ∀ i ∈ List.range m, poleTiles N S (inner.getD 0 []) (inner.getD (inner.length - 1) []) i =
      .ok [[N, rg 0 (nx m i), rg 0 i], [S, rg (inner.length - 1) i, rg (inner.length - 1) (nx m i)]] := by
    intro i hi
    have hi := List.mem_range.mp hi
    have h0 := hring 0 hpos
    have hL := hring (inner.length - 1) (by omega)
    have hj := hnx i hi
    unfold poleTiles
    rw [h0]
    have hjj : (if i + 1 = m then 0 else i + 1) = nx m i := rfl
    simp only [hjj]
    rw [nth_getD (by omega), nth_getD (by omega), nth_getD (by omega), nth_getD (by omega)]
    rfl
  have hband : ∀ k ∈ List.range (inner.length - 1), (do
      let pts ← nth ([N] :: inner ++ [[S]]) (k + 1)
      let adjpts ← nth ([N] :: inner ++ [[S]]) (k + 2)
      (List.range pts.length).mapM (bandTiles pts adjpts)) = .ok ((List.range m).map fun i =>
          [rg (k + 1) (nx m i), rg (k + 1) i, rg k i, rg k (nx m i)]) := by
    intro k hk
    have hk := List.mem_range.mp hk
    have ha := hring k (by omega)
    have hb := hring (k + 1) (by omega)
    rw [ninn k (by omega), ninn (k + 1) (by omega)]
    simp only [ok_bind]
    rw [ha]
    apply mapM_ok
    intro i hi
    have hi := List.mem_range.mp hi
    have hj := hnx i hi
    unfold bandTiles
    rw [ha, hb]
    have hjj : (if i + 1 = m then 0 else i + 1) = nx m i := rfl
    simp only [hjj]
    rw [if_neg (by omega), Nat.mod_eq_of_lt hj, Nat.mod_eq_of_lt hi, nth_getD (by omega), nth_getD (by omega),
      nth_getD (by omega), nth_getD (by omega)]
    rfl
  unfold genspheresurfaces
  simp only [hlen]
  have e1 : inner.length + 2 - 1 = inner.length + 1 := by omega
  have e2 : inner.length + 2 - 1 - 1 = inner.length - 1 + 1 := by omega
  have e3 : inner.length + 2 - 1 - 2 = inner.length - 1 := by omega
  have e4 : nth ([N] :: inner ++ [[S]]) 1 = .ok (inner.getD 0 []) := ninn 0 hpos
  rw [n0, ok_bind, e2, e3, e1, nlast, e4, ninn (inner.length - 1) (by omega)]
  have s1 : nth [N] 0 = .ok N := rfl
  have s2 : nth [S] 0 = .ok S := rfl
  rw [s1, ok_bind, ok_bind, s2, ok_bind, ok_bind, ok_bind, hring 0 hpos, mapM_ok _ _ _ hpole, ok_bind, mapM_ok _ _ _ hband, ok_bind]
  simp only [List.flatMap_def, pure_eq_ok]

/-- C117: if all rings between the poles have the same number of points, the tiles bound a body. -/
theorem C117_sphere {N S m : Nat} {inner : List (List Nat)} (hne : inner ≠ [])
    (hm : ∀ r ∈ inner, r.length = m) :
    ∃ tiles, genspheresurfaces ([N] :: inner ++ [[S]]) = .ok tiles ∧ Balanced tiles ∧
      tiles.length = m * (inner.length + 1) := by
  refine ⟨_, sphere_tiles hne hm, ?_, ?_⟩
  · rw [balanced_iff]
    intro a b
    rw [List.flatMap_append, net_append, List.flatMap_assoc, List.flatMap_assoc]
    simp only [List.flatMap_cons, List.flatMap_nil, List.append_nil, List.flatMap_map, edges3, edges4]
    simp only [net_flatMap_range, net_append, net_cons, net_nil, add_zero, Finset.sum_add_distrib]
    generalize hrg : (fun k i => (inner.getD k []).getD i 0) = rg
    have hr : ∀ k i, (inner.getD k []).getD i 0 = rg k i := fun k i => by rw [← hrg]
    simp only [hr]
    have A := sum_nx m (fun i => dl a b N (rg 0 i))
    have B := sum_nx m (fun i => dl a b (rg (inner.length - 1) i) S)
    have C : ∑ i ∈ Finset.range m, dl a b (rg 0 i) N = -∑ i ∈ Finset.range m, dl a b N (rg 0 i) := by
      rw [← Finset.sum_neg_distrib]
      exact Finset.sum_congr rfl fun i _ => dl_swap _ _ _ _
    have D : ∑ i ∈ Finset.range m, dl a b S (rg (inner.length - 1) i) =
        -∑ i ∈ Finset.range m, dl a b (rg (inner.length - 1) i) S := by
      rw [← Finset.sum_neg_distrib]
      exact Finset.sum_congr rfl fun i _ => dl_swap _ _ _ _
    have E : ∀ k, ∑ i ∈ Finset.range m, dl a b (rg (k + 1) i) (rg k i) =
        -∑ i ∈ Finset.range m, dl a b (rg k (nx m i)) (rg (k + 1) (nx m i)) := by
      intro k
      rw [sum_nx m fun i => dl a b (rg k i) (rg (k + 1) i), ← Finset.sum_neg_distrib]
      exact Finset.sum_congr rfl fun i _ => dl_swap _ _ _ _
    have G : ∀ k, ∑ i ∈ Finset.range m, dl a b (rg k (nx m i)) (rg k i) =
        -∑ i ∈ Finset.range m, dl a b (rg k i) (rg k (nx m i)) := by
      intro k
      rw [← Finset.sum_neg_distrib]
      exact Finset.sum_congr rfl fun i _ => dl_swap _ _ _ _
    have T : ∑ k ∈ Finset.range (inner.length - 1), ∑ i ∈ Finset.range m, dl a b (rg k i) (rg k (nx m i)) -
        ∑ k ∈ Finset.range (inner.length - 1), ∑ i ∈ Finset.range m, dl a b (rg (k + 1) i) (rg (k + 1) (nx m i)) =
        ∑ i ∈ Finset.range m, dl a b (rg 0 i) (rg 0 (nx m i)) -
        ∑ i ∈ Finset.range m, dl a b (rg (inner.length - 1) i) (rg (inner.length - 1) (nx m i)) := by
      rw [← Finset.sum_sub_distrib]
      exact Finset.sum_range_sub' (fun k => ∑ i ∈ Finset.range m, dl a b (rg k i) (rg k (nx m i))) _
    simp only [E, G, Finset.sum_neg_distrib]
    linarith
  · simp [List.length_flatMap]
    have : 0 < inner.length := List.length_pos_iff.mpr hne
    obtain ⟨n, hn⟩ : ∃ n, inner.length = n + 1 := ⟨inner.length - 1, by omega⟩
    rw [hn]
    simp
    ring

example : genspheresurfaces [[0], [1, 3, 5], [2, 4, 6], [7]] =
    .ok [[0, 3, 1], [7, 2, 4], [0, 5, 3], [7, 4, 6], [0, 1, 5], [7, 6, 2], [4, 2, 1, 3], [6, 4, 3, 5], [2, 6, 5, 1]] := by
  decide +kernel

theorem ringAngles_div {step : Int} (hs : 0 < step) {m : Nat} (hm : step * m = 360) :
    ringAngles step = .ok ((List.range (m + 2)).map fun (k : Nat) => step * (k : Int)) := by
  unfold ringAngles pyRange3
  rw [if_neg (by omega), if_pos hs]
  have e : ((360 + pyShl step 1 - 0 + step - 1) / step).toNat = m + 2 := by
    have : 360 + pyShl step 1 - 0 + step - 1 = (step - 1) + step * (m + 2) := by
      rw [← hm, show pyShl step 1 = step * 2 from rfl]; ring
    rw [this, Int.add_mul_ediv_left _ _ (by omega), Int.ediv_eq_zero_of_lt (by omega) (by omega)]
    omega
  rw [e]
  simp

/-- The net edges of a polygon given by its points in order. -/
theorem net_polygon (a b n : Nat) (f : Nat → Nat) : net a b (faceEdges ((List.range (n + 1)).map f)) =
    ∑ k ∈ Finset.range n, dl a b (f k) (f (k + 1)) + dl a b (f n) (f 0) := by
  have key : faceEdges ((List.range (n + 1)).map f) =
      (List.range n).map (fun k => (f k, f (k + 1))) ++ [(f n, f 0)] := by
    unfold faceEdges
    have h1 : ((List.range (n + 1)).map f).tail = (List.range n).map fun k => f (k + 1) := by
      rw [List.range_succ_eq_map]
      simp [Function.comp_def]
    have h2 : ((List.range (n + 1)).map f).head?.toList = [f 0] := by
      rw [List.range_succ_eq_map]
      simp
    rw [h1, h2, List.range_succ, List.map_append, List.zip_append (by simp)]
    congr 1
    apply List.ext_getElem <;> simp
  rw [key, net_append, List.map_eq_flatMap, net_flatMap_range, net_cons, net_nil]
  simp [net_cons, net_nil]

theorem reverse_range_map (n : Nat) (f : Nat → Nat) :
    ((List.range (n + 1)).map f).reverse = (List.range (n + 1)).map fun k => f (n - k) := by
  apply List.ext_getElem
  · simp
  · intro i h1 h2
    simp

theorem filter_evens (n : Nat) : ((List.range (n + 2)).map fun k => 2 * k).filter (· > 2) =
    (List.range n).map fun k => 2 * (k + 2) := by
  rw [List.range_succ_eq_map, List.range_succ_eq_map]
  simp only [List.map_cons, List.map_map, List.filter_cons, Function.comp_def]
  simp

theorem filter_succ (n : Nat) : ((List.range (n + 2)).map (· + 1)).filter (· > 2) =
    (List.range n).map fun k => k + 3 := by
  rw [List.range_succ_eq_map, List.range_succ_eq_map]
  simp only [List.map_cons, List.map_map, List.filter_cons, Function.comp_def]
  simp

/-- A full turn does not change a point of the wall. -/
theorem cyl_period (r z : ℝ) (t : Int) :
    cylindrical2rect (r, ((t + 360 : Int) : ℝ) * (Real.pi / 180), z) = cylindrical2rect (r, (t : ℝ) * (Real.pi / 180), z) := by
  have e : ((t + 360 : Int) : ℝ) * (Real.pi / 180) = (t : ℝ) * (Real.pi / 180) + 2 * Real.pi := by
    push_cast; ring
  simp only [cylindrical2rect, e, Real.cos_add_two_pi, Real.sin_add_two_pi]

/-- The point at the angle `k * step` degrees and the height `z` of a wall of radius `r` around `c`. -/
noncomputable def wallPt (c : List ℝ) (r z : ℝ) (step : Int) (k : Nat) : List ℝ :=
  [c.getD 0 0 + r * Real.cos (step * k * (Real.pi / 180)), c.getD 1 0 + r * Real.sin (step * k * (Real.pi / 180)),
    c.getD 2 0 + z]

theorem pairs_length {α : Type} (n : Nat) (A B : Nat → α) :
    ((List.range n).flatMap fun k => [A k, B k]).length = 2 * n := by
  simp [List.length_flatMap]
  omega

theorem pairs_getD {α : Type} (d : α) (n k : Nat) (A B : Nat → α) (hk : k < n) :
    ((List.range n).flatMap fun k => [A k, B k]).getD (2 * k) d = A k ∧
    ((List.range n).flatMap fun k => [A k, B k]).getD (2 * k + 1) d = B k := by
  induction n with
  | zero => omega
  | succ n ih =>
    have hl := pairs_length n A B
    rw [List.range_succ, List.flatMap_append]
    by_cases h : k < n
    · have := ih h
      simp only [List.getD_eq_getElem?_getD] at this ⊢
      rw [List.getElem?_append_left (by omega), List.getElem?_append_left (by omega)]
      exact this
    · have : k = n := by omega
      subst this
      simp only [List.getD_eq_getElem?_getD]
      rw [List.getElem?_append_right (by omega), List.getElem?_append_right (by omega), hl]
      simp

theorem wallPt_period (c : List ℝ) (r z : ℝ) {step : Int} {m : Nat} (hm : step * m = 360) (k : Nat) :
    wallPt c r z step (k + m) = wallPt c r z step k := by
  have e : (step : ℝ) * ((k + m : Nat) : ℝ) * (Real.pi / 180) = step * k * (Real.pi / 180) + 2 * Real.pi := by
    have : (step : ℝ) * m = 360 := by exact_mod_cast hm
    push_cast
    linear_combination (Real.pi / 180) * this
  simp only [wallPt, e, Real.cos_add_two_pi, Real.sin_add_two_pi]

/-- C117: with a step that divides 360 the cylinder has `m + 2` points on each rim, the last two equal to the
first two, `m` quadrilaterals and two lids. After equal points are identified the faces bound a body. -/
theorem C117_cylinder {cx cy cz r zlen : ℝ} {step : Int} (hs : 0 < step) {m : Nat} (hm : step * m = 360) :
    ∃ pts faces, cylindervertandsurface [cx, cy, cz] r zlen step = .ok (pts, faces) ∧
      pts.length = 2 * (m + 2) ∧ faces.length = m + 2 ∧ (∀ f ∈ faces, ∀ i ∈ f, i < pts.length) ∧
      (∀ k < m + 2, pts.getD (2 * k) [] = wallPt [cx, cy, cz] r (-(zlen / 2)) step k ∧
        pts.getD (2 * k + 1) [] = wallPt [cx, cy, cz] r (zlen / 2) step k) ∧
      (∀ i < 4, pts.getD (i + 2 * m) [] = pts.getD i []) ∧
      Balanced (faces.map fun f => f.map fun i => i % (2 * m)) := by
  have hm1 : 1 ≤ m := by
    rcases Nat.eq_zero_or_pos m with h | h
    · subst h; simp at hm
    · exact h
  have hP : ((List.range (m + 2)).map fun (k : Nat) => step * (k : Int)).map (fun (t : Int) =>
      [addvect [cx, cy, cz] [(cylindrical2rect (r, (t : ℝ) * (Real.pi / 180), -(zlen / 2))).1,
        (cylindrical2rect (r, (t : ℝ) * (Real.pi / 180), -(zlen / 2))).2.1,
        (cylindrical2rect (r, (t : ℝ) * (Real.pi / 180), -(zlen / 2))).2.2],
       addvect [cx, cy, cz] [(cylindrical2rect (r, (t : ℝ) * (Real.pi / 180), zlen / 2)).1,
        (cylindrical2rect (r, (t : ℝ) * (Real.pi / 180), zlen / 2)).2.1,
        (cylindrical2rect (r, (t : ℝ) * (Real.pi / 180), zlen / 2)).2.2]]) =
      (List.range (m + 2)).map fun k => [wallPt [cx, cy, cz] r (-(zlen / 2)) step k, wallPt [cx, cy, cz] r (zlen / 2) step k] := by
    rw [List.map_map]
    apply List.map_congr_left
    intro k _
    simp [wallPt, addvect, cylindrical2rect]
  have hpl := pairs_length (m + 2) (wallPt [cx, cy, cz] r (-(zlen / 2)) step) (wallPt [cx, cy, cz] r (zlen / 2) step)
  have hpg := fun k hk => pairs_getD [] (m + 2) k (wallPt [cx, cy, cz] r (-(zlen / 2)) step)
    (wallPt [cx, cy, cz] r (zlen / 2) step) hk
  refine ⟨(List.range (m + 2)).flatMap fun k => [wallPt [cx, cy, cz] r (-(zlen / 2)) step k, wallPt [cx, cy, cz] r (zlen / 2) step k],
    [(List.range (m + 2)).map fun k => 2 * (m + 1 - k)] ++ ((List.range m).map fun k =>
      [2 * (k + 2), 2 * (k + 2) + 1, 2 * (k + 1) + 1, 2 * (k + 1)]) ++ [(List.range (m + 2)).map fun k => 2 * k + 1],
    ?_, hpl, by simp, ?_, hpg, ?_, ?_⟩
  · unfold cylindervertandsurface
    rw [ringAngles_div hs hm, ok_bind]
    simp only [List.length_map, List.length_range, pure_eq_ok]
    rw [hP, filter_evens, reverse_range_map (m + 1) (fun k => 2 * k), ← List.flatMap_def, List.map_map]
    congr 5
  · intro f hf i hi
    rw [hpl]
    simp only [List.mem_append, List.mem_singleton, List.mem_map, List.mem_range] at hf
    rcases hf with (rfl | ⟨k, hk, rfl⟩) | rfl
    · simp only [List.mem_map, List.mem_range] at hi
      omega
    · simp only [List.mem_cons, List.not_mem_nil, or_false] at hi
      omega
    · simp only [List.mem_map, List.mem_range] at hi
      omega
  · intro i hi
    have h0 := hpg 0 (by omega)
    have h1 := hpg 1 (by omega)
    have h2 := hpg m (by omega)
    have h3 := hpg (m + 1) (by omega)
    have p0 := fun z => wallPt_period [cx, cy, cz] r z hm 0
    have p1 := fun z => wallPt_period [cx, cy, cz] r z hm 1
    rw [Nat.zero_add] at p0
    have e1 : 1 + m = m + 1 := by omega
    rw [e1] at p1
    interval_cases i
    · rw [Nat.zero_add, h2.1, p0]; exact h0.1.symm
    · rw [show 1 + 2 * m = 2 * m + 1 by ring, h2.2, p0]; exact h0.2.symm
    · rw [show 2 + 2 * m = 2 * (m + 1) by ring, h3.1, p1]; exact h1.1.symm
    · rw [show 3 + 2 * m = 2 * (m + 1) + 1 by ring, h3.2, p1]; exact h1.2.symm
  · rw [balanced_iff]
    intro a b
    generalize hid : (fun i => i % (2 * m)) = ident
    have hA : ident (2 * (m + 1)) = ident (2 * 1) := by
      rw [← hid]; dsimp only
      rw [show 2 * (m + 1) = 2 * 1 + 2 * m by ring, Nat.add_mod_right]
    have hB : ident (2 * (m + 1) + 1) = ident (2 * 1 + 1) := by
      rw [← hid]; dsimp only
      rw [show 2 * (m + 1) + 1 = 2 * 1 + 1 + 2 * m by ring, Nat.add_mod_right]
    clear hid
    simp only [List.map_append, List.map_cons, List.map_nil, List.map_map, List.flatMap_append, List.flatMap_cons,
      List.flatMap_nil, List.append_nil, net_append, List.flatMap_map, Function.comp_def, edges4,
      net_flatMap_range, net_cons, net_nil, add_zero]
    rw [net_polygon a b (m + 1) (fun k => ident (2 * (m + 1 - k))), net_polygon a b (m + 1) (fun k => ident (2 * k + 1))]
    have R := Finset.sum_range_reflect (fun k => dl a b (ident (2 * (k + 1))) (ident (2 * k))) (m + 1)
    have R' : ∑ k ∈ Finset.range (m + 1), dl a b (ident (2 * (m + 1 - k))) (ident (2 * (m + 1 - (k + 1)))) =
        ∑ k ∈ Finset.range (m + 1), dl a b (ident (2 * (k + 1))) (ident (2 * k)) := by
      rw [← R]
      apply Finset.sum_congr rfl
      intro k hk
      have := Finset.mem_range.mp hk
      congr 2 <;> congr 1 <;> omega
    rw [R', Nat.sub_self, Nat.sub_zero, hA, hB, Finset.sum_range_succ' _ m, Finset.sum_range_succ' _ m]
    simp only [Finset.sum_add_distrib]
    have T : ∑ k ∈ Finset.range m, dl a b (ident (2 * (k + 2))) (ident (2 * (k + 2) + 1)) -
        ∑ k ∈ Finset.range m, dl a b (ident (2 * (k + 1))) (ident (2 * (k + 1) + 1)) = 0 := by
      rw [← Finset.sum_sub_distrib]
      have := Finset.sum_range_sub (fun k => dl a b (ident (2 * (k + 1))) (ident (2 * (k + 1) + 1))) m
      rw [hA, hB] at this
      rw [this]
      simp
    have S1 : ∑ k ∈ Finset.range m, dl a b (ident (2 * (k + 1) + 1)) (ident (2 * (k + 1))) =
        -∑ k ∈ Finset.range m, dl a b (ident (2 * (k + 1))) (ident (2 * (k + 1) + 1)) := by
      rw [← Finset.sum_neg_distrib]
      exact Finset.sum_congr rfl fun i _ => dl_swap _ _ _ _
    have S2 : ∑ k ∈ Finset.range m, dl a b (ident (2 * (k + 1 + 1))) (ident (2 * (k + 1))) =
        -∑ k ∈ Finset.range m, dl a b (ident (2 * (k + 1))) (ident (2 * (k + 2))) := by
      rw [← Finset.sum_neg_distrib]
      exact Finset.sum_congr rfl fun i _ => dl_swap _ _ _ _
    have S3 : ∑ k ∈ Finset.range m, dl a b (ident (2 * (k + 2) + 1)) (ident (2 * (k + 1) + 1)) =
        -∑ k ∈ Finset.range m, dl a b (ident (2 * (k + 1) + 1)) (ident (2 * (k + 1 + 1) + 1)) := by
      rw [← Finset.sum_neg_distrib]
      exact Finset.sum_congr rfl fun i _ => dl_swap _ _ _ _
    have Z1 := dl_swap a b (ident (2 * 0)) (ident (2 * 1))
    have Z2 := dl_swap a b (ident (2 * 0 + 1)) (ident (2 * 1 + 1))
    simp only [Nat.zero_add] at *
    rw [S1, S2, S3]
    linarith

/-- C117: the same for the cone, with the tip as point 0. -/
theorem C117_cone {cx cy cz r zlen : ℝ} {step : Int} (hs : 0 < step) {m : Nat} (hm : step * m = 360) :
    ∃ pts faces, conevertandsurface [cx, cy, cz] r zlen step = .ok (pts, faces) ∧
      pts.length = m + 3 ∧ faces.length = m + 1 ∧ (∀ f ∈ faces, ∀ i ∈ f, i < pts.length) ∧
      pts.getD 0 [] = [cx, cy, cz - zlen / 2] ∧
      (∀ k < m + 2, pts.getD (k + 1) [] = wallPt [cx, cy, cz] r (zlen / 2) step k) ∧
      (∀ i < 2, pts.getD (i + 1 + m) [] = pts.getD (i + 1) []) ∧
      Balanced (faces.map fun f => f.map fun i => if i = 0 then 0 else (i - 1) % m + 1) := by
  have hm1 : 1 ≤ m := by
    rcases Nat.eq_zero_or_pos m with h | h
    · subst h; simp at hm
    · exact h
  have hP : ((List.range (m + 2)).map fun (k : Nat) => step * (k : Int)).map (fun (t : Int) =>
       addvect [cx, cy, cz] [(cylindrical2rect (r, (t : ℝ) * (Real.pi / 180), zlen / 2)).1,
        (cylindrical2rect (r, (t : ℝ) * (Real.pi / 180), zlen / 2)).2.1,
        (cylindrical2rect (r, (t : ℝ) * (Real.pi / 180), zlen / 2)).2.2]) =
      (List.range (m + 2)).map fun k => wallPt [cx, cy, cz] r (zlen / 2) step k := by
    rw [List.map_map]
    apply List.map_congr_left
    intro k _
    simp [wallPt, addvect, cylindrical2rect]
  have hpg : ∀ k < m + 2, ([cx, cy, cz - zlen / 2] :: (List.range (m + 2)).map fun k => wallPt [cx, cy, cz] r (zlen / 2) step k).getD (k + 1) [] =
      wallPt [cx, cy, cz] r (zlen / 2) step k := by
    intro k hk
    simp [List.getD_eq_getElem?_getD, hk]
  refine ⟨[cx, cy, cz - zlen / 2] :: (List.range (m + 2)).map fun k => wallPt [cx, cy, cz] r (zlen / 2) step k,
    ((List.range m).map fun k => [0, k + 3, k + 2]) ++ [(List.range (m + 2)).map fun k => k + 1],
    ?_, by simp, by simp, ?_, rfl, hpg, ?_, ?_⟩
  · unfold conevertandsurface
    rw [ringAngles_div hs hm, ok_bind]
    simp only [List.length_map, List.length_range, pure_eq_ok]
    rw [hP, filter_succ, List.map_map]
    simp [subvect, Function.comp_def]
  · intro f hf i hi
    simp only [List.length_cons, List.length_map, List.length_range]
    simp only [List.mem_append, List.mem_singleton, List.mem_map, List.mem_range] at hf
    rcases hf with ⟨k, hk, rfl⟩ | rfl
    · simp only [List.mem_cons, List.not_mem_nil, or_false] at hi
      omega
    · simp only [List.mem_map, List.mem_range] at hi
      omega
  · intro i hi
    rw [show i + 1 + m = (i + m) + 1 by ring, hpg (i + m) (by omega), hpg i (by omega), wallPt_period _ _ _ hm]
  · rw [balanced_iff]
    intro a b
    generalize hid : (fun i => if i = 0 then 0 else (i - 1) % m + 1) = ident
    have hA : ident (m + 1 + 1) = ident (1 + 1) := by
      rw [← hid]; dsimp only
      rw [if_neg (by omega), if_neg (by omega), show m + 1 + 1 - 1 = 1 + 1 - 1 + m by omega, Nat.add_mod_right]
    clear hid
    simp only [List.map_append, List.map_cons, List.map_nil, List.map_map, List.flatMap_append, List.flatMap_cons,
      List.flatMap_nil, List.append_nil, net_append, List.flatMap_map, Function.comp_def, edges3,
      net_flatMap_range, net_cons, net_nil, add_zero]
    rw [net_polygon a b (m + 1) (fun k => ident (k + 1))]
    rw [hA, Finset.sum_range_succ' _ m]
    simp only [Finset.sum_add_distrib]
    have T : ∑ k ∈ Finset.range m, dl a b (ident 0) (ident (k + 3)) -
        ∑ k ∈ Finset.range m, dl a b (ident 0) (ident (k + 2)) = 0 := by
      rw [← Finset.sum_sub_distrib]
      have := Finset.sum_range_sub (fun k => dl a b (ident 0) (ident (k + 2))) m
      rw [show m + 2 = m + 1 + 1 by ring, hA] at this
      rw [this]
      simp
    have S1 : ∑ k ∈ Finset.range m, dl a b (ident (k + 2)) (ident 0) =
        -∑ k ∈ Finset.range m, dl a b (ident 0) (ident (k + 2)) := by
      rw [← Finset.sum_neg_distrib]
      exact Finset.sum_congr rfl fun i _ => dl_swap _ _ _ _
    have S2 : ∑ k ∈ Finset.range m, dl a b (ident (k + 1 + 1)) (ident (k + 1 + 1 + 1)) =
        -∑ k ∈ Finset.range m, dl a b (ident (k + 3)) (ident (k + 2)) := by
      rw [← Finset.sum_neg_distrib]
      exact Finset.sum_congr rfl fun i _ => dl_swap _ _ _ _
    have Z1 := dl_swap a b (ident (0 + 1)) (ident (1 + 1))
    rw [S1, S2]
    simp only [Nat.zero_add] at *
    linarith

/-- The points of a sphere around the origin are on the sphere, for every step. -/
theorem spherevert_points (vcen : List ℝ) (r : ℝ) (step : Int) {pts : List (List ℝ)}
    (h : spherevert vcen r step = .ok pts) :
    [0, 0, -r] ∈ pts ∧ ∀ p ∈ pts, p = [0, 0, -r] ∨
      ∃ theta phi : ℝ, p = addvect vcen [r * Real.sin phi * Real.cos theta, r * Real.sin phi * Real.sin theta, r * Real.cos phi] := by
  unfold spherevert at h
  cases ht : pyRange3 0 360 step with
  | error e => rw [ht] at h; exact absurd h (by simp)
  | ok thetas =>
    cases hp : pyRange3 0 180 step with
    | error e => rw [ht, hp] at h; exact absurd h (by simp)
    | ok phis =>
      rw [ht, hp] at h
      simp only [ok_bind, pure_eq_ok, Except.ok.injEq] at h
      have hstep : ∀ (P : List ℝ → Prop) (plist : List (List ℝ)) (p : List ℝ), (∀ q ∈ plist, P q) → P p →
          ∀ q ∈ (open Classical in if p ∈ plist then plist else plist ++ [p]), P q := by
        intro P plist p h1 h2 q hq
        split_ifs at hq
        · exact h1 q hq
        · rcases List.mem_append.mp hq with hq | hq
          · exact h1 q hq
          · rw [List.mem_singleton.mp hq]; exact h2
      have hfold : ∀ (P : List ℝ → Prop) (f : Int → List ℝ) (l : List Int) (plist : List (List ℝ)), (∀ q ∈ plist, P q) → (∀ i, P (f i)) →
          ∀ q ∈ l.foldl (fun plist i => open Classical in if f i ∈ plist then plist else plist ++ [f i]) plist, P q := by
        intro P f l
        induction l with
        | nil => intro plist h1 _; exact h1
        | cons a l ih => intro plist h1 h2; exact ih _ (hstep P plist _ h1 (h2 a)) h2
      have hfold2 : ∀ (P : List ℝ → Prop) (f : Int → Int → List ℝ) (l m : List Int) (plist : List (List ℝ)), (∀ q ∈ plist, P q) → (∀ i j, P (f i j)) →
          ∀ q ∈ l.foldl (fun plist i => m.foldl (fun plist j => open Classical in if f i j ∈ plist then plist else plist ++ [f i j]) plist) plist, P q := by
        intro P f l
        induction l with
        | nil => intro m plist h1 _; exact h1
        | cons a l ih => intro m plist h1 h2; exact ih m _ (hfold P (f a) m plist h1 (h2 a)) h2
      subst h
      constructor
      · split_ifs with h
        · exact h
        · simp
      · apply hstep
        · apply hfold2
          · intro q hq; exact absurd hq (by simp)
          · intro i j
            right
            exact ⟨_, _, rfl⟩
        · left; rfl

/-- C117: all points of a sphere around the origin have the distance `r` from it. -/
theorem C117_sphere_points_partial (r : ℝ) (step : Int) {pts : List (List ℝ)}
    (h : spherevert [0, 0, 0] r step = .ok pts) : ∀ p ∈ pts, sqDist p [0, 0, 0] = r ^ 2 := by
  intro p hp
  rcases (spherevert_points _ _ _ h).2 p hp with rfl | ⟨t, f, rfl⟩
  · simp [sqDist]
  · have h1 := Real.sin_sq_add_cos_sq t
    have h2 := Real.sin_sq_add_cos_sq f
    simp only [sqDist, addvect, List.zipWith_cons_cons, List.zipWith_nil_left, List.getD_cons_zero, List.getD_cons_succ]
    linear_combination r ^ 2 * Real.sin f ^ 2 * h1 + r ^ 2 * h2

/-- The centre is forgotten at the south pole: a sphere around `(cx, cy, cz)` still has the point `(0, 0, -r)`,
which is on the sphere only by chance. -/
theorem C117_pole_wrong (cx cy cz r : ℝ) (step : Int) {pts : List (List ℝ)}
    (h : spherevert [cx, cy, cz] r step = .ok pts) :
    ∃ p ∈ pts, sqDist p [cx, cy, cz] = cx ^ 2 + cy ^ 2 + (r + cz) ^ 2 := by
  refine ⟨_, (spherevert_points _ _ _ h).1, ?_⟩
  simp only [sqDist, List.getD_cons_zero, List.getD_cons_succ]
  ring

/-- The tiles of the sphere are inside out, against those of the cube, the cylinder and the cone: the normal
of a tile `[north pole, next, this]` points to the centre. -/
theorem C117_inward_wrong {r phi theta delta : ℝ} (hr : 0 < r) (hphi : 0 < phi ∧ phi < Real.pi)
    (hd : 0 < delta ∧ delta < Real.pi) :
    let pt (t : ℝ) : List ℝ := [r * Real.sin phi * Real.cos t, r * Real.sin phi * Real.sin t, r * Real.cos phi]
    0 < vol [0, 0, r] (pt (theta + delta)) (pt theta) [0, 0, 0] := by
  intro pt
  have h1 : 0 < Real.sin phi := Real.sin_pos_of_pos_of_lt_pi hphi.1 hphi.2
  have h2 : 0 < Real.sin delta := Real.sin_pos_of_pos_of_lt_pi hd.1 hd.2
  have h3 := Real.sin_sq_add_cos_sq theta
  have e : vol [0, 0, r] (pt (theta + delta)) (pt theta) [0, 0, 0] = r ^ 3 * Real.sin phi ^ 2 * Real.sin delta := by
    simp only [vol, pt, List.getD_cons_zero, List.getD_cons_succ, Real.sin_add, Real.cos_add]
    linear_combination (r ^ 3 * Real.sin phi ^ 2 * Real.sin delta) * h3
  rw [e]
  positivity

end Verif.Props.Rounds
