import Verif.Model.Solids
import Verif.Lemmas.Basic
import Mathlib.Tactic.Linarith
import Mathlib.Tactic.Ring
import Mathlib.Tactic.IntervalCases
import Mathlib.Tactic.Positivity
import Mathlib.Tactic.FieldSimp
/-! C115: the tables of faces of the solids. C116: projection and hidden surfaces. -/

namespace Verif.Props.Solids
open Verif Verif.Model

/-- The directed edges of a face, the last vertex followed by the first. -/
def faceEdges (f : List Nat) : List (Nat × Nat) := f.zip (f.tail ++ f.head?.toList)

/-- The faces bound a body: no directed edge occurs twice, and with every edge the opposite one occurs. -/
def Watertight (faces : List (List Nat)) : Prop :=
  let E := faces.flatMap faceEdges
  E.Nodup ∧ ∀ e ∈ E, (e.2, e.1) ∈ E

instance (faces : List (List Nat)) : Decidable (Watertight faces) := by unfold Watertight; infer_instance

/-- Six times the signed volume of the simplex `a b c w`: positive if `w` lies on the side of the plane
`a b c` to which the normal `(b - a) × (c - a)` points. -/
def vol {K : Type} [Field K] (a b c w : List K) : K :=
  let d (p : List K) (i : Nat) : K := p.getD i 0 - a.getD i 0
  (d b 1 * d c 2 - d b 2 * d c 1) * d w 0 + (d b 2 * d c 0 - d b 0 * d c 2) * d w 1 +
    (d b 0 * d c 1 - d b 1 * d c 0) * d w 2

/-- Every face lies in a plane with all vertices of the body on it or on the side away from the normal,
and only the vertices of the face are on it: the body is convex and the normals point outwards. -/
def Outward {K : Type} [Field K] [LinearOrder K] (V : List (List K)) (faces : List (List Nat)) : Prop :=
  ∀ f ∈ faces, ∀ k < V.length,
    let s := vol (V.getD (f.getD 0 0) []) (V.getD (f.getD 1 0) []) (V.getD (f.getD 2 0) []) (V.getD k [])
    (k ∈ f → s = 0) ∧ (k ∉ f → s < 0)

/-- The same with normals that point to the inside. -/
def Inward {K : Type} [Field K] [LinearOrder K] (V : List (List K)) (faces : List (List Nat)) : Prop :=
  ∀ f ∈ faces, ∀ k < V.length,
    let s := vol (V.getD (f.getD 0 0) []) (V.getD (f.getD 1 0) []) (V.getD (f.getD 2 0) []) (V.getD k [])
    (k ∈ f → s = 0) ∧ (k ∉ f → 0 < s)

/-- C115: all six tables of faces bound a body. -/
theorem C115_watertight : Watertight tetrahedraSides ∧ Watertight cubeSides ∧ Watertight hexahedraSides ∧
    Watertight octahedraSides ∧ Watertight decahedSides ∧ Watertight icosahedSides := by
  decide +kernel

theorem C115_cube {K : Type} [Field K] [LinearOrder K] [IsStrictOrderedRing K] {x : K} (hx : 0 < x) :
    Outward (cubevert x) cubeSides := by
  have h3 : 0 < x * x * x := by positivity
  intro f hf k hk
  simp only [cubeSides, List.mem_cons, List.not_mem_nil, or_false] at hf
  simp only [cubevert, List.length_cons, List.length_nil] at hk
  rcases hf with rfl | rfl | rfl | rfl | rfl | rfl <;> interval_cases k <;>
    simp [vol, cubevert] <;> linarith

theorem C115_octahedron {K : Type} [Field K] [LinearOrder K] [IsStrictOrderedRing K] {x : K} (hx : 0 < x) :
    Outward (octahedravert x) octahedraSides := by
  obtain ⟨h, rfl⟩ : ∃ h, x = 2 * h := ⟨x / 2, by ring⟩
  have hh : 0 < h := by linarith
  have h3 : 0 < h * h * h := by positivity
  have e : 2 * h / 2 = h := by ring
  intro f hf k hk
  simp only [octahedraSides, List.mem_cons, List.not_mem_nil, or_false] at hf
  simp only [octahedravert, List.length_cons, List.length_nil] at hk
  rcases hf with rfl | rfl | rfl | rfl | rfl | rfl | rfl | rfl <;> interval_cases k <;>
    simp [vol, octahedravert, e] <;> nlinarith

theorem base_facts {x : ℝ} (hx : 0 < x) : 0 < x / 2 ∧ x / 2 < Real.sqrt (x ^ 2 / 2) ∧
    0 < Real.sqrt (3 / 8 * x ^ 2) := by
  refine ⟨by linarith, ?_, Real.sqrt_pos.mpr (by positivity)⟩
  apply Real.lt_sqrt_of_sq_lt
  nlinarith

/-- The normals of the tetrahedron point to the inside, against those of the cube: the property that all
the solids have outward normals is false. -/
theorem C115_tetrahedron_wrong {x : ℝ} (hx : 0 < x) : Inward (tetrahedravert x) tetrahedraSides := by
  obtain ⟨hh, hs, ht⟩ := base_facts hx
  intro f hf k hk
  simp only [tetrahedraSides, List.mem_cons, List.not_mem_nil, or_false] at hf
  simp only [tetrahedravert, List.length_cons, List.length_nil] at hk
  have e : x = 2 * (x / 2) := by ring
  unfold tetrahedravert
  generalize Real.sqrt (x ^ 2 / 2) = s at *
  generalize Real.sqrt (3 / 8 * x ^ 2) = t at *
  generalize x / 2 = h at *
  subst e
  have hs0 : 0 < s := by linarith
  have h1 : 0 < h * t * s := by positivity
  have h2 : 0 < h * t * (s - h) := mul_pos (by positivity) (by linarith)
  rcases hf with rfl | rfl | rfl | rfl <;> interval_cases k <;>
    simp [vol] <;> nlinarith

theorem C115_hexahedron_wrong {x : ℝ} (hx : 0 < x) : Inward (hexahedravert x) hexahedraSides := by
  obtain ⟨hh, hs, ht⟩ := base_facts hx
  intro f hf k hk
  simp only [hexahedraSides, List.mem_cons, List.not_mem_nil, or_false] at hf
  simp only [hexahedravert, List.length_cons, List.length_nil] at hk
  have e : x = 2 * (x / 2) := by ring
  unfold hexahedravert
  dsimp only
  generalize Real.sqrt (x ^ 2 / 2) = s at *
  generalize Real.sqrt (3 / 8 * x ^ 2) = t at *
  generalize x / 2 = h at *
  subst e
  have hs0 : 0 < s := by linarith
  have h1 : 0 < h * t * s := by positivity
  have h2 : 0 < h * t * (s - h) := mul_pos (by positivity) (by linarith)
  have h3 : 0 < h * t * h := by positivity
  rcases hf with rfl | rfl | rfl | rfl | rfl | rfl <;> interval_cases k <;>
    simp [vol] <;> nlinarith

/-- The square of the distance of two points. -/
def sqDist {K : Type} [Field K] (u v : List K) : K :=
  (u.getD 0 0 - v.getD 0 0) ^ 2 + (u.getD 1 0 - v.getD 1 0) ^ 2 + (u.getD 2 0 - v.getD 2 0) ^ 2

/-- All edges of the cube have the given length. -/
theorem C115_cube_edges {K : Type} [Field K] (x : K) : ∀ e ∈ cubeSides.flatMap faceEdges,
    sqDist ((cubevert x).getD e.1 []) ((cubevert x).getD e.2 []) = x ^ 2 := by
  intro e he
  simp only [cubeSides, faceEdges, List.flatMap_cons, List.flatMap_nil, List.zip_cons_cons, List.tail_cons, List.head?_cons,
    Option.toList_some, List.cons_append, List.nil_append, List.zip_nil_right, List.mem_cons,
    List.not_mem_nil, or_false, List.append_nil] at he
  rcases he with rfl | rfl | rfl | rfl | rfl | rfl | rfl | rfl | rfl | rfl | rfl | rfl | rfl | rfl | rfl | rfl |
    rfl | rfl | rfl | rfl | rfl | rfl | rfl | rfl <;> simp [cubevert, sqDist]

/-- The argument of `octahedravert` is the length of four of the twelve edges only: the ones to the two
tips are shorter. -/
theorem C115_octahedron_edges_wrong {K : Type} [Field K] [LinearOrder K] [IsStrictOrderedRing K] {x : K} (hx : 0 < x) :
    (1, 2) ∈ octahedraSides.flatMap faceEdges ∧ (0, 1) ∈ octahedraSides.flatMap faceEdges ∧
    sqDist ((octahedravert x).getD 1 []) ((octahedravert x).getD 2 []) = x ^ 2 ∧
    sqDist ((octahedravert x).getD 0 []) ((octahedravert x).getD 1 []) = 3 / 4 * x ^ 2 ∧
    sqDist ((octahedravert x).getD 0 []) ((octahedravert x).getD 1 []) < x ^ 2 := by
  have h : sqDist ((octahedravert x).getD 0 []) ((octahedravert x).getD 1 []) = 3 / 4 * x ^ 2 := by
    simp only [octahedravert, sqDist, List.getD_cons_zero, List.getD_cons_succ]
    ring
  refine ⟨by decide, by decide, ?_, h, ?_⟩
  · simp only [octahedravert, sqDist, List.getD_cons_zero, List.getD_cons_succ]
    ring
  · rw [h]
    have : 0 < x ^ 2 := by positivity
    linarith

/-- The edges of `tetrahedravert x` have three lengths: `x` and the square roots of `3 / 4 * x ^ 2` and
`7 / 8 * x ^ 2`; the argument is documented as the length of a side. -/
theorem C115_tetrahedron_edges_wrong {x : ℝ} (hx : 0 < x) :
    (0, 2) ∈ tetrahedraSides.flatMap faceEdges ∧ (0, 1) ∈ tetrahedraSides.flatMap faceEdges ∧
    (0, 3) ∈ tetrahedraSides.flatMap faceEdges ∧
    sqDist ((tetrahedravert x).getD 0 []) ((tetrahedravert x).getD 2 []) = x ^ 2 ∧
    sqDist ((tetrahedravert x).getD 0 []) ((tetrahedravert x).getD 1 []) = 3 / 4 * x ^ 2 ∧
    sqDist ((tetrahedravert x).getD 0 []) ((tetrahedravert x).getD 3 []) = 7 / 8 * x ^ 2 := by
  have h1 := Real.sq_sqrt (show 0 ≤ x ^ 2 / 2 by positivity)
  have h2 := Real.sq_sqrt (show 0 ≤ 3 / 8 * x ^ 2 by positivity)
  simp only [tetrahedravert, sqDist, List.getD_cons_zero, List.getD_cons_succ]
  refine ⟨by decide, by decide, by decide, by ring, ?_, ?_⟩ <;> nlinarith

example : vol [0, 0, 0] [1, 0, 0] [0, 1, 0] [0, 0, (1 : ℚ)] = 1 := by decide +kernel

/-! ## C116 -/

section Projection
variable {K : Type} [Field K]

/-- The three pairs are the sine and the cosine of angles. -/
def IsRot (r : (K × K) × (K × K) × (K × K)) : Prop :=
  r.1.1 ^ 2 + r.1.2 ^ 2 = 1 ∧ r.2.1.1 ^ 2 + r.2.1.2 ^ 2 = 1 ∧ r.2.2.1 ^ 2 + r.2.2.2 ^ 2 = 1

/-- `rotvec3D` (solids3D.py 267-284) yields such pairs. -/
theorem C116_rotvec (roll pitch yaw : ℝ) :
    IsRot (computerotvec roll, computerotvec pitch, computerotvec yaw) := by
  refine ⟨?_, ?_, ?_⟩ <;> simp [computerotvec, Real.sin_sq_add_cos_sq]

theorem turn_ok (r : (K × K) × (K × K) × (K × K)) (t : K × K × K) (x y z : K) :
    ∃ a b c, turn r t [x, y, z] = .ok [a, b, c] := ⟨_, _, _, rfl⟩

/-- Distances are kept. -/
theorem C116_isometry {r : (K × K) × (K × K) × (K × K)} (hr : IsRot r) (t : K × K × K) {p q p' q' : List K}
    (hp : turn r t p = .ok p') (hq : turn r t q = .ok q') : sqDist p' q' = sqDist p q := by
  obtain ⟨⟨sr, cr⟩, ⟨sp, cp⟩, ⟨sy, cy⟩⟩ := r
  obtain ⟨dx, dy, dz⟩ := t
  obtain ⟨h1, h2, h3⟩ := hr
  dsimp only at h1 h2 h3
  match p, q, hp, hq with
  | [a, b, c], [a', b', c'], hp, hq =>
    simp only [turn, Except.ok.injEq] at hp hq
    subst hp hq
    simp only [sqDist, List.getD_cons_zero, List.getD_cons_succ]
    have e1 : cr ^ 2 = 1 - sr ^ 2 := by linear_combination h1
    have e2 : cp ^ 2 = 1 - sp ^ 2 := by linear_combination h2
    have e3 : cy ^ 2 = 1 - sy ^ 2 := by linear_combination h3
    ring_nf
    simp only [e1, e2, e3]
    ring

theorem vol_linear (m11 m12 m13 m21 m22 m23 m31 m32 m33 tx ty tz : K) (a b c w : List K) :
    let L (p : List K) : List K := let x := p.getD 0 0; let y := p.getD 1 0; let z := p.getD 2 0
      [m11 * x + m12 * y + m13 * z + tx, m21 * x + m22 * y + m23 * z + ty, m31 * x + m32 * y + m33 * z + tz]
    vol (L a) (L b) (L c) (L w) =
      (m11 * (m22 * m33 - m23 * m32) - m12 * (m21 * m33 - m23 * m31) + m13 * (m21 * m32 - m22 * m31)) *
        vol a b c w := by
  simp only [vol, List.getD_cons_zero, List.getD_cons_succ]
  generalize a.getD 0 0 = a0
  generalize a.getD 1 0 = a1
  generalize a.getD 2 0 = a2
  obtain ⟨b0, hb0⟩ : ∃ u, b.getD 0 0 = u + a0 := ⟨_, (sub_add_cancel _ _).symm⟩
  obtain ⟨b1, hb1⟩ : ∃ u, b.getD 1 0 = u + a1 := ⟨_, (sub_add_cancel _ _).symm⟩
  obtain ⟨b2, hb2⟩ : ∃ u, b.getD 2 0 = u + a2 := ⟨_, (sub_add_cancel _ _).symm⟩
  obtain ⟨c0, hc0⟩ : ∃ u, c.getD 0 0 = u + a0 := ⟨_, (sub_add_cancel _ _).symm⟩
  obtain ⟨c1, hc1⟩ : ∃ u, c.getD 1 0 = u + a1 := ⟨_, (sub_add_cancel _ _).symm⟩
  obtain ⟨c2, hc2⟩ : ∃ u, c.getD 2 0 = u + a2 := ⟨_, (sub_add_cancel _ _).symm⟩
  obtain ⟨w0, hw0⟩ : ∃ u, w.getD 0 0 = u + a0 := ⟨_, (sub_add_cancel _ _).symm⟩
  obtain ⟨w1, hw1⟩ : ∃ u, w.getD 1 0 = u + a1 := ⟨_, (sub_add_cancel _ _).symm⟩
  obtain ⟨w2, hw2⟩ : ∃ u, w.getD 2 0 = u + a2 := ⟨_, (sub_add_cancel _ _).symm⟩
  rw [hb0, hb1, hb2, hc0, hc1, hc2, hw0, hw1, hw2]
  have f (x y z tt : K) (u0 u1 u2 : K) : x * (u0 + a0) + y * (u1 + a1) + z * (u2 + a2) + tt -
      (x * a0 + y * a1 + z * a2 + tt) = x * u0 + y * u1 + z * u2 := by ring
  simp only [f, add_sub_cancel_right]
  ring

/-- Orientation is reversed: `perspective` turns and mirrors. -/
theorem C116_mirror {r : (K × K) × (K × K) × (K × K)} (hr : IsRot r) (t : K × K × K)
    {a b c w a' b' c' w' : List K} (ha : turn r t a = .ok a') (hb : turn r t b = .ok b')
    (hc : turn r t c = .ok c') (hw : turn r t w = .ok w') : vol a' b' c' w' = -vol a b c w := by
  obtain ⟨⟨sr, cr⟩, ⟨sp, cp⟩, ⟨sy, cy⟩⟩ := r
  obtain ⟨dx, dy, dz⟩ := t
  obtain ⟨h1, h2, h3⟩ := hr
  dsimp only at h1 h2 h3
  have key : ∀ {p p' : List K}, turn ((sr, cr), (sp, cp), (sy, cy)) (dx, dy, dz) p = .ok p' →
      p' = (let x := p.getD 0 0; let y := p.getD 1 0; let z := p.getD 2 0
        [-(cr * cy) * x + sr * y + -(cr * sy) * z + dx,
         (cp * sr * cy - sp * sy) * x + cp * cr * y + (sp * cy + cp * sr * sy) * z + dy,
         (-(cp * sy) - sp * sr * cy) * x + -(sp * cr) * y + (cp * cy - sp * sr * sy) * z + dz]) := by
    intro p p' h
    match p, h with
    | [x, y, z], h =>
      simp only [turn, Except.ok.injEq] at h
      subst h
      simp only [List.getD_cons_zero, List.getD_cons_succ, List.cons.injEq, and_true]
      refine ⟨by ring, by ring, by ring⟩
  have hd : -(cr * cy) * (cp * cr * (cp * cy - sp * sr * sy) - (sp * cy + cp * sr * sy) * -(sp * cr)) -
      sr * ((cp * sr * cy - sp * sy) * (cp * cy - sp * sr * sy) - (sp * cy + cp * sr * sy) * (-(cp * sy) - sp * sr * cy)) +
      -(cr * sy) * ((cp * sr * cy - sp * sy) * -(sp * cr) - cp * cr * (-(cp * sy) - sp * sr * cy)) = -1 := by
    have e1 : cr ^ 2 = 1 - sr ^ 2 := by linear_combination h1
    have e2 : cp ^ 2 = 1 - sp ^ 2 := by linear_combination h2
    have e3 : cy ^ 2 = 1 - sy ^ 2 := by linear_combination h3
    ring_nf
    simp only [e1, e2, e3]
    ring
  rw [key ha, key hb, key hc, key hw, vol_linear, hd]
  ring

/-- Even the turn by no angle at all changes the points: it mirrors them. The property that
`perspective` rotates is false. -/
theorem C116_rotation_false (x y z : K) : turn (((0, 1), (0, 1), (0, 1)) : (K × K) × (K × K) × (K × K)) (0, 0, 0) [x, y, z] =
    .ok [-x, y, z] := by
  simp [turn]

theorem mapM_forall₂ {α β : Type} (f : α → Py β) : ∀ (l : List α) (r : List β), l.mapM f = .ok r →
    List.Forall₂ (fun a b => f a = .ok b) l r := by
  intro l
  induction l with
  | nil =>
    intro r h
    simp only [List.mapM_nil, pure, Except.pure, Except.ok.injEq] at h
    subst h
    exact .nil
  | cons a l ih =>
    intro r h
    rw [List.mapM_cons] at h
    cases ha : f a with
    | error e => rw [ha] at h; exact absurd h (by simp [bind, Except.bind])
    | ok b =>
      rw [ha] at h
      cases hl : l.mapM f with
      | error e => rw [hl] at h; exact absurd h (by simp [bind, Except.bind])
      | ok t =>
        rw [hl] at h
        simp only [bind, Except.bind, pure, Except.pure, Except.ok.injEq] at h
        subst h
        exact .cons ha (ih t hl)

theorem perspective_parts [DecidableEq K] {r : (K × K) × (K × K) × (K × K)} {t : K × K × K} {d : K}
    {vl : List (List K)} {rot proj : List (List K)} (h : perspective vl r t d = .ok (rot, proj)) :
    ∃ R : List (List K × List K), rot = R.map (·.1) ∧ proj = R.map (·.2) ∧
      List.Forall₂ (fun p q => turn r t p = .ok q.1 ∧ project d q.1 = .ok q.2) vl R := by
  unfold perspective at h
  cases hm : vl.mapM (fun p => do let t ← turn r t p; pure (t, ← project d t)) with
  | error e => rw [hm] at h; exact absurd h (by simp [bind, Except.bind])
  | ok R =>
    rw [hm] at h
    simp only [bind, Except.bind, pure, Except.pure, Except.ok.injEq, Prod.mk.injEq] at h
    refine ⟨R, h.1.symm, h.2.symm, (mapM_forall₂ _ _ _ hm).imp ?_⟩
    intro p q hq
    cases ht : turn r t p with
    | error e => rw [ht] at hq; exact absurd hq (by simp [bind, Except.bind])
    | ok u =>
      rw [ht] at hq
      cases hu : project d u with
      | error e => simp only [bind, Except.bind, hu] at hq; exact absurd hq (by simp)
      | ok w =>
        simp only [bind, Except.bind, hu, pure, Except.pure, Except.ok.injEq] at hq
        subst hq
        exact ⟨rfl, hu⟩

/-- `perspective` yields the turned points and, for each, the point in which the straight line through it
and the origin meets the plane at the distance `-d`. -/
theorem C116_perspective [DecidableEq K] {r : (K × K) × (K × K) × (K × K)} {t : K × K × K} {d : K}
    {vl : List (List K)} {rot proj : List (List K)} (h : perspective vl r t d = .ok (rot, proj)) :
    List.Forall₂ (fun p q => turn r t p = .ok q) vl rot ∧
    List.Forall₂ (fun q s => ∃ x y z X Y m : K, q = [x, y, z] ∧ s = [X, Y] ∧ X = m * x ∧ Y = m * y ∧ -d = m * z)
      rot proj := by
  obtain ⟨R, rfl, rfl, hR⟩ := perspective_parts h
  constructor
  · rw [List.forall₂_map_right_iff]
    exact hR.imp fun _ _ h => h.1
  · rw [List.forall₂_map_left_iff, List.forall₂_map_right_iff, List.forall₂_same]
    intro q hq
    obtain ⟨p, -, hp, hq2⟩ : ∃ p ∈ vl, turn r t p = .ok q.1 ∧ project d q.1 = .ok q.2 := by
      clear h
      induction hR with
      | nil => exact absurd hq (by simp)
      | cons h1 _ ih =>
        rcases List.mem_cons.mp hq with rfl | hq
        · exact ⟨_, by simp, h1⟩
        · obtain ⟨p, hp, e⟩ := ih hq
          exact ⟨p, by simp [hp], e⟩
    obtain ⟨q1, q2⟩ := q
    match q1, hq2 with
    | [x, y, z], hq2 =>
      simp only [project] at hq2
      split_ifs at hq2 with hz
      simp only [Except.ok.injEq] at hq2
      refine ⟨x, y, z, -d * x / z, -d * y / z, -d / z, rfl, hq2.symm, by ring, by ring, ?_⟩
      field_simp

/-- It fails exactly if a point has not three coordinates or is level with the observer. -/
theorem C116_perspective_fails [DecidableEq K] {r : (K × K) × (K × K) × (K × K)} {t : K × K × K} {d : K}
    {vl : List (List K)} :
    (∃ res, perspective vl r t d = .ok res) ↔ ∀ p ∈ vl, ∃ x y z, turn r t p = .ok [x, y, z] ∧ z ≠ 0 := by
  constructor
  · rintro ⟨⟨rot, proj⟩, h⟩ p hp
    obtain ⟨R, -, -, hR⟩ := perspective_parts h
    clear h
    induction hR with
    | nil => exact absurd hp (by simp)
    | @cons p' q l l' h1 _ ih =>
      rcases List.mem_cons.mp hp with rfl | hp
      · obtain ⟨q1, q2⟩ := q
        match q1, h1 with
        | [x, y, z], h1 =>
          refine ⟨x, y, z, h1.1, ?_⟩
          intro hz
          simp [project, hz] at h1
      · exact ih hp
  · intro h
    have hm : vl.mapM (fun p => do let t ← turn r t p; pure (t, ← project d t)) =
        .ok (vl.map fun p => match turn r t p with
          | .ok q => (q, match project d q with | .ok s => s | .error _ => [])
          | .error _ => ([], [])) := by
      apply mapM_ok
      intro p hp
      obtain ⟨x, y, z, e, hz⟩ := h p hp
      simp [e, project, hz, bind, Except.bind, pure, Except.pure]
    unfold perspective
    rw [hm]
    exact ⟨_, rfl⟩

theorem surfacetest_vol {u v w : List K} (hu : u.length = 3) (hv : v.length = 3) (hw : w.length = 3) :
    surfacetest u v w = .ok (vol u v w [0, 0, 0]) := by
  match u, v, w, hu, hv, hw with
  | [a, b, c], [a', b', c'], [a'', b'', c''], _, _, _ =>
    simp only [surfacetest, vol, List.getD_cons_zero, List.getD_cons_succ]
    congr 1
    ring

theorem turn_length {r : (K × K) × (K × K) × (K × K)} {t : K × K × K} {p q : List K} (h : turn r t p = .ok q) :
    q.length = 3 := by
  obtain ⟨⟨sr, cr⟩, ⟨sp, cp⟩, ⟨sy, cy⟩⟩ := r
  obtain ⟨dx, dy, dz⟩ := t
  match p, h with
  | [x, y, z], h =>
    simp only [turn, Except.ok.injEq] at h
    subst h
    rfl

/-- C116: the faces that are kept are exactly those the observer `e` sees from the front or from the edge:
those to which the normal of the face before the projection points. -/
theorem C116_hidden [LinearOrder K] [IsStrictOrderedRing K] {r : (K × K) × (K × K) × (K × K)} (hr : IsRot r)
    {t : K × K × K} {d : K} {vl : List (List K)} {rot proj : List (List K)}
    (h : perspective vl r t d = .ok (rot, proj)) {e : List K} (he : turn r t e = .ok [0, 0, 0])
    {sides : List (List Nat)} (hs : ∀ f ∈ sides, 3 ≤ f.length ∧ ∀ i ∈ f, i < vl.length) (tv : List K) :
    ∃ normals, gensides (rot, proj) tv sides =
      .ok (((sides.filter fun f => decide (0 ≤ vol (vl.getD (f.getD 0 0) []) (vl.getD (f.getD 1 0) [])
        (vl.getD (f.getD 2 0) []) e)).map fun f => f.map fun i => List.zipWith (· + ·) (proj.getD i []) tv), normals) := by
  obtain ⟨R, hrot, hproj, hR⟩ := perspective_parts h
  have hlen := hR.length_eq
  have hget : ∀ i < vl.length, turn r t (vl.getD i []) = .ok (rot.getD i []) := by
    intro i hi
    have := (List.forall₂_iff_get.mp hR).2 i hi (hlen ▸ hi)
    have h2 : i < R.length := hlen ▸ hi
    subst hrot
    simpa [List.getD_eq_getElem?_getD, hi, h2] using this.1
  have hn1 : ∀ i < vl.length, nth rot i = .ok (rot.getD i []) := by
    intro i hi
    have h2 : i < rot.length := by rw [hrot, List.length_map]; omega
    simp [nth, h2]
  have hn2 : ∀ i < vl.length, nth proj i = .ok (proj.getD i []) := by
    intro i hi
    have h2 : i < proj.length := by rw [hproj, List.length_map]; omega
    simp [nth, h2]
  have hside : ∀ f ∈ sides, genside (rot, proj) tv f = .ok (
      if 0 ≤ vol (vl.getD (f.getD 0 0) []) (vl.getD (f.getD 1 0) []) (vl.getD (f.getD 2 0) []) e then
        some (f.map fun i => List.zipWith (· + ·) (proj.getD i []) tv,
          getnormvec (rot.getD (f.getD 0 0) []) (rot.getD (f.getD 1 0) []) (rot.getD (f.getD 2 0) [])) else none) := by
    intro f hf
    obtain ⟨hf3, hfi⟩ := hs f hf
    match f, hf3, hfi with
    | s0 :: s1 :: s2 :: fs, _, hfi =>
      have i0 := hfi s0 (by simp)
      have i1 := hfi s1 (by simp)
      have i2 := hfi s2 (by simp)
      have hv := C116_mirror hr t (hget s0 i0) (hget s1 i1) (hget s2 i2) he
      have hst := surfacetest_vol (turn_length (hget s0 i0)) (turn_length (hget s1 i1)) (turn_length (hget s2 i2))
      rw [hv] at hst
      have hm : (s0 :: s1 :: s2 :: fs).mapM (nth proj) = .ok ((s0 :: s1 :: s2 :: fs).map fun i => proj.getD i []) :=
        mapM_ok _ _ _ fun i hi => hn2 i (hfi i hi)
      simp only [genside, hn1 s0 i0, hn1 s1 i1, hn1 s2 i2, bind, Except.bind, hst, hm, pure, Except.pure,
        List.getD_cons_zero, List.getD_cons_succ, Left.neg_nonpos_iff]
      split_ifs
      · simp [Model.trans, addvect]
      · rfl
  have hm := mapM_ok sides _ _ hside
  unfold gensides
  rw [hm]
  simp only [bind, Except.bind, pure, Except.pure]
  refine ⟨_, congrArg Except.ok (Prod.ext ?_ rfl)⟩
  dsimp only
  rw [List.filterMap_map, List.map_filterMap]
  clear hm hside hs
  induction sides with
  | nil => rfl
  | cons f fs ih =>
    by_cases hf : 0 ≤ vol (vl.getD (f.getD 0 0) []) (vl.getD (f.getD 1 0) []) (vl.getD (f.getD 2 0) []) e
    · simp only [List.filter_cons, hf, decide_true, if_true, List.map_cons, ← ih, List.filterMap_cons,
        Function.comp_apply, id_eq, Option.map_some]
    · simp only [List.filter_cons, hf, decide_false, if_false, ← ih, List.filterMap_cons,
        Function.comp_apply, id_eq, Option.map_none, Bool.false_eq_true]

/-- A cube before the observer: of its six faces one is seen. The face is the one nearest to the observer,
who is at the origin. -/
example : (do
    let (rot, proj) ← perspective (cubevert (2 : ℚ)) ((0, 1), (0, 1), (0, 1)) (1, -1, 5) 10
    let (polys, _) ← gensides (rot, proj) [100, 100] cubeSides
    pure polys) = .ok [[[98, 98], [102, 98], [102, 102], [98, 102]]] := by decide +kernel

end Projection

/-- With its inward normals the tetrahedron shows its back: the faces that `C116_hidden` keeps are those that
have a vertex of the body in front of them, and a face seen from the outside is dropped. The observer at
`(x/2, x/4, -x)` is below the base, face 0, and sees it alone; the other three are drawn. -/
theorem C116_tetrahedron_wrong {x : ℝ} (hx : 0 < x) :
    tetrahedraSides.filter (fun f => open Classical in decide (0 ≤ vol ((tetrahedravert x).getD (f.getD 0 0) [])
      ((tetrahedravert x).getD (f.getD 1 0) []) ((tetrahedravert x).getD (f.getD 2 0) []) [x / 2, x / 4, -x])) =
    [[2, 3, 1], [0, 3, 2], [3, 0, 1]] := by
  obtain ⟨hh, hs, ht⟩ := base_facts hx
  unfold tetrahedravert tetrahedraSides
  have e : x = 2 * (x / 2) := by ring
  have e4 : x / 4 = x / 2 / 2 := by ring
  rw [e4]
  generalize Real.sqrt (x ^ 2 / 2) = s at *
  generalize Real.sqrt (3 / 8 * x ^ 2) = t at *
  generalize x / 2 = h at *
  subst e
  have hs0 : 0 < s := by linarith
  have h1 : 0 < h * t * s := by positivity
  have h2 : 0 < h * h * (s - h) := mul_pos (by positivity) (by linarith)
  have h3 : 0 < h * t * h := by positivity
  have h4 : 0 < h * h * s := by positivity
  rw [List.filter_cons_of_neg, List.filter_cons_of_pos, List.filter_cons_of_pos, List.filter_cons_of_pos,
    List.filter_nil] <;> simp [vol] <;> nlinarith

end Verif.Props.Solids
