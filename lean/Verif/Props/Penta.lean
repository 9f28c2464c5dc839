import Verif.Model.Penta
import Verif.Props.Solids
import Verif.Props.RegPoly
import Verif.Props.Plane
/-! C115: the solids with pentagons. -/

namespace Verif.Props.Penta
open Verif Spec Model Verif.Props Solids RegPoly Plane

/-- The golden angle numbers: `√5` between two bounds. -/
theorem g_bounds : 2.236 < Real.sqrt 5 ∧ Real.sqrt 5 < 2.2361 := by
  constructor
  · exact Real.lt_sqrt_of_sq_lt (by norm_num)
  · rw [Real.sqrt_lt' (by norm_num)]; norm_num

theorem cos36 : Real.cos (Real.pi / 5) = (1 + Real.sqrt 5) / 4 := Real.cos_pi_div_five

theorem cos72 : Real.cos (2 * (Real.pi / 5)) = (Real.sqrt 5 - 1) / 4 := by
  rw [Real.cos_two_mul, cos36]
  have := Real.sq_sqrt (show (0 : ℝ) ≤ 5 by norm_num)
  nlinarith

theorem sin36 : Real.sin (Real.pi / 5) = Real.sin (2 * (Real.pi / 5)) * ((Real.sqrt 5 - 1) / 2) := by
  rw [Real.sin_two_mul, cos36]
  have := Real.sq_sqrt (show (0 : ℝ) ≤ 5 by norm_num)
  linear_combination (-(1 : ℝ) / 4 * Real.sin (Real.pi / 5)) * this

theorem sin72_sq : Real.sin (2 * (Real.pi / 5)) ^ 2 = (5 + Real.sqrt 5) / 8 := by
  have h := Real.sin_sq_add_cos_sq (2 * (Real.pi / 5))
  rw [cos72] at h
  have := Real.sq_sqrt (show (0 : ℝ) ≤ 5 by norm_num)
  linear_combination h - this / 16

theorem sin72_pos : 0 < Real.sin (2 * (Real.pi / 5)) := by
  apply Real.sin_pos_of_pos_of_lt_pi
  · have := Real.pi_pos; positivity
  · have := Real.pi_pos; linarith

/-- The ten directions in steps of 36 degrees. -/
theorem dirs : let S := Real.sin (2 * (Real.pi / 5)); let g := Real.sqrt 5
    ∀ k : Nat, k < 10 → (Real.sin ((k : ℝ) * (Real.pi / 5)), Real.cos ((k : ℝ) * (Real.pi / 5))) =
      [(0, 1), (S * ((g - 1) / 2), (1 + g) / 4), (S, (g - 1) / 4), (S, -(g - 1) / 4), (S * ((g - 1) / 2), -(1 + g) / 4),
       (0, -1), (-(S * ((g - 1) / 2)), -(1 + g) / 4), (-S, -(g - 1) / 4), (-S, (g - 1) / 4),
       (-(S * ((g - 1) / 2)), (1 + g) / 4)].getD k ((0 : ℝ), (0 : ℝ)) := by
  intro S g k hk
  have c1 := cos36
  have c2 := cos72
  have s1 := sin36
  interval_cases k
  · simp
  · simp only [Nat.cast_one, one_mul, s1, c1]; rfl
  · simp only [Nat.cast_ofNat, c2]; rfl
  · rw [show ((3 : Nat) : ℝ) * (Real.pi / 5) = Real.pi - 2 * (Real.pi / 5) by push_cast; ring, Real.sin_pi_sub, Real.cos_pi_sub, c2]
    simp only [List.getD_cons_succ, List.getD_cons_zero, neg_div]; rfl
  · rw [show ((4 : Nat) : ℝ) * (Real.pi / 5) = Real.pi - Real.pi / 5 by push_cast; ring, Real.sin_pi_sub, Real.cos_pi_sub, c1, s1]
    simp only [List.getD_cons_succ, List.getD_cons_zero, neg_div]; rfl
  · rw [show ((5 : Nat) : ℝ) * (Real.pi / 5) = Real.pi by push_cast; ring, Real.sin_pi, Real.cos_pi]; rfl
  · rw [show ((6 : Nat) : ℝ) * (Real.pi / 5) = Real.pi / 5 + Real.pi by push_cast; ring, Real.sin_add_pi, Real.cos_add_pi, c1, s1]
    simp only [List.getD_cons_succ, List.getD_cons_zero, neg_div]; rfl
  · rw [show ((7 : Nat) : ℝ) * (Real.pi / 5) = 2 * (Real.pi / 5) + Real.pi by push_cast; ring, Real.sin_add_pi, Real.cos_add_pi, c2]
    simp only [List.getD_cons_succ, List.getD_cons_zero, neg_div]; rfl
  · rw [show ((8 : Nat) : ℝ) * (Real.pi / 5) = 2 * Real.pi - 2 * (Real.pi / 5) by push_cast; ring, Real.sin_two_pi_sub,
      Real.cos_two_pi_sub, c2]
    rfl
  · rw [show ((9 : Nat) : ℝ) * (Real.pi / 5) = 2 * Real.pi - Real.pi / 5 by push_cast; ring, Real.sin_two_pi_sub,
      Real.cos_two_pi_sub, c1, s1]
    rfl

/-- The corners of the two pentagons. -/
theorem pentagon (x : Int) (a : Nat) : floatregpolygonvert 0 0 x 5 (36 * a) =
    .ok ((List.range 5).map fun k => (-(x * Real.sin (((2 * k + a : Nat) : ℝ) * (Real.pi / 5))),
      -(x * Real.cos (((2 * k + a : Nat) : ℝ) * (Real.pi / 5))))) := by
  have h := C121_regular 0 0 x (n := 5) (by decide) (36 * a)
  rw [Nat.cast_ofNat] at h
  rw [h]
  congr 1
  apply List.map_congr_left
  intro k _
  unfold RegPoly.corner
  dsimp only
  rw [show ((36 * a + 360 * k / ((5 : Nat) : ℝ)) * Real.pi / 180 : ℝ) = ((2 * k + a : Nat) : ℝ) * (Real.pi / 5) by push_cast; ring]
  simp

/-- The corners of the pentagon that is not turned. -/
theorem penta0 (x : Int) : floatregpolygonvert 0 0 x 5 0 =
    .ok [(0, -(x : ℝ)), (-(x * Real.sin (2 * (Real.pi / 5))), -(x * ((Real.sqrt 5 - 1) / 4))),
      (-(x * Real.sin (2 * (Real.pi / 5)) * ((Real.sqrt 5 - 1) / 2)), x * ((1 + Real.sqrt 5) / 4)),
      (x * Real.sin (2 * (Real.pi / 5)) * ((Real.sqrt 5 - 1) / 2), x * ((1 + Real.sqrt 5) / 4)),
      (x * Real.sin (2 * (Real.pi / 5)), -(x * ((Real.sqrt 5 - 1) / 4)))] := by
  have d0 := dirs 0 (by norm_num); have d2 := dirs 2 (by norm_num); have d4 := dirs 4 (by norm_num)
  have d6 := dirs 6 (by norm_num); have d8 := dirs 8 (by norm_num)
  simp only [List.getD_cons_succ, List.getD_cons_zero, Prod.mk.injEq] at d0 d2 d4 d6 d8
  have h := pentagon x 0
  simp only [Nat.cast_zero, mul_zero] at h
  rw [h]
  simp only [List.range_succ, List.range_zero, List.nil_append, List.cons_append, List.map_cons, List.map_nil, Nat.mul_zero,
    Nat.add_zero, Nat.reduceMul, d0.1, d0.2, d2.1, d2.2, d4.1, d4.2, d6.1, d6.2, d8.1, d8.2]
  congr 1
  refine List.cons_eq_cons.mpr ⟨?_, List.cons_eq_cons.mpr ⟨?_, List.cons_eq_cons.mpr ⟨?_, List.cons_eq_cons.mpr ⟨?_,
    List.cons_eq_cons.mpr ⟨?_, rfl⟩⟩⟩⟩⟩ <;> rw [Prod.mk.injEq] <;> constructor <;> ring

theorem sum2 (a b : ℝ) : vmag [a, b] ^ 2 = a ^ 2 + b ^ 2 := by
  unfold vmag
  rw [Real.sq_sqrt (by simp; nlinarith [sq_nonneg a, sq_nonneg b])]
  simp; ring

theorem height_ok {a b : List ℝ} {l : List (List ℝ)} {x z : ℝ} (hq : vdist a b ^ 2 - x ^ 2 = z ^ 2) (hz : 0 ≤ z) :
    pentaheight (a :: b :: l) x = .ok z := by
  unfold pentaheight
  simp only [nth, List.getElem?_cons_zero, List.getElem?_cons_succ, ok_bind, hq]
  rw [if_neg (not_lt.mpr (sq_nonneg _)), Real.sqrt_sq hz, pure_eq_ok]

/-- The vertices of the icosahedron. -/
theorem icosa_eq (x : Int) (hx : 0 < x) : let S := (x : ℝ) * Real.sin (2 * (Real.pi / 5)); let g := Real.sqrt 5
    let T := S * ((g - 1) / 2); let c := (x : ℝ) * ((g - 1) / 4); let d := (x : ℝ) * ((1 + g) / 4)
    icosahedvertandsurface x = .ok ([[0, 0, -(2 * c)],
      [0, -(x : ℝ), 0], [-S, -c, 0], [-T, d, 0], [T, d, 0], [S, -c, 0],
      [-T, -d, 2 * x - 4 * c], [-S, c, 2 * x - 4 * c], [0, (x : ℝ), 2 * x - 4 * c], [S, c, 2 * x - 4 * c], [T, -d, 2 * x - 4 * c],
      [0, 0, 2 * x - 2 * c]], icosahedSides) := by
  intro S g T c d
  have hg := g_bounds
  have hgg : g ^ 2 = 5 := Real.sq_sqrt (by norm_num)
  have hxr : (0 : ℝ) < x := by exact_mod_cast hx
  have hS : S ^ 2 = x ^ 2 * ((5 + g) / 8) := by
    show ((x : ℝ) * _) ^ 2 = _
    rw [mul_pow, sin72_sq]
  have d0 := dirs 0 (by norm_num); have d1 := dirs 1 (by norm_num); have d2 := dirs 2 (by norm_num)
  have d3 := dirs 3 (by norm_num); have d4 := dirs 4 (by norm_num); have d5 := dirs 5 (by norm_num)
  have d6 := dirs 6 (by norm_num); have d7 := dirs 7 (by norm_num); have d8 := dirs 8 (by norm_num)
  have d9 := dirs 9 (by norm_num)
  simp only [List.getD_cons_succ, List.getD_cons_zero, Prod.mk.injEq] at d0 d1 d2 d3 d4 d5 d6 d7 d8 d9
  have p0 := penta0 x
  have p1 : floatregpolygonvert 0 0 x 5 36 = .ok [(-T, -d), (-S, c), (0, (x : ℝ)), (S, c), (T, -d)] := by
    have h := pentagon x 1
    simp only [Nat.cast_one, mul_one] at h
    rw [h]
    simp only [List.range_succ, List.range_zero, List.nil_append, List.cons_append, List.map_cons, List.map_nil, Nat.mul_zero,
      Nat.zero_add, Nat.reduceMul, Nat.reduceAdd, d1.1, d1.2, d3.1, d3.2, d5.1, d5.2, d7.1, d7.2, d9.1, d9.2]
    congr 1
    refine List.cons_eq_cons.mpr ⟨?_, List.cons_eq_cons.mpr ⟨?_, List.cons_eq_cons.mpr ⟨?_, List.cons_eq_cons.mpr ⟨?_,
      List.cons_eq_cons.mpr ⟨?_, rfl⟩⟩⟩⟩⟩ <;> rw [Prod.mk.injEq] <;> constructor <;> (try simp only [S, T, c, d, g]) <;> ring
  have hq : vdist [0, -(x : ℝ)] [-S, -c] ^ 2 - (x : ℝ) ^ 2 = (2 * c) ^ 2 := by
    unfold vdist subvect
    simp only [List.zipWith_cons_cons, List.zipWith_nil_left]
    rw [sum2]
    simp only [c]
    linear_combination hS - 3 / 16 * (x : ℝ) ^ 2 * hgg
  have hc : 0 ≤ 2 * c := by
    have : 0 ≤ (x : ℝ) * (g - 1) := mul_nonneg hxr.le (by show 0 ≤ Real.sqrt 5 - 1; linarith [hg.1])
    simp only [c]; linarith
  unfold icosahedvertandsurface
  rw [p0, ok_bind, p1, ok_bind]
  simp only [List.map_cons, List.map_nil]
  rw [height_ok hq hc, ok_bind]
  simp only [adddimz, nth, List.getElem?_cons_zero, List.getElem?_cons_succ, List.mapM_cons, List.mapM_nil, ok_bind, pure_eq_ok]
  simp only [List.cons_append, List.nil_append]
  rw [show 2 * (x : ℝ) - 2 * c - 2 * c = 2 * x - 4 * c by ring]

set_option maxHeartbeats 4000000 in
/-- C115: the normals of the icosahedron point outwards. -/
theorem C115_icosahedron {x : Int} (hx : 0 < x) :
    ∃ V, icosahedvertandsurface x = .ok (V, icosahedSides) ∧ Outward V icosahedSides := by
  refine ⟨_, icosa_eq x hx, ?_⟩
  obtain ⟨g1, g2⟩ := g_bounds
  have hgg : Real.sqrt 5 ^ 2 = 5 := Real.sq_sqrt (by norm_num)
  have hX : (0 : ℝ) < x := by exact_mod_cast hx
  have hS : 0 < (x : ℝ) * Real.sin (2 * (Real.pi / 5)) := mul_pos hX sin72_pos
  generalize (x : ℝ) * Real.sin (2 * (Real.pi / 5)) = S at *
  generalize Real.sqrt 5 = g at *
  generalize (x : ℝ) = X at *
  have hA : 0 < S * X ^ 2 := by positivity
  have hB1 : 2.236 * (S * X ^ 2) < S * X ^ 2 * g := by nlinarith
  have hB2 : S * X ^ 2 * g < 2.2361 * (S * X ^ 2) := by nlinarith
  have hB3 : S * X ^ 2 * g ^ 2 = 5 * (S * X ^ 2) := by rw [hgg]; ring
  have hB4 : S * X ^ 2 * g ^ 3 = 5 * (S * X ^ 2 * g) := by
    linear_combination S * X ^ 2 * g * hgg
  clear g1 g2 hgg hX hS hx
  intro f hf k hk
  simp only [icosahedSides, List.mem_cons, List.not_mem_nil, or_false] at hf
  simp only [List.length_cons, List.length_nil] at hk
  rcases hf with rfl | rfl | rfl | rfl | rfl | rfl | rfl | rfl | rfl | rfl | rfl | rfl | rfl | rfl | rfl | rfl | rfl | rfl | rfl | rfl <;>
    interval_cases k <;>
    first
    | exact ⟨fun _ => by simp only [vol, List.getD_cons_succ, List.getD_cons_zero]; ring, fun h => absurd (by decide) h⟩
    | exact ⟨fun h => absurd h (by decide), fun _ => by
        simp only [vol, List.getD_cons_succ, List.getD_cons_zero]; linarith⟩

/-- C115: the edges of the ten faces in the middle are shorter than the others, so that these faces are not regular. -/
theorem C115_icosahedron_edges_wrong {x : Int} (hx : 0 < x) :
    ∃ V, icosahedvertandsurface x = .ok (V, icosahedSides) ∧
      (0, 1) ∈ icosahedSides.flatMap faceEdges ∧ (1, 6) ∈ icosahedSides.flatMap faceEdges ∧
      Solids.sqDist (V.getD 0 []) (V.getD 1 []) = (5 - Real.sqrt 5) / 2 * x ^ 2 ∧
      Solids.sqDist (V.getD 1 []) (V.getD 6 []) = (31 - 13 * Real.sqrt 5) / 2 * x ^ 2 ∧
      Solids.sqDist (V.getD 1 []) (V.getD 6 []) < Solids.sqDist (V.getD 0 []) (V.getD 1 []) := by
  obtain ⟨g1, g2⟩ := g_bounds
  have hgg : Real.sqrt 5 ^ 2 = 5 := Real.sq_sqrt (by norm_num)
  have hX : (0 : ℝ) < x := by exact_mod_cast hx
  have hS : ((x : ℝ) * Real.sin (2 * (Real.pi / 5))) ^ 2 = x ^ 2 * ((5 + Real.sqrt 5) / 8) := by rw [mul_pow, sin72_sq]
  have e1 : ∀ S g X : ℝ, g ^ 2 = 5 → S ^ 2 = X ^ 2 * ((5 + g) / 8) → Solids.sqDist [0, 0, -(2 * (X * ((g - 1) / 4)))] [0, -X, 0] = (5 - g) / 2 * X ^ 2 := by
    intro S g X hgg hS
    simp only [Solids.sqDist, List.getD_cons_succ, List.getD_cons_zero]
    linear_combination X ^ 2 / 4 * hgg
  have e2 : ∀ S g X : ℝ, g ^ 2 = 5 → S ^ 2 = X ^ 2 * ((5 + g) / 8) → Solids.sqDist [0, -X, 0]
      [-(S * ((g - 1) / 2)), -(X * ((1 + g) / 4)), 2 * X - 4 * (X * ((g - 1) / 4))] = (31 - 13 * g) / 2 * X ^ 2 := by
    intro S g X hgg hS
    simp only [Solids.sqDist, List.getD_cons_succ, List.getD_cons_zero]
    linear_combination (g - 1) ^ 2 / 4 * hS + X ^ 2 * (37 / 32 + g / 32) * hgg
  refine ⟨_, icosa_eq x hx, by decide, by decide, e1 _ _ _ hgg hS, e2 _ _ _ hgg hS, ?_⟩
  have h1 := e1 _ _ _ hgg hS
  have h2 := e2 _ _ _ hgg hS
  have h : (0 : ℝ) < x ^ 2 := by positivity
  refine lt_of_eq_of_lt h2 (lt_of_lt_of_eq ?_ h1.symm)
  nlinarith

/-! ### The decahedron -/

theorem rndR_neg (x : ℝ) : rndR (-x) = -rndR x := by
  by_cases h : x - ⌊x⌋ = 1 / 2
  · have hf : ⌊-x⌋ = -⌊x⌋ - 1 := by
      rw [Int.floor_eq_iff]; push_cast; constructor <;> linarith
    unfold rndR
    rw [hf, h]
    have : -x - ((-⌊x⌋ - 1 : Int) : ℝ) = 1 / 2 := by push_cast; linarith
    rw [this]
    simp only [lt_irrefl, if_false]
    split_ifs <;> omega
  · apply rndR_eq
    have h0 := Int.floor_le x
    have h1 := Int.lt_floor_add_one x
    push_cast
    rw [abs_lt]
    unfold rndR
    rcases lt_or_gt_of_ne h with h2 | h2
    · rw [if_pos h2]; constructor <;> linarith
    · rw [if_neg (by linarith), if_pos h2]; push_cast; constructor <;> linarith

/-- Two pyramids over a pentagon that is symmetrical to the second axis. -/
theorem bipyramid {A B C D X z : ℝ} (hA : C ≤ A) (hC : 0 < C) (hB : 0 ≤ B) (hD : 0 < D) (hX : B < X) (hz : 0 < z) :
    Outward [[0, 0, -z], [0, -X, 0], [-A, -B, 0], [-C, D, 0], [C, D, 0], [A, -B, 0], [0, 0, z]] decahedSides := by
  have hA0 : 0 < A := by linarith
  have a1 : 0 < z * (A * (X - B)) := by have : 0 < X - B := by linarith
                                        positivity
  have a2 : 0 < z * (A * (D + B)) := by positivity
  have a3 : 0 < z * (C * (D + B)) := by positivity
  have a4 : 0 ≤ z * ((A - C) * (X - B)) := mul_nonneg hz.le (mul_nonneg (by linarith) (by linarith))
  have a5 : 0 ≤ z * ((A - C) * B) := mul_nonneg hz.le (mul_nonneg (by linarith) (by linarith))
  have a6 : 0 < z * (C * (X - B)) := by have : 0 < X - B := by linarith
                                        positivity
  have a7 : 0 < z * (C * D) := by positivity
  have a8 : 0 ≤ z * (C * B) := by positivity
  have a10 : 0 < z * (A * D) := by positivity
  have a9 : 0 < z * (A * X) := by have : 0 < X := by linarith
                                  positivity
  intro f hf k hk
  simp only [decahedSides, List.mem_cons, List.not_mem_nil, or_false] at hf
  simp only [List.length_cons, List.length_nil] at hk
  rcases hf with rfl | rfl | rfl | rfl | rfl | rfl | rfl | rfl | rfl | rfl <;>
    interval_cases k <;>
    first
    | exact ⟨fun _ => by simp only [vol, List.getD_cons_succ, List.getD_cons_zero]; ring, fun h => absurd (by decide) h⟩
    | exact ⟨fun h => absurd h (by decide), fun _ => by
        simp only [vol, List.getD_cons_succ, List.getD_cons_zero]; linarith⟩

/-- The vertices of the decahedron. -/
theorem deca_eq {x A B C D : Int} (eA : rndR (x * Real.sin (2 * (Real.pi / 5))) = A) (eB : rndR (x * ((Real.sqrt 5 - 1) / 4)) = B)
    (eC : rndR (x * Real.sin (2 * (Real.pi / 5)) * ((Real.sqrt 5 - 1) / 2)) = C) (eD : rndR (x * ((1 + Real.sqrt 5) / 4)) = D)
    (hz : 0 < A ^ 2 + (x - B) ^ 2 - x ^ 2) :
    let z := Real.sqrt ((A : ℝ) ^ 2 + ((x : ℝ) - B) ^ 2 - (x : ℝ) ^ 2)
    decahedvertandsurface x = .ok ([[0, 0, -z], [0, -(x : ℝ), 0], [-(A : ℝ), -(B : ℝ), 0], [-(C : ℝ), (D : ℝ), 0],
      [(C : ℝ), (D : ℝ), 0], [(A : ℝ), -(B : ℝ), 0], [0, 0, z]], decahedSides) ∧ 0 < z := by
  intro z
  have hzr : (0 : ℝ) < (A : ℝ) ^ 2 + ((x : ℝ) - B) ^ 2 - (x : ℝ) ^ 2 := by exact_mod_cast hz
  refine ⟨?_, Real.sqrt_pos.mpr hzr⟩
  unfold decahedvertandsurface regpolygonvert
  rw [penta0 x, ok_bind]
  simp only [List.map_cons, List.map_nil, pure_eq_ok, ok_bind, rndR_neg, rndR_int, eA, eB, eC, eD]
  rw [show rndR (0 : ℝ) = 0 by exact_mod_cast rndR_int 0]
  have hq : vdist [((0 : Int) : ℝ), ((-x : Int) : ℝ)] [((-A : Int) : ℝ), ((-B : Int) : ℝ)] ^ 2 - (x : ℝ) ^ 2 = z ^ 2 := by
    rw [Real.sq_sqrt hzr.le]
    unfold vdist subvect
    simp only [List.zipWith_cons_cons, List.zipWith_nil_left]
    rw [sum2]
    push_cast
    ring
  rw [height_ok hq (Real.sqrt_nonneg _), ok_bind]
  simp only [adddimz, nth, List.getElem?_cons_zero, List.getElem?_cons_succ, List.mapM_cons, List.mapM_nil, ok_bind, pure_eq_ok,
    List.cons_append, List.nil_append, Int.cast_neg, Int.cast_zero]

theorem sin72_bounds : 0.951 < Real.sin (2 * (Real.pi / 5)) ∧ Real.sin (2 * (Real.pi / 5)) < 0.9511 := by
  obtain ⟨g1, g2⟩ := g_bounds
  have hs := sin72_sq
  have hs0 := sin72_pos
  constructor <;> nlinarith

/-- C115: the normals of the decahedron point outwards, although its corners are rounded. -/
theorem C115_decahedron {x : Int} (hx : 0 < x) :
    ∃ V, decahedvertandsurface x = .ok (V, decahedSides) ∧ Outward V decahedSides := by
  obtain ⟨g1, g2⟩ := g_bounds
  have hX : (0 : ℝ) < x := by exact_mod_cast hx
  have hX1 : (1 : ℝ) ≤ x := by exact_mod_cast hx
  obtain ⟨s1, s2⟩ := sin72_bounds
  have key := @deca_eq x _ _ _ _ rfl rfl rfl rfl
  generalize Real.sin (2 * (Real.pi / 5)) = S at *
  generalize Real.sqrt 5 = g at *
  have hT1 : 0.587 < S * ((g - 1) / 2) := by nlinarith
  have hT2 : S * ((g - 1) / 2) < 0.588 := by nlinarith
  have nA := abs_le.mp (rndR_near (x * S))
  have nC := abs_le.mp (rndR_near (x * S * ((g - 1) / 2)))
  have nB := abs_le.mp (rndR_near (x * ((g - 1) / 4)))
  have nD := abs_le.mp (rndR_near (x * ((1 + g) / 4)))
  have A1 : 0.951 * (x : ℝ) < x * S := by nlinarith
  have C1 : 0.587 * (x : ℝ) < x * S * ((g - 1) / 2) := by nlinarith
  have C2 : x * S * ((g - 1) / 2) < 0.588 * (x : ℝ) := by nlinarith
  have B1 : 0.3 * (x : ℝ) < x * ((g - 1) / 4) := by nlinarith
  have B2 : x * ((g - 1) / 4) < 0.3091 * (x : ℝ) := by nlinarith
  have D1 : 0.809 * (x : ℝ) < x * ((1 + g) / 4) := by nlinarith
  generalize rndR (x * S) = A at *
  generalize rndR (x * S * ((g - 1) / 2)) = C at *
  generalize rndR (x * ((g - 1) / 4)) = B at *
  generalize rndR (x * ((1 + g) / 4)) = D at *
  have hAC : C ≤ A := by
    have : (C : ℝ) < (A + 1 : Int) := by push_cast; linarith
    have : C < A + 1 := by exact_mod_cast this
    omega
  have hC : 0 < C := by
    have : (0 : ℝ) < C := by linarith
    exact_mod_cast this
  have hB : 0 ≤ B := by
    have : (-1 : ℝ) < B := by linarith
    have : -1 < B := by exact_mod_cast this
    omega
  have hD : 0 < D := by
    have : (0 : ℝ) < D := by linarith
    exact_mod_cast this
  have hBx : B < x := by
    have : (B : ℝ) < x := by linarith
    exact_mod_cast this
  have hz : 0 < A ^ 2 + (x - B) ^ 2 - x ^ 2 := by
    have hA' : 951 * x - 500 ≤ 1000 * A := by
      have : ((951 * x - 500 : Int) : ℝ) ≤ ((1000 * A : Int) : ℝ) := by push_cast; linarith
      exact_mod_cast this
    have hB' : 10000 * B ≤ 3091 * x + 5000 := by
      have : ((10000 * B : Int) : ℝ) ≤ ((3091 * x + 5000 : Int) : ℝ) := by push_cast; linarith
      exact_mod_cast this
    by_cases h4 : x < 5
    · have : x = 1 ∨ x = 2 ∨ x = 3 ∨ x = 4 := by omega
      rcases this with rfl | rfl | rfl | rfl
      · have : 1 ≤ A := by omega
        have : B ≤ 0 := by omega
        nlinarith
      · have : 2 ≤ A := by omega
        have : B ≤ 1 := by omega
        nlinarith
      · have : 3 ≤ A := by omega
        have : B ≤ 1 := by omega
        nlinarith
      · have : 4 ≤ A := by omega
        have : B ≤ 1 := by omega
        nlinarith
    · have u1 : (951 * x - 500) ^ 2 ≤ (1000 * A) ^ 2 := by
        apply pow_le_pow_left₀ (by omega) hA'
      have u2 : (6909 * x - 5000) ^ 2 ≤ (10000 * (x - B)) ^ 2 := by
        apply pow_le_pow_left₀ (by omega) (by omega)
      nlinarith
  obtain ⟨h1, h2⟩ := key hz
  exact ⟨_, h1, bipyramid (by exact_mod_cast hAC) (by exact_mod_cast hC) (by exact_mod_cast hB) (by exact_mod_cast hD)
    (by exact_mod_cast hBx) h2⟩

/-- C115: the edges of the smallest decahedron have different lengths, since the corners are rounded. -/
theorem C115_decahedron_edges_wrong : decahedvertandsurface 1 = .ok ([[0, 0, -1], [0, -1, 0], [-1, 0, 0], [-1, 1, 0], [1, 1, 0],
      [1, 0, 0], [0, 0, 1]], decahedSides) ∧
    (1, 2) ∈ decahedSides.flatMap faceEdges ∧ (2, 3) ∈ decahedSides.flatMap faceEdges ∧
    Solids.sqDist [0, -1, 0] [-1, 0, (0 : ℝ)] = 2 ∧ Solids.sqDist [-1, 0, 0] [-1, 1, (0 : ℝ)] = 1 := by
  obtain ⟨g1, g2⟩ := g_bounds
  obtain ⟨s1, s2⟩ := sin72_bounds
  refine ⟨?_, by decide, by decide, by norm_num [Solids.sqDist], by norm_num [Solids.sqDist]⟩
  have h := @deca_eq 1 1 0 1 1 (rndR_eq (by rw [abs_lt]; push_cast; constructor <;> linarith))
    (rndR_eq (by rw [abs_lt]; push_cast; constructor <;> linarith))
    (rndR_eq (by rw [abs_lt]; push_cast; constructor <;> nlinarith))
    (rndR_eq (by rw [abs_lt]; push_cast; constructor <;> linarith)) (by norm_num)
  rw [h.1]
  norm_num

end Verif.Props.Penta
