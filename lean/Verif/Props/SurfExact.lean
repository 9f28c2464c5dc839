import Verif.Props.SurfPlot
/-! C118: the surface plot of a function for every step. -/

namespace Verif.Props.SurfPlot
open Verif Verif.Model

/-- The faces the code lists: it takes `n` for the length of a row of points. -/
def listedFaces (total n : Nat) : List (List Int) :=
  (List.range total).flatMap fun q => if q + n + 1 ≤ total ∧ q % n + 1 < n then
    [[((q + n : Nat) : Int), ((q + n + 1 : Nat) : Int), ((q + 1 : Nat) : Int), (q : Int)]] else []

/-- C118: the result for every step up to the width. There are `m` columns, the width divided by the step and
rounded up, and `R` rows; the faces are those of rows of `n` points, the width divided by the step and rounded
down. -/
theorem C118_surface_exact {α : Type} [DecidableEq α] (f : Int → Int → α) {x1 y1 x2 y2 step : Int} (hs : 0 < step)
    {n m R : Nat} (hn : 0 < n) (hn1 : step * n ≤ x2 - x1) (hn2 : x2 - x1 < step * n + step)
    (hm : (m : Int) * step < x2 - x1 + step) (hm' : x2 - x1 ≤ m * step)
    (hR : (R : Int) * step < y2 - y1 + step) (hR' : y2 - y1 ≤ R * step) :
    surfplot3D x1 y1 x2 y2 step f = .ok
      ((List.range R).flatMap fun j => (List.range m).map fun i => vertex x1 y1 step f i j, listedFaces (R * m) n) := by
  have hm0 : 0 < m := by
    rcases Nat.eq_zero_or_pos m with h | h
    · exfalso
      subst h
      have : step * 1 ≤ step * n := by
        apply mul_le_mul_of_nonneg_left _ hs.le
        exact_mod_cast hn
      push_cast at hm'
      linarith
    · exact h
  have hr : ∀ {a c : Int} {k : Nat}, (k : Int) * step < c - a + step → c - a ≤ k * step →
      pyRange3 a c step = .ok ((List.range k).map fun (i : Nat) => a + step * (i : Int)) := by
    intro a c k h1 h2
    unfold pyRange3
    rw [if_neg (by omega), if_pos hs]
    have e : (c - a + step - 1) / step = k := by
      apply le_antisymm
      · rw [← Int.lt_add_one_iff, Int.ediv_lt_iff_lt_mul hs]; linarith
      · rw [Int.le_ediv_iff_mul_le hs]; linarith
    rw [e]
    rfl
  have hrx := hr hm hm'
  have hry := hr hR hR'
  let V : Nat → Int × Int × α := fun q => vertex x1 y1 step f (q % m) (q / m)
  have hmod : ∀ i < m, ∀ j, (j * m + i) % m = i ∧ (j * m + i) / m = j := by
    intro i hi j
    constructor
    · rw [Nat.mul_comm, Nat.mul_add_mod, Nat.mod_eq_of_lt hi]
    · rw [Nat.mul_comm, Nat.mul_add_div hm0, Nat.div_eq_of_lt hi, Nat.add_zero]
  have hV : ((List.range R).flatMap fun j => (List.range m).map fun i => vertex x1 y1 step f i j) =
      (List.range (R * m)).map V := by
    rw [List.map_eq_flatMap, flatMap_range_mul]
    rw [List.flatMap_def, List.flatMap_def]
    congr 1
    apply List.map_congr_left
    intro j _
    rw [List.map_eq_flatMap, List.flatMap_def, List.flatMap_def]
    congr 1
    apply List.map_congr_left
    intro i hi
    have hi := List.mem_range.mp hi
    simp only [V, hmod i hi j]
  have hinj : Function.Injective V := by
    intro p q h
    simp only [V, vertex, Prod.mk.injEq] at h
    have h1 : ((p % m : Nat) : Int) = ((q % m : Nat) : Int) := by
      have := h.1
      have : step * (((p % m : Nat) : Int) - ((q % m : Nat) : Int)) = 0 := by linarith
      rcases mul_eq_zero.mp this with h | h <;> omega
    have h2 : ((p / m : Nat) : Int) = ((q / m : Nat) : Int) := by
      have := h.2.1
      have : step * (((p / m : Nat) : Int) - ((q / m : Nat) : Int)) = 0 := by linarith
      rcases mul_eq_zero.mp this with h | h <;> omega
    rw [← Nat.div_add_mod p m, ← Nat.div_add_mod q m]
    rw [Int.ofNat_inj.mp h1, Int.ofNat_inj.mp h2]
  have hnd : ((List.range (R * m)).map V).Nodup := List.Nodup.map hinj List.nodup_range
  have hidx : ∀ q < R * m, ((List.range (R * m)).map V).idxOf (V q) = q := by
    intro q hq
    have hl : q < ((List.range (R * m)).map V).length := by simpa using hq
    have : ((List.range (R * m)).map V)[q] = V q := by simp
    rw [← this]
    exact hnd.idxOf_getElem q hl
  have hdx : Int.fdiv ((x2 - x1).natAbs : Int) step = n := by
    have h0 : 0 ≤ step * (n : Int) := by positivity
    rw [Int.natAbs_of_nonneg (by linarith), Int.fdiv_eq_ediv_of_nonneg _ (by omega)]
    apply le_antisymm
    · rw [← Int.lt_add_one_iff, Int.ediv_lt_iff_lt_mul hs]; linarith
    · rw [Int.le_ediv_iff_mul_le hs]; linarith
  unfold surfplot3D
  rw [hry, ok_bind]
  have hrows := mapM_ok ((List.range R).map fun (k : Nat) => y1 + step * (k : Int))
    (fun y => do let xs ← pyRange3 x1 x2 step; pure (xs.map fun x => (x, y, f x y)))
    (fun y => ((List.range m).map fun (k : Nat) => x1 + step * (k : Int)).map fun x => (x, y, f x y))
    (by intro y _; rw [hrx]; rfl)
  rw [hrows, ok_bind]
  have hfl : (((List.range R).map fun (k : Nat) => y1 + step * (k : Int)).map
      (fun y => ((List.range m).map fun (k : Nat) => x1 + step * (k : Int)).map fun x => (x, y, f x y))).flatten =
      (List.range (R * m)).map V := by
    rw [← hV, List.map_map, List.flatMap_def]
    congr 1
    apply List.map_congr_left
    intro j _
    simp [vertex]
  dsimp only
  rw [hfl, if_neg (by omega), hdx]
  have hsurf := mapM_ok ((List.range (R * m)).map V) (fun v => do
      let i : Int := ((List.range (R * m)).map V).idxOf v
      let idx := i + (n : Int)
      let idx1 := idx + 1
      if (((List.range (R * m)).map V).length : Int) - idx1 ≥ 0 then
        if (n : Int) = 0 then .error .zeroDivision
        else if Int.fmod i n < (n : Int) - 1 then pure [[idx, idx1, i + 1, i]] else pure []
      else pure [])
    (fun v => let q := ((List.range (R * m)).map V).idxOf v
      if q + n + 1 ≤ R * m ∧ q % n + 1 < n then
      [[((q + n : Nat) : Int), ((q + n + 1 : Nat) : Int), ((q + 1 : Nat) : Int), ((q : Nat) : Int)]] else []) (by
    intro v _
    dsimp only
    generalize ((List.range (R * m)).map V).idxOf v = q
    have hfm : Int.fmod (q : Int) n = ((q % n : Nat) : Int) := by
      rw [Int.fmod_eq_emod_of_nonneg _ (by omega)]
      push_cast
      rfl
    rw [hfm, List.length_map, List.length_range]
    by_cases h1 : q + n + 1 ≤ R * m
    · rw [if_pos (by push_cast at *; omega), if_neg (by omega)]
      by_cases h2 : q % n + 1 < n
      · rw [if_pos (by omega), if_pos ⟨h1, h2⟩]
        push_cast
        rfl
      · rw [if_neg (by omega), if_neg (fun h => h2 h.2)]
        rfl
    · rw [if_neg (by push_cast at *; omega), if_neg (fun h => h1 h.1)]
      rfl)
  rw [hsurf, ok_bind, hV]
  simp only [pure_eq_ok, Except.ok.injEq, Prod.mk.injEq, true_and, listedFaces]
  rw [List.map_map, List.flatMap_def]
  congr 1
  apply List.map_congr_left
  intro q hq
  have hq := List.mem_range.mp hq
  simp only [Function.comp_apply, hidx q hq]

/-- C118 fails for every step that does not divide the width and leaves at least two whole columns and two rows of
points: the first face has three corners in the first row of points. -/
theorem C118_faces_wrong {α : Type} [DecidableEq α] (f : Int → Int → α) {x1 y1 x2 y2 step : Int} (hs : 0 < step)
    {n : Nat} (hn : 2 ≤ n) (hn1 : step * n < x2 - x1) (hn2 : x2 - x1 < step * n + step) (hy : step < y2 - y1) :
    ∃ pts faces, surfplot3D x1 y1 x2 y2 step f = .ok (pts, faces) ∧
      [((n : Nat) : Int), ((n + 1 : Nat) : Int), 1, 0] ∈ faces ∧
      pts[n]? = some (vertex x1 y1 step f n 0) ∧ pts[n + 1]? = some (vertex x1 y1 step f 0 1) ∧
      pts[1]? = some (vertex x1 y1 step f 1 0) ∧ pts[0]? = some (vertex x1 y1 step f 0 0) := by
  obtain ⟨R, hR, hR'⟩ : ∃ R : Nat, (R : Int) * step < y2 - y1 + step ∧ y2 - y1 ≤ R * step := by
    have h1 := Int.emod_add_mul_ediv (y2 - y1 + step - 1) step
    have h2 := Int.emod_nonneg (y2 - y1 + step - 1) (by omega : step ≠ 0)
    have h3 := Int.emod_lt_of_pos (y2 - y1 + step - 1) hs
    have h4 : 0 ≤ (y2 - y1 + step - 1) / step := Int.ediv_nonneg (by omega) hs.le
    refine ⟨((y2 - y1 + step - 1) / step).toNat, ?_⟩
    rw [Int.toNat_of_nonneg h4, mul_comm]
    constructor <;> linarith
  have hR2 : 2 ≤ R := by
    by_contra h
    have : (R : Int) ≤ 1 := by omega
    have := mul_le_mul_of_nonneg_right this hs.le
    linarith
  have e := C118_surface_exact f (m := n + 1) hs (by omega) hn1.le hn2 (by push_cast; linarith) (by push_cast; linarith) hR hR'
  obtain ⟨k, rfl⟩ : ∃ k, R = k + 2 := ⟨R - 2, by omega⟩
  refine ⟨_, _, e, ?_, ?_⟩
  · unfold listedFaces
    rw [List.mem_flatMap]
    refine ⟨0, List.mem_range.mpr (by positivity), ?_⟩
    rw [if_pos ⟨by
      have : 2 * (n + 1) ≤ (k + 2) * (n + 1) := Nat.mul_le_mul_right _ (by omega)
      omega, by rw [Nat.zero_mod]; omega⟩]
    simp
  · generalize hg : (fun j => (List.range (n + 1)).map fun i => vertex x1 y1 step f i j) = row
    have hl : ∀ j, (row j).length = n + 1 := by intro j; rw [← hg]; simp
    have hv : ∀ j q, q < n + 1 → (row j)[q]? = some (vertex x1 y1 step f q j) := by
      intro j q hq; rw [← hg]; simp [hq]
    have h2 : (List.range (k + 2)).flatMap row = row 0 ++ (row 1 ++ (List.range k).flatMap fun j => row (j + 2)) := by
      rw [List.range_succ_eq_map, List.flatMap_cons, List.flatMap_map, List.range_succ_eq_map, List.flatMap_cons,
        List.flatMap_map]
    rw [h2]
    have h0 : ∀ q < n + 1, (row 0 ++ (row 1 ++ (List.range k).flatMap fun j => row (j + 2)))[q]?
        = some (vertex x1 y1 step f q 0) := by
      intro q hq
      rw [List.getElem?_append_left (by rw [hl]; exact hq), hv 0 q hq]
    refine ⟨h0 n (by omega), ?_, h0 1 (by omega), h0 0 (by omega)⟩
    rw [List.getElem?_append_right (by rw [hl]), hl, Nat.sub_self, List.getElem?_append_left (by rw [hl]; omega),
      hv 1 0 (by omega)]

/-- A face may even have a corner that does not exist: here the number 9 among nine points. -/
theorem C118_corner_wrong : surfplot3D 0 0 5 6 2 (fun x y => x * y) = .ok
    ([(0, 0, 0), (2, 0, 0), (4, 0, 0), (0, 2, 0), (2, 2, 4), (4, 2, 8), (0, 4, 0), (2, 4, 8), (4, 4, 16)],
      [[2, 3, 1, 0], [4, 5, 3, 2], [6, 7, 5, 4], [8, 9, 7, 6]]) := by decide +kernel

/-- C118: an area narrower than the step makes the code divide by zero. -/
theorem C118_narrow_exact {α : Type} [DecidableEq α] (f : Int → Int → α) {x1 y1 x2 y2 step : Int} (hs : 0 < step)
    (hx : x1 < x2) (hw : x2 - x1 < step) (hy : y1 < y2) : surfplot3D x1 y1 x2 y2 step f = .error .zeroDivision := by
  have hrx : pyRange3 x1 x2 step = .ok [x1] := by
    unfold pyRange3
    rw [if_neg (by omega), if_pos hs]
    have e : (x2 - x1 + step - 1) / step = 1 := by
      apply le_antisymm
      · rw [← Int.lt_add_one_iff, Int.ediv_lt_iff_lt_mul hs]; linarith
      · rw [Int.le_ediv_iff_mul_le hs]; linarith
    rw [e]
    simp
  obtain ⟨k, hry⟩ : ∃ k : Nat, pyRange3 y1 y2 step = .ok ((List.range (k + 1)).map fun (i : Nat) => y1 + step * (i : Int)) := by
    unfold pyRange3
    rw [if_neg (by omega), if_pos hs]
    have : 1 ≤ (y2 - y1 + step - 1) / step := by rw [Int.le_ediv_iff_mul_le hs]; linarith
    refine ⟨((y2 - y1 + step - 1) / step).toNat - 1, ?_⟩
    rw [show ((y2 - y1 + step - 1) / step).toNat - 1 + 1 = ((y2 - y1 + step - 1) / step).toNat by omega]
  have hdx : Int.fdiv ((x2 - x1).natAbs : Int) step = 0 := by
    rw [Int.natAbs_of_nonneg (by omega), Int.fdiv_eq_ediv_of_nonneg _ (by omega), Int.ediv_eq_zero_of_lt (by omega) hw]
  unfold surfplot3D
  rw [hry, ok_bind]
  have hrows := mapM_ok ((List.range (k + 1)).map fun (i : Nat) => y1 + step * (i : Int))
    (fun y => do let xs ← pyRange3 x1 x2 step; pure (xs.map fun x => (x, y, f x y)))
    (fun y => [x1].map fun x => (x, y, f x y))
    (by intro y _; rw [hrx]; rfl)
  rw [hrows, ok_bind]
  dsimp only
  rw [if_neg (by omega), hdx, List.range_succ_eq_map]
  simp only [List.map_cons, List.flatten_cons, List.map_nil, List.cons_append, List.nil_append, List.mapM_cons,
    List.idxOf_cons_self]
  rw [if_pos (by rw [List.length_cons]; push_cast; omega)]
  rfl

end Verif.Props.SurfPlot
