import Verif.Model.Solids
import Verif.Lemmas.Basic
import Mathlib.Tactic.Linarith
import Mathlib.Tactic.Ring
import Mathlib.Data.List.Nodup
/-! C118: the surface plot of a function. -/

namespace Verif.Props.SurfPlot
open Verif Verif.Model

theorem flatMap_range_mul {β : Type} (g : Nat → List β) (n : Nat) : ∀ R, (List.range (R * n)).flatMap g =
    (List.range R).flatMap fun j => (List.range n).flatMap fun i => g (j * n + i) := by
  intro R
  induction R with
  | zero => simp
  | succ R ih =>
    rw [Nat.succ_mul, List.range_add, List.flatMap_append, ih, List.range_succ, List.flatMap_append]
    simp [List.flatMap_map]

theorem flatMap_range_lt {β : Type} (h : Nat → β) (n : Nat) :
    (List.range n).flatMap (fun i => if i + 1 < n then [h i] else []) = (List.range (n - 1)).map h := by
  cases n with
  | zero => rfl
  | succ n =>
    rw [List.range_succ, List.flatMap_append, Nat.add_sub_cancel]
    simp only [List.flatMap_cons, List.flatMap_nil, List.append_nil, lt_irrefl, if_false]
    rw [List.map_eq_flatMap, List.flatMap_def, List.flatMap_def]
    congr 1
    apply List.map_congr_left
    intro i hi
    rw [if_pos (by have := List.mem_range.mp hi; omega)]

/-- The vertex in column `i` and row `j`. -/
def vertex {α : Type} (x1 y1 step : Int) (f : Int → Int → α) (i j : Nat) : Int × Int × α :=
  (x1 + step * i, y1 + step * j, f (x1 + step * i) (y1 + step * j))

/-- C118: if the step divides the width, the vertices are the values of the function at the points of the
grid, row by row, and the faces are the cells of the grid: with `n` columns, cell `(i, j)` joins the columns
`i`, `i + 1` and the rows `j`, `j + 1`. Missing: steps that do not divide the width, for which it is
false. -/
theorem C118_surface_partial {α : Type} [DecidableEq α] (f : Int → Int → α) {x1 y1 x2 y2 step : Int} (hs : 0 < step)
    {n R : Nat} (hn : 0 < n) (hx : x2 = x1 + step * n) (hR : (R : Int) * step < y2 - y1 + step)
    (hR' : y2 - y1 ≤ R * step) :
    surfplot3D x1 y1 x2 y2 step f = .ok
      ((List.range R).flatMap fun j => (List.range n).map fun i => vertex x1 y1 step f i j,
       (List.range (R - 1)).flatMap fun j => (List.range (n - 1)).map fun i =>
         [(((j + 1) * n + i : Nat) : Int), (((j + 1) * n + i + 1 : Nat) : Int), ((j * n + i + 1 : Nat) : Int), ((j * n + i : Nat) : Int)]) := by
  have hrx : pyRange3 x1 x2 step = .ok ((List.range n).map fun (k : Nat) => x1 + step * (k : Int)) := by
    unfold pyRange3
    rw [if_neg (by omega), if_pos hs]
    have e : (x2 - x1 + step - 1) / step = n := by
      rw [hx, show x1 + step * n - x1 + step - 1 = (step - 1) + step * n by ring, Int.add_mul_ediv_left _ _ (by omega),
        Int.ediv_eq_zero_of_lt (by omega) (by omega)]
      omega
    rw [e]
    rfl
  have hry : pyRange3 y1 y2 step = .ok ((List.range R).map fun (k : Nat) => y1 + step * (k : Int)) := by
    unfold pyRange3
    rw [if_neg (by omega), if_pos hs]
    have e : (y2 - y1 + step - 1) / step = R := by
      apply le_antisymm
      · rw [← Int.lt_add_one_iff, Int.ediv_lt_iff_lt_mul hs]; linarith
      · rw [Int.le_ediv_iff_mul_le hs]; linarith
    rw [e]
    rfl
  let V : Nat → Int × Int × α := fun q => vertex x1 y1 step f (q % n) (q / n)
  have hmod : ∀ i < n, ∀ j, (j * n + i) % n = i ∧ (j * n + i) / n = j := by
    intro i hi j
    constructor
    · rw [Nat.mul_comm, Nat.mul_add_mod, Nat.mod_eq_of_lt hi]
    · rw [Nat.mul_comm, Nat.mul_add_div hn, Nat.div_eq_of_lt hi, Nat.add_zero]
  have hV : ((List.range R).flatMap fun j => (List.range n).map fun i => vertex x1 y1 step f i j) =
      (List.range (R * n)).map V := by
    rw [List.map_eq_flatMap, flatMap_range_mul]
    rw [List.flatMap_def, List.flatMap_def]
    congr 1
    apply List.map_congr_left
    intro j _
    rw [List.map_eq_flatMap, List.flatMap_def, List.flatMap_def]
    congr 1
    apply List.map_congr_left
    intro i hi
    have hi := List.mem_range.mp hi
    simp only [V, hmod i hi j]
  have hinj : Function.Injective V := by
    intro p q h
    simp only [V, vertex, Prod.mk.injEq] at h
    have h1 : ((p % n : Nat) : Int) = ((q % n : Nat) : Int) := by
      have := h.1
      have : step * (((p % n : Nat) : Int) - ((q % n : Nat) : Int)) = 0 := by linarith
      rcases mul_eq_zero.mp this with h | h <;> omega
    have h2 : ((p / n : Nat) : Int) = ((q / n : Nat) : Int) := by
      have := h.2.1
      have : step * (((p / n : Nat) : Int) - ((q / n : Nat) : Int)) = 0 := by linarith
      rcases mul_eq_zero.mp this with h | h <;> omega
    rw [← Nat.div_add_mod p n, ← Nat.div_add_mod q n]
    rw [Int.ofNat_inj.mp h1, Int.ofNat_inj.mp h2]
  have hnd : ((List.range (R * n)).map V).Nodup := List.Nodup.map hinj List.nodup_range
  have hidx : ∀ q < R * n, ((List.range (R * n)).map V).idxOf (V q) = q := by
    intro q hq
    have hl : q < ((List.range (R * n)).map V).length := by simpa using hq
    have : ((List.range (R * n)).map V)[q] = V q := by simp
    rw [← this]
    exact hnd.idxOf_getElem q hl
  have hdx : Int.fdiv ((x2 - x1).natAbs : Int) step = n := by
    rw [hx, show x1 + step * n - x1 = step * n by ring, Int.natAbs_of_nonneg (by positivity),
      Int.fdiv_eq_ediv_of_nonneg _ (by omega), Int.mul_ediv_cancel_left _ (by omega)]
  have hcells : (List.range (R * n)).flatMap (fun q => if q + n + 1 ≤ R * n ∧ q % n + 1 < n then
      [[((q + n : Nat) : Int), ((q + n + 1 : Nat) : Int), ((q + 1 : Nat) : Int), ((q : Nat) : Int)]] else []) =
      (List.range (R - 1)).flatMap fun j => (List.range (n - 1)).map fun i =>
         [(((j + 1) * n + i : Nat) : Int), (((j + 1) * n + i + 1 : Nat) : Int), ((j * n + i + 1 : Nat) : Int), ((j * n + i : Nat) : Int)] := by
    rw [flatMap_range_mul]
    have h1 : ∀ j ∈ List.range R, ((List.range n).flatMap fun i => if j * n + i + n + 1 ≤ R * n ∧ (j * n + i) % n + 1 < n then
        [[((j * n + i + n : Nat) : Int), ((j * n + i + n + 1 : Nat) : Int), ((j * n + i + 1 : Nat) : Int), ((j * n + i : Nat) : Int)]] else []) =
        if j + 1 < R then (List.range (n - 1)).map fun i =>
         [(((j + 1) * n + i : Nat) : Int), (((j + 1) * n + i + 1 : Nat) : Int), ((j * n + i + 1 : Nat) : Int), ((j * n + i : Nat) : Int)] else [] := by
      intro j hj
      have hj := List.mem_range.mp hj
      by_cases hjR : j + 1 < R
      · rw [if_pos hjR, ← flatMap_range_lt (fun i => [(((j + 1) * n + i : Nat) : Int), (((j + 1) * n + i + 1 : Nat) : Int), ((j * n + i + 1 : Nat) : Int), ((j * n + i : Nat) : Int)]),
          List.flatMap_def, List.flatMap_def]
        congr 1
        apply List.map_congr_left
        intro i hi
        have hi := List.mem_range.mp hi
        rw [(hmod i hi j).1]
        have hb : (j + 2) * n ≤ R * n := Nat.mul_le_mul_right n hjR
        have hb' : (j + 2) * n = j * n + n + n := by ring
        have hb2 : (j + 1) * n = j * n + n := by ring
        by_cases hin : i + 1 < n
        · rw [if_pos ⟨by omega, hin⟩, if_pos hin, hb2]
          simp only [show j * n + i + n = j * n + n + i by ring]
        · rw [if_neg (fun h => hin h.2), if_neg hin]
      · rw [if_neg hjR, List.flatMap_eq_nil_iff]
        intro i hi
        have hi := List.mem_range.mp hi
        have : j + 1 = R := by omega
        rw [if_neg]
        rintro ⟨h, -⟩
        rw [← this, Nat.succ_mul] at h
        omega
    have h2 : (List.range R).flatMap (fun j => (List.range n).flatMap fun i => if j * n + i + n + 1 ≤ R * n ∧ (j * n + i) % n + 1 < n then
        [[((j * n + i + n : Nat) : Int), ((j * n + i + n + 1 : Nat) : Int), ((j * n + i + 1 : Nat) : Int), ((j * n + i : Nat) : Int)]] else []) =
        (List.range R).flatMap fun j => if j + 1 < R then (List.range (n - 1)).map fun i =>
         [(((j + 1) * n + i : Nat) : Int), (((j + 1) * n + i + 1 : Nat) : Int), ((j * n + i + 1 : Nat) : Int), ((j * n + i : Nat) : Int)] else [] := by
      rw [List.flatMap_def, List.flatMap_def]
      congr 1
      exact List.map_congr_left h1
    rw [h2]
    cases R with
    | zero => rfl
    | succ R =>
      rw [List.range_succ, List.flatMap_append, Nat.add_sub_cancel]
      simp only [List.flatMap_cons, List.flatMap_nil, List.append_nil, lt_irrefl, if_false]
      rw [List.flatMap_def, List.flatMap_def]
      congr 1
      apply List.map_congr_left
      intro j hj
      rw [if_pos (by have := List.mem_range.mp hj; omega)]
  unfold surfplot3D
  rw [hry, ok_bind]
  have hrows := mapM_ok ((List.range R).map fun (k : Nat) => y1 + step * (k : Int))
    (fun y => do let xs ← pyRange3 x1 x2 step; pure (xs.map fun x => (x, y, f x y)))
    (fun y => ((List.range n).map fun (k : Nat) => x1 + step * (k : Int)).map fun x => (x, y, f x y))
    (by intro y _; rw [hrx]; rfl)
  rw [hrows, ok_bind]
  have hfl : (((List.range R).map fun (k : Nat) => y1 + step * (k : Int)).map
      (fun y => ((List.range n).map fun (k : Nat) => x1 + step * (k : Int)).map fun x => (x, y, f x y))).flatten =
      (List.range (R * n)).map V := by
    rw [← hV, List.map_map, List.flatMap_def]
    congr 1
    apply List.map_congr_left
    intro j _
    simp [vertex]
  dsimp only
  rw [hfl, if_neg (by omega), hdx]
  have hsurf := mapM_ok ((List.range (R * n)).map V) (fun v => do
      let i : Int := ((List.range (R * n)).map V).idxOf v
      let idx := i + (n : Int)
      let idx1 := idx + 1
      if (((List.range (R * n)).map V).length : Int) - idx1 ≥ 0 then
        if (n : Int) = 0 then .error .zeroDivision
        else if Int.fmod i n < (n : Int) - 1 then pure [[idx, idx1, i + 1, i]] else pure []
      else pure [])
    (fun v => let q := ((List.range (R * n)).map V).idxOf v
      if q + n + 1 ≤ R * n ∧ q % n + 1 < n then
      [[((q + n : Nat) : Int), ((q + n + 1 : Nat) : Int), ((q + 1 : Nat) : Int), ((q : Nat) : Int)]] else []) (by
    intro v _
    dsimp only
    generalize ((List.range (R * n)).map V).idxOf v = q
    have hfm : Int.fmod (q : Int) n = ((q % n : Nat) : Int) := by
      rw [Int.fmod_eq_emod_of_nonneg _ (by omega)]
      push_cast
      rfl
    rw [hfm, List.length_map, List.length_range]
    by_cases h1 : q + n + 1 ≤ R * n
    · rw [if_pos (by push_cast at *; omega), if_neg (by omega)]
      by_cases h2 : q % n + 1 < n
      · rw [if_pos (by omega), if_pos ⟨h1, h2⟩]
        push_cast
        rfl
      · rw [if_neg (by omega), if_neg (fun h => h2 h.2)]
        rfl
    · rw [if_neg (by push_cast at *; omega), if_neg (fun h => h1 h.1)]
      rfl)
  rw [hsurf, ok_bind, hV, ← hcells]
  simp only [pure_eq_ok, Except.ok.injEq, Prod.mk.injEq, true_and]
  rw [List.map_map, List.flatMap_def]
  congr 1
  apply List.map_congr_left
  intro q hq
  have hq := List.mem_range.mp hq
  simp only [Function.comp_apply, hidx q hq]

example : surfplot3D 0 0 6 4 2 (fun x y => x * y) = .ok
    ([(0, 0, 0), (2, 0, 0), (4, 0, 0), (0, 2, 0), (2, 2, 4), (4, 2, 8)], [[3, 4, 1, 0], [4, 5, 2, 1]]) := by decide +kernel

/-- With a step that does not divide the width the faces are wrong: here there are three columns, the code
counts two, and the only face of the first row joins points of both rows that are not neighbours. -/
theorem C118_surface_false : ∃ v, surfplot3D 0 0 5 4 2 (fun x y => x * y) = .ok (v, [[2, 3, 1, 0], [4, 5, 3, 2]]) ∧
    v = [(0, 0, 0), (2, 0, 0), (4, 0, 0), (0, 2, 0), (2, 2, 4), (4, 2, 8)] := by
  refine ⟨_, ?_, rfl⟩
  decide +kernel

/-- An area narrower than the step makes the code divide by zero. -/
theorem C118_narrow_wrong : surfplot3D 0 0 1 4 2 (fun x y => x * y) = .error .zeroDivision := by decide +kernel

end Verif.Props.SurfPlot
