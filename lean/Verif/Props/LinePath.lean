import Verif.Props.Rect
import Mathlib.Data.List.Nodup
/-! Properties C23 and C24: the line rasteriser and `line`. -/

namespace Verif.Props
open Verif Spec Model

theorem iterlineLoop_eq {big small : Int} (hs : 0 ≤ small) (hb : small ≤ big) (hpos : 0 < big) (sa sb : Int)
    (n : Nat) (e a b : Int) (he : 0 ≤ e) (he' : e < big) :
    iterlineLoop big small sa sb n e a b =
      (List.range n).map fun (k : Nat) => (a + (k : Int) * sa, b + sb * ((e + ((k : Int) + 1) * small) / big)) := by
  induction n generalizing e a b with
  | zero => rfl
  | succ n ih =>
    rw [iterlineLoop, List.range_succ_eq_map, List.map_cons, List.map_map]
    split_ifs with c
    · rw [ih _ _ _ (by omega) (by omega)]
      congr 1
      · have : (e + ((0 : Nat) + 1) * small) / big = 1 := by
          rw [Int.ediv_eq_iff_of_pos hpos]; push_cast; constructor <;> omega
        rw [this]; simp
      · apply List.map_congr_left
        intro k _
        simp only [Function.comp, Nat.succ_eq_add_one, Nat.cast_add, Nat.cast_one, Prod.mk.injEq]
        constructor
        · ring
        · have : e + ((k : Int) + 1 + 1) * small = (e + small - big + ((k : Int) + 1) * small) + 1 * big := by ring
          rw [this, Int.add_mul_ediv_right _ _ (by omega)]
          ring
    · rw [ih _ _ _ (by omega) (by omega)]
      congr 1
      · have : (e + ((0 : Nat) + 1) * small) / big = 0 := by
          apply Int.ediv_eq_zero_of_lt <;> push_cast <;> omega
        rw [this]; simp
      · apply List.map_congr_left
        intro k _
        simp only [Function.comp, Nat.succ_eq_add_one, Nat.cast_add, Nat.cast_one, Prod.mk.injEq]
        constructor
        · ring
        · have : e + ((k : Int) + 1 + 1) * small = e + small + ((k : Int) + 1) * small := by ring
          rw [this]

theorem sign_eq (v : Int) : Model.sign v = Int.sign v := by
  unfold Model.sign
  rcases lt_trichotomy v 0 with h | h | h
  · rw [if_neg (by omega), if_neg (by omega), Int.sign_eq_neg_one_of_neg h]
  · subst h; simp
  · rw [if_pos h, Int.sign_eq_one_of_pos h]

/-- Specification of the rasterised segment: one point per step along the longer axis; the other
coordinate moves after `k + 1` steps by the rounded down proportional amount. -/
def rasterPt (x1 y1 x2 y2 k : Int) : Int × Int :=
  let dx := x2 - x1
  let dy := y2 - y1
  if |dy| ≤ |dx| then (x1 + k * dx.sign, y1 + dy.sign * ((k + 1) * |dy| / |dx|))
  else (x1 + dx.sign * ((k + 1) * |dx| / |dy|), y1 + k * dy.sign)

theorem natAbs_abs (v : Int) : (v.natAbs : Int) = |v| := (Int.abs_eq_natAbs v).symm

/-- The points of `iterline`, for all end points. -/
theorem iterline_eq (x1 y1 x2 y2 : Int) :
    iterline (x1, y1) (x2, y2) =
      ((List.range (max |x2 - x1| |y2 - y1| + 1).toNat).map fun (k : Nat) => rasterPt x1 y1 x2 y2 k) ++ [(x2, y2)] := by
  unfold iterline rasterPt
  simp only [sign_eq, natAbs_abs]
  congr 1
  by_cases c : |y2 - y1| ≤ |x2 - x1|
  · rw [if_pos c, max_eq_left c]
    by_cases z : |x2 - x1| = 0
    · have hx : x2 - x1 = 0 := abs_eq_zero.mp z
      have hy : y2 - y1 = 0 := abs_eq_zero.mp (by have := abs_nonneg (y2 - y1); omega)
      simp [hx, hy, iterlineLoop]
    · have := abs_nonneg (x2 - x1)
      rw [iterlineLoop_eq (abs_nonneg _) c (by omega) _ _ _ _ _ _ (le_refl _) (by omega)]
      apply List.map_congr_left
      intro k _
      rw [if_pos c]; simp
  · rw [if_neg c, max_eq_right (show |x2 - x1| ≤ |y2 - y1| by omega)]
    have := abs_nonneg (x2 - x1)
    rw [iterlineLoop_eq (abs_nonneg _) (by omega) (by omega) _ _ _ _ _ _ (le_refl _) (by omega), List.map_map]
    apply List.map_congr_left
    intro k _
    rw [if_neg c]; simp

/-- Facts about the quotient that places the points, shorter side strictly shorter. -/
theorem quot_facts {s b k : Int} (hs : 0 ≤ s) (hlt : s < b) (hk : 0 ≤ k) (hkb : k ≤ b) :
    0 ≤ (k + 1) * s / b ∧ (k + 1) * s / b ≤ s ∧ k * s - b < (k + 1) * s / b * b ∧ (k + 1) * s / b * b ≤ (k + 1) * s := by
  have hb : 0 < b := by omega
  have h1 : 0 ≤ (k + 1) * s := mul_nonneg (by omega) hs
  have hq0 : 0 ≤ (k + 1) * s / b := Int.ediv_nonneg h1 (by omega)
  have hq : (k + 1) * s / b * b ≤ (k + 1) * s := Int.ediv_mul_le _ (by omega)
  have hq2 : (k + 1) * s < ((k + 1) * s / b + 1) * b := Int.lt_ediv_add_one_mul_self _ hb
  refine ⟨hq0, ?_, ?_, hq⟩
  · have h3 : (k + 1) * s < (s + 1) * b := by nlinarith
    have : (k + 1) * s / b < s + 1 := (Int.ediv_lt_iff_lt_mul hb).mpr h3
    omega
  · nlinarith

/-- Consecutive quotients differ by at most one. -/
theorem quot_step {s b : Int} (hs : 0 ≤ s) (hle : s ≤ b) (hb : 0 < b) (k : Int) :
    (k + 1) * s / b ≤ (k + 1 + 1) * s / b ∧ (k + 1 + 1) * s / b ≤ (k + 1) * s / b + 1 := by
  constructor
  · apply Int.ediv_le_ediv hb; nlinarith
  · have : (k + 1 + 1) * s / b ≤ ((k + 1) * s + 1 * b) / b := by
      apply Int.ediv_le_ediv hb; nlinarith
    rwa [Int.add_mul_ediv_right _ _ (by omega)] at this

/-- A chain of points each at most one step (also diagonally) from the next. -/
def Connected : List (Int × Int) → Prop
  | [] => True
  | [_] => True
  | p :: q :: l => |q.1 - p.1| ≤ 1 ∧ |q.2 - p.2| ≤ 1 ∧ Connected (q :: l)

theorem connected_map_range (f : Nat → Int × Int) (n : Nat)
    (h : ∀ k, |(f (k + 1)).1 - (f k).1| ≤ 1 ∧ |(f (k + 1)).2 - (f k).2| ≤ 1) :
    Connected ((List.range n).map f) := by
  induction n generalizing f with
  | zero => trivial
  | succ n ih =>
    rw [List.range_succ_eq_map, List.map_cons, List.map_map]
    cases n with
    | zero => trivial
    | succ n =>
      have := ih (fun k => f (k + 1)) (fun k => h (k + 1))
      rw [List.range_succ_eq_map, List.map_cons, List.map_map] at this ⊢
      exact ⟨(h 0).1, (h 0).2, this⟩

theorem sign_cases (v : Int) : (v.sign = 1 ∧ 0 < v ∧ |v| = v) ∨ (v.sign = 0 ∧ v = 0 ∧ |v| = 0) ∨ (v.sign = -1 ∧ v < 0 ∧ |v| = -v) := by
  rcases lt_trichotomy v 0 with h | h | h
  · right; right; exact ⟨Int.sign_eq_neg_one_of_neg h, h, abs_of_neg h⟩
  · right; left; subst h; simp
  · left; exact ⟨Int.sign_eq_one_of_pos h, h, abs_of_pos h⟩

/-- Points of the segment for end points that are not on a common diagonal. -/
theorem raster_facts {x1 y1 x2 y2 : Int} (hne : |x2 - x1| ≠ |y2 - y1| ∨ (x1 = x2 ∧ y1 = y2)) {k : Int}
    (hk : 0 ≤ k) (hkb : k ≤ max |x2 - x1| |y2 - y1|) :
    let p := rasterPt x1 y1 x2 y2 k
    (min x1 x2 ≤ p.1 ∧ p.1 ≤ max x1 x2 ∧ min y1 y2 ≤ p.2 ∧ p.2 ≤ max y1 y2) ∧
    |(p.1 - x1) * (y2 - y1) - (p.2 - y1) * (x2 - x1)| ≤ max |x2 - x1| |y2 - y1| := by
  intro p
  show (min x1 x2 ≤ (rasterPt x1 y1 x2 y2 k).1 ∧ (rasterPt x1 y1 x2 y2 k).1 ≤ max x1 x2 ∧
      min y1 y2 ≤ (rasterPt x1 y1 x2 y2 k).2 ∧ (rasterPt x1 y1 x2 y2 k).2 ≤ max y1 y2) ∧
    |((rasterPt x1 y1 x2 y2 k).1 - x1) * (y2 - y1) - ((rasterPt x1 y1 x2 y2 k).2 - y1) * (x2 - x1)|
      ≤ max |x2 - x1| |y2 - y1|
  unfold rasterPt
  obtain ⟨dx, hdx⟩ : ∃ dx, dx = x2 - x1 := ⟨_, rfl⟩
  obtain ⟨dy, hdy⟩ : ∃ dy, dy = y2 - y1 := ⟨_, rfl⟩
  rw [← hdx, ← hdy] at hne hkb ⊢
  dsimp only
  by_cases c : |dy| ≤ |dx|
  · rw [if_pos c]
    rw [max_eq_left c] at hkb ⊢
    dsimp only
    rcases hne with hne | hz
    · obtain ⟨q1, q2, q3, q4⟩ := quot_facts (abs_nonneg dy) (lt_of_le_of_ne c (Ne.symm hne)) hk hkb
      set q := (k + 1) * |dy| / |dx| with hq
      have e1 : x1 + k * dx.sign - x1 = k * dx.sign := by ring
      have e2 : y1 + dy.sign * q - y1 = dy.sign * q := by ring
      rw [e1, e2]
      rcases sign_cases dx with ⟨s1, s2, s3⟩ | ⟨s1, s2, s3⟩ | ⟨s1, s2, s3⟩ <;>
        rcases sign_cases dy with ⟨t1, t2, t3⟩ | ⟨t1, t2, t3⟩ | ⟨t1, t2, t3⟩ <;>
        rw [s1, t1] <;> rw [s3] at hkb ⊢ <;> rw [s3] at q3 q4 <;> rw [t3] at q2 q3 q4 <;>
        refine ⟨⟨by omega, by omega, by omega, by omega⟩, abs_le.mpr ⟨?_, ?_⟩⟩ <;> nlinarith
    · have z1 : dx = 0 := by omega
      have z2 : dy = 0 := by omega
      rw [z1, z2]; simp
  · rw [if_neg c]
    rw [max_eq_right (show |dx| ≤ |dy| by omega)] at hkb ⊢
    dsimp only
    obtain ⟨q1, q2, q3, q4⟩ := quot_facts (abs_nonneg dx) (by omega : |dx| < |dy|) hk hkb
    set q := (k + 1) * |dx| / |dy| with hq
    have e1 : x1 + dx.sign * q - x1 = dx.sign * q := by ring
    have e2 : y1 + k * dy.sign - y1 = k * dy.sign := by ring
    rw [e1, e2]
    rcases sign_cases dx with ⟨s1, s2, s3⟩ | ⟨s1, s2, s3⟩ | ⟨s1, s2, s3⟩ <;>
      rcases sign_cases dy with ⟨t1, t2, t3⟩ | ⟨t1, t2, t3⟩ | ⟨t1, t2, t3⟩ <;>
      rw [s1, t1] <;> rw [t3] at hkb ⊢ <;> rw [t3] at q3 q4 <;> rw [s3] at q2 q3 q4 <;>
      refine ⟨⟨by omega, by omega, by omega, by omega⟩, abs_le.mpr ⟨?_, ?_⟩⟩ <;> nlinarith

/-- The last point of the loop is the second end point, except on diagonals. -/
theorem raster_last {x1 y1 x2 y2 : Int} (hne : |x2 - x1| ≠ |y2 - y1| ∨ (x1 = x2 ∧ y1 = y2)) {m : Nat}
    (hm : max |x2 - x1| |y2 - y1| = m) : rasterPt x1 y1 x2 y2 m = (x2, y2) := by
  have hax := abs_nonneg (x2 - x1)
  have hay := abs_nonneg (y2 - y1)
  unfold rasterPt
  dsimp only
  rcases hne with hne | ⟨rfl, rfl⟩
  · split_ifs with c
    · have hmx : (m : Int) = |x2 - x1| := by omega
      have hb : 0 < |x2 - x1| := by omega
      have : ((m : Int) + 1) * |y2 - y1| / |x2 - x1| = |y2 - y1| := by
        rw [hmx, show (|x2 - x1| + 1) * |y2 - y1| = |y2 - y1| + |y2 - y1| * |x2 - x1| by ring,
          Int.add_mul_ediv_right _ _ (by omega), Int.ediv_eq_zero_of_lt hay (by omega)]
        ring
      rw [this, hmx]
      rw [mul_comm |x2 - x1|, Int.sign_mul_abs, Int.sign_mul_abs]
      simp
    · have hmx : (m : Int) = |y2 - y1| := by omega
      have hb : 0 < |y2 - y1| := by omega
      have : ((m : Int) + 1) * |x2 - x1| / |y2 - y1| = |x2 - x1| := by
        rw [hmx, show (|y2 - y1| + 1) * |x2 - x1| = |x2 - x1| + |x2 - x1| * |y2 - y1| by ring,
          Int.add_mul_ediv_right _ _ (by omega), Int.ediv_eq_zero_of_lt hax (by omega)]
        ring
      rw [this, hmx]
      rw [mul_comm |y2 - y1|, Int.sign_mul_abs, Int.sign_mul_abs]
      simp
  · simp

theorem connected_concat {l : List (Int × Int)} {p : Int × Int} (hc : Connected l)
    (hl : ∀ q, l.getLast? = some q → |p.1 - q.1| ≤ 1 ∧ |p.2 - q.2| ≤ 1) : Connected (l ++ [p]) := by
  induction l with
  | nil => trivial
  | cons a l ih =>
    cases l with
    | nil => exact ⟨(hl a rfl).1, (hl a rfl).2, trivial⟩
    | cons c l => exact ⟨hc.1, hc.2.1, ih hc.2.2 (fun q hq => hl q (by rw [List.getLast?_cons_cons]; exact hq))⟩

/-- No point of the loop is produced twice. -/
theorem raster_nodup (x1 y1 x2 y2 : Int) (n : Nat) (hn : n ≤ (max |x2 - x1| |y2 - y1| + 1).toNat := by omega) :
    ((List.range n).map fun (k : Nat) => rasterPt x1 y1 x2 y2 k).Nodup := by
  refine List.Nodup.map_on ?_ List.nodup_range
  intro i hi j hj e
  simp only [List.mem_range] at hi hj
  unfold rasterPt at e
  dsimp only at e
  rcases sign_cases (x2 - x1) with ⟨s1, s2, s3⟩ | ⟨s1, s2, s3⟩ | ⟨s1, s2, s3⟩ <;>
    rcases sign_cases (y2 - y1) with ⟨t1, t2, t3⟩ | ⟨t1, t2, t3⟩ | ⟨t1, t2, t3⟩ <;>
    rw [s1, t1] at e <;> rw [s3, t3] at hn <;> split_ifs at e <;> simp only [Prod.mk.injEq] at e <;> omega

/-- C23 for end points that do not lie on a common diagonal. Missing: on diagonals the path does not
start at the first end point and overshoots (`C23_diagonal`), so the full statement is false. Also the second
end point is produced twice (`C23_twice`). -/
theorem C23_iterline_partial (x1 y1 x2 y2 : Int) (hne : |x2 - x1| ≠ |y2 - y1| ∨ (x1 = x2 ∧ y1 = y2)) :
    let l := iterline (x1, y1) (x2, y2)
    l.head? = some (x1, y1) ∧ l.getLast? = some (x2, y2) ∧ Connected l ∧ l.dropLast.Nodup ∧
      (l.length : Int) = max |x2 - x1| |y2 - y1| + 2 ∧
      ∀ p ∈ l, (min x1 x2 ≤ p.1 ∧ p.1 ≤ max x1 x2 ∧ min y1 y2 ≤ p.2 ∧ p.2 ≤ max y1 y2) ∧
        |(p.1 - x1) * (y2 - y1) - (p.2 - y1) * (x2 - x1)| ≤ max |x2 - x1| |y2 - y1| := by
  intro l
  have hl : l = _ := iterline_eq x1 y1 x2 y2
  have hax := abs_nonneg (x2 - x1)
  have hay := abs_nonneg (y2 - y1)
  obtain ⟨m, hm⟩ := Int.eq_ofNat_of_zero_le (show 0 ≤ max |x2 - x1| |y2 - y1| by omega)
  have hn : (max |x2 - x1| |y2 - y1| + 1).toNat = m + 1 := by omega
  rw [hn] at hl
  refine ⟨?_, ?_, ?_, ?_, ?_, ?_⟩
  · rw [hl, List.range_succ_eq_map, List.map_cons, List.cons_append, List.head?_cons]
    congr 1
    unfold rasterPt
    dsimp only
    rcases hne with hne | ⟨rfl, rfl⟩
    · split_ifs with c
      · have : (((0 : Nat) : Int) + 1) * |y2 - y1| / |x2 - x1| = 0 :=
          Int.ediv_eq_zero_of_lt (by push_cast; omega) (by push_cast; omega)
        rw [this]; simp
      · have : (((0 : Nat) : Int) + 1) * |x2 - x1| / |y2 - y1| = 0 :=
          Int.ediv_eq_zero_of_lt (by push_cast; omega) (by push_cast; omega)
        rw [this]; simp
    · simp
  · rw [hl, List.getLast?_concat]
  · rw [hl]
    apply connected_concat
    swap
    · rw [List.range_succ, List.map_append, List.map_singleton, List.getLast?_concat, raster_last hne hm]
      rintro q ⟨⟩
      simp
    apply connected_map_range
    intro k
    unfold rasterPt
    simp only [Nat.cast_add, Nat.cast_one]
    by_cases c : |y2 - y1| ≤ |x2 - x1|
    · rw [if_pos c, if_pos c]
      by_cases z : |x2 - x1| = 0
      · have hx : x2 - x1 = 0 := abs_eq_zero.mp z
        have hy : y2 - y1 = 0 := abs_eq_zero.mp (by omega)
        simp [hx, hy]
      · obtain ⟨g1, g2⟩ := quot_step hay c (by omega) (k : Int)
        generalize ((k : Int) + 1 + 1) * |y2 - y1| / |x2 - x1| = q' at *
        generalize ((k : Int) + 1) * |y2 - y1| / |x2 - x1| = q at *
        rcases sign_cases (x2 - x1) with ⟨s1, _⟩ | ⟨s1, _⟩ | ⟨s1, _⟩ <;>
          rcases sign_cases (y2 - y1) with ⟨t1, _⟩ | ⟨t1, _⟩ | ⟨t1, _⟩ <;>
          rw [s1, t1] <;> simp only [abs_le] <;> omega
    · rw [if_neg c, if_neg c]
      obtain ⟨g1, g2⟩ := quot_step hax (by omega) (by omega : 0 < |y2 - y1|) (k : Int)
      generalize ((k : Int) + 1 + 1) * |x2 - x1| / |y2 - y1| = q' at *
      generalize ((k : Int) + 1) * |x2 - x1| / |y2 - y1| = q at *
      rcases sign_cases (x2 - x1) with ⟨s1, _⟩ | ⟨s1, _⟩ | ⟨s1, _⟩ <;>
        rcases sign_cases (y2 - y1) with ⟨t1, _⟩ | ⟨t1, _⟩ | ⟨t1, _⟩ <;>
        rw [s1, t1] <;> simp only [abs_le] <;> omega
  · rw [hl, List.dropLast_concat]
    exact raster_nodup x1 y1 x2 y2 _
  · rw [hl]; simp; omega
  · intro p hp
    rw [hl] at hp
    simp only [List.mem_append, List.mem_map, List.mem_range, List.mem_singleton] at hp
    have hp : ∃ k : Nat, k < m + 1 ∧ rasterPt x1 y1 x2 y2 k = p := by
      rcases hp with hp | rfl
      · exact hp
      · exact ⟨m, by omega, raster_last hne hm⟩
    obtain ⟨k, hk, rfl⟩ := hp
    exact raster_facts hne (by omega) (by omega)

/-- The second end point is produced twice for all end points that are not on a diagonal. -/
theorem C23_twice (x1 y1 x2 y2 : Int) (hne : |x2 - x1| ≠ |y2 - y1| ∨ (x1 = x2 ∧ y1 = y2)) :
    (iterline (x1, y1) (x2, y2)).count (x2, y2) = 2 := by
  have hax := abs_nonneg (x2 - x1)
  have hay := abs_nonneg (y2 - y1)
  obtain ⟨m, hm⟩ := Int.eq_ofNat_of_zero_le (show 0 ≤ max |x2 - x1| |y2 - y1| by omega)
  rw [iterline_eq, List.count_append, List.count_singleton_self, List.count_eq_one_of_mem (raster_nodup x1 y1 x2 y2 _ (le_refl _))]
  rw [List.mem_map]
  exact ⟨m, by rw [List.mem_range]; omega, raster_last hne hm⟩

/-- C23 is false on every diagonal: all points are shifted by one in the second coordinate; the
path starts beside the first end point, leaves the bounding box at the other end and comes back to the second
end point. -/
theorem C23_diagonal (x1 y1 x2 y2 : Int) (hd : |x2 - x1| = |y2 - y1|) (hne : x1 ≠ x2) :
    iterline (x1, y1) (x2, y2) =
      ((List.range ((x2 - x1).natAbs + 1)).map fun (k : Nat) =>
        (x1 + (k : Int) * (x2 - x1).sign, y1 + ((k : Int) + 1) * (y2 - y1).sign)) ++ [(x2, y2)] := by
  rw [iterline_eq, ← hd, max_self]
  have e : (|x2 - x1| + 1).toNat = (x2 - x1).natAbs + 1 := by rw [Int.abs_eq_natAbs]; omega
  rw [e]
  congr 1
  apply List.map_congr_left
  intro k _
  unfold rasterPt
  rw [if_pos (by omega), ← hd]
  have : 0 < |x2 - x1| := abs_pos.mpr (by omega)
  rw [Int.mul_ediv_cancel _ (by omega)]
  congr 2; ring

/-- In particular neither the start nor the bounding box is respected. -/
theorem C23_diagonal_example : iterline (0, 0) (2, 2) = [(0, 1), (1, 2), (2, 3), (2, 2)] := by decide +kernel

example : iterline (0, 0) (5, 2) = [(0, 0), (1, 0), (2, 1), (3, 1), (4, 2), (5, 2), (5, 2)] := by decide +kernel
example : iterline (3, 9) (1, 5) = [(3, 9), (2, 8), (2, 7), (1, 6), (1, 5), (1, 5)] := by decide +kernel

/-! ### Drawing -/

/-- Pixels of the rasterised segment. -/
def Raster (x1 y1 x2 y2 : Int) (x y : Nat) : Prop :=
  ∃ k, 0 ≤ k ∧ k ≤ max |x2 - x1| |y2 - y1| ∧ rasterPt x1 y1 x2 y2 k = ((x : Int), (y : Int))

/-- Clamp to `0 .. n-1`. -/
def clampTo (v : Int) (n : Nat) : Int := max 0 (min v ((n : Int) - 1))

theorem setminmax_eq (v : Int) {n : Nat} : setminmax v 0 ((n : Int) - 1) = clampTo v n := by
  unfold setminmax clampTo; dsimp only; split_ifs <;> omega

theorem mem_iterline {x1 y1 x2 y2 : Int} (hne : |x2 - x1| ≠ |y2 - y1| ∨ (x1 = x2 ∧ y1 = y2)) (x y : Nat) :
    ((x : Int), (y : Int)) ∈ iterline (x1, y1) (x2, y2) ↔ Raster x1 y1 x2 y2 x y := by
  have hax := abs_nonneg (x2 - x1)
  obtain ⟨m, hm⟩ := Int.eq_ofNat_of_zero_le (show 0 ≤ max |x2 - x1| |y2 - y1| by omega)
  rw [iterline_eq]
  unfold Raster
  simp only [List.mem_append, List.mem_map, List.mem_range, List.mem_singleton]
  constructor
  · rintro (⟨k, hk, e⟩ | e)
    swap
    · exact ⟨(m : Int), by omega, by omega, (raster_last hne hm).trans e.symm⟩
    exact ⟨(k : Int), by omega, by omega, e⟩
  · rintro ⟨k, h1, h2, e⟩
    exact Or.inl ⟨k.toNat, by omega, by rw [Int.toNat_of_nonneg h1]; exact e⟩

/-- A loop whose body writes like a plot at points inside the image. -/
theorem loop_paints {W H bits : Nat} (f : Bytes → Int × Int → Py Bytes) (pts : List (Int × Int)) (c : Nat)
    (hc : c < 2 ^ bits)
    (hin : ∀ p ∈ pts, 0 ≤ p.1 ∧ p.1 < W ∧ 0 ≤ p.2 ∧ p.2 < H)
    (hf : ∀ b, Valid b W H bits → ∀ x y : Nat, x < W → y < H → f b ((x : Int), (y : Int)) = .ok (plotP b W H bits x y c))
    {b : Bytes} (h : Valid b W H bits) :
    ∃ b', pts.foldlM f b = .ok b' ∧ Paints b b' W H bits (fun x y => ((x : Int), (y : Int)) ∈ pts) c := by
  obtain ⟨b', e, p⟩ := foldl_paints (W := W) (H := H) (bits := bits) (c := c) f
    (fun p x' y' => (x' : Int) = p.1 ∧ (y' : Int) = p.2) pts (by
      intro b hb a ha
      obtain ⟨g1, g2, g3, g4⟩ := hin a ha
      obtain ⟨ax, ay⟩ := a
      obtain ⟨x0, rfl⟩ := Int.eq_ofNat_of_zero_le g1
      obtain ⟨y0, rfl⟩ := Int.eq_ofNat_of_zero_le g3
      simp only at g2 g4
      have hx0 : x0 < W := by omega
      have hy0 : y0 < H := by omega
      refine ⟨_, hf b hb x0 y0 hx0 hy0, hb.valid_plotP hx0 hy0 hc, ⟨hb.length_plotP hx0 hy0, ?_⟩, ?_, ?_⟩
      · intro i hi
        apply hb.byte_plotP_outside hx0 hy0
        left; unfold addr; omega
      · intro x y hx hy hs
        rw [hb.pix_plotP hx0 hy0 hx hy hc, if_pos (by simp only at hs; omega)]
      · intro x y hx hy hs
        rw [hb.pix_plotP hx0 hy0 hx hy hc, if_neg (by simp only at hs; omega)]) h
  refine ⟨b', e, p.congr ?_⟩
  intro x y _ _
  constructor
  · intro hm; exact ⟨_, hm, rfl, rfl⟩
  · rintro ⟨⟨a1, a2⟩, hm, rfl, rfl⟩; exact hm

/-- Body of the 24-bit loops. -/
theorem put24 {b : Bytes} {W H : Nat} (h : Valid b W H 24) {x y : Nat} (hx : x < W) (hy : y < H) {c : Nat} {buf : Bytes}
    (hbuf : buf = [c % 256, c / 256 % 256, c / 65536]) :
    (do let s ← BMoffsethd b x y
        pure (setSlice b s (s + 3) buf) : Py Bytes) = .ok (plotP b W H 24 x y c) := by
  subst hbuf
  have ha := addr_lt h hx hy
  rw [if_pos rfl] at ha
  rw [h.BMoffsethd_eq x y hy]
  simp only [ok_bind, pure_eq_ok]
  rw [setSlice_ok (n := addr W H 24 x y) rfl (by simp) (by simpa using ha)]
  unfold plotP
  rw [if_pos rfl]

theorem int2BGRarr_eq {color : Int} (hc : IsColour 24 color) :
    int2BGRarr color = .ok [color.toNat % 256, color.toNat / 256 % 256, color.toNat / 65536] := by
  obtain ⟨h0, h1⟩ := hc
  obtain ⟨c, rfl⟩ := Int.eq_ofNat_of_zero_le h0
  unfold int2BGRarr
  have : c < 16777216 := by norm_num at h1; omega
  rw [pyAnd_255, pyAnd_255, pyShr_8, pyShr_16, Int.toNat_natCast]
  exact mkArray3_ok (by omega) (by omega) (by omega) (by omega) (by omega) (by omega)

theorem put8 {b : Bytes} {W H : Nat} (h : Valid b W H 8) {x y : Nat} (hx : x < W) (hy : y < H) {c : Nat} (hc : c < 256)
    {v : Int} (hv : v = c) :
    (do let s ← BMoffsethd b x y
        setItem b s v : Py Bytes) = .ok (plotP b W H 8 x y c) := by
  have ha := addr_lt h hx hy
  rw [if_neg (by omega)] at ha
  rw [h.BMoffsethd_eq x y hy]
  simp only [ok_bind]
  rw [setItem_ok rfl (by omega) hv hc]
  unfold plotP
  rw [if_neg (by omega)]
  congr 2
  have e : shiftOf 8 x = 0 := by unfold shiftOf; omega
  have := byte_lt_of_mem h.bytes (addr W H 8 x y)
  rw [e]; unfold setField; norm_num; omega

theorem put4 {b : Bytes} {W H : Nat} (h : Valid b W H 4) {x y : Nat} (hx : x < W) (hy : y < H) {c : Nat} (hc : c < 16)
    {v : Int} (hv : v = c) :
    (do let s ← BMoffsethd b x y
        let w ← getItem b s
        if pyAnd (x : Int) 1 = 1 then setItem b s (((w &&& 0xf0 : Nat) : Int) + v)
        else setItem b s (pyShl v 4 + ((w &&& 0xf : Nat) : Int)) : Py Bytes) = .ok (plotP b W H 4 x y c) := by
  have hp := h.plot_eq (c := (c : Int)) hx hy (by omega)
  have hred : reduce 4 (c : Int) = c := by rw [reduce_4]; omega
  rw [hred] at hp
  rw [← hp]
  unfold plotxybit
  rw [h.inb_true hx hy, h.bits_eq, h.BMoffsethd_eq x y hy]
  have hr := h.rowoff_eq (y : Int)
  norm_num at hr
  subst hv
  have hcol : pyAnd (c : Int) 15 = (c : Int) := by rw [pyAnd_15]; omega
  have hoff : pyShr (x : Int) 1 + ((H : Int) - y - 1) * (rowLen W 4 : Int) + 118 = (addr W H 4 x y : Int) := by
    rw [row_cast hy, pyShr_1]
    unfold addr rel dataOff palSize
    norm_num
    omega
  norm_num [hr, hcol, hoff]

/-- C24: `line` clamps the end points and paints exactly the rasterised segment between the clamped
points. Missing: diagonals (`C24_diagonal_header`) and horizontal lines on 4-bit images with
unlucky parities (`C19_4bit_wrong`), for which the statement is false. -/
theorem C24_line_partial {b : Bytes} {W H bits : Nat} (h : Valid b W H bits) (hW : 0 < W) (hH : 0 < H)
    {x1 y1 x2 y2 color : Int} (hc : IsColour bits color)
    (hdiag : |clampTo x2 W - clampTo x1 W| ≠ |clampTo y2 H - clampTo y1 H| ∨
      (clampTo x1 W = clampTo x2 W ∧ clampTo y1 H = clampTo y2 H))
    (h4 : bits = 4 → clampTo y1 H = clampTo y2 H → clampTo x1 W ≠ clampTo x2 W →
      min (clampTo x1 W) (clampTo x2 W) % 2 = 0 ∧ max (clampTo x1 W) (clampTo x2 W) % 2 = 1) :
    ∃ b', line b x1 y1 x2 y2 color = .ok b' ∧
      Paints b b' W H bits (Raster (clampTo x1 W) (clampTo y1 H) (clampTo x2 W) (clampTo y2 H)) color.toNat := by
  unfold line
  have hbr : bottomrightcoord b = .ok ((W : Int) - 1, (H : Int) - 1) := by
    unfold bottomrightcoord; rw [h.getmaxx_eq, h.getmaxy_eq]; rfl
  rw [hbr]
  simp only [ok_bind, setminmax_eq]
  have hX1 : 0 ≤ clampTo x1 W ∧ clampTo x1 W < W := by unfold clampTo; omega
  have hX2 : 0 ≤ clampTo x2 W ∧ clampTo x2 W < W := by unfold clampTo; omega
  have hY1 : 0 ≤ clampTo y1 H ∧ clampTo y1 H < H := by unfold clampTo; omega
  have hY2 : 0 ≤ clampTo y2 H ∧ clampTo y2 H < H := by unfold clampTo; omega
  generalize clampTo x1 W = X1 at *
  generalize clampTo x2 W = X2 at *
  generalize clampTo y1 H = Y1 at *
  generalize clampTo y2 H = Y2 at *
  by_cases cx : X1 = X2
  · subst cx
    rw [if_pos rfl]
    obtain ⟨b', e, p⟩ := C20_vertline_partial (x := X1) (y1 := Y1) (y2 := Y2) h hc (by omega)
    refine ⟨b', e, p.congr ?_⟩
    intro x y hx hy
    unfold Raster VSeg rasterPt
    simp only [Int.sub_self, abs_zero, Int.sign_zero]
    rcases sign_cases (Y2 - Y1) with ⟨t1, t2, t3⟩ | ⟨t1, t2, t3⟩ | ⟨t1, t2, t3⟩ <;> rw [t1, t3]
    · constructor
      · rintro ⟨k, k1, k2, k3⟩
        rw [if_neg (by omega)] at k3
        simp only [Prod.mk.injEq] at k3; omega
      · rintro ⟨g1, g2, g3⟩
        refine ⟨(y : Int) - Y1, by omega, by omega, ?_⟩
        rw [if_neg (by omega)]
        simp only [Prod.mk.injEq]; omega
    · constructor
      · rintro ⟨k, k1, k2, k3⟩
        simp at k3; omega
      · rintro ⟨g1, g2, g3⟩
        refine ⟨0, by omega, by omega, ?_⟩
        simp; omega
    · constructor
      · rintro ⟨k, k1, k2, k3⟩
        rw [if_neg (by omega)] at k3
        simp only [Prod.mk.injEq] at k3; omega
      · rintro ⟨g1, g2, g3⟩
        refine ⟨Y1 - (y : Int), by omega, by omega, ?_⟩
        rw [if_neg (by omega)]
        simp only [Prod.mk.injEq]; omega
  rw [if_neg cx]
  by_cases cy : Y1 = Y2
  · subst cy
    rw [if_pos rfl]
    obtain ⟨b', e, p⟩ := C19_horiline_partial (y := Y1) (x1 := X1) (x2 := X2) h hc (by
      rcases h.depth with e | e | e | e
      · exact Or.inl e
      · obtain ⟨g1, g2⟩ := h4 e rfl cx
        refine Or.inr (Or.inr ⟨e, (min X1 X2).toNat, (max X1 X2).toNat, ?_, ?_, ?_, ?_, ?_⟩) <;> omega
      · exact Or.inr (Or.inl ⟨Or.inl e, by omega⟩)
      · exact Or.inr (Or.inl ⟨Or.inr e, by omega⟩))
    refine ⟨b', e, p.congr ?_⟩
    intro x y hx hy
    unfold Raster HSeg rasterPt
    simp only [Int.sub_self, abs_zero, Int.sign_zero]
    rcases sign_cases (X2 - X1) with ⟨t1, t2, t3⟩ | ⟨t1, t2, t3⟩ | ⟨t1, t2, t3⟩ <;> rw [t1, t3]
    · constructor
      · rintro ⟨k, k1, k2, k3⟩
        rw [if_pos (by omega)] at k3
        simp only [Prod.mk.injEq] at k3; omega
      · rintro ⟨g1, g2, g3⟩
        refine ⟨(x : Int) - X1, by omega, by omega, ?_⟩
        rw [if_pos (by omega)]
        simp only [Prod.mk.injEq]; omega
    · omega
    · constructor
      · rintro ⟨k, k1, k2, k3⟩
        rw [if_pos (by omega)] at k3
        simp only [Prod.mk.injEq] at k3; omega
      · rintro ⟨g1, g2, g3⟩
        refine ⟨X1 - (x : Int), by omega, by omega, ?_⟩
        rw [if_pos (by omega)]
        simp only [Prod.mk.injEq]; omega
  rw [if_neg cy, h.bits_eq]
  simp only [ok_bind]
  have hin : ∀ p ∈ iterline (X1, Y1) (X2, Y2), 0 ≤ p.1 ∧ p.1 < W ∧ 0 ≤ p.2 ∧ p.2 < H := by
    intro p hp
    obtain ⟨g, _⟩ := (C23_iterline_partial X1 Y1 X2 Y2 (by omega)).2.2.2.2.2 p hp
    omega
  have fin : ∀ f : Bytes → Int × Int → Py Bytes,
      (∀ b, Valid b W H bits → ∀ x y : Nat, x < W → y < H →
        f b ((x : Int), (y : Int)) = .ok (plotP b W H bits x y color.toNat)) →
      ∃ b', (iterline (X1, Y1) (X2, Y2)).foldlM f b = .ok b' ∧ Paints b b' W H bits (Raster X1 Y1 X2 Y2) color.toNat := by
    intro f hf
    have hlt : color.toNat < 2 ^ bits := by
      have := reduce_lt (bits := bits) color
      rwa [reduce_of_colour h.depth hc] at this
    obtain ⟨b', e, p⟩ := loop_paints f _ color.toNat hlt hin hf h
    exact ⟨b', e, p.congr fun x y _ _ => (mem_iterline (by omega) x y).symm⟩
  have hc0 := hc.1
  have hc1 := hc.2
  rcases h.depth with rfl | rfl | rfl | rfl
  · rw [if_neg (by omega), if_neg (by omega), if_neg (by omega), if_pos rfl]
    rw [if_neg (by norm_num at hc1; omega)]
    apply fin
    intro b hb x y hx hy
    rw [hb.plot_eq hx hy (by omega), reduce_of_colour hb.depth hc]
  · rw [if_neg (by omega), if_neg (by omega), if_pos rfl]
    rw [if_neg (by norm_num at hc1; omega)]
    apply fin
    intro b hb x y hx hy
    exact put4 hb hx hy (by norm_num at hc1; omega) (by omega)
  · rw [if_neg (by omega), if_pos rfl]
    apply fin
    intro b hb x y hx hy
    exact put8 hb hx hy (by norm_num at hc1; omega) (by rw [pyAnd_255]; norm_num at hc1; omega)
  · rw [if_pos rfl, int2BGRarr_eq hc]
    simp only [ok_bind]
    apply fin
    intro b hb x y hx hy
    exact put24 hb hx hy rfl

/-- C24 is false on diagonals: drawing from corner to corner of a 4×4 image overwrites header bytes
51 to 53, and does not paint the first end point. -/
theorem C24_diagonal_header :
    (do let b ← newBMP 4 4 24; let b ← line b 0 0 3 3 0xffffff
        pure (byte b 51, byte b 52, byte b 53, ← getxybit b 0 0)) = .ok (255, 255, 255, 0) := by decide +kernel

example : (do let b ← newBMP 6 4 4; let b ← line b 0 0 9 2 5
              pure (← getxybit b 0 0, ← getxybit b 2 1, ← getxybit b 5 2, ← getxybit b 3 0)) =
    .ok (5, 5, 5, 0) := by decide +kernel

end Verif.Props
