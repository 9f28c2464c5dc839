import Mathlib.Tactic.Ring
import Mathlib.Tactic.Linarith
import Verif.Model.Koch
/-! C107: the vertices of the Koch curve. -/

namespace Verif.Props
open Verif Model

variable {α : Type}

/-- The Koch curve of level `n` from `u` to `v` as in textbooks, without its last point: four curves of
the level below, through the three points that `koch` gives. -/
def kochPath (koch : α → α → α × α × α) : Nat → α → α → List α
  | 0, u, _ => [u]
  | n + 1, u, v =>
    let (a, b, c) := koch u v
    kochPath koch n u a ++ kochPath koch n a b ++ kochPath koch n b c ++ kochPath koch n c v

/-- Every segment of a path replaced by four; `v` is the point after the path. -/
def refine4 (koch : α → α → α × α × α) : List α → α → List α
  | [], _ => []
  | x :: t, v =>
    let (a, b, c) := koch x (t.headD v)
    x :: a :: b :: c :: refine4 koch t v

theorem kochPath_cons (koch : α → α → α × α × α) (n : Nat) : ∀ u v, ∃ t, kochPath koch n u v = u :: t := by
  induction n with
  | zero => intro u v; exact ⟨[], rfl⟩
  | succ n ih =>
    intro u v
    obtain ⟨t, ht⟩ := ih u (koch u v).1
    simp only [kochPath, ht]
    exact ⟨_, rfl⟩

theorem kochPath_length (koch : α → α → α × α × α) (n : Nat) : ∀ u v, (kochPath koch n u v).length = 4 ^ n := by
  induction n with
  | zero => intro u v; rfl
  | succ n ih =>
    intro u v
    simp only [kochPath, List.length_append, ih]
    rw [pow_succ]; ring

theorem refine4_append (koch : α → α → α × α × α) (s : List α) (t : List α) (v : α) :
    refine4 koch (s ++ t) v = refine4 koch s (t.headD v) ++ refine4 koch t v := by
  induction s with
  | nil => rfl
  | cons x s ih =>
    simp only [List.cons_append, refine4]
    rw [ih]
    have : (s ++ t).headD v = s.headD (t.headD v) := by cases s <;> rfl
    rw [this]

theorem kochPath_refine (koch : α → α → α × α × α) (n : Nat) : ∀ u v,
    kochPath koch (n + 1) u v = refine4 koch (kochPath koch n u v) v := by
  induction n with
  | zero => intro u v; rfl
  | succ n ih =>
    intro u v
    have hd : ∀ (x y z : α) (t : List α), (kochPath koch n x y ++ t).headD z = x := by
      intro x y z t
      obtain ⟨s, hs⟩ := kochPath_cons koch n x y
      rw [hs]; rfl
    rw [kochPath]
    conv_rhs => rw [kochPath]
    simp only [ih]
    rw [List.append_assoc, List.append_assoc, List.append_assoc, List.append_assoc, refine4_append, refine4_append, refine4_append, hd, hd]
    have := hd (koch u v).2.2 v v []
    rw [List.append_nil] at this
    rw [this]

theorem refine4_length (koch : α → α → α × α × α) (s : List α) (v : α) : (refine4 koch s v).length = 4 * s.length := by
  induction s with
  | nil => rfl
  | cons x s ih => simp only [refine4, List.length_cons, ih]; ring

/-- The points of a refined path by index. -/
theorem refine4_get (koch : α → α → α × α × α) (s : List α) (v : α) : ∀ k x y, (s ++ [v])[k]? = some x → (s ++ [v])[k + 1]? = some y →
    (refine4 koch s v ++ [v])[4 * k]? = some x ∧ (refine4 koch s v ++ [v])[4 * k + 1]? = some (koch x y).1 ∧
    (refine4 koch s v ++ [v])[4 * k + 2]? = some (koch x y).2.1 ∧ (refine4 koch s v ++ [v])[4 * k + 3]? = some (koch x y).2.2 := by
  induction s with
  | nil =>
    intro k x y _ h2
    simp at h2
  | cons z s ih =>
    intro k x y h1 h2
    cases k with
    | zero =>
      have hz : z = x := by simpa using h1
      have hy : s.headD v = y := by
        rw [List.cons_append, List.getElem?_cons_succ] at h2
        cases s <;> simpa using h2
      subst hz hy
      simp [refine4]
    | succ k =>
      rw [List.cons_append, List.getElem?_cons_succ] at h1 h2
      have := ih k x y h1 h2
      simp only [refine4, List.cons_append]
      exact this

theorem kochStep_ok (koch : α → α → α × α × α) {l : Nat} {p : List α} {s : Nat} {x y : α} {j : Nat} (hj : l = 4 * j) (h1 : p[s * l]? = some x)
    (h2 : p[s * l + l]? = some y) :
    ∃ p', kochStep koch l p s = .ok p' ∧ p'.length = p.length ∧
      ∀ i, p'[i]? = if i = s * l + 3 * j then (if i < p.length then some (koch x y).2.2 else none)
        else if i = s * l + 2 * j then (if i < p.length then some (koch x y).2.1 else none)
        else if i = s * l + j then (if i < p.length then some (koch x y).1 else none) else p[i]? := by
  have hlen : s * l + l < p.length := by
    by_contra hc
    rw [List.getElem?_eq_none (by omega)] at h2
    cases h2
  have d4 : l / 4 = j := by omega
  have d2 : l / 2 = 2 * j := by omega
  refine ⟨((p.set (s * l + j) (koch x y).1).set (s * l + 2 * j) (koch x y).2.1).set (s * l + 3 * j) (koch x y).2.2, ?_, by simp, ?_⟩
  · unfold kochStep listGet listSet
    simp only [h1, h2, d4, d2, bind, Except.bind]
    rw [if_pos (by omega)]
    dsimp only
    rw [List.length_set, if_pos (by omega)]
    dsimp only
    rw [List.length_set, List.length_set, if_pos (by omega), Nat.mul_comm j 3]
  · intro i
    simp only [List.getElem?_set, List.length_set]
    split_ifs <;> first | rfl | omega

/-- The state after `s0` segments of a round. -/
theorem kochRound_fold (koch : α → α → α × α × α) {l j : Nat} (hj : l = 4 * j) (hj0 : 0 < j) (P : List α) (p : List α)
    (N : Nat) (hP : ∀ s ≤ N, ∃ x, P[s]? = some x) (hp : ∀ s ≤ N, p[s * l]? = P[s]?) :
    ∀ s0 ≤ N, ∃ p', (List.range s0).foldlM (kochStep koch l) p = .ok p' ∧ p'.length = p.length ∧
      (∀ s ≤ N, p'[s * l]? = P[s]?) ∧
      ∀ s < s0, ∀ x y, P[s]? = some x → P[s + 1]? = some y → p'[s * l + j]? = some (koch x y).1 ∧
        p'[s * l + 2 * j]? = some (koch x y).2.1 ∧ p'[s * l + 3 * j]? = some (koch x y).2.2 := by
  intro s0
  induction s0 with
  | zero =>
    intro _
    exact ⟨p, rfl, rfl, hp, fun s hs => absurd hs (by omega)⟩
  | succ s0 ih =>
    intro hs0
    obtain ⟨q, e, hl, hm, hd⟩ := ih (by omega)
    obtain ⟨x, hx⟩ := hP s0 (by omega)
    obtain ⟨y, hy⟩ := hP (s0 + 1) (by omega)
    have q1 : q[s0 * l]? = some x := by rw [hm s0 (by omega), hx]
    have q2 : q[s0 * l + l]? = some y := by
      have := hm (s0 + 1) (by omega)
      rw [Nat.add_mul, Nat.one_mul] at this
      rw [this, hy]
    have hlen : s0 * l + l < q.length := by
      by_contra hc
      rw [List.getElem?_eq_none (by omega)] at q2
      cases q2
    obtain ⟨q', e', hl', hq'⟩ := kochStep_ok koch hj q1 q2
    refine ⟨q', ?_, by omega, ?_, ?_⟩
    · rw [List.range_succ, List.foldlM_append, e]
      show (do let x ← List.foldlM (kochStep koch l) q [s0]; pure x) = _
      simp [e']
    · intro s hs
      have a1 : s * l ≠ s0 * l + 3 * j ∧ s * l ≠ s0 * l + 2 * j ∧ s * l ≠ s0 * l + j := by
        rcases Nat.lt_or_ge s0 s with h | h
        · have : (s0 + 1) * l ≤ s * l := Nat.mul_le_mul_right _ h
          rw [Nat.add_mul] at this
          omega
        · have : s * l ≤ s0 * l := Nat.mul_le_mul_right _ h
          omega
      rw [hq', if_neg a1.1, if_neg a1.2.1, if_neg a1.2.2, hm s hs]
    · intro s hs x' y' hx' hy'
      by_cases hss : s = s0
      · subst hss
        rw [hx] at hx'
        rw [hy] at hy'
        cases hx'
        cases hy'
        refine ⟨?_, ?_, ?_⟩
        · rw [hq', if_neg (by omega), if_neg (by omega), if_pos rfl, if_pos (by omega)]
        · rw [hq', if_neg (by omega), if_pos rfl, if_pos (by omega)]
        · rw [hq', if_pos rfl, if_pos (by omega)]
      · have hlt : s < s0 := by omega
        have : (s + 1) * l ≤ s0 * l := Nat.mul_le_mul_right _ hlt
        rw [Nat.add_mul] at this
        obtain ⟨r1, r2, r3⟩ := hd s hlt x' y' hx' hy'
        refine ⟨?_, ?_, ?_⟩
        · rw [hq', if_neg (by omega), if_neg (by omega), if_neg (by omega)]; exact r1
        · rw [hq', if_neg (by omega), if_neg (by omega), if_neg (by omega)]; exact r2
        · rw [hq', if_neg (by omega), if_neg (by omega), if_neg (by omega)]; exact r3

theorem kochRounds (koch : α → α → α × α × α) (u v : α) (n : Nat) (p0 : List α) (hl : p0.length = 4 ^ n + 1)
    (h0 : p0[0]? = some u) (h1 : p0[4 ^ n]? = some v) : ∀ k ≤ n, ∃ p,
      (List.range k).foldlM (fun st _ => kochRound koch (4 ^ n) st) (p0, 4 ^ n) = .ok (p, 4 ^ (n - k)) ∧ p.length = 4 ^ n + 1 ∧
      ∀ s ≤ 4 ^ k, p[s * 4 ^ (n - k)]? = (kochPath koch k u v ++ [v])[s]? := by
  intro k
  induction k with
  | zero =>
    intro _
    refine ⟨p0, rfl, hl, ?_⟩
    intro s hs
    have : s = 0 ∨ s = 1 := by simp at hs; omega
    rcases this with rfl | rfl
    · simpa [kochPath] using h0
    · simpa [kochPath] using h1
  | succ k ih =>
    intro hk
    obtain ⟨p, e, hlen, hp⟩ := ih (by omega)
    have hj : 4 ^ (n - k) = 4 * 4 ^ (n - (k + 1)) := by
      rw [show n - k = n - (k + 1) + 1 by omega, pow_succ]; ring
    have hj0 : 0 < 4 ^ (n - (k + 1)) := by positivity
    have hdiv : 4 ^ n / 4 ^ (n - k) = 4 ^ k := by
      have : 4 ^ n = 4 ^ k * 4 ^ (n - k) := by rw [← pow_add]; congr 1; omega
      rw [this]; exact Nat.mul_div_cancel _ (by positivity)
    have hlenP : (kochPath koch k u v ++ [v]).length = 4 ^ k + 1 := by simp [kochPath_length]
    obtain ⟨p', e', hl', hm, hd⟩ := kochRound_fold koch hj hj0 (kochPath koch k u v ++ [v]) p (4 ^ k)
      (fun s hs => ⟨_, List.getElem?_eq_getElem (by omega)⟩) hp (4 ^ k) (Nat.le_refl _)
    refine ⟨p', ?_, by omega, ?_⟩
    · rw [List.range_succ, List.foldlM_append, e]
      simp only [bind, Except.bind, List.foldlM, kochRound, hdiv, e', pure, Except.pure]
      rw [hj, Nat.mul_div_cancel_left _ (by omega)]
    · intro s hs
      generalize hlj : 4 ^ (n - (k + 1)) = j at *
      rw [kochPath_refine]
      have hs4 : s = 4 * (s / 4) + s % 4 := by omega
      have hb : s / 4 ≤ 4 ^ k := by rw [pow_succ] at hs; omega
      rcases Nat.lt_or_ge (s / 4) (4 ^ k) with hlt | hge
      · obtain ⟨x, hx⟩ : ∃ x, (kochPath koch k u v ++ [v])[s / 4]? = some x := ⟨_, List.getElem?_eq_getElem (by omega)⟩
        obtain ⟨y, hy⟩ : ∃ y, (kochPath koch k u v ++ [v])[s / 4 + 1]? = some y := ⟨_, List.getElem?_eq_getElem (by omega)⟩
        obtain ⟨g0, g1, g2, g3⟩ := refine4_get koch _ v _ x y hx hy
        obtain ⟨d1, d2, d3⟩ := hd (s / 4) hlt x y hx hy
        have d0 := hm (s / 4) hb
        rw [hx] at d0
        generalize s / 4 = t at *
        have hr : s % 4 = 0 ∨ s % 4 = 1 ∨ s % 4 = 2 ∨ s % 4 = 3 := by omega
        have eidx : s * j = t * 4 ^ (n - k) + s % 4 * j := by
          rw [hj]; calc s * j = (4 * t + s % 4) * j := by rw [← hs4]
            _ = _ := by ring
        rw [eidx]
        rcases hr with hr | hr | hr | hr
        · rw [hr, Nat.zero_mul, Nat.add_zero, d0, hs4, hr, Nat.add_zero, g0]
        · rw [hr, Nat.one_mul, d1, hs4, hr, g1]
        · rw [hr, d2, hs4, hr, g2]
        · rw [hr, d3, hs4, hr, g3]
      · have hse : s = 4 * 4 ^ k := by rw [pow_succ] at hs; omega
        have d0 := hm (4 ^ k) (Nat.le_refl _)
        have eidx : s * j = 4 ^ k * 4 ^ (n - k) := by rw [hj, hse]; ring
        rw [eidx, d0]
        rw [List.getElem?_append_right (by rw [kochPath_length]), List.getElem?_append_right (by rw [refine4_length, kochPath_length]; omega)]
        rw [refine4_length, kochPath_length, hse, Nat.sub_self, Nat.sub_self]

/-- C107: the array algorithm produces the points of the textbook Koch curve in order, and no index is
ever out of range. -/
theorem C107_koch (koch : α → α → α × α × α) (zero u v : α) (n : Nat) :
    kochcurvevert koch zero u v n = .ok (kochPath koch n u v ++ [v]) := by
  have hpos : 0 < 4 ^ n := by positivity
  obtain ⟨p, e, hl, hp⟩ := kochRounds koch u v n (((List.replicate (4 ^ n + 1) zero).set 0 u).set (4 ^ n) v)
    (by simp) (by rw [List.getElem?_set_ne (by omega)]; simp) (by simp) n (Nat.le_refl _)
  unfold kochcurvevert
  simp only [List.length_set, List.length_replicate, Nat.add_sub_cancel, e, bind, Except.bind, pure, Except.pure]
  congr 1
  apply List.ext_getElem?
  intro i
  by_cases hi : i ≤ 4 ^ n
  · have := hp i hi
    rwa [Nat.sub_self, pow_zero, Nat.mul_one] at this
  · rw [List.getElem?_eq_none (by omega), List.getElem?_eq_none (by simp [kochPath_length]; omega)]

/-- C107: `4^n + 1` points from `u` to `v`. -/
theorem C107_ends (koch : α → α → α × α × α) (zero u v : α) (n : Nat) :
    ∃ p, kochcurvevert koch zero u v n = .ok p ∧ p.length = 4 ^ n + 1 ∧ p.head? = some u ∧ p.getLast? = some v := by
  refine ⟨_, C107_koch koch zero u v n, by simp [kochPath_length], ?_, by simp⟩
  obtain ⟨t, ht⟩ := kochPath_cons koch n u v
  rw [ht]; rfl

/-- C107: the snowflake is closed and has `3 (4^n + 1)` points; its corners are listed twice. -/
theorem C107_snowflake (koch : α → α → α × α × α) (zero a b c : α) (n : Nat) :
    ∃ p, kochsnowflakevert koch zero a b c n = .ok p ∧ p.length = 3 * (4 ^ n + 1) ∧ p.head? = some a ∧ p.getLast? = some a ∧
      p = kochPath koch n a b ++ [b] ++ (kochPath koch n b c ++ [c]) ++ (kochPath koch n c a ++ [a]) := by
  refine ⟨_, ?_, ?_, ?_, ?_, rfl⟩
  · unfold kochsnowflakevert
    simp only [C107_koch, bind, Except.bind, pure, Except.pure]
  · simp [kochPath_length]; ring
  · obtain ⟨t, ht⟩ := kochPath_cons koch n a b
    rw [ht]; rfl
  · rw [List.getLast?_append]; simp

/-- Points in thirds on a line of integers, to see the order. -/
example : kochcurvevert (fun u v : Int => (u + (v - u) / 3, (u + v) / 2 + 100, v - (v - u) / 3)) 0 0 9 1 = .ok [0, 3, 104, 6, 9] := by
  decide
example : (kochcurvevert (fun u _ : Int => (u + 1, u + 2, u + 3)) 0 0 50 2) =
    .ok [0, 1, 2, 3, 1, 2, 3, 4, 2, 3, 4, 5, 3, 4, 5, 6, 50] := by decide

/-- The four pieces of a side have the same length, a third of the side, if the height is that of an
equilateral triangle, the square root of 1/12. -/
theorem C107_thirds {h : ℝ} (hh : h ^ 2 = 1 / 12) (u v : ℂ) :
    let (a, b, c) := koch h u v
    ‖a - u‖ = ‖v - u‖ / 3 ∧ ‖b - a‖ = ‖v - u‖ / 3 ∧ ‖c - b‖ = ‖v - u‖ / 3 ∧ ‖v - c‖ = ‖v - u‖ / 3 ∧ ‖c - a‖ = ‖v - u‖ / 3 := by
  have side : ∀ z : ℂ, Complex.normSq z = 1 / 9 → ‖(v - u) * z‖ = ‖v - u‖ / 3 := by
    intro z hz
    rw [Complex.norm_mul]
    have : ‖z‖ = 1 / 3 := by
      rw [Complex.normSq_eq_norm_sq] at hz
      nlinarith [norm_nonneg z]
    rw [this]; ring
  have third : Complex.normSq ((1 : ℂ) / 3) = 1 / 9 := by norm_num [Complex.normSq_ofNat]
  have e1 : (1 : ℂ) / 6 = ((1 / 6 : ℝ) : ℂ) := by push_cast; rfl
  have s1 : Complex.normSq (1 / 6 + (h : ℂ) * Complex.I) = 1 / 9 := by
    rw [e1, Complex.normSq_add_mul_I]; nlinarith
  have s2 : Complex.normSq (1 / 6 + ((-h : ℝ) : ℂ) * Complex.I) = 1 / 9 := by
    rw [e1, Complex.normSq_add_mul_I]; nlinarith
  simp only [koch]
  refine ⟨?_, ?_, ?_, ?_, ?_⟩
  · rw [← side _ third]; congr 1; ring
  · rw [← side _ s1]; congr 1; ring
  · rw [← side _ s2]; congr 1; push_cast; ring
  · rw [← side _ third]; congr 1; ring
  · rw [← side _ third]; congr 1; ring

/-- The default of the parameter `h` is that height up to 32 digits. -/
theorem C107_default : |((0.28867513459481288225457439025098 : ℚ)) ^ 2 - 1 / 12| < 1 / 10 ^ 32 := by norm_num [abs_lt]

/-- The length of a path through the points of a list. -/
noncomputable def pathLength : List ℂ → ℝ
  | a :: b :: t => ‖b - a‖ + pathLength (b :: t)
  | _ => 0

theorem pathLength_join (p q : List ℂ) (x : ℂ) : pathLength (p ++ x :: q) = pathLength (p ++ [x]) + pathLength (x :: q) := by
  induction p with
  | nil => simp [pathLength]
  | cons a p ih =>
    cases p with
    | nil => simp [pathLength]
    | cons b p =>
      simp only [List.cons_append, pathLength] at ih ⊢
      rw [ih]; ring

/-- C107: every round makes the curve longer by a third. -/
theorem C107_length {h : ℝ} (hh : h ^ 2 = 1 / 12) (zero u v : ℂ) (n : Nat) :
    ∃ p, kochcurvevert (koch h) zero u v n = .ok p ∧ pathLength p = (4 / 3) ^ n * ‖v - u‖ := by
  refine ⟨_, C107_koch (koch h) zero u v n, ?_⟩
  induction n generalizing u v with
  | zero => simp [kochPath, pathLength]
  | succ n ih =>
    have t := C107_thirds hh u v
    simp only [kochPath]
    generalize koch h u v = k at *
    obtain ⟨a, b, c⟩ := k
    dsimp only at t ⊢
    obtain ⟨t1, t2, t3, t4, _⟩ := t
    obtain ⟨p1, e1⟩ := kochPath_cons (koch h) n a b
    obtain ⟨p2, e2⟩ := kochPath_cons (koch h) n b c
    obtain ⟨p3, e3⟩ := kochPath_cons (koch h) n c v
    have i1 := ih u a
    have i2 := ih a b
    have i3 := ih b c
    have i4 := ih c v
    rw [e1] at i2
    rw [e2] at i3
    rw [e3] at i4
    rw [e1, e2, e3]
    have j1 := pathLength_join (kochPath (koch h) n u a) (p1 ++ (b :: (p2 ++ (c :: (p3 ++ [v]))))) a
    have j2 := pathLength_join (a :: p1) (p2 ++ (c :: (p3 ++ [v]))) b
    have j3 := pathLength_join (b :: p2) (p3 ++ [v]) c
    simp only [List.append_assoc, List.cons_append] at *
    rw [j1, j2, j3, i1, i2, i3, i4, t1, t2, t3, t4]
    ring

end Verif.Props
