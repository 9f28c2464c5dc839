import Verif.Model.Curves
import Verif.Props.Strokes
import Verif.Lemmas.Basic
import Mathlib.Tactic.Linarith
import Mathlib.Tactic.Ring
import Mathlib.Tactic.Positivity
import Mathlib.Tactic.FieldSimp
import Mathlib.Algebra.BigOperators.Intervals
import Mathlib.Data.Nat.Choose.Sum
/-! C120: Bezier curves and B-splines. -/

namespace Verif.Props.Curves
open Verif Spec Model Verif.Props

/-- The Bezier curve of degree `n` with the control values `p 0 .. p n` by repeated interpolation. -/
def bez (u : ℚ) : Nat → (Nat → ℚ) → ℚ
  | 0, p => p 0
  | n + 1, p => (1 - u) * bez u n p + u * bez u n fun j => p (j + 1)

theorem bez_sum (u : ℚ) (n : Nat) (p : Nat → ℚ) :
    ∑ j ∈ Finset.range (n + 1), p j * bezierblend j n u = bez u n p := by
  induction n generalizing p with
  | zero => simp [bezierblend, bez]
  | succ n ih =>
    have h1 : bez u (n + 1) p = (1 - u) * bez u n p + u * bez u n fun j => p (j + 1) := rfl
    rw [h1, ← ih p, ← ih fun j => p (j + 1), Finset.mul_sum, Finset.mul_sum,
      Finset.sum_range_succ' (fun j => p j * bezierblend j (n + 1) u), 
      Finset.sum_range_succ' (fun j => (1 - u) * (p j * bezierblend j n u)),
      Finset.sum_range_succ (fun j => p (j + 1) * bezierblend (j + 1) (n + 1) u)]
    have e1 : ∀ j ∈ Finset.range n, p (j + 1) * bezierblend (j + 1) (n + 1) u =
        (1 - u) * (p (j + 1) * bezierblend (j + 1) n u) + u * (p (j + 1) * bezierblend j n u) := by
      intro j hj
      have hj := Finset.mem_range.mp hj
      unfold bezierblend
      rw [Nat.choose_succ_succ, show n + 1 - (j + 1) = n - j by omega, show n - j = n - (j + 1) + 1 by omega]
      push_cast
      ring
    rw [Finset.sum_congr rfl e1, Finset.sum_add_distrib, Finset.sum_range_succ (fun j => u * (p (j + 1) * bezierblend j n u))]
    simp only [bezierblend, Nat.choose_self, Nat.choose_zero_right, Nat.sub_self, Nat.sub_zero, pow_zero, Nat.cast_one]
    ring

theorem foldl_pair_sum (n : Nat) (f g : Nat → ℚ) :
    (List.range n).foldl (fun (v : ℚ × ℚ) j => (v.1 + f j, v.2 + g j)) (0, 0) =
      (∑ j ∈ Finset.range n, f j, ∑ j ∈ Finset.range n, g j) := by
  induction n with
  | zero => rfl
  | succ n ih =>
    rw [List.range_succ, List.foldl_append, ih, Finset.sum_range_succ, Finset.sum_range_succ]
    rfl

/-- C120: the points of the code are on the Bezier curve of all control points but the last. -/
theorem C120_bezier_partial {pts : List (ℚ × ℚ)} {n : Nat} (hn : pts.length = n + 2) (u : ℚ) :
    bezierpoint pts u = (bez u n fun j => (pts.getD j (0, 0)).1, bez u n fun j => (pts.getD j (0, 0)).2) := by
  unfold bezierpoint
  rw [hn]
  simp only [show n + 2 - 1 = n + 1 by omega, show n + 1 - 1 = n by omega]
  rw [foldl_pair_sum, bez_sum, bez_sum]

/-- The value of the curve lies between bounds of the control values. -/
theorem bez_bounds {u : ℚ} (h0 : 0 ≤ u) (h1 : u ≤ 1) {lo hi : ℚ} {n : Nat} {p : Nat → ℚ}
    (h : ∀ j ≤ n, lo ≤ p j ∧ p j ≤ hi) : lo ≤ bez u n p ∧ bez u n p ≤ hi := by
  induction n generalizing p with
  | zero => exact h 0 (le_refl _)
  | succ n ih =>
    obtain ⟨a1, a2⟩ := ih (p := p) fun j hj => h j (by omega)
    obtain ⟨b1, b2⟩ := ih (p := fun j => p (j + 1)) fun j hj => h (j + 1) (by omega)
    have h1 : bez u (n + 1) p = (1 - u) * bez u n p + u * bez u n fun j => p (j + 1) := rfl
    rw [h1]
    constructor <;> nlinarith

/-- C120: the curve stays in every rectangle that contains the control points. -/
theorem C120_bezier_hull {pts : List (ℚ × ℚ)} (hn : 2 ≤ pts.length) {u : ℚ} (h0 : 0 ≤ u) (h1 : u ≤ 1)
    {x1 y1 x2 y2 : ℚ} (hb : ∀ p ∈ pts, x1 ≤ p.1 ∧ p.1 ≤ x2 ∧ y1 ≤ p.2 ∧ p.2 ≤ y2) :
    x1 ≤ (bezierpoint pts u).1 ∧ (bezierpoint pts u).1 ≤ x2 ∧ y1 ≤ (bezierpoint pts u).2 ∧ (bezierpoint pts u).2 ≤ y2 := by
  obtain ⟨n, hn⟩ : ∃ n, pts.length = n + 2 := ⟨pts.length - 2, by omega⟩
  rw [C120_bezier_partial hn]
  have hg : ∀ j ≤ n, pts.getD j (0, 0) ∈ pts := by
    intro j hj
    have hl : j < pts.length := by omega
    have e : pts.getD j (0, 0) = pts[j] := by simp [List.getD_eq_getElem?_getD, hl]
    rw [e]
    exact List.getElem_mem hl
  have a := bez_bounds h0 h1 (p := fun j => (pts.getD j (0, 0)).1) (lo := x1) (hi := x2) (n := n)
    fun j hj => ⟨(hb _ (hg j hj)).1, (hb _ (hg j hj)).2.1⟩
  have b := bez_bounds h0 h1 (p := fun j => (pts.getD j (0, 0)).2) (lo := y1) (hi := y2) (n := n)
    fun j hj => ⟨(hb _ (hg j hj)).2.2.1, (hb _ (hg j hj)).2.2.2⟩
  exact ⟨a.1, a.2, b.1, b.2⟩

/-- The last control point has no effect at all: the property that the curve is the Bezier curve of its
control points, and that it ends in the last one, is false. -/
theorem C120_last_false (l : List (ℚ × ℚ)) (hl : l ≠ []) (p q : ℚ × ℚ) :
    iterbeziercurve (l ++ [p]) = iterbeziercurve (l ++ [q]) := by
  have hb : ∀ u, bezierpoint (l ++ [p]) u = bezierpoint (l ++ [q]) u := by
    intro u
    unfold bezierpoint
    simp only [List.length_append, List.length_singleton, Nat.add_sub_cancel]
    apply List.foldl_ext
    intro v j hj
    have hj := List.mem_range.mp hj
    simp only [List.getD_eq_getElem?_getD, List.getElem?_append_left hj]
  have h0 : nth (l ++ [p]) 0 = nth (l ++ [q]) 0 := by
    cases l with
    | nil => exact absurd rfl hl
    | cons a l => rfl
  unfold iterbeziercurve
  simp only [hb, h0, List.length_append, List.length_singleton]

/-- A single control point yields a line from the origin to it. -/
theorem C120_single_wrong : iterbeziercurve [(3, 0)] = .ok ([(0, 0), (1, 0), (2, 0), (3, 0), (3, 0)] ++
    [(0, 0), (0, 0)] ++ [(0, 0), (0, 0)] ++ [(0, 0), (0, 0)]) := by decide +kernel

/-! ### B-splines -/

/-- C120: the weights of a section are not negative and have the sum one. -/
theorem C120_weights {u : ℚ} (h0 : 0 ≤ u) (h1 : u ≤ 1) :
    let (a, b, c, d) := bsplineblend u
    0 ≤ a ∧ 0 ≤ b ∧ 0 ≤ c ∧ 0 ≤ d ∧ a + b + c + d = 1 := by
  simp only [bsplineblend]
  have h2 : 0 ≤ 1 - u := by linarith
  refine ⟨?_, ?_, ?_, by positivity, by ring⟩
  · have : -(u * u * u / 6) + u * u / 2 - u / 2 + 1 / 6 = (1 - u) ^ 3 / 6 := by ring
    rw [this]; positivity
  · nlinarith [mul_nonneg h0 h2, mul_nonneg (mul_nonneg h0 h0) h2, sq_nonneg (u - 1)]
  · nlinarith [mul_nonneg h0 h2, mul_nonneg (mul_nonneg h0 h0) h2]

/-- C120: a section ends where the next one begins. -/
theorem C120_continuous (pts : List (ℚ × ℚ)) (curveback : Bool) (i : Nat) :
    bsplinepoint pts curveback i 1 = bsplinepoint pts curveback (i + 1) 0 := by
  simp only [bsplinepoint, bsplineblend, Prod.mk.injEq]
  constructor <;> ring

/-- C120: the curve stays in every rectangle that contains the control points. -/
theorem C120_bspline_hull {pts : List (ℚ × ℚ)} (hne : pts ≠ []) (curveback : Bool) (i : Nat) {u : ℚ} (h0 : 0 ≤ u)
    (h1 : u ≤ 1) {x1 y1 x2 y2 : ℚ} (hb : ∀ p ∈ pts, x1 ≤ p.1 ∧ p.1 ≤ x2 ∧ y1 ≤ p.2 ∧ p.2 ≤ y2) :
    x1 ≤ (bsplinepoint pts curveback i u).1 ∧ (bsplinepoint pts curveback i u).1 ≤ x2 ∧
    y1 ≤ (bsplinepoint pts curveback i u).2 ∧ (bsplinepoint pts curveback i u).2 ≤ y2 := by
  have hw := C120_weights h0 h1
  have hpos : 0 < pts.length := List.length_pos_iff.mpr hne
  obtain ⟨w, hweq⟩ : ∃ w, bsplineblend u = w := ⟨_, rfl⟩
  obtain ⟨a, b, c, d⟩ := w
  simp only [bsplinepoint]
  rw [hweq] at hw ⊢
  dsimp only at hw ⊢
  obtain ⟨ha, hb', hc, hd, hs⟩ := hw
  have hmem : ∀ k, pts.getD (if curveback then k % pts.length else if k > pts.length - 1 then pts.length - 1 else k) (0, 0) ∈ pts := by
    intro k
    have hl : (if curveback then k % pts.length else if k > pts.length - 1 then pts.length - 1 else k) < pts.length := by
      split_ifs
      · exact Nat.mod_lt _ hpos
      · omega
      · omega
    generalize (if curveback then k % pts.length else if k > pts.length - 1 then pts.length - 1 else k) = j at hl
    have e : pts.getD j (0, 0) = pts[j] := by simp [List.getD_eq_getElem?_getD, hl]
    rw [e]
    exact List.getElem_mem hl
  have m0 := hb _ (hmem i)
  have m1 := hb _ (hmem (i + 1))
  have m2 := hb _ (hmem (i + 2))
  have m3 := hb _ (hmem (i + 3))
  revert m0 m1 m2 m3
  generalize pts.getD (if curveback then i % pts.length else if i > pts.length - 1 then pts.length - 1 else i) (0, 0) = p0
  generalize pts.getD (if curveback then (i + 1) % pts.length else if i + 1 > pts.length - 1 then pts.length - 1 else i + 1) (0, 0) = p1
  generalize pts.getD (if curveback then (i + 2) % pts.length else if i + 2 > pts.length - 1 then pts.length - 1 else i + 2) (0, 0) = p2
  generalize pts.getD (if curveback then (i + 3) % pts.length else if i + 3 > pts.length - 1 then pts.length - 1 else i + 3) (0, 0) = p3
  intro m0 m1 m2 m3
  have key : ∀ {z0 z1 z2 z3 lo hi : ℚ}, (lo ≤ z0 ∧ z0 ≤ hi) → (lo ≤ z1 ∧ z1 ≤ hi) → (lo ≤ z2 ∧ z2 ≤ hi) → (lo ≤ z3 ∧ z3 ≤ hi) →
      lo ≤ 0 + z0 * a + z1 * b + z2 * c + z3 * d ∧ 0 + z0 * a + z1 * b + z2 * c + z3 * d ≤ hi := by
    intro z0 z1 z2 z3 lo hi g0 g1 g2 g3
    have f1 : lo = lo * a + lo * b + lo * c + lo * d := by rw [← mul_add, ← mul_add, ← mul_add, hs, mul_one]
    have f2 : hi = hi * a + hi * b + hi * c + hi * d := by rw [← mul_add, ← mul_add, ← mul_add, hs, mul_one]
    constructor
    · rw [f1]
      have := mul_le_mul_of_nonneg_right g0.1 ha
      have := mul_le_mul_of_nonneg_right g1.1 hb'
      have := mul_le_mul_of_nonneg_right g2.1 hc
      have := mul_le_mul_of_nonneg_right g3.1 hd
      linarith
    · rw [f2]
      have := mul_le_mul_of_nonneg_right g0.2 ha
      have := mul_le_mul_of_nonneg_right g1.2 hb'
      have := mul_le_mul_of_nonneg_right g2.2 hc
      have := mul_le_mul_of_nonneg_right g3.2 hd
      linarith
  have kx := key ⟨m0.1, m0.2.1⟩ ⟨m1.1, m1.2.1⟩ ⟨m2.1, m2.2.1⟩ ⟨m3.1, m3.2.1⟩
  have ky := key m0.2.2 m1.2.2 m2.2.2 m3.2.2
  exact ⟨kx.1, kx.2, ky.1, ky.2⟩

/-- The inner loop of `iterbspline`. -/
def section_ (pts : List (ℚ × ℚ)) (back : Bool) (acc : List (Int × Int) × (ℚ × ℚ)) (i : Nat) : List (Int × Int) × (ℚ × ℚ) :=
  (List.range (pts.length * 4)).foldl (fun (acc : List (Int × Int) × (ℚ × ℚ)) (k : Nat) =>
    let v := bsplinepoint pts back i ((k : ℚ) / (pts.length * 4 : Nat))
    (if i > 1 then acc.1 ++ iterline (roundvect2 v) (roundvect2 acc.2) else acc.1, v)) acc

theorem section_early (pts : List (ℚ × ℚ)) (hne : pts ≠ []) (back : Bool) (acc : List (Int × Int) × (ℚ × ℚ)) {i : Nat}
    (hi : i ≤ 1) : section_ pts back acc i =
      (acc.1, bsplinepoint pts back i (((pts.length * 4 - 1 : Nat) : ℚ) / (pts.length * 4 : Nat))) := by
  have hpos : 0 < pts.length := List.length_pos_iff.mpr hne
  obtain ⟨m, hm⟩ : ∃ m, pts.length * 4 = m + 1 := ⟨pts.length * 4 - 1, by omega⟩
  have key : ∀ (n : Nat) (acc : List (Int × Int) × (ℚ × ℚ)), ((List.range n).foldl (fun (acc : List (Int × Int) × (ℚ × ℚ)) (k : Nat) =>
      let v := bsplinepoint pts back i ((k : ℚ) / (pts.length * 4 : Nat))
      (if i > 1 then acc.1 ++ iterline (roundvect2 v) (roundvect2 acc.2) else acc.1, v)) acc).1 = acc.1 := by
    intro n acc
    induction n with
    | zero => rfl
    | succ n ih =>
      rw [List.range_succ, List.foldl_append, List.foldl_cons, List.foldl_nil]
      dsimp only
      rw [if_neg (by omega)]
      exact ih
  unfold section_
  have hr : List.range (pts.length * 4) = List.range m ++ [m] := by rw [hm, List.range_succ]
  rw [hr, List.foldl_append, List.foldl_cons, List.foldl_nil]
  dsimp only
  rw [if_neg (by omega), key m acc, hm, Nat.add_sub_cancel]

theorem iterbspline_sections (p : ℚ × ℚ) (l : List (ℚ × ℚ)) (isclosed back : Bool) :
    iterbspline (p :: l) isclosed back =
      .ok ((List.range ((p :: l).length + if isclosed then 2 else 0)).foldl (section_ (p :: l) back) ([], p)).1 := rfl

/-- An open B-spline does not depend on its first control point, which the curve should begin at or at least
bend towards: the sections 0 and 1 are skipped. -/
theorem C120_first_false (l : List (ℚ × ℚ)) (p q : ℚ × ℚ) :
    iterbspline (p :: l) false false = iterbspline (q :: l) false false := by
  have hb : ∀ i, 0 < i → ∀ u, l ≠ [] → bsplinepoint (p :: l) false i u = bsplinepoint (q :: l) false i u := by
    intro i hi u hl
    have hpos : 0 < l.length := List.length_pos_iff.mpr hl
    have g : ∀ k, 0 < k → (p :: l).getD (if k > l.length then l.length else k) (0, 0) =
        (q :: l).getD (if k > l.length then l.length else k) (0, 0) := by
      intro k hk
      obtain ⟨m, hm⟩ : ∃ m, (if k > l.length then l.length else k) = m + 1 := by
        split_ifs
        · exact ⟨l.length - 1, by omega⟩
        · exact ⟨k - 1, by omega⟩
      rw [hm]
      rfl
    simp only [bsplinepoint, List.length_cons, Nat.add_sub_cancel, Bool.false_eq_true, if_false,
      g i hi, g (i + 1) (by omega), g (i + 2) (by omega), g (i + 3) (by omega)]
  rw [iterbspline_sections, iterbspline_sections]
  congr 1
  simp only [Bool.false_eq_true, if_false, Nat.add_zero, List.length_cons]
  cases l with
  | nil =>
    simp only [List.length_nil, List.range_succ, List.range_zero, List.nil_append, List.foldl_cons, List.foldl_nil]
    rw [section_early _ (by simp) _ _ (by omega), section_early _ (by simp) _ _ (by omega)]
  | cons a l =>
    have hsec : ∀ i, 0 < i → ∀ acc, section_ (p :: a :: l) false acc i = section_ (q :: a :: l) false acc i := by
      intro i hi acc
      unfold section_
      simp only [hb i hi _ (by simp), List.length_cons]
    rw [List.length_cons, List.range_succ_eq_map, List.range_succ_eq_map]
    simp only [List.map_cons, List.foldl_cons, List.map_map]
    rw [section_early (p :: a :: l) (by simp) _ _ (by omega), section_early (q :: a :: l) (by simp) _ _ (by omega),
      section_early (p :: a :: l) (by simp) _ _ (by simp), section_early (q :: a :: l) (by simp) _ _ (by simp),
      hb (Nat.succ 0) (by simp) _ (by simp)]
    dsimp only [List.length_cons]
    congr 1
    apply List.foldl_ext
    intro acc i hi
    apply hsec
    obtain ⟨k, -, rfl⟩ := List.mem_map.mp hi
    simp

example : iterbspline [(0, 0), (6, 0), (6, 6), (6, 6)] false false = iterbspline [(9, 9), (6, 0), (6, 6), (6, 6)] false false :=
  C120_first_false _ _ _
example : (iterbspline [(0, 0), (8, 0), (8, 8), (0, 8)] true true).toOption.map (fun l => (l.take 3, l.length)) =
    some ([(1, 7), (2, 7), (2, 7)], 160) := by decide +kernel

/-- C120: a closed curve comes back to where it began: the sections repeat with the control points. -/
theorem C120_periodic (pts : List (ℚ × ℚ)) (i : Nat) (u : ℚ) :
    bsplinepoint pts true (i + pts.length) u = bsplinepoint pts true i u := by
  have e : ∀ k, (i + pts.length + k) % pts.length = (i + k) % pts.length := by
    intro k
    rw [Nat.add_right_comm, Nat.add_mod_right]
  have e0 := e 0
  simp only [Nat.add_zero] at e0
  simp only [bsplinepoint, if_true, e, e0]

/-- C120: an open curve ends in its last control point. -/
theorem C120_end {pts : List (ℚ × ℚ)} (hne : pts ≠ []) {i : Nat} (hi : pts.length - 1 ≤ i) (u : ℚ) :
    bsplinepoint pts false i u = pts.getLast hne := by
  have e : ∀ k, (if i + k > pts.length - 1 then pts.length - 1 else i + k) = pts.length - 1 := by
    intro k; split_ifs <;> omega
  have e0 := e 0
  have hl : pts.length - 1 < pts.length := by
    have := List.length_pos_iff.mpr hne
    omega
  have g : pts.getD (pts.length - 1) (0, 0) = pts.getLast hne := by
    rw [List.getLast_eq_getElem]
    simp [List.getD_eq_getElem?_getD, hl]
  simp only [Nat.add_zero] at e0
  simp only [bsplinepoint, bsplineblend, Bool.false_eq_true, if_false, e, e0, g]
  ext
  · dsimp only; ring
  · dsimp only; ring

/-- C120: drawing leaves exactly the marks of the pen along the curve. Missing for pens above 1: places
more than 19 pixels left of the image, and on 4-bit images beyond the padding on the right, see C27. -/
theorem C120_drawn_partial {b : Bytes} {W H bits : Nat} (h : Valid b W H bits) {pen color : Int}
    (hc : IsColour bits color) {pts : List (ℚ × ℚ)} (isclosed curveback : Bool) {l : List (Int × Int)}
    (hl : iterbspline pts isclosed curveback = .ok l) (hok : pen ≤ 1 ∨ ∀ v ∈ l, PenOK W bits v.1) :
    ∃ b', bspline b pts pen color isclosed curveback = .ok b' ∧
      Paints b b' W H bits (fun px py => ∃ v ∈ l, PenSet W bits pen v.1 v.2 px py) color.toNat := by
  unfold bspline
  rw [hl, ok_bind]
  exact C92_pointlist_partial h hc hok

/-- The same for Bézier curves. -/
theorem C120_bezier_drawn_partial {b : Bytes} {W H bits : Nat} (h : Valid b W H bits) {pen color : Int}
    (hc : IsColour bits color) {pts : List (ℚ × ℚ)} {l : List (Int × Int)}
    (hl : iterbeziercurve pts = .ok l) (hok : pen ≤ 1 ∨ ∀ v ∈ l, PenOK W bits v.1) :
    ∃ b', beziercurve b pts pen color = .ok b' ∧
      Paints b b' W H bits (fun px py => ∃ v ∈ l, PenSet W bits pen v.1 v.2 px py) color.toNat := by
  unfold beziercurve
  rw [hl, ok_bind]
  exact C92_pointlist_partial h hc hok

example : bsplinepoint [(0, 0), (8, 0), (8, 8), (0, 8)] true 5 (1 / 2) = bsplinepoint [(0, 0), (8, 0), (8, 8), (0, 8)] true 1 (1 / 2) :=
  C120_periodic [(0, 0), (8, 0), (8, 8), (0, 8)] 1 (1 / 2)
example : bsplinepoint [(0, 0), (8, 0), (8, 8)] false 2 (1 / 4) = (8, 8) := C120_end (by simp) (by simp) _

end Verif.Props.Curves
