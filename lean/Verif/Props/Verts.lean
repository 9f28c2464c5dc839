import Verif.Props.Thick
/-! Properties C99 and C100: parallelograms and vertex lists. -/

namespace Verif.Props
open Verif Spec Model

/-! ### Parallelograms -/

/-- C99: moving both ends of a line moves every point of it, for all lines. -/
theorem C99_translate (x1 y1 x2 y2 u v : Int) :
    iterline (x1 + u, y1 + v) (x2 + u, y2 + v) = (iterline (x1, y1) (x2, y2)).map fun p => (p.1 + u, p.2 + v) := by
  rw [iterline_eq, iterline_eq, List.map_append, List.map_map]
  have e1 : x2 + u - (x1 + u) = x2 - x1 := by omega
  have e2 : y2 + v - (y1 + v) = y2 - y1 := by omega
  rw [e1, e2]
  congr 1
  apply List.map_congr_left
  intro k _
  simp only [Function.comp, rasterPt, e1, e2]
  split_ifs <;> (apply Prod.ext <;> simp only <;> omega)

/-- C99: the segments of a parallelogram join each point of the side `p1 p3` to the same point moved by
`p2 - p1`. -/
theorem C99_segments (p1 p2 p3 : Int × Int) :
    iterparallelogram p1 p2 p3 =
      (iterline p1 p3).map fun u => (u, (u.1 + (p2.1 - p1.1), u.2 + (p2.2 - p1.2))) := by
  unfold iterparallelogram
  have h := C99_translate p1.1 p1.2 p3.1 p3.2 (p2.1 - p1.1) (p2.2 - p1.2)
  rw [show p1.1 + (p2.1 - p1.1) = p2.1 by omega, show p1.2 + (p2.2 - p1.2) = p2.2 by omega] at h
  rw [h, ← List.map_prod_left_eq_zip]

/-- C99: `filledparallelogram` paints exactly the union of the lines between corresponding points of
the two sides. Missing: the lines that `line` draws wrongly (C24); and the union need not be the
whole area (`C99_holes`). -/
theorem C99_filledparallelogram_partial {b : Bytes} {W H bits : Nat} (h : Valid b W H bits) (hW : 0 < W) (hH : 0 < H)
    {color : Int} (hc : IsColour bits color) {p1 p2 p3 : Int × Int}
    (hok : ∀ u ∈ iterline p1 p3, LineOK W H bits u (u.1 + (p2.1 - p1.1), u.2 + (p2.2 - p1.2))) :
    ∃ b', filledparallelogram b p1 p2 p3 color = .ok b' ∧
      Paints b b' W H bits (fun px py => ∃ u ∈ iterline p1 p3,
        LineSet W H bits u (u.1 + (p2.1 - p1.1), u.2 + (p2.2 - p1.2)) px py) color.toNat := by
  unfold filledparallelogram
  rw [C99_segments, List.foldlM_map]
  exact foldl_paints (fun bmp (u : Int × Int) => linevec bmp u (u.1 + (p2.1 - p1.1), u.2 + (p2.2 - p1.2)) color)
    (fun u => LineSet W H bits u (u.1 + (p2.1 - p1.1), u.2 + (p2.2 - p1.2))) _
    (fun b hb u hu => linevec_paints hb hW hH hc (hok u hu)) h

/-- C99: the area is not filled: pixel (2, 8) of the parallelogram over (0, 8), (7, 5) and (3, 12) keeps
its colour although its four neighbours are painted. -/
theorem C99_holes :
    (do let b ← newBMP 14 14 24; let b ← filledparallelogram b (0, 8) (7, 5) (3, 12) 9
        pure (← getxybit b 2 8, ← getxybit b 1 8, ← getxybit b 3 8, ← getxybit b 2 7, ← getxybit b 2 9)) =
      .ok (0, 9, 9, 9, 9) := by
  decide +kernel

/-! ### Vertex lists -/

/-- C100: equally spaced points on a horizontal or vertical line, the far end excluded. -/
theorem C100_spaced {lo hi step : Int} (fixed : Int) (hs : 0 < step) :
    (∃ l, horizontalvert fixed lo hi step = .ok l ∧ ∀ p, p ∈ l ↔ p.2 = fixed ∧ p.1 < hi ∧ ∃ k, 0 ≤ k ∧ p.1 = lo + step * k) ∧
    ∃ l, verticalvert fixed lo hi step = .ok l ∧ ∀ p, p ∈ l ↔ p.1 = fixed ∧ p.2 < hi ∧ ∃ k, 0 ≤ k ∧ p.2 = lo + step * k := by
  obtain ⟨l, e, m⟩ := pyRange3_pos (a := lo) (z := hi) hs
  unfold horizontalvert verticalvert
  rw [e]
  refine ⟨⟨_, rfl, fun p => ?_⟩, ⟨_, rfl, fun p => ?_⟩⟩
  · rw [List.mem_map]
    constructor
    · rintro ⟨x, hx, rfl⟩; exact ⟨rfl, (m x).mp hx⟩
    · rintro ⟨g1, g2⟩; exact ⟨p.1, (m p.1).mpr g2, by rw [← g1]⟩
  · rw [List.mem_map]
    constructor
    · rintro ⟨x, hx, rfl⟩; exact ⟨rfl, (m x).mp hx⟩
    · rintro ⟨g1, g2⟩; exact ⟨p.2, (m p.2).mpr g2, by rw [← g1]⟩

theorem foldl_min_spec (f : Int × Int → Int) (l : List (Int × Int)) (m : Int) :
    (l.foldl (fun m p => min m (f p)) m ≤ m ∧ ∀ p ∈ l, l.foldl (fun m p => min m (f p)) m ≤ f p) ∧
    (l.foldl (fun m p => min m (f p)) m = m ∨ ∃ p ∈ l, l.foldl (fun m p => min m (f p)) m = f p) := by
  induction l generalizing m with
  | nil => simp
  | cons a l ih =>
    obtain ⟨⟨h1, h2⟩, h3⟩ := ih (min m (f a))
    simp only [List.foldl_cons, List.mem_cons, forall_eq_or_imp, exists_eq_or_imp]
    refine ⟨⟨by omega, by omega, h2⟩, ?_⟩
    rcases h3 with h3 | h3
    · omega
    · exact Or.inr (Or.inr h3)

theorem foldl_max_spec (f : Int × Int → Int) (l : List (Int × Int)) (m : Int) :
    (m ≤ l.foldl (fun m p => max m (f p)) m ∧ ∀ p ∈ l, f p ≤ l.foldl (fun m p => max m (f p)) m) ∧
    (l.foldl (fun m p => max m (f p)) m = m ∨ ∃ p ∈ l, l.foldl (fun m p => max m (f p)) m = f p) := by
  induction l generalizing m with
  | nil => simp
  | cons a l ih =>
    obtain ⟨⟨h1, h2⟩, h3⟩ := ih (max m (f a))
    simp only [List.foldl_cons, List.mem_cons, forall_eq_or_imp, exists_eq_or_imp]
    refine ⟨⟨by omega, by omega, h2⟩, ?_⟩
    rcases h3 with h3 | h3
    · omega
    · exact Or.inr (Or.inr h3)

/-- C100: `rectboundarycoords` gives the smallest rectangle around the points: it contains them all,
and each of its sides has one. -/
theorem C100_boundingbox {v : List (Int × Int)} (hv : v ≠ []) :
    ∃ lo hi, rectboundarycoords v = .ok (lo, hi) ∧
      (∀ p ∈ v, lo.1 ≤ p.1 ∧ p.1 ≤ hi.1 ∧ lo.2 ≤ p.2 ∧ p.2 ≤ hi.2) ∧
      (∃ p ∈ v, p.1 = lo.1) ∧ (∃ p ∈ v, p.1 = hi.1) ∧ (∃ p ∈ v, p.2 = lo.2) ∧ ∃ p ∈ v, p.2 = hi.2 := by
  cases v with
  | nil => exact absurd rfl hv
  | cons a l =>
    obtain ⟨⟨a1, a2⟩, a3⟩ := foldl_min_spec Prod.fst l a.1
    obtain ⟨⟨b1, b2⟩, b3⟩ := foldl_min_spec Prod.snd l a.2
    obtain ⟨⟨c1, c2⟩, c3⟩ := foldl_max_spec Prod.fst l a.1
    obtain ⟨⟨d1, d2⟩, d3⟩ := foldl_max_spec Prod.snd l a.2
    refine ⟨_, _, rfl, ?_, ?_, ?_, ?_, ?_⟩
    · intro p hp
      rcases List.mem_cons.mp hp with rfl | hp
      · exact ⟨a1, c1, b1, d1⟩
      · exact ⟨a2 p hp, c2 p hp, b2 p hp, d2 p hp⟩
    all_goals simp only [List.mem_cons, exists_eq_or_imp]
    · rcases a3 with g | ⟨p, hp, g⟩
      · exact Or.inl g.symm
      · exact Or.inr ⟨p, hp, g.symm⟩
    · rcases c3 with g | ⟨p, hp, g⟩
      · exact Or.inl g.symm
      · exact Or.inr ⟨p, hp, g.symm⟩
    · rcases b3 with g | ⟨p, hp, g⟩
      · exact Or.inl g.symm
      · exact Or.inr ⟨p, hp, g.symm⟩
    · rcases d3 with g | ⟨p, hp, g⟩
      · exact Or.inl g.symm
      · exact Or.inr ⟨p, hp, g.symm⟩

/-- C100: without points it raises `IndexError`. -/
theorem C100_boundingbox_empty : rectboundarycoords [] = .error .indexError := rfl

/-- C100: a spiral has four vertices per turn after its centre, whatever the growth. -/
theorem C100_spiral_length (x y step growth turns : Int) :
    (spiralcontrolpointsvert x y step growth turns).length = 1 + 4 * turns.toNat := by
  have H : ∀ n x y step inc, (spiralLoop growth n x y step inc).length = 4 * n := by
    intro n
    induction n with
    | zero => intros; rfl
    | succ n ih => intros; simp only [spiralLoop, List.length_cons, ih]; omega
  unfold spiralcontrolpointsvert
  rw [List.length_cons, H]; omega

/-- Right, down, left, up. -/
def arm (k : Nat) : Int × Int :=
  match k % 4 with
  | 0 => (1, 0)
  | 1 => (0, 1)
  | 2 => (-1, 0)
  | _ => (0, -1)

/-- C100: without growth the arms of a spiral turn right, down, left, up, and arm `k` is `k + 1` steps
long. -/
theorem C100_spiral_arms (x y step turns : Int) {k : Nat} (hk : k < 4 * turns.toNat) :
    ∃ p q, (spiralcontrolpointsvert x y step 1 turns)[k]? = some p ∧
      (spiralcontrolpointsvert x y step 1 turns)[k + 1]? = some q ∧
      q = (p.1 + (k + 1) * step * (arm k).1, p.2 + (k + 1) * step * (arm k).2) := by
  have H : ∀ (n m : Nat) (x y : Int) (k : Nat), k < 4 * n →
      ∃ p q, ((x, y) :: spiralLoop 1 n x y ((4 * m + 1) * step) step)[k]? = some p ∧
        ((x, y) :: spiralLoop 1 n x y ((4 * m + 1) * step) step)[k + 1]? = some q ∧
        q = (p.1 + (4 * m + k + 1) * step * (arm k).1, p.2 + (4 * m + k + 1) * step * (arm k).2) := by
    intro n
    induction n with
    | zero => intro m x y k hk; omega
    | succ n ih =>
      intro m x y k hk
      match k, hk with
      | 0, _ => exact ⟨_, _, rfl, rfl, by simp [arm]⟩
      | 1, _ => exact ⟨_, _, rfl, rfl, by simp [arm]; ring⟩
      | 2, _ => exact ⟨_, _, rfl, rfl, by simp [arm]; ring⟩
      | 3, _ => exact ⟨_, _, rfl, rfl, by simp [arm]; ring⟩
      | k + 4, hk =>
        have hs : (4 * (m : Int) + 1) * step + step + step + step + step = (4 * ((m + 1 : Nat) : Int) + 1) * step := by
          push_cast; ring
        obtain ⟨p, q, e1, e2, e3⟩ := ih (m + 1) _ _ k (by omega)
        refine ⟨p, q, ?_, ?_, ?_⟩
        · rw [spiralLoop]
          simp only [mul_one, hs, List.getElem?_cons_succ]
          exact e1
        · rw [spiralLoop]
          simp only [mul_one, hs, List.getElem?_cons_succ]
          exact e2
        · rw [e3]
          have ha : arm (k + 4) = arm k := by unfold arm; rw [Nat.add_mod_right]
          rw [ha]
          push_cast
          apply Prod.ext <;> simp only <;> ring
  obtain ⟨p, q, e1, e2, e3⟩ := H turns.toNat 0 x y k hk
  refine ⟨p, q, ?_, ?_, ?_⟩
  · unfold spiralcontrolpointsvert; simpa using e1
  · unfold spiralcontrolpointsvert; simpa using e2
  · rw [e3]; simp

example : spiralcontrolpointsvert 5 5 1 1 1 = [(5, 5), (6, 5), (6, 7), (3, 7), (3, 3)] := by decide +kernel
example : rectboundarycoords [(3, 4), (-1, 9), (5, 5)] = .ok ((-1, 4), (5, 9)) := by decide +kernel
example : horizontalvert 7 1 8 3 = .ok [(1, 7), (4, 7), (7, 7)] := by decide +kernel

end Verif.Props
