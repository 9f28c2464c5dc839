import Verif.Props.LinePath
/-! Property C25 and the generator part of C27: circle points. -/

namespace Verif.Props
open Verif Spec Model

/-- `w` is the integer nearest to the square root of `r² - c²` (stated without the root:
`(w - 1/2)² < r² - c² + 1/4 ≤ (w + 1/2)²`). -/
def Near (r c w : Int) : Prop := w * (w - 1) < r * r - c * c ∧ r * r - c * c ≤ w * (w + 1)

/-- Specification of the rasterised circle of radius `r` in the first quadrant: the larger
coordinate is the integer nearest to its exact value at the smaller coordinate; radius 0 is the
centre alone, and a negative radius gives nothing. -/
def OnCircle (r dx dy : Int) : Prop :=
  0 ≤ dx ∧ 0 ≤ dy ∧ ((r = 0 ∧ dx = 0 ∧ dy = 0) ∨ (0 < r ∧ Near r (min dx dy) (max dx dy)))

/-- Loop state of the circle generators. -/
structure CInv (r row col d : Int) : Prop where
  rpos : 0 < r
  col0 : 0 ≤ col
  rowr : row ≤ r
  dec : d = r * r * (2 * ((col + 1) * (col + 1) + row * row - r * r) - 2 * row + 1)
  near : col ≤ row → Near r col row
  stop : row < col → ∀ c w, col ≤ c → c ≤ w → ¬ Near r c w

theorem near_unique {r c w w' : Int} (hw : 0 ≤ w) (hw' : 0 ≤ w') (h : Near r c w) (h' : Near r c w') : w = w' := by
  obtain ⟨a, b⟩ := h
  obtain ⟨a', b'⟩ := h'
  by_contra hne
  rcases lt_or_gt_of_ne hne with hlt | hlt
  · nlinarith
  · nlinarith

theorem circleStart_eq (r : Int) : circleStart r = r * r * (3 - 2 * r) := by
  unfold circleStart pyShl; ring

theorem cinv_start {r : Int} (hr : 0 < r) : CInv r r 0 (circleStart r) := by
  refine ⟨hr, le_refl _, le_refl _, ?_, ?_, ?_⟩
  · rw [circleStart_eq]; ring
  · intro _; constructor <;> nlinarith
  · intro h; omega

theorem dec_iff {r row col d : Int} (h : CInv r row col d) :
    d ≥ 0 ↔ row ≤ (col + 1) * (col + 1) + row * row - r * r := by
  have hr : 0 < r * r := mul_pos h.rpos h.rpos
  rw [h.dec]
  constructor
  · intro hd
    have := nonneg_of_mul_nonneg_right (ge_iff_le.mp hd) hr
    omega
  · intro hd
    exact mul_nonneg hr.le (by omega)

theorem cinv_step {r row col d : Int} (h : CInv r row col d) (hle : col ≤ row) :
    CInv r (circleStep r row col d).1 (col + 1) (circleStep r row col d).2 := by
  obtain ⟨n1, n2⟩ := h.near hle
  have hc := h.col0
  have hrr := h.rowr
  have hrp := h.rpos
  unfold circleStep
  by_cases hd : d ≥ 0
  · have hd' := (dec_iff h).mp hd
    simp only [if_pos hd]
    refine ⟨h.rpos, by omega, by omega, ?_, ?_, ?_⟩
    · rw [h.dec]; unfold pyShl; ring
    · intro hle'
      constructor <;> nlinarith
    · intro hlt c w h1 h2 ⟨m1, m2⟩
      have : row = col ∨ row = col + 1 := by omega
      rcases this with e | e
      · subst e
        have : (row + 1) * (row + 1) ≤ c * c := by nlinarith
        have : (row + 1) * row ≤ w * (w - 1) := by nlinarith
        nlinarith
      · subst e
        have : (col + 1) * (col + 1) ≤ c * c := by nlinarith
        have : (col + 1) * col ≤ w * (w - 1) := by nlinarith
        nlinarith
  · have hd' : ¬ (row ≤ (col + 1) * (col + 1) + row * row - r * r) := fun g => hd ((dec_iff h).mpr g)
    simp only [if_neg hd]
    refine ⟨h.rpos, by omega, by omega, ?_, ?_, ?_⟩
    · rw [h.dec]; unfold pyShl; ring
    · intro hle'
      constructor <;> nlinarith
    · intro hlt c w h1 h2 ⟨m1, m2⟩
      have e : row = col := by omega
      subst e
      have : (row + 1) * (row + 1) ≤ c * c := by nlinarith
      have : (row + 1) * row ≤ w * (w - 1) := by nlinarith
      nlinarith

theorem circleStep_row (r row col d : Int) :
    (circleStep r row col d).1 = if d ≥ 0 then row - 1 else row := rfl

theorem mem_circPartLoop {r : Int} (n : Nat) {row col d : Int} (h : CInv r row col d) (hn : row - col + 1 ≤ n)
    (a b : Int) :
    (a, b) ∈ circPartLoop r n row col d ↔
      ∃ c w, col ≤ c ∧ c ≤ w ∧ Near r c w ∧ ((a = c ∧ b = w) ∨ (a = w ∧ b = c)) := by
  induction n generalizing row col d with
  | zero =>
    constructor
    · intro hm; simp [circPartLoop] at hm
    · rintro ⟨c, w, h1, h2, h3, _⟩
      exact absurd h3 (h.stop (by omega) c w h1 h2)
  | succ n ih =>
    rw [circPartLoop]
    by_cases hle : row ≥ col
    · rw [if_pos hle]
      have hs := cinv_step h hle
      have hrow := circleStep_row r row col d
      have hih := ih hs (by split_ifs at hrow <;> omega)
      simp only [List.mem_cons, List.mem_append, hih, Prod.mk.injEq]
      have hc := h.col0
      constructor
      · rintro (⟨rfl, rfl⟩ | h1 | ⟨c, w, h1, h2, h3, h4⟩)
        · exact ⟨a, b, le_refl _, hle, h.near hle, Or.inl ⟨rfl, rfl⟩⟩
        · split_ifs at h1 with hne
          · simp only [List.mem_cons, Prod.mk.injEq, List.not_mem_nil, or_false] at h1
            exact ⟨col, row, le_refl _, hle, h.near hle, Or.inr h1⟩
          · simp at h1
        · exact ⟨c, w, by omega, h2, h3, h4⟩
      · rintro ⟨c, w, h1, h2, h3, h4⟩
        by_cases hcc : c = col
        · subst hcc
          have : w = row := near_unique (by omega) (by omega) h3 (h.near hle)
          subst this
          rcases h4 with h4 | h4
          · exact Or.inl h4
          · by_cases hne : w = c
            · left; omega
            · right; left; rw [if_pos hne]; simp [h4]
        · right; right; exact ⟨c, w, by omega, h2, h3, h4⟩
    · rw [if_neg hle]
      constructor
      · intro hm; simp at hm
      · rintro ⟨c, w, h1, h2, h3, _⟩
        exact absurd h3 (h.stop (by omega) c w h1 h2)

/-- C25, the exact set: the points produced are those of the rasterised circle, for every radius. -/
theorem C25_circle_points (r dx dy : Int) : (dx, dy) ∈ itercirclepart r ↔ OnCircle r dx dy := by
  unfold itercirclepart OnCircle
  rcases lt_trichotomy r 0 with hr | rfl | hr
  · rw [show (r + 1).toNat = 0 by omega]
    simp only [circPartLoop, List.not_mem_nil, false_iff]
    omega
  · rw [show circPartLoop 0 (0 + 1 : Int).toNat 0 0 (circleStart 0) = [(0, 0)] by decide]
    simp
    omega
  · rw [mem_circPartLoop _ (cinv_start hr) (by omega)]
    constructor
    · rintro ⟨c, w, h1, h2, h3, ⟨rfl, rfl⟩ | ⟨rfl, rfl⟩⟩
      · exact ⟨h1, by omega, Or.inr ⟨hr, by rwa [min_eq_left h2, max_eq_right h2]⟩⟩
      · exact ⟨by omega, h1, Or.inr ⟨hr, by rwa [min_eq_right h2, max_eq_left h2]⟩⟩
    · rintro ⟨h1, h2, ⟨h3, _⟩ | ⟨_, h3⟩⟩
      · omega
      · refine ⟨min dx dy, max dx dy, by omega, by omega, h3, ?_⟩
        omega

/-- C25: accuracy and range of the points. -/
theorem C25_circle_accuracy (r dx dy : Int) (h : (dx, dy) ∈ itercirclepart r) :
    0 ≤ dx ∧ dx ≤ r ∧ 0 ≤ dy ∧ dy ≤ r ∧ |dx * dx + dy * dy - r * r| ≤ max dx dy := by
  obtain ⟨h1, h2, ⟨rfl, rfl, rfl⟩ | ⟨hr, n1, n2⟩⟩ := (C25_circle_points r dx dy).mp h
  · simp
  · have hmr : max dx dy ≤ r := by
      by_contra hc
      have h0 : 0 ≤ min dx dy := by omega
      have : r + 1 ≤ max dx dy := by omega
      nlinarith
    refine ⟨h1, by omega, h2, by omega, ?_⟩
    rw [abs_le]
    rcases le_total dx dy with e | e
    · rw [min_eq_left e, max_eq_right e] at *
      constructor <;> nlinarith
    · rw [min_eq_right e, max_eq_left e] at *
      constructor <;> nlinarith

/-- C25: exchanging the coordinates gives a point again. -/
theorem C25_circle_symmetric (r dx dy : Int) : (dx, dy) ∈ itercirclepart r ↔ (dy, dx) ∈ itercirclepart r := by
  rw [C25_circle_points, C25_circle_points]
  unfold OnCircle
  rw [min_comm, max_comm]
  constructor <;> rintro ⟨a, b, ⟨c, d, e⟩ | c⟩
  · exact ⟨b, a, Or.inl ⟨c, e, d⟩⟩
  · exact ⟨b, a, Or.inr c⟩
  · exact ⟨b, a, Or.inl ⟨c, e, d⟩⟩
  · exact ⟨b, a, Or.inr c⟩

theorem circPartLoop_cover {r : Int} (n : Nat) {row col d : Int} (h : CInv r row col d) (hn : row - col + 1 ≤ n)
    (v : Int) (h1 : col ≤ v) (h2 : v ≤ row) : ∃ w, (v, w) ∈ circPartLoop r n row col d := by
  induction n generalizing row col d with
  | zero => omega
  | succ n ih =>
    rw [circPartLoop, if_pos (by omega)]
    by_cases e1 : v = col
    · subst e1; exact ⟨row, by simp⟩
    · by_cases e2 : v = row
      · subst e2; exact ⟨col, by simp [e1]⟩
      · have hrow := circleStep_row r row col d
        obtain ⟨w, hw⟩ := ih (cinv_step h (by omega)) (by split_ifs at hrow <;> omega) (by omega)
          (by split_ifs at hrow <;> omega)
        exact ⟨w, by simp [hw]⟩

/-- C25: no column of the quadrant is left out. -/
theorem C25_circle_covers (r v : Int) (h0 : 0 ≤ v) (h1 : v ≤ r) : ∃ w, (v, w) ∈ itercirclepart r := by
  unfold itercirclepart
  by_cases hr : r = 0
  · subst hr
    exact ⟨0, by rw [show v = 0 by omega]; decide⟩
  · exact circPartLoop_cover _ (cinv_start (by omega)) (by omega) v h0 h1

/-- C25: the `while` loop ends: any larger number of rounds yields the same points. -/
theorem circPartLoop_fuel {r : Int} (n m : Nat) {row col d : Int} (h : row - col + 1 ≤ n) (hm : n ≤ m) :
    circPartLoop r m row col d = circPartLoop r n row col d := by
  induction n generalizing m row col d with
  | zero =>
    cases m with
    | zero => rfl
    | succ m => rw [circPartLoop, circPartLoop, if_neg (by omega)]
  | succ n ih =>
    obtain ⟨m, rfl⟩ : ∃ m', m = m' + 1 := ⟨m - 1, by omega⟩
    rw [circPartLoop, circPartLoop]
    by_cases hle : row ≥ col
    · rw [if_pos hle, if_pos hle]
      have hrow := circleStep_row r row col d
      dsimp only
      rw [ih m (row := (circleStep r row col d).1) (by split_ifs at hrow <;> omega) (by omega)]
    · rw [if_neg hle, if_neg hle]

theorem C25_circle_terminates (r : Int) (m : Nat) (hm : r + 1 ≤ m) :
    circPartLoop r m r 0 (circleStart r) = itercirclepart r := by
  unfold itercirclepart
  exact circPartLoop_fuel _ _ (by omega) (by omega)

example : itercirclepart 3 = [(0, 3), (3, 0), (1, 3), (3, 1), (2, 2)] := by decide +kernel
example : OnCircle 5 3 4 ∧ ¬ OnCircle 5 4 4 := by
  unfold OnCircle Near; decide

/-! ### Scan lines of the filled circle -/

/-- `hw` is the largest horizontal distance of a circle point in the row at distance `v`. -/
def HalfWidth (r hw v : Int) : Prop := OnCircle r hw v ∧ ∀ dx, OnCircle r dx v → dx ≤ hw

theorem circEdge_spec {r : Int} (n : Nat) {row col d : Int} (h : CInv r row col d) (hn : row - col + 1 ≤ n)
    (seen : List Int) (hs : ∀ v, v ∈ seen ↔ (0 ≤ v ∧ v < col) ∨ (row < v ∧ v ≤ r)) :
    ((circEdgeLoop r n row col d seen).map Prod.snd).Nodup ∧
    (∀ v, v ∈ (circEdgeLoop r n row col d seen).map Prod.snd ↔ col ≤ v ∧ v ≤ row) ∧
    (∀ p ∈ circEdgeLoop r n row col d seen, HalfWidth r p.1 p.2) := by
  induction n generalizing row col d seen with
  | zero =>
    simp only [circEdgeLoop]
    refine ⟨by simp, ?_, by simp⟩
    intro v; simp; omega
  | succ n ih =>
    rw [circEdgeLoop]
    by_cases hle : row ≥ col
    swap
    · rw [if_neg hle]
      refine ⟨by simp, ?_, by simp⟩
      intro v; simp; omega
    rw [if_pos hle]
    have hc0 := h.col0
    have hrr := h.rowr
    have hcol : col ∉ seen := by rw [hs]; omega
    have hcinv := cinv_step h hle
    have hrow := circleStep_row r row col d
    have hnear := h.near hle
    have hw1 : HalfWidth r row col := by
      refine ⟨⟨by omega, hc0, Or.inr ⟨h.rpos, ?_⟩⟩, ?_⟩
      · rwa [min_eq_right hle, max_eq_left hle]
      · rintro dx ⟨q1, q2, ⟨q3, _⟩ | ⟨_, q3⟩⟩
        · have := h.rpos; omega
        · by_cases hx : col ≤ dx
          · rw [min_eq_right hx, max_eq_left hx] at q3
            rw [near_unique (by omega) (by omega) q3 hnear]
          · omega
    simp only [if_pos hcol]
    by_cases hd : d ≥ 0
    · rw [if_pos hd] at hrow
      have hd' := (dec_iff h).mp hd
      by_cases hne : row = col
      · -- the last round on the diagonal
        have hmem : ¬ (d ≥ 0 ∧ row ∉ seen ++ [col]) := by simp [hne]
        simp only [if_neg hmem]
        have hseen : ∀ v, v ∈ seen ++ [col] ↔
            (0 ≤ v ∧ v < col + 1) ∨ ((circleStep r row col d).1 < v ∧ v ≤ r) := by
          intro v; simp only [List.mem_append, hs, List.mem_singleton]; omega
        obtain ⟨g1, g2, g3⟩ := ih hcinv (by omega) _ hseen
        refine ⟨?_, ?_, ?_⟩
        · simp only [List.append_nil, List.cons_append, List.nil_append, List.map_cons, List.nodup_cons]
          exact ⟨by rw [g2]; omega, g1⟩
        · intro v
          simp only [List.append_nil, List.cons_append, List.nil_append, List.map_cons, List.mem_cons, g2]
          omega
        · intro p hp
          simp only [List.append_nil, List.cons_append, List.nil_append, List.mem_cons] at hp
          rcases hp with rfl | hp
          · exact hw1
          · exact g3 p hp
      · have hmem : d ≥ 0 ∧ row ∉ seen ++ [col] := by
          refine ⟨hd, ?_⟩
          simp only [List.mem_append, hs, List.mem_singleton]; omega
        simp only [if_pos hmem]
        have hseen : ∀ v, v ∈ seen ++ [col] ++ [row] ↔
            (0 ≤ v ∧ v < col + 1) ∨ ((circleStep r row col d).1 < v ∧ v ≤ r) := by
          intro v; simp only [List.mem_append, hs, List.mem_singleton]; omega
        obtain ⟨g1, g2, g3⟩ := ih hcinv (by omega) _ hseen
        have hw2 : HalfWidth r col row := by
          have hlt : col < row := by omega
          refine ⟨⟨hc0, by omega, Or.inr ⟨h.rpos, ?_⟩⟩, ?_⟩
          · rwa [min_eq_left hle, max_eq_right hle]
          · rintro dx ⟨q1, q2, ⟨q3, _⟩ | ⟨_, q3, q4⟩⟩
            · have := h.rpos; omega
            · by_contra hgt
              by_cases hx : dx ≤ row
              · rw [min_eq_left hx, max_eq_right hx] at q3
                have : (col + 1) * (col + 1) ≤ dx * dx := by nlinarith
                nlinarith
              · rw [min_eq_right (by omega), max_eq_left (by omega)] at q3
                have : (row + 1) * row ≤ dx * (dx - 1) := by nlinarith
                have : col * col < row * row := by nlinarith
                have := hnear.2
                nlinarith
        refine ⟨?_, ?_, ?_⟩
        · simp only [List.cons_append, List.nil_append, List.map_cons, List.nodup_cons, List.mem_cons]
          refine ⟨?_, ?_, g1⟩
          · rw [g2]; omega
          · rw [g2]; omega
        · intro v
          simp only [List.cons_append, List.nil_append, List.map_cons, List.mem_cons, g2]
          omega
        · intro p hp
          simp only [List.cons_append, List.nil_append, List.mem_cons] at hp
          rcases hp with rfl | rfl | hp
          · exact hw1
          · exact hw2
          · exact g3 p hp
    · rw [if_neg hd] at hrow
      have hmem : ¬ (d ≥ 0 ∧ row ∉ seen ++ [col]) := fun g => hd g.1
      simp only [if_neg hmem]
      have hseen : ∀ v, v ∈ seen ++ [col] ↔
          (0 ≤ v ∧ v < col + 1) ∨ ((circleStep r row col d).1 < v ∧ v ≤ r) := by
        intro v; simp only [List.mem_append, hs, List.mem_singleton]; omega
      obtain ⟨g1, g2, g3⟩ := ih hcinv (by omega) _ hseen
      refine ⟨?_, ?_, ?_⟩
      · simp only [List.append_nil, List.cons_append, List.nil_append, List.map_cons, List.nodup_cons]
        exact ⟨by rw [g2]; omega, g1⟩
      · intro v
        simp only [List.append_nil, List.cons_append, List.nil_append, List.map_cons, List.mem_cons, g2]
        omega
      · intro p hp
        simp only [List.append_nil, List.cons_append, List.nil_append, List.mem_cons] at hp
        rcases hp with rfl | hp
        · exact hw1
        · exact g3 p hp

/-- C27, generator: every row distance `0 .. r` exactly once, each with the half width of the
rasterised circle in that row. -/
theorem C27_scanlines (r : Int) :
    ((itercirclepartlineedge r).map Prod.snd).Nodup ∧
    (∀ v, v ∈ (itercirclepartlineedge r).map Prod.snd ↔ 0 ≤ v ∧ v ≤ r) ∧
    (∀ p ∈ itercirclepartlineedge r, HalfWidth r p.1 p.2) := by
  unfold itercirclepartlineedge
  rcases lt_trichotomy r 0 with hr | rfl | hr
  · rw [show (r + 1).toNat = 0 by omega]
    refine ⟨by simp [circEdgeLoop], ?_, by simp [circEdgeLoop]⟩
    intro v; simp [circEdgeLoop]; omega
  · rw [show circEdgeLoop 0 (0 + 1 : Int).toNat 0 0 (circleStart 0) [] = [(0, 0)] by decide]
    refine ⟨by simp, by intro v; simp; omega, ?_⟩
    intro p hp
    simp only [List.mem_singleton] at hp
    subst hp
    refine ⟨⟨le_refl _, le_refl _, Or.inl ⟨rfl, rfl, rfl⟩⟩, ?_⟩
    rintro dx ⟨_, _, ⟨_, q, _⟩ | ⟨q, _⟩⟩ <;> omega
  · exact circEdge_spec _ (cinv_start hr) (by omega) [] (by intro v; simp)

example : itercirclepartlineedge 3 = [(3, 0), (3, 1), (1, 3), (2, 2)] := by decide +kernel

end Verif.Props
