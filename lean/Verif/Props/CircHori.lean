import Verif.Props.CircFlip
/-! Property C73: mirroring a circular region left to right. -/

namespace Verif.Props
open Verif Spec Model

/-- `lh` is the smallest vertical distance of a circle point in the column at distance `v`. -/
def LowHeight (r lh v : Int) : Prop := OnCircle r v lh ∧ ∀ dy, OnCircle r v dy → lh ≤ dy

theorem mem_ins (a : Int) (l : List Int) (v : Int) : v ∈ (if a ∉ l then l ++ [a] else l) ↔ v ∈ l ∨ v = a := by
  by_cases c : a ∉ l
  · rw [if_pos c]; simp
  · rw [if_neg c]
    constructor
    · exact Or.inl
    · rintro (g | rfl)
      · exact g
      · exact not_not.mp c

theorem circVert_spec {r : Int} (n : Nat) {row col d : Int} (h : CInv r row col d) (hn : row - col + 1 ≤ n)
    (seen : List Int) (s : Prop) (hs : ∀ v, v ∈ seen ↔ (0 ≤ v ∧ v < col) ∨ (row < v ∧ v ≤ r) ∨ (v = row ∧ s))
    (hlow : ¬ s → ∀ dy, 0 ≤ dy → dy < col → ¬ Near r dy row) :
    ((circVertLoop r n row col d seen).map Prod.fst).Nodup ∧
    (∀ v, v ∈ (circVertLoop r n row col d seen).map Prod.fst ↔ col ≤ v ∧ v ≤ row ∧ ¬ (v = row ∧ s)) ∧
    (∀ p ∈ circVertLoop r n row col d seen, LowHeight r p.2 p.1) := by
  induction n generalizing row col d seen s with
  | zero =>
    simp only [circVertLoop]
    refine ⟨by simp, ?_, by simp⟩
    intro v; simp; omega
  | succ n ih =>
    rw [circVertLoop]
    by_cases hle : row ≥ col
    swap
    · rw [if_neg hle]
      refine ⟨by simp, ?_, by simp⟩
      intro v; simp; omega
    rw [if_pos hle]
    have hc0 := h.col0
    have hrr := h.rowr
    have hrp := h.rpos
    have hcinv := cinv_step h hle
    have hrow := circleStep_row r row col d
    have hnear := h.near hle
    have hcol : col ∈ seen ↔ (row = col ∧ s) := by rw [hs]; constructor <;> intro g <;> [skip; exact Or.inr (Or.inr ⟨g.1.symm, g.2⟩)]; rcases g with g | g | g <;> [omega; omega; exact ⟨g.1.symm, g.2⟩]
    have low1 : col ∉ seen → LowHeight r row col := by
      intro hns
      refine ⟨⟨hc0, by omega, Or.inr ⟨hrp, ?_⟩⟩, ?_⟩
      · rwa [min_eq_left hle, max_eq_right hle]
      · rintro dy ⟨q1, q2, ⟨q3, _⟩ | ⟨_, q3⟩⟩
        · omega
        · by_cases hx : col ≤ dy
          · rw [min_eq_left hx, max_eq_right hx] at q3
            rw [near_unique (by omega) (by omega) q3 hnear]
          · rw [min_eq_right (by omega), max_eq_left (by omega)] at q3
            by_cases e : row = col
            · subst e
              exact absurd q3 (hlow (fun g => hns (hcol.mpr ⟨rfl, g⟩)) dy q2 (by omega))
            · exfalso
              have h1 := q3.2
              have h2 := hnear.1
              have h3 : dy * dy ≤ col * col := by nlinarith
              have h4 : (col + 1) * col ≤ row * (row - 1) := by nlinarith [show col + 1 ≤ row by omega]
              nlinarith
    have low2 : row ≠ col → ¬ s → LowHeight r col row := by
      intro hne hns
      refine ⟨⟨by omega, hc0, Or.inr ⟨hrp, ?_⟩⟩, ?_⟩
      · rwa [min_eq_right hle, max_eq_left hle]
      · rintro dy ⟨q1, q2, ⟨q3, _⟩ | ⟨_, q3⟩⟩
        · omega
        · by_contra hgt
          rw [min_eq_right (by omega), max_eq_left (by omega)] at q3
          exact hlow hns dy q2 (by omega) q3
    have hrowm : row ∈ seen ↔ s := by
      rw [hs]
      constructor
      · rintro (g | g | g)
        · omega
        · omega
        · exact g.2
      · intro g; exact Or.inr (Or.inr ⟨rfl, g⟩)
    obtain ⟨seen1, hs1⟩ : ∃ seen1, seen1 = (if col ∉ seen then seen ++ [col] else seen) := ⟨_, rfl⟩
    obtain ⟨seen2, hs2⟩ : ∃ seen2, seen2 = (if row ∉ seen1 then seen1 ++ [row] else seen1) := ⟨_, rfl⟩
    have hm1 : ∀ v, v ∈ seen1 ↔ v ∈ seen ∨ v = col := by intro v; rw [hs1]; exact mem_ins ..
    have hm2 : ∀ v, v ∈ seen2 ↔ v ∈ seen ∨ v = col ∨ v = row := by
      intro v; rw [hs2, mem_ins, hm1, or_assoc]
    dsimp only
    rw [← hs1, ← hs2]
    obtain ⟨g1, g2, g3⟩ := ih hcinv (by rw [hrow]; split_ifs <;> omega) seen2 (¬ d ≥ 0)
      (by
        intro v
        rw [hm2, hs, hrow]
        by_cases c1 : s <;> by_cases c2 : d ≥ 0 <;> simp only [c1, c2, if_true, if_false, and_true, and_false, or_false,
          not_true, not_false_eq_true] <;> omega)
      (by
        intro hd dy q1 q2 q3
        have hd : d ≥ 0 := not_not.mp hd
        rw [hrow, if_pos hd] at q3
        have h1 := q3.2
        have h2 := hnear.1
        have h3 : dy * dy ≤ col * col := by nlinarith
        nlinarith)
    have hrowm1 : row ∈ seen1 ↔ s ∨ row = col := by rw [hm1, hrowm]
    by_cases c1 : s <;> by_cases c2 : row = col
    · rw [if_neg (not_not.mpr (hcol.mpr ⟨c2, c1⟩)), if_neg (not_not.mpr (hrowm1.mpr (Or.inl c1)))]
      refine ⟨g1, ?_, g3⟩
      intro v
      simp only [List.nil_append, g2, hrow]
      split_ifs <;> simp_all <;> omega
    · have hc : col ∉ seen := fun g => c2 (hcol.mp g).1
      rw [if_pos hc, if_neg (not_not.mpr (hrowm1.mpr (Or.inl c1)))]
      simp only [List.append_nil, List.cons_append, List.nil_append, List.map_cons, List.nodup_cons, List.mem_cons]
      refine ⟨⟨by rw [g2]; omega, g1⟩, ?_, ?_⟩
      · intro v
        rw [g2, hrow]
        by_cases c3 : d ≥ 0 <;> simp only [c1, c3, if_true, if_false, and_true, and_false, not_false_eq_true, not_true] <;> omega
      · rintro p (rfl | hp)
        · exact low1 hc
        · exact g3 p hp
    · have hc : col ∉ seen := fun g => c1 (hcol.mp g).2
      rw [if_pos hc, if_neg (not_not.mpr (hrowm1.mpr (Or.inr c2)))]
      simp only [List.append_nil, List.cons_append, List.nil_append, List.map_cons, List.nodup_cons, List.mem_cons]
      refine ⟨⟨by rw [g2]; omega, g1⟩, ?_, ?_⟩
      · intro v
        rw [g2, hrow]
        by_cases c3 : d ≥ 0 <;> simp only [c1, c3, if_true, if_false, and_true, and_false, not_false_eq_true, not_true] <;> omega
      · rintro p (rfl | hp)
        · exact low1 hc
        · exact g3 p hp
    · have hc : col ∉ seen := fun g => c1 (hcol.mp g).2
      have hr : row ∉ seen1 := by rw [hrowm1]; tauto
      rw [if_pos hc, if_pos hr]
      simp only [List.cons_append, List.nil_append, List.map_cons, List.nodup_cons, List.mem_cons]
      refine ⟨⟨?_, ?_, g1⟩, ?_, ?_⟩
      · rw [g2]; omega
      · rw [g2, hrow]
        by_cases c3 : d ≥ 0 <;> simp only [c3, if_true, if_false, and_true, and_false, not_false_eq_true, not_true] <;> omega
      · intro v
        rw [g2, hrow]
        by_cases c3 : d ≥ 0 <;> simp only [c1, c3, if_true, if_false, and_true, and_false, not_false_eq_true, not_true] <;> omega
      · rintro p (rfl | rfl | hp)
        · exact low1 hc
        · exact low2 c2 c1
        · exact g3 p hp

/-- C73, generator: every column distance `0 .. r` exactly once, each with the smallest height of the rasterised
circle in that column. -/
theorem C73_columns (r : Int) :
    ((itercirclepartvertlineedge r).map Prod.fst).Nodup ∧
    (∀ v, v ∈ (itercirclepartvertlineedge r).map Prod.fst ↔ 0 ≤ v ∧ v ≤ r) ∧
    (∀ p ∈ itercirclepartvertlineedge r, LowHeight r p.2 p.1) := by
  unfold itercirclepartvertlineedge
  rcases lt_trichotomy r 0 with hr | rfl | hr
  · rw [show (r + 1).toNat = 0 by omega]
    refine ⟨by simp [circVertLoop], ?_, by simp [circVertLoop]⟩
    intro v; simp [circVertLoop]; omega
  · rw [show circVertLoop 0 (0 + 1 : Int).toNat 0 0 (circleStart 0) [] = [(0, 0)] by decide]
    refine ⟨by simp, by intro v; simp; omega, ?_⟩
    intro p hp
    simp only [List.mem_singleton] at hp
    subst hp
    refine ⟨⟨le_refl _, le_refl _, Or.inl ⟨rfl, rfl, rfl⟩⟩, ?_⟩
    rintro dx ⟨_, _, ⟨_, _, q⟩ | ⟨q, _⟩⟩ <;> omega
  · have := circVert_spec (r + 1).toNat (cinv_start hr) (by omega) [] False (by intro v; simp)
      (by intro _ dy h1 h2; omega)
    simpa using this

example : itercirclepartvertlineedge 4 = [(0, 4), (4, 0), (1, 4), (2, 3), (3, 2)] := by decide +kernel

section
variable {b b' : Bytes} {W H bits : Nat}

/-- Byte `j` of row `y'` after the column assignments `l` (target, source) for the rows `lo` to `hi`. -/
def colsNew (b : Bytes) (W H bits lo hi : Nat) (l : List (Nat × Nat)) (y' j : Nat) : Nat :=
  if lo ≤ y' ∧ y' ≤ hi then l.foldl (fun acc p => if j = p.1 then rowOf b W H bits y' p.2 else acc) (rowOf b W H bits y' j)
  else rowOf b W H bits y' j

/-- The slice of the column `j` from row `hi` to row `lo`. -/
def colSlice (W H bits lo hi : Nat) (δ : Nat) (j : Nat) : Int × Int :=
  ((cell W H bits hi j : Int), (cell W H bits lo j : Int) + rowLen W bits - δ)

theorem cols_write (h : Valid b W H bits) {lo hi δ : Nat} (hle : lo ≤ hi) (hH : hi < H) (hδ : δ < rowLen W bits)
    (hr : 1 < rowLen W bits) (l : List (Nat × Nat)) (hl : ∀ p ∈ l, p.1 < rowLen W bits ∧ p.2 < rowLen W bits)
    {b1 : Bytes} (h1 : Valid b1 W H bits) :
    ∃ b2, ((l.map fun p => colSlice W H bits lo hi δ p.1).zip (l.map fun p => column b W H bits lo hi p.2)).foldlM
        (fun bmp q => setSliceStep bmp q.1.1 q.1.2 (rowLen W bits) q.2) b1 = .ok b2 ∧
      Grid b1 b2 W H bits (fun y' j => if lo ≤ y' ∧ y' ≤ hi then
        l.foldl (fun acc p => if j = p.1 then rowOf b W H bits y' p.2 else acc) (rowOf b1 W H bits y' j)
        else rowOf b1 W H bits y' j) := by
  induction l generalizing b1 with
  | nil =>
    refine ⟨b1, rfl, (Grid.refl h1).congr ?_⟩
    intro y' j _ _
    simp [rowOf]
  | cons a l ih =>
    have ha := hl a (by simp)
    obtain ⟨b2, e2, g2⟩ := column_write h1 hle hH ha.1 (s := (colSlice W H bits lo hi δ a.1).1) rfl hr
      (e := (colSlice W H bits lo hi δ a.1).2)
      (eN := cell W H bits lo a.1 + rowLen W bits - δ) (by unfold colSlice; dsimp only; omega)
      (by omega) (by omega) (length_column lo hi a.2 (b := b)) (column_bytes h lo hi a.2)
    obtain ⟨b3, e3, g3⟩ := ih (fun p hp => hl p (by simp [hp])) g2.valid
    refine ⟨b3, ?_, (g2.trans g3).congr ?_⟩
    · simp only [List.map_cons, List.zip_cons_cons, List.foldlM_cons]
      rw [e2]
      exact e3
    · intro y' j hy hj
      have : rowOf b2 W H bits y' j = _ := g2.cells y' j hy hj
      rw [this, List.foldl_cons]
      by_cases c : lo ≤ y' ∧ y' ≤ hi
      · rw [if_pos c, if_pos c]
        congr 1
        by_cases c2 : j = a.1
        · rw [if_pos ⟨c2, c⟩, if_pos c2, byte_column c.1 c.2]
          rfl
        · rw [if_neg (by tauto), if_neg c2]
          rfl
      · rw [if_neg c, if_neg c, if_neg (by tauto)]
        rfl

theorem stridedAssign_cols (h : Valid b W H bits) {lo hi δ : Nat} (hle : lo ≤ hi) (hH : hi < H) (hδ : δ < rowLen W bits)
    (hr : 1 < rowLen W bits) (l : List (Nat × Nat)) (hl : ∀ p ∈ l, p.1 < rowLen W bits ∧ p.2 < rowLen W bits) :
    ∃ b', stridedAssign b (rowLen W bits) (l.map fun p => colSlice W H bits lo hi δ p.1)
        (l.map fun p => colSlice W H bits lo hi δ p.2) = .ok b' ∧
      Grid b b' W H bits (colsNew b W H bits lo hi l) := by
  unfold stridedAssign
  have e : (l.map fun p => colSlice W H bits lo hi δ p.2).mapM (fun p => sliceStep b p.1 p.2 (rowLen W bits)) =
      .ok (l.map fun p => column b W H bits lo hi p.2) := by
    rw [List.mapM_map]
    apply mapM_ok
    intro p hp
    exact column_read h hle hH (hl p hp).2 rfl (eN := cell W H bits lo p.2 + rowLen W bits - δ)
      (by unfold colSlice; dsimp only; omega) (by omega) (by omega)
  rw [e, ok_bind]
  exact cols_write h hle hH hδ hr l hl h

/-- The column whose pixels column `px` gets. -/
def circColSrc (t : CircH) (x : Int) (px : Nat) : Nat :=
  match t with
  | .L => (x - |(px : Int) - x|).toNat
  | .R => (x + |(px : Int) - x|).toNat
  | .F => (2 * x - px).toNat

/-- The byte that byte `j` of a row gets. -/
def byteSrc (t : CircH) (bits : Nat) (x : Int) (j : Nat) : Nat :=
  circColSrc t x (j / (bits / 8)) * (bits / 8) + j % (bits / 8)

/-- The source of byte `j` under the column assignments `l`. -/
def pick (l : List (Nat × Nat)) (j : Nat) : Nat := l.foldl (fun acc p => if j = p.1 then p.2 else acc) j

theorem pick_fold (R : Nat → Nat) (j : Nat) (l : List (Nat × Nat)) (a : Nat) :
    l.foldl (fun acc p => if j = p.1 then R p.2 else acc) (R a) =
      R (l.foldl (fun acc p => if j = p.1 then p.2 else acc) a) := by
  induction l generalizing a with
  | nil => rfl
  | cons p l ih =>
    rw [List.foldl_cons, List.foldl_cons, ← ih]
    congr 1
    split_ifs <;> rfl

theorem colsNew_pick (b : Bytes) (W H bits lo hi : Nat) (l : List (Nat × Nat)) (y' j : Nat) :
    colsNew b W H bits lo hi l y' j = if lo ≤ y' ∧ y' ≤ hi then rowOf b W H bits y' (pick l j) else rowOf b W H bits y' j := by
  unfold colsNew pick
  rw [pick_fold]

theorem htrans_step (t : CircH) (h : Valid b W H bits) (hb : bits = 8 ∨ bits = 24) {x y : Int} {v : Int × Int}
    {xa xb ya yb : Nat} (c : InCols W H bits x y v xa xb ya yb) (hv : 0 ≤ v.1) (hv2 : 0 ≤ v.2) :
    ∃ b', (do
      let xm := mirror x v.1
      let ym := mirror y v.2
      let k ← xchrcnt b
      let s1 ← BMoffsethd b xm.1 ym.2
      let e1 ← BMoffsethd b xm.1 ym.1
      let s2 ← BMoffsethd b xm.2 ym.2
      let e2 ← BMoffsethd b xm.2 ym.1
      htransSeg t (bits : Int) b k.toNat s1 (e1 + k) s2 (e2 + k)) = .ok b' ∧
      Grid b b' W H bits (fun y' j => if (j / (bits / 8) = xa ∨ j / (bits / 8) = xb) ∧ ya ≤ y' ∧ y' ≤ yb then
        rowOf b W H bits y' (byteSrc t bits x j) else rowOf b W H bits y' j) := by
  obtain ⟨exa, exb, eya, eyb, hx, hxW, hya, hyb, col, row⟩ := c
  have hR : W * bits / 8 ≤ rowLen W bits ∧ 4 ≤ rowLen W bits := by
    unfold rowLen; rcases hb with rfl | rfl <;> omega
  simp only [mirror, exa, exb, eya, eyb]
  rw [h.xchrcnt_eq, BMoffsethd_col h _ hya, BMoffsethd_col h _ hya, BMoffsethd_col h _ hyb, BMoffsethd_col h _ hyb]
  simp only [ok_bind, cell_col_int, Int.toNat_natCast]
  have hle : ya ≤ yb := by omega
  have habs : |(xa : Int) - x| = v.1 ∧ |(xb : Int) - x| = v.1 := by
    rw [← exa, ← exb]
    constructor
    · rw [show x - v.1 - x = -v.1 by omega, abs_neg, abs_of_nonneg hv]
    · rw [show x + v.1 - x = v.1 by omega, abs_of_nonneg hv]
  have csrc : circColSrc t x xa = (match t with | .L => xa | .R => xb | .F => xb) ∧
      circColSrc t x xb = (match t with | .L => xa | .R => xb | .F => xa) := by
    cases t <;> unfold circColSrc <;> simp only [habs.1, habs.2] <;> omega
  have key : ∀ (δ : Nat) (l : List (Nat × Nat)), δ < 4 → (∀ p ∈ l, p.1 < rowLen W bits ∧ p.2 < rowLen W bits) →
      (∀ j, pick l j = if j / (bits / 8) = xa ∨ j / (bits / 8) = xb then byteSrc t bits x j else j) →
      ∃ b', stridedAssign b (rowLen W bits) (l.map fun p => colSlice W H bits ya yb δ p.1)
        (l.map fun p => colSlice W H bits ya yb δ p.2) = .ok b' ∧
        Grid b b' W H bits (fun y' j => if (j / (bits / 8) = xa ∨ j / (bits / 8) = xb) ∧ ya ≤ y' ∧ y' ≤ yb then
          rowOf b W H bits y' (byteSrc t bits x j) else rowOf b W H bits y' j) := by
    intro δ l hδ hl hp
    obtain ⟨b', e, g⟩ := stridedAssign_cols h hle hyb (show δ < rowLen W bits by omega) (by omega) l hl
    refine ⟨b', e, g.congr ?_⟩
    intro y' j _ _
    rw [colsNew_pick, hp j]
    by_cases c1 : j / (bits / 8) = xa ∨ j / (bits / 8) = xb <;> by_cases c2 : ya ≤ y' ∧ y' ≤ yb
    · rw [if_pos c2, if_pos c1, if_pos ⟨c1, c2⟩]
    · rw [if_neg c2, if_neg (fun g => c2 g.2)]
    · rw [if_pos c2, if_neg c1, if_neg (fun g => c1 g.1)]
    · rw [if_neg c2, if_neg (fun g => c2 g.2)]
  have bsrc : ∀ j, byteSrc t bits x j = circColSrc t x (j / (bits / 8)) * (bits / 8) + j % (bits / 8) := fun _ => rfl
  rcases hb with rfl | rfl
  · unfold htransSeg
    rw [if_neg (by norm_num)]
    have pk : ∀ l, (∀ j, j ≠ xa → j ≠ xb → pick l j = j) → pick l xa = circColSrc t x xa →
        pick l xb = circColSrc t x xb → ∀ j, pick l j = if j / (8 / 8) = xa ∨ j / (8 / 8) = xb then byteSrc t 8 x j else j := by
      intro l q1 q2 q3 j
      rw [bsrc, show j / (8 / 8) = j by omega, show j % (8 / 8) = 0 by omega]
      by_cases c1 : j = xa
      · rw [if_pos (Or.inl c1), c1, q2]; omega
      · by_cases c2 : j = xb
        · rw [if_pos (Or.inr c2), c2, q3]; omega
        · rw [if_neg (by tauto), q1 j c1 c2]
    have hrow : xa < rowLen W 8 ∧ xb < rowLen W 8 := by omega
    have e1 : (colSlice W H 8 ya yb 0 xa) = ((cell W H 8 yb (xa * 8 / 8) : Int), (cell W H 8 ya (xa * 8 / 8) : Int) + rowLen W 8) := by
      unfold colSlice; rw [show xa * 8 / 8 = xa by omega]; simp
    have e2 : (colSlice W H 8 ya yb 0 xb) = ((cell W H 8 yb (xb * 8 / 8) : Int), (cell W H 8 ya (xb * 8 / 8) : Int) + rowLen W 8) := by
      unfold colSlice; rw [show xb * 8 / 8 = xb by omega]; simp
    rw [← e1, ← e2]
    cases t
    · exact key 0 [(xb, xa)] (by omega) (by simp; omega) (pk _ (by intro j q1 q2; simp [pick, q2])
        (by rw [csrc.1]; simp only [pick, List.foldl]; split_ifs <;> omega) (by rw [csrc.2]; simp [pick]))
    · exact key 0 [(xa, xb)] (by omega) (by simp; omega) (pk _ (by intro j q1 q2; simp [pick, q1])
        (by rw [csrc.1]; simp [pick]) (by rw [csrc.2]; simp only [pick, List.foldl]; split_ifs <;> omega))
    · exact key 0 [(xa, xb), (xb, xa)] (by omega) (by simp; omega) (pk _ (by intro j q1 q2; simp [pick, q1, q2])
        (by rw [csrc.1]; simp only [pick, List.foldl]; split_ifs <;> omega)
        (by rw [csrc.2]; simp only [pick, List.foldl]; split_ifs <;> omega))
  · unfold htransSeg
    rw [if_pos (by norm_num)]
    have pk : ∀ l, (∀ j, j / 3 ≠ xa → j / 3 ≠ xb → pick l j = j) →
        (∀ i, i < 3 → pick l (3 * xa + i) = 3 * circColSrc t x xa + i) →
        (∀ i, i < 3 → pick l (3 * xb + i) = 3 * circColSrc t x xb + i) →
        ∀ j, pick l j = if j / (24 / 8) = xa ∨ j / (24 / 8) = xb then byteSrc t 24 x j else j := by
      intro l q1 q2 q3 j
      rw [bsrc, show 24 / 8 = 3 by rfl]
      by_cases c1 : j / 3 = xa
      · have := q2 (j % 3) (by omega)
        rw [show 3 * xa + j % 3 = j by omega] at this
        rw [if_pos (Or.inl c1), c1, this]; omega
      · by_cases c2 : j / 3 = xb
        · have := q3 (j % 3) (by omega)
          rw [show 3 * xb + j % 3 = j by omega] at this
          rw [if_pos (Or.inr c2), c2, this]; omega
        · rw [if_neg (by tauto), q1 j c1 c2]
    have hrow : 3 * xa + 2 < rowLen W 24 ∧ 3 * xb + 2 < rowLen W 24 := by omega
    have e0 : ∀ z : Nat, ((cell W H 24 yb (z * 24 / 8) : Int), (cell W H 24 ya (z * 24 / 8) : Int) + rowLen W 24 - 2) =
        colSlice W H 24 ya yb 2 (3 * z) := by
      intro z; unfold colSlice; rw [show z * 24 / 8 = 3 * z by omega]; rfl
    have e1 : ∀ z : Nat, ((cell W H 24 yb (z * 24 / 8) : Int) + 1, (cell W H 24 ya (z * 24 / 8) : Int) + rowLen W 24 - 1) =
        colSlice W H 24 ya yb 2 (3 * z + 1) := by
      intro z; unfold colSlice cell; rw [show z * 24 / 8 = 3 * z by omega]; ext <;> dsimp only <;> omega
    have e2 : ∀ z : Nat, ((cell W H 24 yb (z * 24 / 8) : Int) + 2, (cell W H 24 ya (z * 24 / 8) : Int) + rowLen W 24) =
        colSlice W H 24 ya yb 2 (3 * z + 2) := by
      intro z; unfold colSlice cell; rw [show z * 24 / 8 = 3 * z by omega]; ext <;> dsimp only <;> omega
    simp only [e0, e1, e2]
    cases t
    · exact key 2 [(3 * xb, 3 * xa), (3 * xb + 1, 3 * xa + 1), (3 * xb + 2, 3 * xa + 2)] (by omega) (by simp; omega)
        (pk _ (by intro j q1 q2; simp only [pick, List.foldl]; split_ifs <;> omega)
        (by intro i hi; rw [csrc.1]; simp only [pick, List.foldl]; split_ifs <;> omega)
        (by intro i hi; rw [csrc.2]; simp only [pick, List.foldl]; split_ifs <;> omega))
    · exact key 2 [(3 * xa, 3 * xb), (3 * xa + 1, 3 * xb + 1), (3 * xa + 2, 3 * xb + 2)] (by omega) (by simp; omega)
        (pk _ (by intro j q1 q2; simp only [pick, List.foldl]; split_ifs <;> omega)
        (by intro i hi; rw [csrc.1]; simp only [pick, List.foldl]; split_ifs <;> omega)
        (by intro i hi; rw [csrc.2]; simp only [pick, List.foldl]; split_ifs <;> omega))
    · exact key 2 [(3 * xa, 3 * xb), (3 * xb, 3 * xa), (3 * xa + 1, 3 * xb + 1), (3 * xb + 1, 3 * xa + 1),
          (3 * xa + 2, 3 * xb + 2), (3 * xb + 2, 3 * xa + 2)] (by omega) (by simp; omega)
        (pk _ (by intro j q1 q2; simp only [pick, List.foldl]; split_ifs <;> omega)
        (by intro i hi; rw [csrc.1]; simp only [pick, List.foldl]; split_ifs <;> omega)
        (by intro i hi; rw [csrc.2]; simp only [pick, List.foldl]; split_ifs <;> omega))

theorem lowHeight_bounds {r lh v : Int} (h : LowHeight r lh v) : 0 ≤ lh ∧ lh ≤ r ∧ 0 ≤ v ∧ v ≤ r := by
  have := C25_circle_accuracy r v lh ((C25_circle_points _ _ _).mpr h.1)
  exact ⟨this.2.2.1, this.2.2.2.1, this.1, this.2.1⟩

theorem lowHeight_unique {r lh lh' v : Int} (h : LowHeight r lh v) (h' : LowHeight r lh' v) : lh = lh' :=
  le_antisymm (h.2 _ h'.1) (h'.2 _ h.1)

theorem mem_vertlineedge {r : Int} {p : Int × Int} : p ∈ itercirclepartvertlineedge r ↔ LowHeight r p.2 p.1 := by
  obtain ⟨_, g2, g3⟩ := C73_columns r
  constructor
  · exact g3 p
  · intro h
    have hb := lowHeight_bounds h
    obtain ⟨q, hq, e⟩ := List.mem_map.mp ((g2 p.1).mpr ⟨hb.2.2.1, hb.2.2.2⟩)
    have h' := g3 q hq
    rw [e] at h'
    have e1 := lowHeight_unique h' h
    have : q = p := Prod.ext e e1
    rwa [← this]

/-- The pixels that the column operations reach. -/
def ColSet (x y r : Int) (px py : Nat) : Prop := ∃ lh, LowHeight r lh |(px : Int) - x| ∧ |(py : Int) - y| ≤ lh

theorem inCols_vert (hd : Depth bits) {x y r : Int} (hs : SquareInside W H x y r) {v : Int × Int}
    (hv : v ∈ itercirclepartvertlineedge r) : ∃ xa xb ya yb, InCols W H bits x y v xa xb ya yb := by
  have hsq := (square_iff W H x y r).mpr hs
  simp only [entirecircleisinboundary, isinrange, Bool.and_eq_true, decide_eq_true_eq] at hsq
  have := lowHeight_bounds (mem_vertlineedge.mp hv)
  have hle : (x - v.1).toNat ≤ (x + v.1).toNat := by omega
  exact ⟨(x - v.1).toNat, (x + v.1).toNat, (y - v.2).toNat, (y + v.2).toNat, by omega, by omega, by omega, by omega,
    hle, by omega, by omega, by omega, Nat.div_le_div_right (Nat.mul_le_mul_right _ hle), (col_le_row hd (by omega)).1⟩

theorem colsrc_cases (t : CircH) {x v : Int} {xa xb : Nat} (ea : x - v = xa) (eb : x + v = xb) (hv : 0 ≤ v) {q : Nat}
    (hq : q = xa ∨ q = xb) : circColSrc t x q = xa ∨ circColSrc t x q = xb := by
  have habs : |(q : Int) - x| = v := by
    rcases hq with rfl | rfl
    · rw [← ea, show x - v - x = -v by omega, abs_neg, abs_of_nonneg hv]
    · rw [← eb, show x + v - x = v by omega, abs_of_nonneg hv]
  cases t <;> unfold circColSrc <;> simp only [habs] <;> omega

/-- The bytes after a horizontal transformation. -/
theorem htrans_bytes (t : CircH) (h : Valid b W H bits) (hb : bits = 8 ∨ bits = 24) {x y r : Int}
    (hs : SquareInside W H x y r) :
    ∃ b', horitransformincircregion t b x y r = .ok b' ∧ Valid b' W H bits ∧ SameHeader b b' bits ∧
      ∀ y' j, y' < H → j < rowLen W bits →
        (ColSet x y r (j / (bits / 8)) y' → rowOf b' W H bits y' j = rowOf b W H bits y' (byteSrc t bits x j)) ∧
        (¬ ColSet x y r (j / (bits / 8)) y' → rowOf b' W H bits y' j = rowOf b W H bits y' j) := by
  have hnb : 0 < bits / 8 := by rcases hb with rfl | rfl <;> omega
  have disj : (itercirclepartvertlineedge r).Pairwise (fun a a' => ∀ p q : Nat,
      (p / (bits / 8) = (x - a.1).toNat ∨ p / (bits / 8) = (x + a.1).toNat) →
      ¬ (p / (bits / 8) = (x - a'.1).toNat ∨ p / (bits / 8) = (x + a'.1).toNat)) := by
    obtain ⟨g1, _, g3⟩ := C73_columns r
    rw [List.Nodup, List.pairwise_map] at g1
    refine g1.imp_of_mem ?_
    intro a a' ha ha' hne p q h1 h2
    obtain ⟨xa, xb, ya, yb, c⟩ := inCols_vert h.depth hs ha
    obtain ⟨xa', xb', ya', yb', c'⟩ := inCols_vert h.depth hs ha'
    have q1 := c.exa; have q2 := c.exb; have q3 := c'.exa; have q4 := c'.exb
    have q5 := lowHeight_bounds (g3 a ha)
    have q6 := lowHeight_bounds (g3 a' ha')
    omega
  obtain ⟨b', e, hv, hh, hc⟩ := zone_fold (W := W) (H := H) (bits := bits)
    (fun b p q => rowOf b W H bits q p) (fun p q => q < H ∧ p < rowLen W bits)
    (fun v p _ => p / (bits / 8) = (x - v.1).toNat ∨ p / (bits / 8) = (x + v.1).toNat)
    (fun v g p q => if (y - v.2).toNat ≤ q ∧ q ≤ (y + v.2).toNat then g (byteSrc t bits x p) q else g p q)
    (fun bmp v => do
      let xm := mirror x v.1
      let ym := mirror y v.2
      let k ← xchrcnt bmp
      let s1 ← BMoffsethd bmp xm.1 ym.2
      let e1 ← BMoffsethd bmp xm.1 ym.1
      let s2 ← BMoffsethd bmp xm.2 ym.2
      let e2 ← BMoffsethd bmp xm.2 ym.1
      htransSeg t (bits : Int) bmp k.toNat s1 (e1 + k) s2 (e2 + k))
    (itercirclepartvertlineedge r) disj
    (by
      intro v hv g g' hg p q hD hz
      obtain ⟨xa, xb, ya, yb, c⟩ := inCols_vert h.depth hs hv
      have q5 := lowHeight_bounds (mem_vertlineedge.mp hv)
      rw [c.exa, c.exb, Int.toNat_natCast, Int.toNat_natCast] at hz
      split_ifs
      · have hcs := colsrc_cases t c.exa c.exb q5.2.2.1 hz
        have hdiv : byteSrc t bits x p / (bits / 8) = circColSrc t x (p / (bits / 8)) := by
          unfold byteSrc
          rw [Nat.add_comm, Nat.add_mul_div_right _ _ hnb, Nat.div_eq_of_lt (Nat.mod_lt _ hnb), Nat.zero_add]
        have q7 := c.hx
        have q8 := c.hxW
        refine hg _ _ ⟨hD.1, ?_⟩ ?_
        · have hlt : circColSrc t x (p / (bits / 8)) < W := by omega
          unfold byteSrc
          have hm := Nat.mod_lt p hnb
          unfold rowLen
          rcases hb with rfl | rfl <;> norm_num at hm hlt ⊢ <;> omega
        · rw [hdiv, c.exa, c.exb, Int.toNat_natCast, Int.toNat_natCast]
          exact hcs
      · refine hg _ _ hD ?_
        rw [c.exa, c.exb, Int.toNat_natCast, Int.toNat_natCast]
        exact hz)
    (by
      intro b hb' v hv
      obtain ⟨xa, xb, ya, yb, c⟩ := inCols_vert h.depth hs hv
      have q5 := lowHeight_bounds (mem_vertlineedge.mp hv)
      obtain ⟨b', e, g⟩ := htrans_step t hb' hb c q5.2.2.1 q5.1
      refine ⟨b', e, g.valid, g.header, ?_⟩
      intro p q hD
      have hcell : rowOf b' W H bits q p = _ := g.cells q p hD.1 hD.2
      dsimp only
      rw [c.exa, c.exb, c.eya, c.eyb]
      simp only [Int.toNat_natCast]
      rw [hcell]
      constructor
      · intro hz
        by_cases c2 : ya ≤ q ∧ q ≤ yb
        · rw [if_pos ⟨hz, c2⟩, if_pos c2]
        · rw [if_neg (fun g => c2 g.2), if_neg c2]
      · intro hz
        rw [if_neg (fun g => hz g.1)]) h
  refine ⟨b', ?_, hv, hh, ?_⟩
  · unfold horitransformincircregion
    rw [(C45_circle_guards h _ x y r).2.1 ⟨hb, hs⟩]
    unfold htransCore
    rw [h.bits_eq, ok_bind]
    rw [e]
    rfl
  · intro y' j hy hj
    obtain ⟨k1, k2⟩ := hc j y' ⟨hy, hj⟩
    have hcase := abs_cases (((j / (bits / 8) : Nat) : Int) - x)
    have hcasey := abs_cases ((y' : Int) - y)
    have zn : ∀ v : Int × Int, v ∈ itercirclepartvertlineedge r →
        ((j / (bits / 8) = (x - v.1).toNat ∨ j / (bits / 8) = (x + v.1).toNat) ↔ v.1 = |((j / (bits / 8) : Nat) : Int) - x|) := by
      intro v hv
      obtain ⟨xa, xb, ya, yb, c⟩ := inCols_vert h.depth hs hv
      have q5 := lowHeight_bounds (mem_vertlineedge.mp hv)
      have := c.exa; have := c.exb
      omega
    by_cases hr : |((j / (bits / 8) : Nat) : Int) - x| ≤ r
    · obtain ⟨v, hvm, ev⟩ := List.mem_map.mp (((C73_columns r).2.1 _).mpr ⟨abs_nonneg _, hr⟩)
      have hl := mem_vertlineedge.mp hvm
      have := k1 v hvm ((zn v hvm).mpr ev)
      obtain ⟨xa, xb, ya, yb, c⟩ := inCols_vert h.depth hs hvm
      have q3 := c.eya; have q4 := c.eyb
      have q5 := lowHeight_bounds hl
      rw [ev] at hl
      constructor
      · rintro ⟨lh, hlh, hle⟩
        obtain rfl := lowHeight_unique hl hlh
        rw [if_pos (by omega)] at this
        exact this
      · intro hn
        have hgt : ¬ |(y' : Int) - y| ≤ v.2 := fun g => hn ⟨v.2, hl, g⟩
        rw [if_neg (by omega)] at this
        exact this
    · have hno : ¬ ColSet x y r (j / (bits / 8)) y' := by
        rintro ⟨lh, hlh, _⟩
        exact hr (lowHeight_bounds hlh).2.2.2
      refine ⟨fun g => absurd g hno, fun _ => k2 ?_⟩
      intro v hvm hz
      have := (zn v hvm).mp hz
      have := (lowHeight_bounds (mem_vertlineedge.mp hvm)).2.2.2
      omega

/-- C73, what the horizontal transformations do for a circle inside an 8- or 24-bit image: the pixels of `ColSet`
are taken from the mirrored column. -/
theorem C73_hori_exact (t : CircH) (h : Valid b W H bits) (hb : bits = 8 ∨ bits = 24) {x y r : Int}
    (hs : SquareInside W H x y r) :
    ∃ b', horitransformincircregion t b x y r = .ok b' ∧
      Alters b b' W H bits (ColSet x y r) (fun px py => pix b W H bits (circColSrc t x px) py) := by
  obtain ⟨b', e, hv, hh, hc⟩ := htrans_bytes t h hb hs
  have hnb : 0 < bits / 8 := by rcases hb with rfl | rfl <;> omega
  have hbpp : bpp bits = bits / 8 := by rcases hb with rfl | rfl <;> rfl
  have hmul : ∀ q : Nat, q * bits / 8 = q * (bits / 8) := by intro q; rcases hb with rfl | rfl <;> omega
  have hsh : ∀ q q', shiftOf bits q = shiftOf bits q' := by
    intro q q'; unfold shiftOf; rcases hb with rfl | rfl <;> omega
  have hdiv : ∀ q t', t' < bits / 8 → (q * bits / 8 + t') / (bits / 8) = q ∧ (q * bits / 8 + t') % (bits / 8) = t' := by
    intro q t' ht
    rw [hmul]
    constructor
    · rw [Nat.add_comm, Nat.add_mul_div_right _ _ hnb, Nat.div_eq_of_lt ht, Nat.zero_add]
    · rw [Nat.add_comm, Nat.add_mul_mod_self_right, Nat.mod_eq_of_lt ht]
  refine ⟨b', e, hv, hh, ?_, ?_⟩
  · intro px py hpx hpy hin
    apply pix_congr (hsh _ _)
    intro t' ht
    have hj : px * bits / 8 + t' < rowLen W bits := by have := xcell_lt h.depth hpx; omega
    rw [hbpp] at ht
    have := (hc py _ hpy hj).1 (by rw [(hdiv px t' ht).1]; exact hin)
    unfold byteSrc at this
    rw [(hdiv px t' ht).1, (hdiv px t' ht).2, ← hmul] at this
    exact this
  · intro px py hpx hpy hn
    apply pix_congr rfl
    intro t' ht
    have hj : px * bits / 8 + t' < rowLen W bits := by have := xcell_lt h.depth hpx; omega
    rw [hbpp] at ht
    exact (hc py _ hpy hj).2 (by rw [(hdiv px t' ht).1]; exact hn)

/-- The columns stay inside the disc. -/
theorem colSet_disc {x y r : Int} {px py : Nat} (hc : ColSet x y r px py) : DiscSet x y r px py := by
  obtain ⟨q, hq, hu⟩ := hc
  have hb := lowHeight_bounds hq
  obtain ⟨hw, hhw⟩ := halfWidth_exists (r := r) (abs_nonneg ((py : Int) - y)) (by omega)
  have h0 := halfWidth_bounds hhw
  refine ⟨hw, hhw.1, ?_⟩
  have hmax := hhw.2
  have on1 := hhw.1
  have on2 := hq.1
  generalize |(py : Int) - y| = u at *
  generalize |(px : Int) - x| = v at *
  by_contra hlt
  obtain ⟨_, _, ⟨r0, _⟩ | ⟨_, n1⟩⟩ := on1
  · omega
  obtain ⟨_, _, ⟨r0, _⟩ | ⟨_, n2⟩⟩ := id on2
  · omega
  by_cases huq : u = q
  · subst huq
    exact hlt (hmax v on2)
  have hu1 : u + 1 ≤ q := by omega
  have hw1 : hw + 1 ≤ v := by omega
  obtain ⟨a1, a2⟩ := n1
  obtain ⟨c1, c2⟩ := n2
  by_cases k1 : hw ≤ u <;> by_cases k2 : q ≤ v
  · rw [min_eq_left k1, max_eq_right k1] at a1 a2
    rw [min_eq_right k2, max_eq_left k2] at c1 c2
    nlinarith
  · rw [min_eq_left k1, max_eq_right k1] at a1 a2
    rw [min_eq_left (by omega), max_eq_right (by omega)] at c1 c2
    nlinarith
  · rw [min_eq_right (by omega), max_eq_left (by omega)] at a1 a2
    rw [min_eq_right k2, max_eq_left k2] at c1 c2
    nlinarith
  · rw [min_eq_right (by omega), max_eq_left (by omega)] at a1 a2
    rw [min_eq_left (by omega), max_eq_right (by omega)] at c1 c2
    nlinarith

/-- C73 for the pixels of `ColSet`, a part of the disc; nothing outside the disc changes. Missing: the pixels of the disc
in its last columns that are above or below `ColSet` (`C73_false`). -/
theorem C73_hori_partial (t : CircH) (h : Valid b W H bits) (hb : bits = 8 ∨ bits = 24) {x y r : Int}
    (hs : SquareInside W H x y r) :
    ∃ b', horitransformincircregion t b x y r = .ok b' ∧ Valid b' W H bits ∧ SameHeader b b' bits ∧
      ∀ px py, px < W → py < H →
        (ColSet x y r px py → DiscSet x y r px py ∧ pix b' W H bits px py = pix b W H bits (circColSrc t x px) py) ∧
        (¬ DiscSet x y r px py → pix b' W H bits px py = pix b W H bits px py) := by
  obtain ⟨b', e, a⟩ := C73_hori_exact t h hb hs
  refine ⟨b', e, a.valid, a.header, ?_⟩
  intro px py hpx hpy
  exact ⟨fun g => ⟨colSet_disc g, a.inside px py hpx hpy g⟩,
    fun g => a.outside px py hpx hpy (fun k => g (colSet_disc k))⟩

/-- C73: flipping twice restores the file. -/
theorem C73_flip_twice (h : Valid b W H bits) {x y r : Int} :
    (do fliphoricircregion (← fliphoricircregion b x y r) x y r) = .ok b := by
  unfold fliphoricircregion
  by_cases hg : (bits = 8 ∨ bits = 24) ∧ SquareInside W H x y r
  · obtain ⟨hb, hs⟩ := hg
    obtain ⟨b', e, hv, hh, hc⟩ := htrans_bytes .F h hb hs
    obtain ⟨b'', e2, hv2, hh2, hc2⟩ := htrans_bytes .F hv hb hs
    have hnb : 0 < bits / 8 := by rcases hb with rfl | rfl <;> omega
    rw [e, ok_bind, e2]
    congr 1
    apply grid_ext h ⟨hh2.1.trans hh.1, fun i hi => (hh2.2 i hi).trans (hh.2 i hi)⟩
    intro y' j hy hj
    show rowOf b'' W H bits y' j = rowOf b W H bits y' j
    by_cases hin : ColSet x y r (j / (bits / 8)) y'
    · rw [(hc2 y' j hy hj).1 hin]
      obtain ⟨lh, hlh, hle⟩ := id hin
      have hsq := (square_iff W H x y r).mpr hs
      simp only [entirecircleisinboundary, isinrange, Bool.and_eq_true, decide_eq_true_eq] at hsq
      have hbd := lowHeight_bounds hlh
      have hcase := abs_cases (((j / (bits / 8) : Nat) : Int) - x)
      have hcs : ((circColSrc .F x (j / (bits / 8)) : Nat) : Int) = 2 * x - (j / (bits / 8) : Nat) := by
        unfold circColSrc; dsimp only; omega
      have hdiv : byteSrc .F bits x j / (bits / 8) = circColSrc .F x (j / (bits / 8)) ∧
          byteSrc .F bits x j % (bits / 8) = j % (bits / 8) := by
        unfold byteSrc
        constructor
        · rw [Nat.add_comm, Nat.add_mul_div_right _ _ hnb, Nat.div_eq_of_lt (Nat.mod_lt _ hnb), Nat.zero_add]
        · rw [Nat.add_comm, Nat.add_mul_mod_self_right, Nat.mod_mod]
      have hlt : circColSrc .F x (j / (bits / 8)) < W := by omega
      have hj2 : byteSrc .F bits x j < rowLen W bits := by
        unfold byteSrc
        have hm := Nat.mod_lt j hnb
        unfold rowLen
        rcases hb with rfl | rfl <;> norm_num at hm hlt ⊢ <;> omega
      have hin2 : ColSet x y r (byteSrc .F bits x j / (bits / 8)) y' := by
        refine ⟨lh, ?_, hle⟩
        rw [hdiv.1, hcs, show 2 * x - ((j / (bits / 8) : Nat) : Int) - x = -(((j / (bits / 8) : Nat) : Int) - x) by omega, abs_neg]
        exact hlh
      rw [(hc y' _ hy hj2).1 hin2]
      have hback : circColSrc .F x (circColSrc .F x (j / (bits / 8))) = j / (bits / 8) := by
        have : ((circColSrc .F x (circColSrc .F x (j / (bits / 8))) : Nat) : Int) =
            max (2 * x - (circColSrc .F x (j / (bits / 8)) : Nat)) 0 := by
          conv_lhs => unfold circColSrc
          dsimp only
          omega
        omega
      have : byteSrc .F bits x (byteSrc .F bits x j) = j := by
        show circColSrc .F x (byteSrc .F bits x j / (bits / 8)) * (bits / 8) + byteSrc .F bits x j % (bits / 8) = j
        rw [hdiv.1, hdiv.2, hback]
        exact Nat.div_add_mod' j (bits / 8)
      rw [this]
    · rw [(hc2 y' j hy hj).2 hin, (hc y' j hy hj).2 hin]
  · have : horitransformincircregion .F b x y r = .ok b := by
      unfold horitransformincircregion
      rw [(C45_circle_guards h _ x y r).2.2 hg]
      rfl
    rw [this, ok_bind, this]

/-- C73: other depths and circles that leave the image are left alone. -/
theorem C73_rejected (t : CircH) (h : Valid b W H bits) {x y r : Int}
    (hg : ¬ ((bits = 8 ∨ bits = 24) ∧ SquareInside W H x y r)) : horitransformincircregion t b x y r = .ok b := by
  unfold horitransformincircregion
  rw [(C45_circle_guards h _ x y r).2.2 hg]
  rfl

/-- C73 is false: the ends of the last column of the disc are not mirrored. -/
theorem C73_false : ¬ ∀ (b : Bytes) (W H : Nat), Valid b W H 24 → ∀ x y r : Int, SquareInside W H x y r →
    ∃ b', fliphoricircregion b x y r = .ok b' ∧
      Alters b b' W H 24 (DiscSet x y r) (fun px py => pix b W H 24 (2 * x - px).toNat py) := by
  intro hall
  obtain ⟨b0, _, v0, -, -, -, -, hz, -⟩ := C01_newBMP_valid 5 5 24 (by simp [Depth]) (by norm_num) (by norm_num)
  have v := v0.valid_plotP (x := 4) (y := 3) (n := 255) (by omega) (by omega) (by norm_num)
  have hs : SquareInside 5 5 2 2 2 := by rw [← square_iff]; decide
  obtain ⟨b1, e1, a1⟩ := hall _ 5 5 v 2 2 2 hs
  obtain ⟨b2, e2, a2⟩ := C73_hori_exact .F v (Or.inr rfl) hs
  unfold fliphoricircregion at e1
  rw [e1] at e2
  obtain rfl := Except.ok.inj e2
  have on21 : OnCircle 2 2 1 := by unfold OnCircle Near; decide
  have on20 : OnCircle 2 2 0 := by unfold OnCircle Near; decide
  have h1 := a1.inside 0 3 (by omega) (by omega) ⟨2, on21, by norm_num⟩
  have h2 := a2.outside 0 3 (by omega) (by omega) (by
    rintro ⟨lh, q1, q2⟩
    have q3 := q1.2 0 (by simpa using on20)
    norm_num at q2
    omega)
  rw [h2, v0.pix_plotP (by omega) (by omega) (by omega) (by omega) (by norm_num),
    v0.pix_plotP (by omega) (by omega) (by omega) (by norm_num) (by norm_num), if_neg (by omega), if_pos (by decide),
    hz 0 3 (by omega) (by omega)] at h1
  omega

example : (do let b ← newBMP 7 7 24; let b ← plotxybit b 1 2 0x102030; let b ← plotxybit b 5 4 0x405060
              let b ← fliphoricircregion b 3 3 3
              pure (← getxybit b 5 2, ← getxybit b 1 4, ← getxybit b 1 2)) = .ok (0x102030, 0x405060, 0) := by decide +kernel
example : (do let b ← newBMP 7 7 24; let b ← plotxybit b 1 2 0x102030; let b ← plotxybit b 5 4 0x405060
              let b ← mirrorrightincircregion b 3 3 3
              pure (← getxybit b 5 2, ← getxybit b 1 4, ← getxybit b 1 2)) = .ok (0, 0x405060, 0) := by decide +kernel

end
end Verif.Props
