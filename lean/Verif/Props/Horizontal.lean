import Verif.Props.Vertical
/-! Properties C30 and C31: horizontal flips and mirrors. -/

namespace Verif.Props
open Verif Spec Model

/-- Pixels per block: a block is the smallest number of whole bytes holding whole pixels. -/
def dxOf (bits : Nat) : Nat := if bits = 4 then 2 else if bits = 1 then 8 else 1

/-- What the column functions do with each byte they move. -/
def blockByte (bits v : Nat) : Nat :=
  if bits = 4 then v / 16 + v % 16 * 16 else if bits = 1 then rotatebits v else v

theorem rotatebits_lt : ∀ v, v < 256 → rotatebits v < 256 := by decide +kernel
theorem nibble_eq : ∀ v, v < 256 → (v >>> 4) + ((v % 16) <<< 4) = v / 16 + v % 16 * 16 := by decide +kernel

theorem blockByte_lt {bits v : Nat} (hv : v < 256) : blockByte bits v < 256 := by
  unfold blockByte
  split_ifs
  · omega
  · exact rotatebits_lt v hv
  · exact hv

/-- Which of the two columns of a pair is written. -/
inductive HKind
  | flip
  | left
  | right

/-- Block `c` is written when the blocks `c` and `s - c` are paired. -/
def upd (k : HKind) (s c : Nat) : Bool :=
  match k with
  | .flip => true
  | .left => decide (s - c ≤ c)
  | .right => decide (c ≤ s - c)

/-- Effect of one round on the bytes. -/
def StepOK (fn : SwapFn) (k : HKind) (W H bits : Nat) : Prop :=
  ∀ b c1 c2 ya yb, Valid b W H bits → c1 ≤ c2 → bpp bits * c2 + bpp bits ≤ rowLen W bits → ya ≤ yb → yb < H →
    ∃ b', fn b (cell W H bits yb (bpp bits * c1) : Int)
        ((cell W H bits ya (bpp bits * c1) : Int) + (rowLen W bits : Int)) (cell W H bits yb (bpp bits * c2) : Int)
        ((cell W H bits ya (bpp bits * c2) : Int) + (rowLen W bits : Int)) (rowLen W bits) = .ok b' ∧
      Grid b b' W H bits (fun y j =>
        if (ya ≤ y ∧ y ≤ yb) ∧ (j / bpp bits = c1 ∨ j / bpp bits = c2) ∧ upd k (c1 + c2) (j / bpp bits) = true
        then blockByte bits (byte b (cell W H bits y (bpp bits * (c1 + c2 - j / bpp bits) + j % bpp bits)))
        else byte b (cell W H bits y j))

/-- A byte function on a column. -/
def MapOK (f : Bytes → Py Bytes) (bits : Nat) : Prop :=
  ∀ buf : Bytes, (∀ v ∈ buf, v < 256) → f buf = .ok (buf.map (blockByte bits))

theorem mapOK_8 : MapOK pure 8 := by
  intro buf _
  have : blockByte 8 = id := by funext v; simp [blockByte]
  rw [this]; simp

theorem mapOK_4 : MapOK flipnibbleinbuf 4 := by
  intro buf hb
  apply mkArray_ok
  · rw [List.map_map]
    apply List.map_congr_left
    intro v hv
    simp only [Function.comp, blockByte, if_true, nibble_eq v (hb v hv)]
    rfl
  · intro w hw
    obtain ⟨v, hv, rfl⟩ := List.mem_map.mp hw
    exact blockByte_lt (hb v hv)

theorem mapOK_1 : MapOK rotatebitsinbuf 1 := by
  intro buf hb
  apply mkArray_ok
  · rw [List.map_map]
    apply List.map_congr_left
    intro v hv
    simp [blockByte]
  · intro w hw
    obtain ⟨v, hv, rfl⟩ := List.mem_map.mp hw
    exact blockByte_lt (hb v hv)

theorem byte_map_column {b : Bytes} {W H bits lo hi j y : Nat} (f : Nat → Nat) (h1 : lo ≤ y) (h2 : y ≤ hi) :
    byte ((column b W H bits lo hi j).map f) (hi - y) = f (byte b (cell W H bits y j)) := by
  rw [← byte_column (b := b) (W := W) (H := H) (bits := bits) (j := j) h1 h2]
  have : hi - y < (column b W H bits lo hi j).length := by rw [length_column]; omega
  rw [byte_eq_getElem _ _ (by simpa using this), byte_eq_getElem _ _ this, List.getElem_map]

theorem map_bytes {bits : Nat} {buf : Bytes} (hb : ∀ v ∈ buf, v < 256) :
    ∀ v ∈ buf.map (blockByte bits), v < 256 := by
  intro w hw
  obtain ⟨v, hv, rfl⟩ := List.mem_map.mp hw
  exact blockByte_lt (hb v hv)

theorem eNcast (a r : Nat) : (a : Int) + (r : Int) = ((a + r : Nat) : Int) := by push_cast; rfl

theorem step_flipF {f : Bytes → Py Bytes} {W H bits : Nat} (hp : bpp bits = 1) (hf : MapOK f bits) (hW : 0 < W) :
    StepOK (hflipF f) .flip W H bits := by
  intro b c1 c2 ya yb h hc hfit hy hH
  have hr := rowLen_pos hW h.depth
  simp only [hp, Nat.one_mul, Nat.div_one, Nat.mod_one, Nat.add_zero] at hfit ⊢
  unfold hflipF
  rw [column_read h hy hH (by omega) rfl (eNcast _ _) (by omega) (by omega),
    column_read h hy hH (by omega) rfl (eNcast _ _) (by omega) (by omega)]
  simp only [ok_bind]
  rw [hf _ (column_bytes h _ _ _), hf _ (column_bytes h _ _ _)]
  simp only [ok_bind]
  obtain ⟨b1, e1, g1⟩ := column_write h hy hH (j := c1) (by omega) rfl (by omega)
    (eNcast (cell W H bits ya c1) (rowLen W bits)) (by omega) (by omega)
    (buf := (column b W H bits ya yb c2).map (blockByte bits)) (by simp [length_column]) (map_bytes (column_bytes h _ _ _))
  rw [e1]
  simp only [ok_bind]
  obtain ⟨b2, e2, g2⟩ := column_write g1.valid hy hH (j := c2) (by omega) rfl (by omega)
    (eNcast (cell W H bits ya c2) (rowLen W bits)) (by omega) (by omega)
    (buf := (column b W H bits ya yb c1).map (blockByte bits)) (by simp [length_column]) (map_bytes (column_bytes h _ _ _))
  refine ⟨b2, e2, (g1.trans g2).congr ?_⟩
  intro y j hyH hj
  rw [g1.cells y j hyH hj]
  by_cases cy : ya ≤ y ∧ y ≤ yb
  · rw [byte_map_column _ cy.1 cy.2, byte_map_column _ cy.1 cy.2]
    by_cases d2 : j = c2
    · subst d2
      rw [if_pos ⟨rfl, cy⟩, if_pos ⟨cy, Or.inr rfl, rfl⟩, show c1 + j - j = c1 by omega]
    · rw [if_neg (by tauto)]
      by_cases d1 : j = c1
      · subst d1
        rw [if_pos ⟨rfl, cy⟩, if_pos ⟨cy, Or.inl rfl, rfl⟩, show j + c2 - j = c2 by omega]
      · rw [if_neg (by tauto), if_neg (by tauto)]
  · rw [if_neg (by tauto), if_neg (by tauto), if_neg (by tauto)]

theorem step_copyF {f : Bytes → Py Bytes} {W H bits : Nat} (hp : bpp bits = 1) (hf : MapOK f bits) (hW : 0 < W) :
    StepOK (hcopyF f) .left W H bits ∧ StepOK (swapArgs (hcopyF f)) .right W H bits := by
  constructor
  · intro b c1 c2 ya yb h hc hfit hy hH
    have hr := rowLen_pos hW h.depth
    simp only [hp, Nat.one_mul, Nat.div_one, Nat.mod_one, Nat.add_zero] at hfit ⊢
    unfold hcopyF
    rw [column_read h hy hH (by omega) rfl (eNcast _ _) (by omega) (by omega)]
    simp only [ok_bind]
    rw [hf _ (column_bytes h _ _ _)]
    simp only [ok_bind]
    obtain ⟨b1, e1, g1⟩ := column_write h hy hH (j := c2) (by omega) rfl (by omega)
      (eNcast (cell W H bits ya c2) (rowLen W bits)) (by omega) (by omega)
      (buf := (column b W H bits ya yb c1).map (blockByte bits)) (by simp [length_column]) (map_bytes (column_bytes h _ _ _))
    refine ⟨b1, e1, g1.congr ?_⟩
    intro y j hyH hj
    simp only [upd, decide_eq_true_eq]
    by_cases cy : ya ≤ y ∧ y ≤ yb
    · rw [byte_map_column _ cy.1 cy.2]
      by_cases d2 : j = c2
      · subst d2
        rw [if_pos ⟨rfl, cy⟩, if_pos ⟨cy, Or.inr rfl, by omega⟩, show c1 + j - j = c1 by omega]
      · rw [if_neg (by tauto), if_neg (by omega)]
    · rw [if_neg (by tauto), if_neg (by tauto)]
  · intro b c1 c2 ya yb h hc hfit hy hH
    have hr := rowLen_pos hW h.depth
    simp only [hp, Nat.one_mul, Nat.div_one, Nat.mod_one, Nat.add_zero] at hfit ⊢
    unfold swapArgs hcopyF
    rw [column_read h hy hH (by omega) rfl (eNcast _ _) (by omega) (by omega)]
    simp only [ok_bind]
    rw [hf _ (column_bytes h _ _ _)]
    simp only [ok_bind]
    obtain ⟨b1, e1, g1⟩ := column_write h hy hH (j := c1) (by omega) rfl (by omega)
      (eNcast (cell W H bits ya c1) (rowLen W bits)) (by omega) (by omega)
      (buf := (column b W H bits ya yb c2).map (blockByte bits)) (by simp [length_column]) (map_bytes (column_bytes h _ _ _))
    refine ⟨b1, e1, g1.congr ?_⟩
    intro y j hyH hj
    simp only [upd, decide_eq_true_eq]
    by_cases cy : ya ≤ y ∧ y ≤ yb
    · rw [byte_map_column _ cy.1 cy.2]
      by_cases d2 : j = c1
      · subst d2
        rw [if_pos ⟨rfl, cy⟩, if_pos ⟨cy, Or.inl rfl, by omega⟩, show j + c2 - j = c2 by omega]
      · rw [if_neg (by tauto), if_neg (by omega)]
    · rw [if_neg (by tauto), if_neg (by tauto)]

/-! The 24-bit functions work on the three channels separately. -/

/-- Read channel `t` of pixel column `c`. -/
theorem read24 {b : Bytes} {W H : Nat} (h : Valid b W H 24) {c ya yb : Nat} (t : Nat) (ht : t < 3)
    (hfit : 3 * c + 3 ≤ rowLen W 24) (hy : ya ≤ yb) (hH : yb < H) {s e : Int}
    (hs : s = (cell W H 24 yb (3 * c) : Int) + (t : Int))
    (he : e = (cell W H 24 ya (3 * c) : Int) + (rowLen W 24 : Int) - (2 - (t : Int))) :
    sliceStep b s e (rowLen W 24) = .ok (column b W H 24 ya yb (3 * c + t)) := by
  apply column_read h hy hH (by omega) (s := s) (e := e) (eN := cell W H 24 ya (3 * c) + rowLen W 24 - (2 - t))
  · rw [hs, ← cell_add]; push_cast; rfl
  · rw [he]; omega
  · rw [← cell_add]; omega
  · rw [← cell_add]; omega

theorem write24 {b : Bytes} {W H : Nat} (h : Valid b W H 24) {c ya yb : Nat} (t : Nat) (ht : t < 3)
    (hfit : 3 * c + 3 ≤ rowLen W 24) (hy : ya ≤ yb) (hH : yb < H) {s e : Int}
    (hs : s = (cell W H 24 yb (3 * c) : Int) + (t : Int))
    (he : e = (cell W H 24 ya (3 * c) : Int) + (rowLen W 24 : Int) - (2 - (t : Int)))
    {b0 : Bytes} (h0 : Valid b0 W H 24) (j0 : Nat) :
    ∃ b', setSliceStep b s e (rowLen W 24) (column b0 W H 24 ya yb j0) = .ok b' ∧
      Grid b b' W H 24 (fun y j => if j = 3 * c + t ∧ ya ≤ y ∧ y ≤ yb then byte b0 (cell W H 24 y j0)
        else byte b (cell W H 24 y j)) := by
  obtain ⟨b', e1, g1⟩ := column_write h hy hH (j := 3 * c + t) (by omega) (s := s) (e := e)
    (by rw [hs, ← cell_add]; push_cast; rfl) (by omega)
    (eN := cell W H 24 ya (3 * c) + rowLen W 24 - (2 - t)) (by rw [he]; omega)
    (by rw [← cell_add]; omega) (by rw [← cell_add]; omega) (length_column (b := b0) (W := W) (H := H) (bits := 24) ya yb j0)
    (column_bytes h0 _ _ _)
  refine ⟨b', e1, g1.congr ?_⟩
  intro y j _ _
  by_cases c : j = 3 * c + t ∧ ya ≤ y ∧ y ≤ yb
  · rw [if_pos c, if_pos c, byte_column c.2.1 c.2.2]
  · rw [if_neg c, if_neg c]

theorem step_copy24 {W H : Nat} : StepOK hcopy24 .left W H 24 ∧ StepOK (swapArgs hcopy24) .right W H 24 := by
  have core : ∀ b c1 c2 ya yb, Valid b W H 24 → 3 * c1 + 3 ≤ rowLen W 24 → 3 * c2 + 3 ≤ rowLen W 24 →
      ya ≤ yb → yb < H →
      ∃ b', hcopy24 b (cell W H 24 yb (3 * c1) : Int) ((cell W H 24 ya (3 * c1) : Int) + (rowLen W 24 : Int))
          (cell W H 24 yb (3 * c2) : Int) ((cell W H 24 ya (3 * c2) : Int) + (rowLen W 24 : Int)) (rowLen W 24) = .ok b' ∧
        Grid b b' W H 24 (fun y j => if (ya ≤ y ∧ y ≤ yb) ∧ j / 3 = c2 then byte b (cell W H 24 y (3 * c1 + j % 3))
          else byte b (cell W H 24 y j)) := by
    intro b c1 c2 ya yb h f1 f2 hy hH
    unfold hcopy24
    rw [read24 h 0 (by omega) f1 hy hH (by simp) (by simp), read24 h 1 (by omega) f1 hy hH (by simp) (by push_cast; ring),
      read24 h 2 (by omega) f1 hy hH (by simp) (by push_cast; ring)]
    simp only [ok_bind]
    obtain ⟨b1, e1, g1⟩ := write24 h (c := c2) 0 (by omega) f2 hy hH (s := (cell W H 24 yb (3 * c2) : Int))
      (e := (cell W H 24 ya (3 * c2) : Int) + (rowLen W 24 : Int) - 2) (by simp) (by simp) h (3 * c1 + 0)
    rw [e1]; simp only [ok_bind]
    obtain ⟨b2, e2, g2⟩ := write24 g1.valid (c := c2) 1 (by omega) f2 hy hH (s := (cell W H 24 yb (3 * c2) : Int) + 1)
      (e := (cell W H 24 ya (3 * c2) : Int) + (rowLen W 24 : Int) - 1) (by simp) (by push_cast; ring) h (3 * c1 + 1)
    rw [e2]; simp only [ok_bind]
    obtain ⟨b3, e3, g3⟩ := write24 g2.valid (c := c2) 2 (by omega) f2 hy hH (s := (cell W H 24 yb (3 * c2) : Int) + 2)
      (e := (cell W H 24 ya (3 * c2) : Int) + (rowLen W 24 : Int)) (by simp) (by push_cast; ring) h (3 * c1 + 2)
    refine ⟨b3, e3, ((g1.trans g2).trans g3).congr ?_⟩
    intro y j hyH hj
    rw [g2.cells y j hyH hj, g1.cells y j hyH hj]
    have hj3 : j = 3 * (j / 3) + j % 3 := by omega
    have hm : j % 3 = 0 ∨ j % 3 = 1 ∨ j % 3 = 2 := by omega
    by_cases cy : ya ≤ y ∧ y ≤ yb
    · by_cases d : j / 3 = c2
      · rw [if_pos (c := (ya ≤ y ∧ y ≤ yb) ∧ j / 3 = c2) ⟨cy, d⟩]
        rcases hm with m | m | m <;> rw [m]
        · rw [if_neg (by omega), if_neg (by omega), if_pos (by omega)]
        · rw [if_neg (by omega), if_pos (by omega)]
        · rw [if_pos (by omega)]
      · rw [if_neg (by omega), if_neg (by omega), if_neg (by omega), if_neg (by omega)]
    · rw [if_neg (by omega), if_neg (by omega), if_neg (by omega), if_neg (by omega)]
  constructor
  · intro b c1 c2 ya yb h hc hfit hy hH
    obtain ⟨b', e, g⟩ := core b c1 c2 ya yb h (by simp [bpp] at hfit; omega) (by simp [bpp] at hfit; omega) hy hH
    refine ⟨b', e, g.congr ?_⟩
    intro y j _ _
    simp only [bpp, if_true, upd, decide_eq_true_eq, blockByte, show ¬ (24 = 4) by omega, show ¬ (24 = 1) by omega, if_false]
    by_cases d : (ya ≤ y ∧ y ≤ yb) ∧ j / 3 = c2
    · rw [if_pos d, if_pos (by omega), d.2, show c1 + c2 - c2 = c1 by omega]
    · rw [if_neg d, if_neg (by omega)]
  · intro b c1 c2 ya yb h hc hfit hy hH
    obtain ⟨b', e, g⟩ := core b c2 c1 ya yb h (by simp [bpp] at hfit; omega) (by simp [bpp] at hfit; omega) hy hH
    refine ⟨b', e, g.congr ?_⟩
    intro y j _ _
    simp only [bpp, if_true, upd, decide_eq_true_eq, blockByte, show ¬ (24 = 4) by omega, show ¬ (24 = 1) by omega, if_false]
    by_cases d : (ya ≤ y ∧ y ≤ yb) ∧ j / 3 = c1
    · rw [if_pos d, if_pos (by omega), d.2, show c1 + c2 - c1 = c2 by omega]
    · rw [if_neg d, if_neg (by omega)]

theorem step_flip24 {W H : Nat} : StepOK hflip24 .flip W H 24 := by
  intro b c1 c2 ya yb h hc hfit hy hH
  simp only [bpp, if_true] at hfit ⊢
  have f1 : 3 * c1 + 3 ≤ rowLen W 24 := by omega
  have f2 : 3 * c2 + 3 ≤ rowLen W 24 := by omega
  unfold hflip24
  rw [read24 h 0 (by omega) f2 hy hH (by simp) (by simp), read24 h 0 (by omega) f1 hy hH (by simp) (by simp),
    read24 h 1 (by omega) f2 hy hH (by simp) (by push_cast; ring), read24 h 1 (by omega) f1 hy hH (by simp) (by push_cast; ring),
    read24 h 2 (by omega) f2 hy hH (by simp) (by push_cast; ring), read24 h 2 (by omega) f1 hy hH (by simp) (by push_cast; ring)]
  simp only [ok_bind]
  obtain ⟨b1, e1, g1⟩ := write24 h (c := c1) 0 (by omega) f1 hy hH (s := (cell W H 24 yb (3 * c1) : Int))
    (e := (cell W H 24 ya (3 * c1) : Int) + (rowLen W 24 : Int) - 2) (by simp) (by simp) h (3 * c2 + 0)
  rw [e1]; simp only [ok_bind]
  obtain ⟨b2, e2, g2⟩ := write24 g1.valid (c := c2) 0 (by omega) f2 hy hH (s := (cell W H 24 yb (3 * c2) : Int))
    (e := (cell W H 24 ya (3 * c2) : Int) + (rowLen W 24 : Int) - 2) (by simp) (by simp) h (3 * c1 + 0)
  rw [e2]; simp only [ok_bind]
  obtain ⟨b3, e3, g3⟩ := write24 g2.valid (c := c1) 1 (by omega) f1 hy hH (s := (cell W H 24 yb (3 * c1) : Int) + 1)
    (e := (cell W H 24 ya (3 * c1) : Int) + (rowLen W 24 : Int) - 1) (by simp) (by push_cast; ring) h (3 * c2 + 1)
  rw [e3]; simp only [ok_bind]
  obtain ⟨b4, e4, g4⟩ := write24 g3.valid (c := c2) 1 (by omega) f2 hy hH (s := (cell W H 24 yb (3 * c2) : Int) + 1)
    (e := (cell W H 24 ya (3 * c2) : Int) + (rowLen W 24 : Int) - 1) (by simp) (by push_cast; ring) h (3 * c1 + 1)
  rw [e4]; simp only [ok_bind]
  obtain ⟨b5, e5, g5⟩ := write24 g4.valid (c := c1) 2 (by omega) f1 hy hH (s := (cell W H 24 yb (3 * c1) : Int) + 2)
    (e := (cell W H 24 ya (3 * c1) : Int) + (rowLen W 24 : Int)) (by simp) (by push_cast; ring) h (3 * c2 + 2)
  rw [e5]; simp only [ok_bind]
  obtain ⟨b6, e6, g6⟩ := write24 g5.valid (c := c2) 2 (by omega) f2 hy hH (s := (cell W H 24 yb (3 * c2) : Int) + 2)
    (e := (cell W H 24 ya (3 * c2) : Int) + (rowLen W 24 : Int)) (by simp) (by push_cast; ring) h (3 * c1 + 2)
  refine ⟨b6, e6, (((((g1.trans g2).trans g3).trans g4).trans g5).trans g6).congr ?_⟩
  intro y j hyH hj
  simp only [upd, blockByte, show ¬ (24 = 4) by omega, show ¬ (24 = 1) by omega, if_false, and_true]
  rw [g5.cells y j hyH hj, g4.cells y j hyH hj, g3.cells y j hyH hj, g2.cells y j hyH hj, g1.cells y j hyH hj]
  have hm : j % 3 = 0 ∨ j % 3 = 1 ∨ j % 3 = 2 := by omega
  by_cases cy : ya ≤ y ∧ y ≤ yb
  · by_cases d2 : j / 3 = c2
    · rw [if_pos (c := (ya ≤ y ∧ y ≤ yb) ∧ (j / 3 = c1 ∨ j / 3 = c2)) ⟨cy, Or.inr d2⟩, d2,
        show c1 + c2 - c2 = c1 by omega]
      rcases hm with m | m | m <;> rw [m]
      · rw [if_neg (by omega), if_neg (by omega), if_neg (by omega), if_neg (by omega), if_pos (by omega)]
      · rw [if_neg (by omega), if_neg (by omega), if_pos (by omega)]
      · rw [if_pos (by omega)]
    · by_cases d1 : j / 3 = c1
      · rw [if_pos (c := (ya ≤ y ∧ y ≤ yb) ∧ (j / 3 = c1 ∨ j / 3 = c2)) ⟨cy, Or.inl d1⟩, d1,
          show c1 + c2 - c1 = c2 by omega]
        rcases hm with m | m | m <;> rw [m]
        · rw [if_neg (by omega), if_neg (by omega), if_neg (by omega), if_neg (by omega), if_neg (by omega),
            if_pos (by omega)]
        · rw [if_neg (by omega), if_neg (by omega), if_neg (by omega), if_pos (by omega)]
        · rw [if_neg (by omega), if_pos (by omega)]
      · iterate 7 rw [if_neg (by omega)]
  · iterate 7 rw [if_neg (by omega)]

/-- Effect of the whole loop on the bytes. -/
def hres (b : Bytes) (W H bits : Nat) (k : HKind) (ya yb c1 c2 y j : Nat) : Nat :=
  if (ya ≤ y ∧ y ≤ yb) ∧ (c1 ≤ j / bpp bits ∧ j / bpp bits ≤ c2) ∧ upd k (c1 + c2) (j / bpp bits) = true
  then blockByte bits (byte b (cell W H bits y (bpp bits * (c1 + c2 - j / bpp bits) + j % bpp bits)))
  else byte b (cell W H bits y j)

theorem bpp_pos (bits : Nat) : 0 < bpp bits := by unfold bpp; split_ifs <;> omega

theorem block_divmod (bits q j : Nat) :
    (bpp bits * q + j % bpp bits) / bpp bits = q ∧ (bpp bits * q + j % bpp bits) % bpp bits = j % bpp bits := by
  have hp := bpp_pos bits
  have hm := Nat.mod_lt j hp
  constructor
  · rw [Nat.mul_add_div hp, Nat.div_eq_of_lt hm]; omega
  · rw [Nat.mul_add_mod, Nat.mod_mod]

theorem block_join (bits j : Nat) : bpp bits * (j / bpp bits) + j % bpp bits = j := Nat.div_add_mod _ _

/-- A block inside the row. -/
theorem block_lt {W bits c2 q j : Nat} (hfit : bpp bits * c2 + bpp bits ≤ rowLen W bits) (hq : q ≤ c2) :
    bpp bits * q + j % bpp bits < rowLen W bits := by
  have := Nat.mod_lt j (bpp_pos bits)
  have := Nat.mul_le_mul_left (bpp bits) hq
  omega

theorem upd_trivial {k : HKind} {s c : Nat} (h : s - c = c) : upd k s c = true := by
  cases k <;> simp [upd] <;> omega

theorem dx_facts {bits : Nat} (hd : Depth bits) :
    (dxOf bits = 1 ∧ (∀ v, blockByte bits v = v)) ∨ 2 ≤ dxOf bits := by
  rcases hd with rfl | rfl | rfl | rfl
  · right; simp [dxOf]
  · right; simp [dxOf]
  · left; simp [dxOf, blockByte]
  · left; simp [dxOf, blockByte]

theorem block_addr {bits : Nat} (hd : Depth bits) (W H c y : Nat) :
    addr W H bits (dxOf bits * c) y = cell W H bits y (bpp bits * c) ∧
    addr W H bits (dxOf bits * c + dxOf bits - 1) y = cell W H bits y (bpp bits * c) := by
  rw [addr_cell, addr_cell]
  rcases hd with rfl | rfl | rfl | rfl <;> refine ⟨congrArg _ ?_, congrArg _ ?_⟩ <;> simp [dxOf, bpp] <;> omega

theorem hswapLoop_grid {W H bits : Nat} {fn : SwapFn} {k : HKind} (hs : StepOK fn k W H bits)
    {ya yb : Nat} (hy : ya ≤ yb) (hH : yb < H) (n : Nat) : ∀ {b : Bytes} {c1 c2 : Nat}, Valid b W H bits →
    c1 ≤ c2 → bpp bits * c2 + bpp bits ≤ rowLen W bits → dxOf bits * c2 + dxOf bits - 1 ≤ n + dxOf bits * c1 →
    ∃ b', hswapLoop fn (dxOf bits : Int) (ya : Int) (yb : Int) (rowLen W bits : Int) n b
        ((dxOf bits * c1 : Nat) : Int) ((dxOf bits * c2 + dxOf bits - 1 : Nat) : Int) = .ok b' ∧
      Grid b b' W H bits (hres b W H bits k ya yb c1 c2) := by
  have hpos : 0 < dxOf bits := by unfold dxOf; split_ifs <;> omega
  have hstay : ∀ {b : Bytes} {c1 c2 : Nat}, Valid b W H bits → c1 = c2 → dxOf bits = 1 →
      Grid b b W H bits (hres b W H bits k ya yb c1 c2) := by
    intro b c1 c2 h e hd1
    subst e
    have hb : ∀ v, blockByte bits v = v := by
      rcases dx_facts h.depth with ⟨_, e⟩ | e
      · exact e
      · omega
    apply (Grid.refl h).congr
    intro y j _ _
    unfold hres
    split_ifs with c
    · rw [hb, show c1 + c1 - j / bpp bits = j / bpp bits by omega, block_join]
    · rfl
  induction n with
  | zero =>
    intro b c1 c2 h hc hfit hn
    have hm := Nat.mul_le_mul_left (dxOf bits) hc
    have hd1 : dxOf bits = 1 := by omega
    refine ⟨b, rfl, hstay h ?_ hd1⟩
    rw [hd1] at hn; omega
  | succ n ih =>
    intro b c1 c2 h hc hfit hn
    have hm := Nat.mul_le_mul_left (dxOf bits) hc
    rw [hswapLoop]
    by_cases hlt : dxOf bits * c1 < dxOf bits * c2 + dxOf bits - 1
    · rw [if_pos (by omega)]
      obtain ⟨a1, _⟩ := block_addr h.depth W H c1 yb
      obtain ⟨a2, _⟩ := block_addr h.depth W H c1 ya
      obtain ⟨_, a3⟩ := block_addr h.depth W H c2 yb
      obtain ⟨_, a4⟩ := block_addr h.depth W H c2 ya
      rw [h.BMoffsethd_eq _ yb hH, h.BMoffsethd_eq _ ya (by omega), h.BMoffsethd_eq _ yb hH,
        h.BMoffsethd_eq _ ya (by omega), a1, a2, a3, a4]
      simp only [ok_bind]
      obtain ⟨b1, e1, g1⟩ := hs b c1 c2 ya yb h hc hfit hy hH
      rw [Int.toNat_natCast, e1]
      simp only [ok_bind]
      by_cases hin : c1 + 1 ≤ c2 - 1
      · have x1 : ((dxOf bits * c1 : Nat) : Int) + (dxOf bits : Int) = ((dxOf bits * (c1 + 1) : Nat) : Int) := by
          push_cast; ring
        have x2 : ((dxOf bits * c2 + dxOf bits - 1 : Nat) : Int) - (dxOf bits : Int)
            = ((dxOf bits * (c2 - 1) + dxOf bits - 1 : Nat) : Int) := by
          have : dxOf bits * c2 = dxOf bits * (c2 - 1) + dxOf bits := by
            conv_lhs => rw [show c2 = (c2 - 1) + 1 by omega]
            ring
          omega
        rw [x1, x2]
        have hfit' : bpp bits * (c2 - 1) + bpp bits ≤ rowLen W bits := by
          have := Nat.mul_le_mul_left (bpp bits) (show c2 - 1 ≤ c2 by omega)
          omega
        obtain ⟨b2, e2, g2⟩ := ih g1.valid hin hfit' (by
          have e3 : dxOf bits * c2 = dxOf bits * (c2 - 1) + dxOf bits := by
            conv_lhs => rw [show c2 = (c2 - 1) + 1 by omega]
            ring
          have e4 : dxOf bits * (c1 + 1) = dxOf bits * c1 + dxOf bits := by ring
          omega)
        refine ⟨b2, e2, (g1.trans g2).congr ?_⟩
        intro y j hyH hj
        unfold hres
        have hsum : c1 + 1 + (c2 - 1) = c1 + c2 := by omega
        rw [hsum]
        by_cases cy : ya ≤ y ∧ y ≤ yb
        · by_cases ci : c1 + 1 ≤ j / bpp bits ∧ j / bpp bits ≤ c2 - 1
          · by_cases cu : upd k (c1 + c2) (j / bpp bits) = true
            · rw [if_pos ⟨cy, ci, cu⟩, if_pos ⟨cy, by omega, cu⟩]
              obtain ⟨d1, d2⟩ := block_divmod bits (c1 + c2 - j / bpp bits) j
              rw [g1.cells _ _ hyH (block_lt hfit (by omega)), d1, if_neg (by omega)]
            · rw [if_neg (by tauto), if_neg (by tauto), g1.cells _ _ hyH hj, if_neg (by tauto)]
          · rw [if_neg (by tauto), g1.cells _ _ hyH hj]
            by_cases cb : j / bpp bits = c1 ∨ j / bpp bits = c2
            · by_cases cu : upd k (c1 + c2) (j / bpp bits) = true
              · rw [if_pos ⟨cy, cb, cu⟩, if_pos ⟨cy, by omega, cu⟩]
              · rw [if_neg (by tauto), if_neg (by tauto)]
            · rw [if_neg (by tauto), if_neg (by omega)]
        · rw [if_neg (by tauto), if_neg (by tauto), g1.cells _ _ hyH hj, if_neg (by tauto)]
      · refine ⟨b1, ?_, g1.congr ?_⟩
        · cases n with
          | zero => rfl
          | succ n =>
            rw [hswapLoop, if_neg]
            · rfl
            · have : dxOf bits * c2 ≤ dxOf bits * (c1 + 1) := Nat.mul_le_mul_left _ (by omega)
              have e4 : dxOf bits * (c1 + 1) = dxOf bits * c1 + dxOf bits := by ring
              omega
        · intro y j hyH hj
          unfold hres
          have : (c1 ≤ j / bpp bits ∧ j / bpp bits ≤ c2) ↔ (j / bpp bits = c1 ∨ j / bpp bits = c2) := by omega
          simp only [this]
    · rw [if_neg (by omega)]
      have hcc : c1 = c2 ∧ dxOf bits = 1 := by
        rcases Nat.lt_or_ge c1 c2 with c | c
        · have : dxOf bits * (c1 + 1) ≤ dxOf bits * c2 := Nat.mul_le_mul_left _ c
          have e4 : dxOf bits * (c1 + 1) = dxOf bits * c1 + dxOf bits := by ring
          omega
        · have : c1 = c2 := by omega
          subst this
          omega
      exact ⟨b, rfl, hstay h hcc.1 hcc.2⟩

/-- The pixel range `xa..xb` consists of whole bytes. Always true in 8- and 24-bit images. -/
def Aligned (bits xa xb : Nat) : Prop := xa * bits % 8 = 0 ∧ (xb + 1) * bits % 8 = 0

theorem aligned_blocks {bits xa xb : Nat} (hd : Depth bits) (ha : Aligned bits xa xb) (hle : xa ≤ xb) :
    ∃ c1 c2, xa = dxOf bits * c1 ∧ xb = dxOf bits * c2 + dxOf bits - 1 ∧ c1 ≤ c2 := by
  obtain ⟨h1, h2⟩ := ha
  rcases hd with rfl | rfl | rfl | rfl
  · refine ⟨xa / 8, xb / 8, ?_, ?_, ?_⟩ <;> (try simp only [dxOf]) <;> (try norm_num) <;> omega
  · refine ⟨xa / 2, xb / 2, ?_, ?_, ?_⟩ <;> (try simp only [dxOf]) <;> (try norm_num) <;> omega
  · refine ⟨xa, xb, ?_, ?_, ?_⟩ <;> (try simp only [dxOf]) <;> (try norm_num) <;> omega
  · refine ⟨xa, xb, ?_, ?_, ?_⟩ <;> (try simp only [dxOf]) <;> (try norm_num) <;> omega

theorem swapif_nat (a b : Int) : swapif a b (decide (a > b)) = (min a b, max a b) := by
  unfold swapif
  by_cases c : a > b
  · simp [c]; omega
  · simp [c]; omega

/-- `horizontalbulkswap` on a rectangle of whole bytes. -/
theorem bulkswap_grid {b : Bytes} {W H bits : Nat} (h : Valid b W H bits) {fn : SwapFn} {k : HKind}
    (hs : StepOK fn k W H bits) {x1 y1 x2 y2 : Int} {xa xb ya yb : Nat}
    (hxa : (xa : Int) = min x1 x2) (hxb : (xb : Int) = max x1 x2) (hya : (ya : Int) = min y1 y2)
    (hyb : (yb : Int) = max y1 y2) (hW : xb < W) (hH : yb < H) {c1 c2 : Nat} (hc1 : xa = dxOf bits * c1)
    (hc2 : xb = dxOf bits * c2 + dxOf bits - 1) (hc : c1 ≤ c2) :
    ∃ b', horizontalbulkswap b x1 y1 x2 y2 fn = .ok b' ∧
      Grid b b' W H bits (hres b W H bits k ya yb c1 c2) := by
  unfold horizontalbulkswap
  rw [rect_guard h, if_pos (by omega), h.bits_eq, h.xchrcnt_eq]
  simp only [ok_bind]
  rw [swapif_nat, swapif_nat, ← hya, ← hyb, ← hxa, ← hxb]
  have hdx : (if bits = 24 then pure 1 else if bits = 8 then pure 1 else if bits = 4 then pure 2
      else if bits = 1 then pure 8 else .error .keyError : Py Int) = .ok (dxOf bits : Int) := by
    rcases h.depth with rfl | rfl | rfl | rfl <;> simp [dxOf]
  rw [hdx]
  simp only [ok_bind]
  have hfit : bpp bits * c2 + bpp bits ≤ rowLen W bits := by
    have := xcell_lt h.depth hW
    have e := (block_addr h.depth W H c2 0).2
    rw [← hc2, addr_cell] at e
    unfold cell at e
    omega
  obtain ⟨b', e, g⟩ := hswapLoop_grid hs (ya := ya) (yb := yb) (by omega) hH ((xb : Int) - (xa : Int)).toNat h hc hfit
    (by rw [← hc1, ← hc2]; omega)
  rw [← hc1, ← hc2] at e
  exact ⟨b', e, g⟩

theorem rotatebits_bit : ∀ v, v < 256 → ∀ i, i < 8 →
    rotatebits v / 2 ^ i % 2 = if i = 7 then 0 else v / 2 ^ (7 - i) % 2 := by decide +kernel

/-- In the pixels: every written pixel is the one at the mirrored position, but in one-bit images
the first pixel of each written byte becomes 0. -/
theorem hres_pix {b b' : Bytes} {W H bits : Nat} (h : Valid b W H bits) {k : HKind} {ya yb c1 c2 : Nat}
    (g : Grid b b' W H bits (hres b W H bits k ya yb c1 c2)) {x y : Nat} (hx : x < W) (hy : y < H)
    (hfit : bpp bits * c2 + bpp bits ≤ rowLen W bits) :
    pix b' W H bits x y =
      if (ya ≤ y ∧ y ≤ yb) ∧ (dxOf bits * c1 ≤ x ∧ x ≤ dxOf bits * c2 + dxOf bits - 1) ∧
          upd k (c1 + c2) (x / dxOf bits) = true
      then if bits = 1 ∧ x % 8 = 0 then 0
        else pix b W H bits (dxOf bits * c1 + (dxOf bits * c2 + dxOf bits - 1) - x) y
      else pix b W H bits x y := by
  have hxc := xcell_lt h.depth hx
  rcases h.depth with rfl | rfl | rfl | rfl
  · -- 1 bit
    rw [pix_cell, if_neg (by omega)]
    simp only [bpp, dxOf] at hfit hxc ⊢
    norm_num at hfit hxc ⊢
    rw [g.cells y (x / 8) hy (by omega)]
    unfold hres
    simp only [bpp]
    norm_num [Nat.mod_one]
    have e1 : (c1 ≤ x / 8 ∧ x / 8 ≤ c2) ↔ (8 * c1 ≤ x ∧ x ≤ 8 * c2 + 7) := by omega
    simp only [e1]
    by_cases c : (ya ≤ y ∧ y ≤ yb) ∧ (8 * c1 ≤ x ∧ x ≤ 8 * c2 + 7) ∧ upd k (c1 + c2) (x / 8) = true
    · rw [if_pos c, if_pos c]
      have hv : byte b (cell W H 1 y (c1 + c2 - x / 8)) < 256 := byte_lt_of_mem h.bytes _
      rw [show blockByte 1 (byte b (cell W H 1 y (c1 + c2 - x / 8))) =
        rotatebits (byte b (cell W H 1 y (c1 + c2 - x / 8))) by simp [blockByte]]
      rw [show shiftOf 1 x = 7 - x % 8 by simp [shiftOf], rotatebits_bit _ hv _ (by omega)]
      by_cases c0 : x % 8 = 0
      · rw [if_pos (by omega), if_pos c0]
      · rw [if_neg (by omega), if_neg c0, pix_cell, if_neg (by omega)]
        rw [show (8 * c1 + (8 * c2 + 7) - x) * 1 / 8 = c1 + c2 - x / 8 by omega,
          show shiftOf 1 (8 * c1 + (8 * c2 + 7) - x) = 7 - (7 - x % 8) by simp only [shiftOf]; omega,
          pow_one]
    · rw [if_neg c, if_neg c, pix_cell, if_neg (by omega)]
      norm_num
  · -- 4 bits
    rw [pix_cell, if_neg (by omega)]
    simp only [bpp, dxOf] at hfit hxc ⊢
    norm_num at hfit hxc ⊢
    rw [g.cells y (x * 4 / 8) hy (by omega)]
    unfold hres
    simp only [bpp]
    norm_num [Nat.mod_one]
    rw [show x * 4 / 8 = x / 2 by omega]
    have e1 : (c1 ≤ x / 2 ∧ x / 2 ≤ c2) ↔ (2 * c1 ≤ x ∧ x ≤ 2 * c2 + 1) := by omega
    simp only [e1]
    by_cases c : (ya ≤ y ∧ y ≤ yb) ∧ (2 * c1 ≤ x ∧ x ≤ 2 * c2 + 1) ∧ upd k (c1 + c2) (x / 2) = true
    · rw [if_pos c, if_pos c]
      have hv : byte b (cell W H 4 y (c1 + c2 - x / 2)) < 256 := byte_lt_of_mem h.bytes _
      simp only [blockByte, if_true]
      rw [pix_cell, if_neg (by omega)]
      rw [show (2 * c1 + (2 * c2 + 1) - x) * 4 / 8 = c1 + c2 - x / 2 by omega]
      generalize byte b (cell W H 4 y (c1 + c2 - x / 2)) = v at hv
      rcases Nat.mod_two_eq_zero_or_one x with p | p
      · rw [show shiftOf 4 x = 4 by simp only [shiftOf]; omega,
          show shiftOf 4 (2 * c1 + (2 * c2 + 1) - x) = 0 by simp only [shiftOf]; omega]
        have q : (v / 16 + v % 16 * 16) / 2 ^ 4 = v % 16 := by omega
        rw [q]; omega
      · rw [show shiftOf 4 x = 0 by simp only [shiftOf]; omega,
          show shiftOf 4 (2 * c1 + (2 * c2 + 1) - x) = 4 by simp only [shiftOf]; omega]
        omega
    · rw [if_neg c, if_neg c, pix_cell, if_neg (by omega)]
      norm_num
      rw [show x * 4 / 8 = x / 2 by omega]
  · -- 8 bits
    rw [pix_cell, if_neg (by omega)]
    simp only [bpp, dxOf] at hfit hxc ⊢
    norm_num at hfit hxc ⊢
    rw [g.cells y x hy (by omega)]
    unfold hres
    simp only [bpp]
    norm_num [Nat.mod_one]
    by_cases c : (ya ≤ y ∧ y ≤ yb) ∧ (c1 ≤ x ∧ x ≤ c2) ∧ upd k (c1 + c2) x = true
    · rw [if_pos c, if_pos c, pix_cell, if_neg (by omega)]
      simp [blockByte, shiftOf]
    · rw [if_neg c, if_neg c, pix_cell, if_neg (by omega)]
      simp [shiftOf]
  · -- 24 bits
    simp only [bpp, dxOf] at hfit hxc ⊢
    norm_num at hfit hxc ⊢
    rw [pix_cell, if_pos rfl, pix_cell, if_pos rfl, pix_cell, if_pos rfl]
    rw [g.cells y (3 * x) hy (by omega), g.cells y (3 * x + 1) hy (by omega), g.cells y (3 * x + 2) hy (by omega)]
    unfold hres
    simp only [bpp]
    norm_num [Nat.mod_one]
    rw [show (3 * x + 1) / 3 = x by omega, show (3 * x + 2) / 3 = x by omega]
    by_cases c : (ya ≤ y ∧ y ≤ yb) ∧ (c1 ≤ x ∧ x ≤ c2) ∧ upd k (c1 + c2) x = true
    · simp only [if_pos c]
      simp [blockByte]
    · simp only [if_neg c]

theorem flip_fn {W H bits : Nat} (hd : Depth bits) (hW : 0 < W) :
    ∃ fn, pickSwap bits hflip24 hflipF = .ok fn ∧ StepOK fn .flip W H bits := by
  rcases hd with rfl | rfl | rfl | rfl
  · exact ⟨_, rfl, step_flipF rfl mapOK_1 hW⟩
  · exact ⟨_, rfl, step_flipF rfl mapOK_4 hW⟩
  · exact ⟨_, rfl, step_flipF rfl mapOK_8 hW⟩
  · exact ⟨_, rfl, step_flip24⟩

theorem copy_fn {W H bits : Nat} (hd : Depth bits) (hW : 0 < W) :
    ∃ fn, pickSwap bits hcopy24 hcopyF = .ok fn ∧ StepOK fn .left W H bits ∧
      StepOK (swapArgs fn) .right W H bits := by
  rcases hd with rfl | rfl | rfl | rfl
  · exact ⟨_, rfl, step_copyF rfl mapOK_1 hW⟩
  · exact ⟨_, rfl, step_copyF rfl mapOK_4 hW⟩
  · exact ⟨_, rfl, step_copyF rfl mapOK_8 hW⟩
  · exact ⟨_, rfl, step_copy24⟩

/-- The three region functions by kind. -/
def hregion (k : HKind) (b : Bytes) (x1 y1 x2 y2 : Int) : Py Bytes :=
  match k with
  | .flip => fliphorizontalregion b x1 y1 x2 y2
  | .left => mirrorleftinregion b x1 y1 x2 y2
  | .right => mirrorrightinregion b x1 y1 x2 y2

theorem hregion_eq {b : Bytes} {W H bits : Nat} (h : Valid b W H bits) (k : HKind) (hW : 0 < W) :
    ∃ fn, (∀ x1 y1 x2 y2, hregion k b x1 y1 x2 y2 = horizontalbulkswap b x1 y1 x2 y2 fn) ∧
      StepOK fn k W H bits := by
  cases k with
  | flip =>
    obtain ⟨fn, e, s⟩ := flip_fn (H := H) h.depth hW
    refine ⟨fn, fun x1 y1 x2 y2 => ?_, s⟩
    simp only [hregion, fliphorizontalregion, h.bits_eq, ok_bind, e]
  | left =>
    obtain ⟨fn, e, s, _⟩ := copy_fn (H := H) h.depth hW
    refine ⟨fn, fun x1 y1 x2 y2 => ?_, s⟩
    simp only [hregion, mirrorleftinregion, h.bits_eq, ok_bind, e]
  | right =>
    obtain ⟨fn, e, _, s⟩ := copy_fn (H := H) h.depth hW
    refine ⟨swapArgs fn, fun x1 y1 x2 y2 => ?_, s⟩
    simp only [hregion, mirrorrightinregion, h.bits_eq, ok_bind, e]

/-- A rectangle of whole bytes, in pixels. -/
theorem hregion_redraws {b : Bytes} {W H bits : Nat} (h : Valid b W H bits) (k : HKind) {x1 y1 x2 y2 : Int}
    {xa xb ya yb : Nat} (hxa : (xa : Int) = min x1 x2) (hxb : (xb : Int) = max x1 x2)
    (hya : (ya : Int) = min y1 y2) (hyb : (yb : Int) = max y1 y2) (hW : xb < W) (hH : yb < H)
    (ha : Aligned bits xa xb) :
    ∃ b', hregion k b x1 y1 x2 y2 = .ok b' ∧ Redraws b b' W H bits (fun x y =>
      if (ya ≤ y ∧ y ≤ yb) ∧ (xa ≤ x ∧ x ≤ xb) ∧
        upd k (xa / dxOf bits + xb / dxOf bits) (x / dxOf bits) = true
      then if bits = 1 ∧ x % 8 = 0 then 0 else pix b W H bits (xa + xb - x) y
      else pix b W H bits x y) := by
  obtain ⟨c1, c2, e1, e2, hc⟩ := aligned_blocks h.depth ha (by omega)
  obtain ⟨fn, e, s⟩ := hregion_eq h k (by omega)
  obtain ⟨b', e', g⟩ := bulkswap_grid h s hxa hxb hya hyb hW hH e1 e2 hc
  refine ⟨b', by rw [e, e'], g.valid, g.header, ?_⟩
  intro x y hx hy
  have hfit : bpp bits * c2 + bpp bits ≤ rowLen W bits := by
    have := xcell_lt h.depth hW
    have e := (block_addr h.depth W H c2 0).2
    rw [← e2, addr_cell] at e
    unfold cell at e
    omega
  rw [hres_pix h g hx hy hfit, ← e1, ← e2]
  have hpos : 0 < dxOf bits := by unfold dxOf; split_ifs <;> omega
  have q1 : xa / dxOf bits = c1 := by rw [e1, Nat.mul_div_cancel_left _ hpos]
  have q2 : xb / dxOf bits = c2 := by
    rw [e2, show dxOf bits * c2 + dxOf bits - 1 = dxOf bits * c2 + (dxOf bits - 1) by omega,
      Nat.mul_add_div hpos, Nat.div_eq_of_lt (by omega)]
    omega
  rw [q1, q2]

/-- Two well-formed files of the same geometry with the same header and pixels may differ in the
padding of their rows. In the case of whole bytes per row the horizontal functions leave it alone. -/
theorem hregion_cells {b : Bytes} {W H bits : Nat} (h : Valid b W H bits) (k : HKind) {x1 y1 x2 y2 : Int}
    {xa xb ya yb : Nat} (hxa : (xa : Int) = min x1 x2) (hxb : (xb : Int) = max x1 x2)
    (hya : (ya : Int) = min y1 y2) (hyb : (yb : Int) = max y1 y2) (hW : xb < W) (hH : yb < H)
    (ha : Aligned bits xa xb) :
    ∃ b' c1 c2, c1 ≤ c2 ∧ xa = dxOf bits * c1 ∧ xb = dxOf bits * c2 + dxOf bits - 1 ∧
      bpp bits * c2 + bpp bits ≤ rowLen W bits ∧
      hregion k b x1 y1 x2 y2 = .ok b' ∧ Grid b b' W H bits (hres b W H bits k ya yb c1 c2) := by
  obtain ⟨c1, c2, e1, e2, hc⟩ := aligned_blocks h.depth ha (by omega)
  obtain ⟨fn, e, s⟩ := hregion_eq h k (by omega)
  obtain ⟨b', e', g⟩ := bulkswap_grid h s hxa hxb hya hyb hW hH e1 e2 hc
  refine ⟨b', c1, c2, hc, e1, e2, ?_, by rw [e, e'], g⟩
  have := xcell_lt h.depth hW
  have e := (block_addr h.depth W H c2 0).2
  rw [← e2, addr_cell] at e
  unfold cell at e
  omega

theorem blockByte_twice {bits v : Nat} (hb : bits ≠ 1) (hv : v < 256) : blockByte bits (blockByte bits v) = v := by
  unfold blockByte
  rw [if_neg hb, if_neg hb]
  split_ifs <;> omega

/-- Flipping a region twice restores the file. -/
theorem hflip_undo {b b' b2 : Bytes} {W H bits ya yb c1 c2 : Nat} (h : Valid b W H bits) (hb : bits ≠ 1)
    (hfit : bpp bits * c2 + bpp bits ≤ rowLen W bits)
    (g : Grid b b' W H bits (hres b W H bits .flip ya yb c1 c2))
    (g2 : Grid b' b2 W H bits (hres b' W H bits .flip ya yb c1 c2)) : b2 = b := by
  apply Grid.undo h g g2
  intro y j hy hj
  unfold hres
  by_cases c : (ya ≤ y ∧ y ≤ yb) ∧ (c1 ≤ j / bpp bits ∧ j / bpp bits ≤ c2) ∧
      upd .flip (c1 + c2) (j / bpp bits) = true
  · rw [if_pos c, g.cells _ _ hy (block_lt hfit (by omega))]
    unfold hres
    obtain ⟨d1, d2⟩ := block_divmod bits (c1 + c2 - j / bpp bits) j
    rw [d1, d2, if_pos ⟨c.1, by omega, rfl⟩, blockByte_twice hb (byte_lt_of_mem h.bytes _),
      show c1 + c2 - (c1 + c2 - j / bpp bits) = j / bpp bits by omega, block_join]
  · rw [if_neg c, g.cells _ _ hy hj]
    unfold hres
    rw [if_neg c]

/-- Repeating a mirror changes nothing more. -/
theorem hmirror_idem {b b' b2 : Bytes} {W H bits ya yb c1 c2 : Nat} (k : HKind) (hk : k ≠ .flip)
    (h : Valid b W H bits) (hodd : (c1 + c2) % 2 = 1 ∨ dxOf bits = 1)
    (hfit : bpp bits * c2 + bpp bits ≤ rowLen W bits)
    (g : Grid b b' W H bits (hres b W H bits k ya yb c1 c2))
    (g2 : Grid b' b2 W H bits (hres b' W H bits k ya yb c1 c2)) : b2 = b' := by
  apply grid_ext g.valid g2.header
  intro y j hy hj
  rw [g2.cells _ _ hy hj]
  unfold hres
  by_cases c : (ya ≤ y ∧ y ≤ yb) ∧ (c1 ≤ j / bpp bits ∧ j / bpp bits ≤ c2) ∧
      upd k (c1 + c2) (j / bpp bits) = true
  · rw [if_pos c, g.cells _ _ hy (block_lt hfit (by omega)), g.cells _ _ hy hj]
    unfold hres
    obtain ⟨d1, d2⟩ := block_divmod bits (c1 + c2 - j / bpp bits) j
    rw [d1, d2, if_pos c]
    by_cases c2' : c1 + c2 - j / bpp bits = j / bpp bits
    · have hb : ∀ v, blockByte bits v = v := by
        rcases dx_facts h.depth with ⟨_, e⟩ | e
        · exact e
        · omega
      simp only [hb]
      rw [c2', if_pos c, c2', block_join]
    · rw [if_neg]
      rintro ⟨_, _, u⟩
      cases k <;> simp [upd] at u c hk <;> omega
  · rw [if_neg c]

/-- Rectangles that a horizontal flip handles correctly: all in 8- and 24-bit images, whole bytes
in 4-bit images. -/
def FlipOK (bits : Nat) (x1 x2 : Int) : Prop :=
  bits = 8 ∨ bits = 24 ∨ (bits = 4 ∧ min x1 x2 % 2 = 0 ∧ max x1 x2 % 2 = 1)

/-- Rectangles that a horizontal mirror handles correctly: all in 8- and 24-bit images, an even
number of whole bytes in 4-bit images. -/
def MirrorOK (bits : Nat) (x1 x2 : Int) : Prop :=
  bits = 8 ∨ bits = 24 ∨ (bits = 4 ∧ min x1 x2 % 2 = 0 ∧ (max x1 x2 - min x1 x2 + 1) % 4 = 0)

theorem MirrorOK.flipOK {bits : Nat} {x1 x2 : Int} (h : MirrorOK bits x1 x2) : FlipOK bits x1 x2 := by
  unfold MirrorOK at h; unfold FlipOK; omega

theorem FlipOK.aligned {bits : Nat} {x1 x2 : Int} (h : FlipOK bits x1 x2) {xa xb : Nat}
    (hxa : (xa : Int) = min x1 x2) (hxb : (xb : Int) = max x1 x2) : Aligned bits xa xb := by
  rcases h with rfl | rfl | ⟨rfl, h1, h2⟩ <;> constructor <;> omega

theorem FlipOK.ne_one {bits : Nat} {x1 x2 : Int} (h : FlipOK bits x1 x2) : bits ≠ 1 := by
  unfold FlipOK at h; omega

/-- Column from which a pixel of the rectangle is taken. -/
def hsrc (k : HKind) (x1 x2 : Int) (x : Nat) : Nat :=
  match k with
  | .flip => (x1 + x2 - x).toNat
  | .left => (min (x : Int) (x1 + x2 - x)).toNat
  | .right => (max (x : Int) (x1 + x2 - x)).toNat

theorem corners {W H : Nat} {x1 y1 x2 y2 : Int} (hi : InImage W H x1 y1 x2 y2) :
    ∃ xa xb ya yb : Nat, (xa : Int) = min x1 x2 ∧ (xb : Int) = max x1 x2 ∧ (ya : Int) = min y1 y2 ∧
      (yb : Int) = max y1 y2 ∧ xb < W ∧ yb < H := by
  unfold InImage at hi
  exact ⟨(min x1 x2).toNat, (max x1 x2).toNat, (min y1 y2).toNat, (max y1 y2).toNat, by omega, by omega,
    by omega, by omega, by omega, by omega⟩

theorem hregion_pixels {b : Bytes} {W H bits : Nat} (h : Valid b W H bits) (k : HKind) {x1 y1 x2 y2 : Int}
    (hi : InImage W H x1 y1 x2 y2) (hok : FlipOK bits x1 x2) (hm : k = .flip ∨ MirrorOK bits x1 x2) :
    ∃ b', hregion k b x1 y1 x2 y2 = .ok b' ∧ Redraws b b' W H bits (fun x y =>
      if inRect x1 y1 x2 y2 x y then pix b W H bits (hsrc k x1 x2 x) y else pix b W H bits x y) := by
  obtain ⟨xa, xb, ya, yb, hxa, hxb, hya, hyb, hW, hH⟩ := corners hi
  obtain ⟨b', e, r⟩ := hregion_redraws h k hxa hxb hya hyb hW hH (hok.aligned hxa hxb)
  refine ⟨b', e, r.valid, r.header, ?_⟩
  intro x y hx hy
  rw [r.pixels x y hx hy]
  have hne := hok.ne_one
  by_cases c : inRect x1 y1 x2 y2 x y = true
  · rw [if_pos c]
    unfold inRect at c
    rw [decide_eq_true_eq] at c
    have hcy : ya ≤ y ∧ y ≤ yb := by omega
    have hcx : xa ≤ x ∧ x ≤ xb := by omega
    have hsum : (xa : Int) + xb = x1 + x2 := by omega
    have key : upd k (xa / dxOf bits + xb / dxOf bits) (x / dxOf bits) = true ∧ xa + xb - x = hsrc k x1 x2 x ∨
        ¬ upd k (xa / dxOf bits + xb / dxOf bits) (x / dxOf bits) = true ∧ x = hsrc k x1 x2 x := by
      rcases hm with rfl | hm
      · left; refine ⟨rfl, ?_⟩; simp only [hsrc]; omega
      · rcases hm with rfl | rfl | ⟨rfl, m1, m2⟩
        · cases k <;> simp only [upd, hsrc, dxOf, decide_eq_true_eq] <;> norm_num <;> omega
        · cases k <;> simp only [upd, hsrc, dxOf, decide_eq_true_eq] <;> norm_num <;> omega
        · cases k <;> simp only [upd, hsrc, dxOf, decide_eq_true_eq] <;> norm_num <;> omega
    rcases key with ⟨u, ex⟩ | ⟨u, ex⟩
    · rw [if_pos ⟨hcy, hcx, u⟩, if_neg (by omega), ex]
    · rw [if_neg (by tauto), ← ex]
  · rw [if_neg c, if_neg]
    unfold inRect at c
    rw [decide_eq_true_eq] at c
    omega

/-- A region with a corner outside the image is rejected. -/
theorem hregion_outside {b : Bytes} {W H bits : Nat} (h : Valid b W H bits) (k : HKind) {x1 y1 x2 y2 : Int}
    (hi : ¬ InImage W H x1 y1 x2 y2) : hregion k b x1 y1 x2 y2 = .ok b := by
  have e : ∀ fn, horizontalbulkswap b x1 y1 x2 y2 fn = .ok b := by
    intro fn
    unfold horizontalbulkswap
    unfold InImage at hi
    rw [rect_guard h, if_neg hi]
  have p : ∀ f g, ∃ fn, pickSwap bits f g = .ok fn := by
    intro f g
    rcases h.depth with rfl | rfl | rfl | rfl <;> exact ⟨_, rfl⟩
  cases k with
  | flip =>
    obtain ⟨fn, ep⟩ := p hflip24 hflipF
    simp only [hregion, fliphorizontalregion, h.bits_eq, ok_bind, ep, e]
  | left =>
    obtain ⟨fn, ep⟩ := p hcopy24 hcopyF
    simp only [hregion, mirrorleftinregion, h.bits_eq, ok_bind, ep, e]
  | right =>
    obtain ⟨fn, ep⟩ := p hcopy24 hcopyF
    simp only [hregion, mirrorrightinregion, h.bits_eq, ok_bind, ep, e]

theorem hregion_undo {b b' : Bytes} {W H bits : Nat} (h : Valid b W H bits) {x1 y1 x2 y2 : Int}
    (hi : InImage W H x1 y1 x2 y2) (hok : FlipOK bits x1 x2) (e : hregion .flip b x1 y1 x2 y2 = .ok b') :
    hregion .flip b' x1 y1 x2 y2 = .ok b := by
  obtain ⟨xa, xb, ya, yb, hxa, hxb, hya, hyb, hW, hH⟩ := corners hi
  obtain ⟨b1, c1, c2, hc, p1, p2, hfit, e1, g1⟩ := hregion_cells h .flip hxa hxb hya hyb hW hH (hok.aligned hxa hxb)
  rw [e1] at e
  cases e
  obtain ⟨b2, d1, d2, hd, q1, q2, _, e2, g2⟩ :=
    hregion_cells g1.valid .flip hxa hxb hya hyb hW hH (hok.aligned hxa hxb)
  have hpos : 0 < dxOf bits := by unfold dxOf; split_ifs <;> omega
  have w1 : d1 = c1 := Nat.eq_of_mul_eq_mul_left hpos (by omega)
  have w2 : d2 = c2 := Nat.eq_of_mul_eq_mul_left hpos (by omega)
  subst w1; subst w2
  rw [e2, hflip_undo h hok.ne_one hfit g1 g2]

theorem hregion_idem {b b' : Bytes} {W H bits : Nat} (h : Valid b W H bits) {k : HKind} (hk : k ≠ .flip)
    {x1 y1 x2 y2 : Int} (hi : InImage W H x1 y1 x2 y2) (hok : MirrorOK bits x1 x2)
    (e : hregion k b x1 y1 x2 y2 = .ok b') : hregion k b' x1 y1 x2 y2 = .ok b' := by
  obtain ⟨xa, xb, ya, yb, hxa, hxb, hya, hyb, hW, hH⟩ := corners hi
  have hal := hok.flipOK.aligned hxa hxb
  obtain ⟨b1, c1, c2, hc, p1, p2, hfit, e1, g1⟩ := hregion_cells h k hxa hxb hya hyb hW hH hal
  rw [e1] at e
  cases e
  obtain ⟨b2, d1, d2, hd, q1, q2, _, e2, g2⟩ := hregion_cells g1.valid k hxa hxb hya hyb hW hH hal
  have hpos : 0 < dxOf bits := by unfold dxOf; split_ifs <;> omega
  have w1 : d1 = c1 := Nat.eq_of_mul_eq_mul_left hpos (by omega)
  have w2 : d2 = c2 := Nat.eq_of_mul_eq_mul_left hpos (by omega)
  subst w1; subst w2
  have hodd : (d1 + d2) % 2 = 1 ∨ dxOf bits = 1 := by
    rcases hok with rfl | rfl | ⟨rfl, m1, m2⟩
    · right; simp [dxOf]
    · right; simp [dxOf]
    · left
      simp only [dxOf, if_true] at p1 p2
      omega
  rw [e2, hmirror_idem k hk h hodd hfit g1 g2]

/-- C53 (the full claim is for every rectangle in every depth; missing are 1-bit images and 4-bit
rectangles that are not whole bytes, where it is false, see `C53_4bit_wrong`, `C53_1bit_wrong`):
`fliphorizontalregion` reflects exactly the rectangle and undoes itself. -/
theorem C53_fliphorizontalregion_partial {b : Bytes} {W H bits : Nat} (h : Valid b W H bits)
    {x1 y1 x2 y2 : Int} (hi : InImage W H x1 y1 x2 y2) (hok : FlipOK bits x1 x2) :
    ∃ b', fliphorizontalregion b x1 y1 x2 y2 = .ok b' ∧ Redraws b b' W H bits (fun x y =>
        if inRect x1 y1 x2 y2 x y then pix b W H bits (x1 + x2 - x).toNat y else pix b W H bits x y) ∧
      fliphorizontalregion b' x1 y1 x2 y2 = .ok b := by
  obtain ⟨b', e, r⟩ := hregion_pixels h .flip hi hok (Or.inl rfl)
  exact ⟨b', e, r, hregion_undo h hi hok e⟩

/-- C53: exact effect on whole bytes of a one-bit image. The pixels move as they should except that
the first pixel of every byte becomes 0. -/
theorem C53_fliphorizontalregion_1bit {b : Bytes} {W H : Nat} (h : Valid b W H 1)
    {x1 y1 x2 y2 : Int} (hi : InImage W H x1 y1 x2 y2) (h1 : min x1 x2 % 8 = 0) (h2 : max x1 x2 % 8 = 7) :
    ∃ b', fliphorizontalregion b x1 y1 x2 y2 = .ok b' ∧ Redraws b b' W H 1 (fun x y =>
        if inRect x1 y1 x2 y2 x y then if x % 8 = 0 then 0 else pix b W H 1 (x1 + x2 - x).toNat y
        else pix b W H 1 x y) := by
  obtain ⟨xa, xb, ya, yb, hxa, hxb, hya, hyb, hW, hH⟩ := corners hi
  obtain ⟨b', e, r⟩ := hregion_redraws h .flip hxa hxb hya hyb hW hH ⟨by omega, by omega⟩
  refine ⟨b', e, r.valid, r.header, ?_⟩
  intro x y hx hy
  rw [r.pixels x y hx hy]
  by_cases c : inRect x1 y1 x2 y2 x y = true
  · rw [if_pos c]
    unfold inRect at c
    rw [decide_eq_true_eq] at c
    rw [if_pos ⟨by omega, by omega, rfl⟩, show xa + xb - x = (x1 + x2 - x).toNat by omega]
    simp
  · rw [if_neg c, if_neg]
    unfold inRect at c
    rw [decide_eq_true_eq] at c
    omega

/-- C53: a corner outside the image: nothing happens, in every depth. -/
theorem C53_rejected {b : Bytes} {W H bits : Nat} (h : Valid b W H bits) {x1 y1 x2 y2 : Int}
    (hi : ¬ InImage W H x1 y1 x2 y2) :
    fliphorizontalregion b x1 y1 x2 y2 = .ok b ∧ mirrorleftinregion b x1 y1 x2 y2 = .ok b ∧
      mirrorrightinregion b x1 y1 x2 y2 = .ok b :=
  ⟨hregion_outside h .flip hi, hregion_outside h .left hi, hregion_outside h .right hi⟩

/-- C54 (full claim and exceptions as in C53, and the number of bytes per row must be even in 4-bit
images): the right half of the rectangle becomes the reflection of its left half. -/
theorem C54_mirrorleftinregion_partial {b : Bytes} {W H bits : Nat} (h : Valid b W H bits)
    {x1 y1 x2 y2 : Int} (hi : InImage W H x1 y1 x2 y2) (hok : MirrorOK bits x1 x2) :
    ∃ b', mirrorleftinregion b x1 y1 x2 y2 = .ok b' ∧ Redraws b b' W H bits (fun x y =>
        if inRect x1 y1 x2 y2 x y then pix b W H bits (min (x : Int) (x1 + x2 - x)).toNat y
        else pix b W H bits x y) ∧
      mirrorleftinregion b' x1 y1 x2 y2 = .ok b' := by
  obtain ⟨b', e, r⟩ := hregion_pixels h .left hi hok.flipOK (Or.inr hok)
  exact ⟨b', e, r, hregion_idem h (by simp) hi hok e⟩

/-- C54: the left half of the rectangle becomes the reflection of its right half. -/
theorem C54_mirrorrightinregion_partial {b : Bytes} {W H bits : Nat} (h : Valid b W H bits)
    {x1 y1 x2 y2 : Int} (hi : InImage W H x1 y1 x2 y2) (hok : MirrorOK bits x1 x2) :
    ∃ b', mirrorrightinregion b x1 y1 x2 y2 = .ok b' ∧ Redraws b b' W H bits (fun x y =>
        if inRect x1 y1 x2 y2 x y then pix b W H bits (max (x : Int) (x1 + x2 - x)).toNat y
        else pix b W H bits x y) ∧
      mirrorrightinregion b' x1 y1 x2 y2 = .ok b' := by
  obtain ⟨b', e, r⟩ := hregion_pixels h .right hi hok.flipOK (Or.inr hok)
  exact ⟨b', e, r, hregion_idem h (by simp) hi hok e⟩

/-- The three whole-image functions. -/
def hwhole (k : HKind) (b : Bytes) : Py Bytes :=
  match k with
  | .flip => fliphorizontal b
  | .left => mirrorleft b
  | .right => mirrorright b

theorem hwhole_eq {b : Bytes} {W H bits : Nat} (h : Valid b W H bits) (k : HKind) :
    hwhole k b = hregion k b 0 0 ((W : Int) - 1) ((H : Int) - 1) := by
  cases k <;> simp only [hwhole, hregion, fliphorizontal, mirrorleft, mirrorright] <;>
    rw [show getmaxx b = .ok (W : Int) from h.getmaxx_eq, show getmaxy b = .ok (H : Int) from h.getmaxy_eq] <;> rfl

theorem hwhole_pixels {b : Bytes} {W H bits : Nat} (h : Valid b W H bits) (k : HKind)
    (hok : FlipOK bits 0 ((W : Int) - 1)) (hm : k = .flip ∨ MirrorOK bits 0 ((W : Int) - 1) ) :
    ∃ b', hwhole k b = .ok b' ∧ Redraws b b' W H bits (fun x y => pix b W H bits (hsrc k 0 ((W : Int) - 1) x) y) := by
  rw [hwhole_eq h]
  by_cases hi : InImage W H 0 0 ((W : Int) - 1) ((H : Int) - 1)
  · obtain ⟨b', e, r⟩ := hregion_pixels h k hi hok hm
    refine ⟨b', e, r.valid, r.header, ?_⟩
    intro x y hx hy
    rw [r.pixels x y hx hy, if_pos]
    unfold inRect
    rw [decide_eq_true_eq]
    omega
  · refine ⟨b, hregion_outside h k hi, h, ⟨rfl, fun _ _ => rfl⟩, ?_⟩
    intro x y hx hy
    exact absurd (by unfold InImage; omega) hi

theorem flipOK_width {W bits : Nat} (hb : bits = 8 ∨ bits = 24 ∨ (bits = 4 ∧ W % 2 = 0)) (hW : 0 < W) :
    FlipOK bits 0 ((W : Int) - 1) := by unfold FlipOK; omega

theorem mirrorOK_width {W bits : Nat} (hb : bits = 8 ∨ bits = 24 ∨ (bits = 4 ∧ W % 4 = 0)) (hW : 0 < W) :
    MirrorOK bits 0 ((W : Int) - 1) := by unfold MirrorOK; omega

/-- An image without pixels is left alone. -/
theorem hwhole_empty {b : Bytes} {H bits : Nat} (h : Valid b 0 H bits) (k : HKind) : hwhole k b = .ok b := by
  rw [hwhole_eq h]
  exact hregion_outside h k (by unfold InImage; omega)

/-- C30 (the full claim is for every depth and width; missing are 1-bit images and 4-bit images of
odd width, where it is false, see `C30_4bit_wrong`, `C30_1bit_wrong`): `fliphorizontal` moves every
pixel to the mirrored column, keeps header and palette, and is its own inverse. -/
theorem C30_fliphorizontal_partial {b : Bytes} {W H bits : Nat} (h : Valid b W H bits)
    (hb : bits = 8 ∨ bits = 24 ∨ (bits = 4 ∧ W % 2 = 0)) :
    ∃ b', fliphorizontal b = .ok b' ∧ Redraws b b' W H bits (fun x y => pix b W H bits (W - 1 - x) y) ∧
      fliphorizontal b' = .ok b := by
  rcases Nat.eq_zero_or_pos W with w0 | w0
  · subst w0
    refine ⟨b, hwhole_empty h .flip, ⟨h, ⟨rfl, fun _ _ => rfl⟩, ?_⟩, hwhole_empty h .flip⟩
    intro x y hx; omega
  · have hok := flipOK_width hb w0
    obtain ⟨b', e, r⟩ := hwhole_pixels h .flip hok (Or.inl rfl)
    refine ⟨b', e, ⟨r.valid, r.header, ?_⟩, ?_⟩
    · intro x y hx hy
      rw [r.pixels x y hx hy]
      simp only [hsrc]
      congr 1; omega
    · have e2 := e
      rw [hwhole_eq h] at e2
      by_cases hi : InImage W H 0 0 ((W : Int) - 1) ((H : Int) - 1)
      · have := hregion_undo h hi hok e2
        rw [← hwhole_eq r.valid] at this
        exact this
      · have e3 := hregion_outside h .flip hi
        rw [e3] at e2
        cases e2
        exact e

/-- C31 (the full claim is for every depth and width; missing are 1-bit images and 4-bit images
whose width is not a multiple of four, see `C31_4bit_wrong`, `C31_1bit_wrong`): `mirrorleft` keeps
the left half and makes the right half its reflection; repeating it changes nothing. -/
theorem C31_mirrorleft_partial {b : Bytes} {W H bits : Nat} (h : Valid b W H bits)
    (hb : bits = 8 ∨ bits = 24 ∨ (bits = 4 ∧ W % 4 = 0)) :
    ∃ b', mirrorleft b = .ok b' ∧ Redraws b b' W H bits (fun x y => pix b W H bits (min x (W - 1 - x)) y) ∧
      mirrorleft b' = .ok b' := by
  rcases Nat.eq_zero_or_pos W with w0 | w0
  · subst w0
    refine ⟨b, hwhole_empty h .left, ⟨h, ⟨rfl, fun _ _ => rfl⟩, ?_⟩, hwhole_empty h .left⟩
    intro x y hx; omega
  · have hok := mirrorOK_width hb w0
    obtain ⟨b', e, r⟩ := hwhole_pixels h .left hok.flipOK (Or.inr hok)
    refine ⟨b', e, ⟨r.valid, r.header, ?_⟩, ?_⟩
    · intro x y hx hy
      rw [r.pixels x y hx hy]
      simp only [hsrc]
      congr 1; omega
    · have e2 := e
      rw [hwhole_eq h] at e2
      by_cases hi : InImage W H 0 0 ((W : Int) - 1) ((H : Int) - 1)
      · have := hregion_idem h (by simp) hi hok e2
        rw [← hwhole_eq r.valid] at this
        exact this
      · have e3 := hregion_outside h .left hi
        rw [e3] at e2
        cases e2
        exact e

/-- C31: `mirrorright` keeps the right half and makes the left half its reflection. -/
theorem C31_mirrorright_partial {b : Bytes} {W H bits : Nat} (h : Valid b W H bits)
    (hb : bits = 8 ∨ bits = 24 ∨ (bits = 4 ∧ W % 4 = 0)) :
    ∃ b', mirrorright b = .ok b' ∧ Redraws b b' W H bits (fun x y => pix b W H bits (max x (W - 1 - x)) y) ∧
      mirrorright b' = .ok b' := by
  rcases Nat.eq_zero_or_pos W with w0 | w0
  · subst w0
    refine ⟨b, hwhole_empty h .right, ⟨h, ⟨rfl, fun _ _ => rfl⟩, ?_⟩, hwhole_empty h .right⟩
    intro x y hx; omega
  · have hok := mirrorOK_width hb w0
    obtain ⟨b', e, r⟩ := hwhole_pixels h .right hok.flipOK (Or.inr hok)
    refine ⟨b', e, ⟨r.valid, r.header, ?_⟩, ?_⟩
    · intro x y hx hy
      rw [r.pixels x y hx hy]
      simp only [hsrc]
      congr 1; omega
    · have e2 := e
      rw [hwhole_eq h] at e2
      by_cases hi : InImage W H 0 0 ((W : Int) - 1) ((H : Int) - 1)
      · have := hregion_idem h (by simp) hi hok e2
        rw [← hwhole_eq r.valid] at this
        exact this
      · have e3 := hregion_outside h .right hi
        rw [e3] at e2
        cases e2
        exact e

/-- C30 is false on 4-bit images of odd width: the pixel of column 0 vanishes. -/
theorem C30_4bit_wrong :
    (do let b ← newBMP 3 1 4; let b ← plotxybit b 0 0 9; let b ← fliphorizontal b
        pure (← getxybit b 0 0, ← getxybit b 1 0, ← getxybit b 2 0)) = .ok (0, 0, 0) := by decide +kernel

/-- C30 is false on 1-bit images: the pixel of column 7 vanishes. -/
theorem C30_1bit_wrong :
    (do let b ← newBMP 8 1 1; let b ← plotxybit b 7 0 1; let b ← fliphorizontal b
        [0, 1, 2, 3, 4, 5, 6, 7].mapM fun x => getxybit b x 0) = .ok [0, 0, 0, 0, 0, 0, 0, 0] := by decide +kernel

/-- C31 is false on 4-bit images: with width 2, `mirrorleft` exchanges the two pixels. -/
theorem C31_4bit_wrong :
    (do let b ← newBMP 2 1 4; let b ← plotxybit b 0 0 9; let b ← plotxybit b 1 0 3; let b ← mirrorleft b
        pure (← getxybit b 0 0, ← getxybit b 1 0)) = .ok (3, 9) := by decide +kernel

/-- C31 is false on 1-bit images: the reflection of column 7 is missing in column 8. -/
theorem C31_1bit_wrong :
    (do let b ← newBMP 16 1 1; let b ← plotxybit b 7 0 1; let b ← mirrorleft b
        pure (← getxybit b 7 0, ← getxybit b 8 0)) = .ok (1, 0) := by decide +kernel

/-- C53 is false on 4-bit images: flipping columns 1 to 2 also moves columns 0 and 3. -/
theorem C53_4bit_wrong :
    (do let b ← newBMP 4 1 4; let b ← plotxybit b 0 0 9; let b ← fliphorizontalregion b 1 0 2 0
        pure (← getxybit b 0 0, ← getxybit b 3 0)) = .ok (0, 9) := by decide +kernel

/-- C53 is false on 1-bit images. -/
theorem C53_1bit_wrong :
    (do let b ← newBMP 16 1 1; let b ← plotxybit b 0 0 1; let b ← fliphorizontalregion b 2 0 5 0
        pure (← getxybit b 0 0, ← getxybit b 7 0)) = .ok (0, 1) := by decide +kernel

/-- C54 is false on 4-bit images: mirroring columns 1 to 2 overwrites column 3. -/
theorem C54_4bit_wrong :
    (do let b ← newBMP 4 1 4; let b ← plotxybit b 0 0 9; let b ← mirrorleftinregion b 1 0 2 0
        pure (← getxybit b 3 0)) = .ok 9 := by decide +kernel

example : (do let b ← newBMP 5 2 24; let b ← plotxybit b 0 1 0x123456; let b ← plotxybit b 3 0 7
              let b ← fliphorizontal b
              pure (← getxybit b 4 1, ← getxybit b 1 0, ← getxybit b 0 1)) = .ok (0x123456, 7, 0) := by decide +kernel
example : (do let b ← newBMP 6 2 4; let b ← plotxybit b 0 1 5; let b ← fliphorizontal b; getxybit b 5 1) = .ok 5 := by
  decide +kernel
example : (do let b ← newBMP 5 1 24; let b ← plotxybit b 0 0 1; let b ← plotxybit b 4 0 2
              let l ← mirrorleft b; let r ← mirrorright b
              pure (← getxybit l 0 0, ← getxybit l 4 0, ← getxybit r 0 0, ← getxybit r 4 0)) = .ok (1, 1, 2, 2) := by
  decide +kernel
example : (do let b ← newBMP 6 2 24; let b ← plotxybit b 1 0 1; let b ← plotxybit b 4 1 2
              let f ← fliphorizontalregion b 3 0 1 0; let l ← mirrorleftinregion b 1 0 3 0
              pure (← getxybit f 3 0, ← getxybit f 1 0, ← getxybit f 4 1, ← getxybit l 3 0, ← getxybit l 1 0)) =
    .ok (1, 0, 2, 1, 1) := by
  decide +kernel

end Verif.Props
