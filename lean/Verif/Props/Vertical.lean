import Verif.Sample
import Verif.Lemmas.Grid
import Verif.Model.Transform
import Verif.Props.Rect
/-! Properties C28 and C29: vertical flips and mirrors. -/

namespace Verif.Props
open Verif Spec Model

/-- Row from which row `y` of the range `lo..hi` is taken. -/
def vsrc (t : VTrans) (lo hi y : Nat) : Nat :=
  match t with
  | .F => lo + hi - y
  | .T => if lo + hi - y < y then lo + hi - y else y
  | .B => if y < lo + hi - y then lo + hi - y else y

theorem row_slice {b : Bytes} {W H bits : Nat} (h : Valid b W H bits) {y j L : Nat} (hy : y < H)
    (hj : j + L ≤ rowLen W bits) :
    let v := slice b (cell W H bits y j : Int) ((cell W H bits y j : Int) + (L : Int))
    v.length = L ∧ (∀ x ∈ v, x < 256) ∧ ∀ i, i < L → byte v i = byte b (cell W H bits y (j + i)) := by
  intro v
  have hfit : cell W H bits y j + L ≤ b.length := by
    have := row_lt (S := rowLen W bits) (show H - 1 - y < H by omega)
    rw [h.len]; unfold cell; omega
  have he : (cell W H bits y j : Int) + (L : Int) = ((cell W H bits y j + L : Nat) : Int) := by push_cast; rfl
  have hl : v.length = L := by
    show (slice b _ _).length = L
    rw [he, length_slice_ok rfl rfl hfit (by omega)]; omega
  have hb : ∀ i, i < L → byte v i = byte b (cell W H bits y (j + i)) := by
    intro i hi
    show byte (slice b _ _) i = _
    rw [he, byte_slice_ok rfl rfl hfit (by omega), if_pos (by omega), cell_add]
  refine ⟨hl, mem_lt_of_byte ?_, hb⟩
  intro i hi
  rw [hb i (by omega)]; exact byte_lt_of_mem h.bytes _

/-- One row segment assignment. -/
theorem row_assign {b : Bytes} {W H bits : Nat} (h : Valid b W H bits) {y j L : Nat} (hy : y < H)
    (hj : j + L ≤ rowLen W bits) {v : Bytes} (hl : v.length = L) (hv : ∀ x ∈ v, x < 256) :
    Grid b (setSlice b (cell W H bits y j : Int) ((cell W H bits y j : Int) + (L : Int)) v) W H bits
      (fun y' j' => if y' = y ∧ j ≤ j' ∧ j' < j + L then byte v (j' - j) else byte b (cell W H bits y' j')) := by
  subst hl
  obtain ⟨hfit, hg⟩ := row_ow h hy hv hj
  rw [setSlice_ok rfl rfl hfit]
  exact hg

theorem vertOp_grid {b : Bytes} {W H bits : Nat} (h : Valid b W H bits) (t : VTrans) {lo hi j L : Nat}
    (hlt : lo < hi) (hH : hi < H) (hj : j + L ≤ rowLen W bits) :
    Grid b (vertOp t b (cell W H bits hi j : Int) (cell W H bits lo j : Int) (L : Int)) W H bits
      (fun y' j' => if (y' = lo ∨ y' = hi) ∧ j ≤ j' ∧ j' < j + L then byte b (cell W H bits (vsrc t lo hi y') j')
        else byte b (cell W H bits y' j')) := by
  obtain ⟨l1, m1, b1⟩ := row_slice h (y := hi) hH hj
  obtain ⟨l2, m2, b2⟩ := row_slice h (y := lo) (show lo < H by omega) hj
  cases t with
  | F =>
    have g1 := row_assign h hH hj l2 m2
    have g2 := row_assign g1.valid (y := lo) (by omega) hj l1 m1
    apply (g1.trans g2).congr
    intro y' j' hy' hj'
    dsimp only [vsrc]
    by_cases c : j ≤ j' ∧ j' < j + L
    · have hb1 := b1 (j' - j) (by omega)
      have hb2 := b2 (j' - j) (by omega)
      rw [show j + (j' - j) = j' by omega] at hb1 hb2
      by_cases cl : y' = lo
      · subst cl
        rw [if_pos ⟨rfl, c⟩, if_pos ⟨Or.inl rfl, c⟩, hb1, show y' + hi - y' = hi by omega]
      · rw [if_neg (by tauto), g1.cells y' j' hy' hj']
        by_cases ch : y' = hi
        · subst ch
          rw [if_pos ⟨rfl, c⟩, if_pos ⟨Or.inr rfl, c⟩, hb2, show lo + y' - y' = lo by omega]
        · rw [if_neg (by tauto), if_neg (by tauto)]
    · rw [if_neg (by tauto), g1.cells y' j' hy' hj', if_neg (by tauto), if_neg (by tauto)]
  | T =>
    have g1 := row_assign h hH hj l2 m2
    apply g1.congr
    intro y' j' hy' hj'
    dsimp only [vsrc]
    by_cases c : j ≤ j' ∧ j' < j + L
    · have hb2 := b2 (j' - j) (by omega)
      rw [show j + (j' - j) = j' by omega] at hb2
      by_cases ch : y' = hi
      · subst ch
        rw [if_pos ⟨rfl, c⟩, if_pos ⟨Or.inr rfl, c⟩, hb2, if_pos (by omega), show lo + y' - y' = lo by omega]
      · rw [if_neg (by tauto)]
        by_cases cl : y' = lo
        · subst cl
          rw [if_pos ⟨Or.inl rfl, c⟩, if_neg (by omega)]
        · rw [if_neg (by tauto)]
    · rw [if_neg (by tauto), if_neg (by tauto)]
  | B =>
    have g1 := row_assign h (y := lo) (by omega) hj l1 m1
    apply g1.congr
    intro y' j' hy' hj'
    dsimp only [vsrc]
    by_cases c : j ≤ j' ∧ j' < j + L
    · have hb1 := b1 (j' - j) (by omega)
      rw [show j + (j' - j) = j' by omega] at hb1
      by_cases ch : y' = lo
      · subst ch
        rw [if_pos ⟨rfl, c⟩, if_pos ⟨Or.inl rfl, c⟩, hb1, if_pos (by omega), show y' + hi - y' = hi by omega]
      · rw [if_neg (by tauto)]
        by_cases cl : y' = hi
        · subst cl
          rw [if_pos ⟨Or.inr rfl, c⟩, if_neg (by omega)]
        · rw [if_neg (by tauto)]
    · rw [if_neg (by tauto), if_neg (by tauto)]

theorem vsrc_range (t : VTrans) {lo hi y : Nat} (h1 : lo ≤ y) (h2 : y ≤ hi) :
    lo ≤ vsrc t lo hi y ∧ vsrc t lo hi y ≤ hi := by
  cases t <;> simp only [vsrc] <;> (try split_ifs) <;> omega

theorem vertLoop_grid {W H bits : Nat} (t : VTrans) {j L : Nat} (hR : 0 < rowLen W bits)
    (hj : j + L ≤ rowLen W bits) (n : Nat) : ∀ {b : Bytes} {lo hi : Nat}, Valid b W H bits → lo ≤ hi → hi < H →
    hi - lo ≤ n →
    Grid b (vertLoop t (L : Int) (rowLen W bits : Int) n b (cell W H bits hi j : Int) (cell W H bits lo j : Int))
      W H bits (fun y' j' => if (lo ≤ y' ∧ y' ≤ hi) ∧ j ≤ j' ∧ j' < j + L
        then byte b (cell W H bits (vsrc t lo hi y') j') else byte b (cell W H bits y' j')) := by
  have hsame : ∀ {b : Bytes} {lo hi : Nat}, Valid b W H bits → lo = hi → Grid b b W H bits
      (fun y' j' => if (lo ≤ y' ∧ y' ≤ hi) ∧ j ≤ j' ∧ j' < j + L
        then byte b (cell W H bits (vsrc t lo hi y') j') else byte b (cell W H bits y' j')) := by
    intro b lo hi h e
    subst e
    apply (Grid.refl h).congr
    intro y' j' _ _
    split_ifs with c
    · have := vsrc_range t c.1.1 c.1.2
      rw [show vsrc t lo lo y' = y' by omega]
    · rfl
  have hmono : ∀ {lo hi : Nat}, lo ≤ hi → hi < H →
      cell W H bits lo j = cell W H bits hi j + (hi - lo) * rowLen W bits := by
    intro lo hi h1 h2
    have := cell_col (W := W) (H := H) (bits := bits) h2 j (hi - lo) (by omega)
    rwa [show hi - (hi - lo) = lo by omega] at this
  induction n with
  | zero =>
    intro b lo hi h h1 h2 h3
    exact hsame h (by omega)
  | succ n ih =>
    intro b lo hi h h1 h2 h3
    rw [vertLoop]
    by_cases e : lo = hi
    · rw [if_neg (by rw [e]; omega)]; exact hsame h e
    · have hm := hmono h1 h2
      have : 1 * rowLen W bits ≤ (hi - lo) * rowLen W bits := Nat.mul_le_mul_right _ (by omega)
      rw [if_pos (by omega)]
      have g1 := vertOp_grid h t (lo := lo) (hi := hi) (by omega) h2 hj
      have e1 : (cell W H bits hi j : Int) + (rowLen W bits : Int) = (cell W H bits (hi - 1) j : Int) := by
        have := cell_col (W := W) (H := H) (bits := bits) h2 j 1 (by omega)
        omega
      have e2 : (cell W H bits lo j : Int) - (rowLen W bits : Int) = (cell W H bits (lo + 1) j : Int) := by
        have := cell_col (W := W) (H := H) (bits := bits) (y := lo + 1) (by omega) j 1 (by omega)
        rw [Nat.add_sub_cancel] at this
        omega
      rw [e1, e2]
      by_cases e3 : lo + 1 ≤ hi - 1
      · have g2 := ih g1.valid e3 (show hi - 1 < H by omega) (by omega)
        apply (g1.trans g2).congr
        intro y' j' hy' hj'
        by_cases c : j ≤ j' ∧ j' < j + L
        · by_cases ci : lo + 1 ≤ y' ∧ y' ≤ hi - 1
          · have hv := vsrc_range t ci.1 ci.2
            rw [if_pos ⟨ci, c⟩, if_pos ⟨by omega, c⟩, g1.cells _ _ (by omega) hj', if_neg (by omega)]
            congr 2
            cases t <;> simp only [vsrc] <;> (try split_ifs) <;> omega
          · rw [if_neg (by tauto), g1.cells _ _ hy' hj']
            by_cases cb : y' = lo ∨ y' = hi
            · rw [if_pos ⟨cb, c⟩, if_pos ⟨by omega, c⟩]
            · rw [if_neg (by tauto), if_neg (by omega)]
        · rw [if_neg (by tauto), if_neg (by tauto), g1.cells _ _ hy' hj', if_neg (by tauto)]
      · -- two adjacent rows: the loop ends
        have hend : vertLoop t (L : Int) (rowLen W bits : Int) n
            (vertOp t b (cell W H bits hi j : Int) (cell W H bits lo j : Int) (L : Int))
            (cell W H bits (hi - 1) j : Int) (cell W H bits (lo + 1) j : Int)
            = vertOp t b (cell W H bits hi j : Int) (cell W H bits lo j : Int) (L : Int) := by
          cases n with
          | zero => rfl
          | succ n =>
            rw [vertLoop, if_neg]
            have hh : hi = lo + 1 := by omega
            subst hh
            have := hmono (lo := lo) (hi := lo + 1) (by omega) h2
            rw [Nat.add_sub_cancel]; omega
        rw [hend]
        apply g1.congr
        intro y' j' hy' hj'
        have : (lo ≤ y' ∧ y' ≤ hi) ↔ (y' = lo ∨ y' = hi) := by omega
        simp only [this]

theorem verttrans_grid {b : Bytes} {W H bits : Nat} (h : Valid b W H bits) (t : VTrans) :
    ∃ b', verttrans b t = .ok b' ∧ Grid b b' W H bits (fun y j =>
      byte b (cell W H bits (vsrc t 0 (H - 1) y) j)) := by
  unfold verttrans
  rw [h.xchrcnt_eq, h.hdsz_eq, h.flsz_eq]
  simp only [ok_bind, pure_eq_ok]
  refine ⟨_, rfl, ?_⟩
  have hl := h.len
  by_cases hz : rowLen W bits = 0 ∨ H = 0
  · have e0 : H * rowLen W bits = 0 := by rcases hz with e | e <;> simp [e]
    have : ((b.length : Int) - (rowLen W bits : Int) - (dataOff bits : Int)).toNat = 0 := by omega
    rw [this]
    show Grid b b W H bits _
    apply (Grid.refl h).congr
    intro y j hy hj
    omega
  · have hR : 0 < rowLen W bits := by omega
    have hH : 0 < H := by omega
    have hm : H * rowLen W bits = (H - 1) * rowLen W bits + rowLen W bits := by
      conv_lhs => rw [show H = (H - 1) + 1 by omega]
      ring
    have e1 : (dataOff bits : Int) = (cell W H bits (H - 1) 0 : Int) := by simp [cell]
    have e2 : (b.length : Int) - (rowLen W bits : Int) = (cell W H bits 0 0 : Int) := by
      unfold cell; push_cast; rw [hl, hm]; push_cast; simp; ring
    have hle : (H - 1) * 1 ≤ (H - 1) * rowLen W bits := Nat.mul_le_mul_left _ hR
    rw [e2, e1]
    have g := vertLoop_grid (W := W) (H := H) (bits := bits) t (j := 0) (L := rowLen W bits) hR (by omega)
      ((cell W H bits 0 0 : Int) - (cell W H bits (H - 1) 0 : Int)).toNat (b := b) (lo := 0) (hi := H - 1) h
      (by omega) (by omega) (by unfold cell; simp; omega)
    apply g.congr
    intro y j hy hj
    rw [if_pos (by omega)]

/-- Bytes moved by rows are pixels moved by rows. -/
theorem grid_rows {b b' : Bytes} {W H bits : Nat} (h : Valid b W H bits) {s : Nat → Nat}
    (hg : Grid b b' W H bits (fun y j => byte b (cell W H bits (s y) j))) :
    Redraws b b' W H bits (fun x y => pix b W H bits x (s y)) := by
  refine ⟨hg.valid, hg.header, ?_⟩
  intro x y hx hy
  apply pix_congr rfl
  intro t ht
  have := xcell_lt h.depth hx
  exact hg.cells y _ hy (by omega)

/-- C28: `flipvertical` turns the image upside down and is its own inverse, byte for byte. -/
theorem C28_flipvertical {b : Bytes} {W H bits : Nat} (h : Valid b W H bits) :
    ∃ b', flipvertical b = .ok b' ∧ Redraws b b' W H bits (fun x y => pix b W H bits x (H - 1 - y)) ∧
      flipvertical b' = .ok b := by
  obtain ⟨b', e, g⟩ := verttrans_grid h .F
  have g' : Grid b b' W H bits (fun y j => byte b (cell W H bits (H - 1 - y) j)) := by
    apply g.congr; intro y j _ _; simp [vsrc]
  refine ⟨b', e, grid_rows h g', ?_⟩
  obtain ⟨b2, e2, g2⟩ := verttrans_grid g.valid .F
  rw [flipvertical, e2]
  congr 1
  apply Grid.undo h g g2
  intro y j hy hj
  simp only [vsrc]
  rw [g'.cells _ _ (by omega) hj]
  congr 2; omega

/-- C29: `mirrortop` keeps the upper half and makes the lower half its reflection. The result is
symmetric and stays as it is when the operation is repeated. -/
theorem C29_mirrortop {b : Bytes} {W H bits : Nat} (h : Valid b W H bits) :
    ∃ b', mirrortop b = .ok b' ∧
      Redraws b b' W H bits (fun x y => pix b W H bits x (min y (H - 1 - y))) ∧
      flipvertical b' = .ok b' ∧ mirrortop b' = .ok b' := by
  obtain ⟨b', e, g⟩ := verttrans_grid h .T
  have g' : Grid b b' W H bits (fun y j => byte b (cell W H bits (min y (H - 1 - y)) j)) := by
    apply g.congr; intro y j hy _; congr 2; simp only [vsrc]; split_ifs <;> omega
  refine ⟨b', e, grid_rows h g', ?_, ?_⟩
  · obtain ⟨b2, e2, g2⟩ := verttrans_grid g.valid .F
    rw [flipvertical, e2]; congr 1
    apply grid_ext g.valid g2.header
    intro y j hy hj
    rw [g2.cells _ _ hy hj]
    simp only [vsrc]
    rw [g'.cells _ _ (by omega) hj, g'.cells _ _ hy hj]
    congr 2; omega
  · obtain ⟨b2, e2, g2⟩ := verttrans_grid g.valid .T
    rw [mirrortop, e2]; congr 1
    apply grid_ext g.valid g2.header
    intro y j hy hj
    rw [g2.cells _ _ hy hj]
    have hv : vsrc .T 0 (H - 1) y = min y (H - 1 - y) := by simp only [vsrc]; split_ifs <;> omega
    rw [hv, g'.cells _ _ (by omega) hj, g'.cells _ _ hy hj]
    congr 2; omega

/-- C29: `mirrorbottom` keeps the lower half and makes the upper half its reflection. -/
theorem C29_mirrorbottom {b : Bytes} {W H bits : Nat} (h : Valid b W H bits) :
    ∃ b', mirrorbottom b = .ok b' ∧
      Redraws b b' W H bits (fun x y => pix b W H bits x (max y (H - 1 - y))) ∧
      flipvertical b' = .ok b' ∧ mirrorbottom b' = .ok b' := by
  obtain ⟨b', e, g⟩ := verttrans_grid h .B
  have g' : Grid b b' W H bits (fun y j => byte b (cell W H bits (max y (H - 1 - y)) j)) := by
    apply g.congr; intro y j hy _; congr 2; simp only [vsrc]; split_ifs <;> omega
  refine ⟨b', e, grid_rows h g', ?_, ?_⟩
  · obtain ⟨b2, e2, g2⟩ := verttrans_grid g.valid .F
    rw [flipvertical, e2]; congr 1
    apply grid_ext g.valid g2.header
    intro y j hy hj
    rw [g2.cells _ _ hy hj]
    simp only [vsrc]
    rw [g'.cells _ _ (by omega) hj, g'.cells _ _ hy hj]
    congr 2; omega
  · obtain ⟨b2, e2, g2⟩ := verttrans_grid g.valid .B
    rw [mirrorbottom, e2]; congr 1
    apply grid_ext g.valid g2.header
    intro y j hy hj
    rw [g2.cells _ _ hy hj]
    have hv : vsrc .B 0 (H - 1) y = max y (H - 1 - y) := by simp only [vsrc]; split_ifs <;> omega
    rw [hv, g'.cells _ _ (by omega) hj, g'.cells _ _ hy hj]
    congr 2; omega

example : (do let b ← newBMP 5 4 4; let b ← plotxybit b 1 0 7; let b ← plotxybit b 3 1 2
              let b ← flipvertical b
              pure (← getxybit b 1 3, ← getxybit b 3 2, ← getxybit b 1 0)) = .ok (7, 2, 0) := by decide +kernel
example : (do let b ← newBMP 5 3 1; let b ← plotxybit b 1 0 1; let b ← plotxybit b 3 2 1
              let t ← mirrortop b; let m ← mirrorbottom b
              pure (← getxybit t 1 2, ← getxybit t 3 2, ← getxybit m 1 0, ← getxybit m 3 0)) = .ok (1, 0, 0, 1) := by
  decide +kernel

end Verif.Props
