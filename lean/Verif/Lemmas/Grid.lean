import Verif.Lemmas.Paint
/-! The pixel area as a grid of bytes: `H` rows of `rowLen` bytes, row 0 on top. -/

namespace Verif
open Spec Model

/-- Position in the file of byte `j` of row `y`. -/
def cell (W H bits y j : Nat) : Nat := dataOff bits + (H - 1 - y) * rowLen W bits + j

/-- `b'` is the file `b` with the byte `j` of row `y` replaced by `g y j`. -/
structure Grid (b b' : Bytes) (W H bits : Nat) (g : Nat → Nat → Nat) : Prop where
  valid : Valid b' W H bits
  header : SameHeader b b' bits
  cells : ∀ y j, y < H → j < rowLen W bits → byte b' (cell W H bits y j) = g y j

section
variable {b b' b'' : Bytes} {W H bits : Nat}

theorem addr_cell (W H bits x y : Nat) : addr W H bits x y = cell W H bits y (x * bits / 8) := by
  unfold addr rel cell; omega

theorem cell_add (W H bits y j t : Nat) : cell W H bits y j + t = cell W H bits y (j + t) := by
  unfold cell; omega

theorem cell_inj {y y' j j' : Nat} (hy : y < H) (hy' : y' < H) (hj : j < rowLen W bits)
    (hj' : j' < rowLen W bits) (e : cell W H bits y j = cell W H bits y' j') : y = y' ∧ j = j' := by
  unfold cell at e
  rcases Nat.lt_trichotomy (H - 1 - y) (H - 1 - y') with c | c | c
  · have := row_lt (S := rowLen W bits) c; omega
  · rw [c] at e; omega
  · have := row_lt (S := rowLen W bits) c; omega

theorem cell_lt (h : Valid b W H bits) {y j : Nat} (hy : y < H) (hj : j < rowLen W bits) :
    cell W H bits y j < b.length := by
  have := row_lt (S := rowLen W bits) (show H - 1 - y < H by omega)
  rw [h.len]; unfold cell; omega

theorem cell_ge (W H bits y j : Nat) : dataOff bits ≤ cell W H bits y j := by unfold cell; omega

theorem cell_exists (h : Valid b W H bits) {i : Nat} (h1 : dataOff bits ≤ i) (h2 : i < b.length) :
    ∃ y j, y < H ∧ j < rowLen W bits ∧ i = cell W H bits y j := by
  have hl := h.len
  have hR : 0 < rowLen W bits := by
    rcases Nat.eq_zero_or_pos (rowLen W bits) with e | e
    · rw [e] at hl; omega
    · exact e
  have hq : (i - dataOff bits) / rowLen W bits < H := by
    rw [Nat.div_lt_iff_lt_mul hR]; omega
  have hdm := Nat.div_add_mod (i - dataOff bits) (rowLen W bits)
  have hml := Nat.mod_lt (i - dataOff bits) hR
  generalize (i - dataOff bits) / rowLen W bits = q at *
  generalize (i - dataOff bits) % rowLen W bits = m at *
  refine ⟨H - 1 - q, m, by omega, hml, ?_⟩
  unfold cell
  rw [show H - 1 - (H - 1 - q) = q by omega]
  rw [Nat.mul_comm] at hdm
  omega

theorem Grid.refl (h : Valid b W H bits) : Grid b b W H bits (fun y j => byte b (cell W H bits y j)) :=
  ⟨h, ⟨rfl, fun _ _ => rfl⟩, fun _ _ _ _ => rfl⟩

theorem Grid.trans {g g' : Nat → Nat → Nat} (h1 : Grid b b' W H bits g) (h2 : Grid b' b'' W H bits g') :
    Grid b b'' W H bits g' :=
  ⟨h2.valid, ⟨h2.header.1.trans h1.header.1, fun i hi => (h2.header.2 i hi).trans (h1.header.2 i hi)⟩, h2.cells⟩

theorem Grid.congr {g g' : Nat → Nat → Nat} (h1 : Grid b b' W H bits g)
    (h : ∀ y j, y < H → j < rowLen W bits → g y j = g' y j) : Grid b b' W H bits g' :=
  ⟨h1.valid, h1.header, fun y j hy hj => (h1.cells y j hy hj).trans (h y j hy hj)⟩

theorem grid_ext (h : Valid b W H bits) (hh : SameHeader b b' bits)
    (hc : ∀ y j, y < H → j < rowLen W bits → byte b' (cell W H bits y j) = byte b (cell W H bits y j)) : b' = b := by
  apply bytes_ext hh.1
  intro i hi
  by_cases c : i < dataOff bits
  · exact hh.2 i c
  · obtain ⟨y, j, hy, hj, rfl⟩ := cell_exists h (show dataOff bits ≤ i by omega) (by rw [← hh.1]; exact hi)
    exact hc y j hy hj

/-- Two successive changes that restore every byte. -/
theorem Grid.undo {g g' : Nat → Nat → Nat} (h : Valid b W H bits) (h1 : Grid b b' W H bits g)
    (h2 : Grid b' b'' W H bits g')
    (hg : ∀ y j, y < H → j < rowLen W bits → g' y j = byte b (cell W H bits y j)) : b'' = b :=
  grid_ext h (h1.trans h2).header (fun y j hy hj => (h2.cells y j hy hj).trans (hg y j hy hj))

theorem grid_of_bytes (h : Valid b W H bits) {g : Nat → Nat → Nat} (hl : b'.length = b.length)
    (hh : ∀ i, i < dataOff bits → byte b' i = byte b i)
    (hg : ∀ y j, y < H → j < rowLen W bits → g y j < 256)
    (hc : ∀ y j, y < H → j < rowLen W bits → byte b' (cell W H bits y j) = g y j) : Grid b b' W H bits g := by
  refine ⟨valid_congr h hl ?_ (fun i hi => hh i (by have := dataOff_ge bits; omega)), ⟨hl, hh⟩, hc⟩
  apply mem_lt_of_byte
  intro i hi
  by_cases c : i < dataOff bits
  · rw [hh i c]; exact byte_lt_of_mem h.bytes i
  · obtain ⟨y, j, hy, hj, rfl⟩ := cell_exists h (show dataOff bits ≤ i by omega) (by rw [← hl]; exact hi)
    rw [hc y j hy hj]; exact hg y j hy hj

/-- Overwriting part of a row. -/
theorem row_ow (h : Valid b W H bits) {y j : Nat} {buf : Bytes} (hy : y < H) (hbuf : ∀ v ∈ buf, v < 256)
    (hj : j + buf.length ≤ rowLen W bits) :
    cell W H bits y j + buf.length ≤ b.length ∧
    Grid b (ow b (cell W H bits y j) buf) W H bits (fun y' j' =>
      if y' = y ∧ j ≤ j' ∧ j' < j + buf.length then byte buf (j' - j) else byte b (cell W H bits y' j')) := by
  have hfit : cell W H bits y j + buf.length ≤ b.length := by
    have := row_lt (S := rowLen W bits) (show H - 1 - y < H by omega)
    rw [h.len]; unfold cell; omega
  refine ⟨hfit, grid_of_bytes h (length_ow hfit) ?_ ?_ ?_⟩
  · intro i hi
    have := cell_ge W H bits y j
    rw [byte_ow hfit, if_neg (by omega)]
  · intro y' j' _ _
    split_ifs
    · exact byte_lt_of_mem hbuf _
    · exact byte_lt_of_mem h.bytes _
  · intro y' j' hy' hj'
    rw [byte_ow hfit]
    by_cases c : y' = y ∧ j ≤ j' ∧ j' < j + buf.length
    · obtain ⟨rfl, c1, c2⟩ := c
      rw [if_pos (by unfold cell; omega), if_pos ⟨rfl, c1, c2⟩]
      congr 1; unfold cell; omega
    · rw [if_neg c, if_neg]
      rintro ⟨c1, c2⟩
      have e : cell W H bits y' j' = cell W H bits y (j + (cell W H bits y' j' - cell W H bits y j)) := by
        rw [← cell_add]; omega
      have := cell_inj hy' hy hj' (by omega) e
      apply c
      refine ⟨this.1, by omega, by omega⟩

/-- Column addresses. -/
theorem cell_col {y : Nat} (hy : y < H) (j i : Nat) (hi : i ≤ y) :
    cell W H bits (y - i) j = cell W H bits y j + i * rowLen W bits := by
  unfold cell
  have : H - 1 - (y - i) = (H - 1 - y) + i := by omega
  rw [this, Nat.add_mul]; omega

theorem writeStride_bytes (k : Nat) (l : Bytes) : ∀ (b0 : Bytes) (s : Nat), (∀ v ∈ l, v < 256) →
    (∀ v ∈ b0, v < 256) → ∀ v ∈ writeStride b0 s k l, v < 256 := by
  induction l with
  | nil => intro b0 s _ hb0; exact hb0
  | cons a l ih =>
    intro b0 s hl hb0
    rw [writeStride]
    apply ih _ _ (fun v hv => hl v (by simp [hv]))
    intro v hv
    rcases List.mem_or_eq_of_mem_set hv with hv | rfl
    · exact hb0 v hv
    · exact hl v (by simp)

/-- The bytes of a column between two rows, lower row first. -/
def column (b : Bytes) (W H bits lo hi j : Nat) : Bytes :=
  (List.range (hi - lo + 1)).map fun i => byte b (cell W H bits (hi - i) j)

theorem byte_column {lo hi j : Nat} {y : Nat} (h1 : lo ≤ y) (h2 : y ≤ hi) :
    byte (column b W H bits lo hi j) (hi - y) = byte b (cell W H bits y j) := by
  unfold column
  rw [byte_eq_getElem _ _ (by simp; omega)]
  simp only [List.getElem_map, List.getElem_range]
  rw [show hi - (hi - y) = y by omega]

theorem length_column (lo hi j : Nat) : (column b W H bits lo hi j).length = hi - lo + 1 := by
  simp [column]

theorem column_bytes (h : Valid b W H bits) (lo hi j : Nat) : ∀ v ∈ column b W H bits lo hi j, v < 256 := by
  intro v hv
  simp only [column, List.mem_map] at hv
  obtain ⟨i, _, rfl⟩ := hv
  exact byte_lt_of_mem h.bytes _

/-- Reading a column by an extended slice. The end of the slice lies somewhere after the top byte,
less than one row further. -/
theorem column_read (h : Valid b W H bits) {lo hi j : Nat} (hle : lo ≤ hi) (hH : hi < H)
    (hj : j < rowLen W bits) {s e : Int} (hs : s = cell W H bits hi j)
    {eN : Nat} (he : e = eN) (he1 : cell W H bits lo j < eN) (he2 : eN ≤ cell W H bits lo j + rowLen W bits) :
    sliceStep b s e (rowLen W bits) = .ok (column b W H bits lo hi j) := by
  have hlo : cell W H bits lo j = cell W H bits hi j + (hi - lo) * rowLen W bits := by
    have := cell_col (W := W) (H := H) (bits := bits) hH j (hi - lo) (by omega)
    rwa [show hi - (hi - lo) = lo by omega] at this
  have hlt := cell_lt h (show lo < H by omega) hj
  have hm : (hi - lo + 1) * rowLen W bits = (hi - lo) * rowLen W bits + rowLen W bits := by ring
  rw [sliceStep_ok (n := cell W H bits hi j) (m := hi - lo + 1) (eN := eN) hs he (by omega) (by omega)
    (by rw [Nat.add_sub_cancel]; omega) (by omega) (by rw [Nat.add_sub_cancel]; omega)]
  congr 1
  apply List.map_congr_left
  intro i hi'
  simp at hi'
  rw [cell_col hH j i (by omega)]

/-- Writing a column by an extended slice. -/
theorem column_write (h : Valid b W H bits) {lo hi j : Nat} (hle : lo ≤ hi) (hH : hi < H)
    (hj : j < rowLen W bits) {s e : Int} (hs : s = cell W H bits hi j) (hr : 1 < rowLen W bits)
    {eN : Nat} (he : e = eN) (he1 : cell W H bits lo j < eN) (he2 : eN ≤ cell W H bits lo j + rowLen W bits)
    {buf : Bytes} (hlen : buf.length = hi - lo + 1) (hbuf : ∀ v ∈ buf, v < 256) :
    ∃ b', setSliceStep b s e (rowLen W bits) buf = .ok b' ∧
      Grid b b' W H bits (fun y' j' => if j' = j ∧ lo ≤ y' ∧ y' ≤ hi then byte buf (hi - y')
        else byte b (cell W H bits y' j')) := by
  have hlo : cell W H bits lo j = cell W H bits hi j + (hi - lo) * rowLen W bits := by
    have := cell_col (W := W) (H := H) (bits := bits) hH j (hi - lo) (by omega)
    rwa [show hi - (hi - lo) = lo by omega] at this
  have hlt := cell_lt h (show lo < H by omega) hj
  have hm : (hi - lo + 1) * rowLen W bits = (hi - lo) * rowLen W bits + rowLen W bits := by ring
  have hpos : ∀ i, i < buf.length → cell W H bits hi j + i * rowLen W bits = cell W H bits (hi - i) j :=
    fun i hi' => (cell_col hH j i (by omega)).symm
  refine ⟨writeStride b (cell W H bits hi j) (rowLen W bits) buf, ?_, ?_⟩
  · apply setSliceStep_ok hs he (by omega) (by omega)
    · rw [hlen, Nat.add_sub_cancel]; omega
    · rw [hlen]; omega
    · rw [hlen, Nat.add_sub_cancel]; omega
  · apply grid_of_bytes h (length_writeStride _ _ _ _)
    · intro i hi'
      apply byte_writeStride_out
      intro k hk
      rw [hpos k hk]
      have := cell_ge W H bits (hi - k) j
      omega
    · intro y' j' _ _
      split_ifs
      · exact byte_lt_of_mem hbuf _
      · exact byte_lt_of_mem h.bytes _
    · intro y' j' hy' hj'
      by_cases c : j' = j ∧ lo ≤ y' ∧ y' ≤ hi
      · rw [if_pos c]
        obtain ⟨rfl, c1, c2⟩ := c
        have e := hpos (hi - y') (by omega)
        rw [show hi - (hi - y') = y' by omega] at e
        rw [← e]
        exact byte_writeStride_in _ _ _ _ (by omega) (by rw [hlen, Nat.add_sub_cancel]; omega) _ (by omega)
      · rw [if_neg c]
        apply byte_writeStride_out
        intro k hk e
        rw [hpos k hk] at e
        have := cell_inj hy' (by omega) hj' hj e
        apply c
        refine ⟨this.2, by omega, by omega⟩

/-! ### From bytes to pixels -/

theorem pix_cell (b : Bytes) (W H bits x y : Nat) :
    pix b W H bits x y = if bits = 24 then
      byte b (cell W H 24 y (3 * x)) + 256 * byte b (cell W H 24 y (3 * x + 1))
        + 65536 * byte b (cell W H 24 y (3 * x + 2))
    else byte b (cell W H bits y (x * bits / 8)) / 2 ^ shiftOf bits x % 2 ^ bits := by
  rw [pix_eq]
  simp only [addr_cell, cell_add]
  rw [show x * 24 / 8 = 3 * x by omega]

theorem xcell_lt {x : Nat} (hd : Depth bits) (hx : x < W) :
    x * bits / 8 + bpp bits ≤ rowLen W bits := xoff_lt hx hd

/-- A pixel is determined by its bytes. -/
theorem pix_congr {x y x' y' : Nat} (hs : shiftOf bits x = shiftOf bits x')
    (hc : ∀ t, t < bpp bits → byte b' (cell W H bits y' (x' * bits / 8 + t))
      = byte b (cell W H bits y (x * bits / 8 + t))) :
    pix b' W H bits x' y' = pix b W H bits x y := by
  rw [pix_cell, pix_cell]
  unfold bpp at hc
  by_cases c : bits = 24
  · subst c
    rw [if_pos rfl, if_pos rfl]
    have h0 := hc 0 (by norm_num)
    have h1 := hc 1 (by norm_num)
    have h2 := hc 2 (by norm_num)
    rw [show x' * 24 / 8 = 3 * x' by omega, show x * 24 / 8 = 3 * x by omega] at h0 h1 h2
    rw [Nat.add_zero, Nat.add_zero] at h0
    rw [h0, h1, h2]
  · rw [if_neg c, if_neg c]
    rw [if_neg c] at hc
    have h0 := hc 0 (by omega)
    rw [Nat.add_zero, Nat.add_zero] at h0
    rw [h0, hs]

end

end Verif
