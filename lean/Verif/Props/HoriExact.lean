import Verif.Props.Horizontal
/-! Properties C30, C31, C53 and C54 for every rectangle: what the horizontal flips and mirrors do in images with several
pixels in a byte. -/

namespace Verif.Props
open Verif Spec Model

/-- Blocks that are written when the columns `p` of block `c1` and `q` of block `c2` are given. -/
def treat (k : HKind) (p q c1 c2 c : Nat) : Bool :=
  decide (c1 ≤ c ∧ c ≤ c2) && decide (2 * c = c1 + c2 → p < q) && upd k (c1 + c2) c

theorem treat_iff {k : HKind} {p q c1 c2 c : Nat} :
    treat k p q c1 c2 c = true ↔ (c1 ≤ c ∧ c ≤ c2) ∧ (2 * c = c1 + c2 → p < q) ∧ upd k (c1 + c2) c = true := by
  unfold treat
  rw [Bool.and_eq_true, Bool.and_eq_true, decide_eq_true_eq, decide_eq_true_eq]
  tauto

/-- Effect of the loop on the bytes. -/
def hresG (b : Bytes) (W H bits : Nat) (k : HKind) (p q ya yb c1 c2 y j : Nat) : Nat :=
  if (ya ≤ y ∧ y ≤ yb) ∧ treat k p q c1 c2 (j / bpp bits) = true
  then blockByte bits (byte b (cell W H bits y (bpp bits * (c1 + c2 - j / bpp bits) + j % bpp bits)))
  else byte b (cell W H bits y j)

theorem block_addr_any {bits : Nat} (hd : Depth bits) (W H c y : Nat) {p : Nat} (hp : p < dxOf bits) :
    addr W H bits (dxOf bits * c + p) y = cell W H bits y (bpp bits * c) := by
  rw [addr_cell]
  rcases hd with rfl | rfl | rfl | rfl <;> refine congrArg _ ?_ <;> simp [dxOf, bpp] at hp ⊢ <;> omega

theorem hswapLoop_any {W H bits : Nat} {fn : SwapFn} {k : HKind} (hs : StepOK fn k W H bits)
    {ya yb p q : Nat} (hy : ya ≤ yb) (hH : yb < H) (hp : p < dxOf bits) (hq : q < dxOf bits) (n : Nat) :
    ∀ {b : Bytes} {c1 c2 : Nat}, Valid b W H bits →
    c1 ≤ c2 → bpp bits * c2 + bpp bits ≤ rowLen W bits → dxOf bits * c2 + q ≤ n + (dxOf bits * c1 + p) →
    ∃ b', hswapLoop fn (dxOf bits : Int) (ya : Int) (yb : Int) (rowLen W bits : Int) n b
        ((dxOf bits * c1 + p : Nat) : Int) ((dxOf bits * c2 + q : Nat) : Int) = .ok b' ∧
      Grid b b' W H bits (hresG b W H bits k p q ya yb c1 c2) := by
  have hpos : 0 < dxOf bits := by omega
  have hstay : ∀ {b : Bytes} {c1 c2 : Nat}, Valid b W H bits → c1 = c2 → ¬ p < q →
      Grid b b W H bits (hresG b W H bits k p q ya yb c1 c2) := by
    intro b c1 c2 h e hpq
    subst e
    apply (Grid.refl h).congr
    intro y j _ _
    unfold hresG
    rw [if_neg]
    rw [treat_iff]
    rintro ⟨_, i, j, _⟩
    exact hpq (j (by omega))
  have hsame : ∀ {c1 c2 : Nat}, c1 ≤ c2 → dxOf bits * c2 + q ≤ dxOf bits * c1 + p → c1 = c2 ∧ ¬ p < q := by
    intro c1 c2 hc hle
    rcases Nat.lt_or_ge c1 c2 with c | c
    · have : dxOf bits * (c1 + 1) ≤ dxOf bits * c2 := Nat.mul_le_mul_left _ c
      have e4 : dxOf bits * (c1 + 1) = dxOf bits * c1 + dxOf bits := by ring
      omega
    · have : c1 = c2 := by omega
      subst this
      omega
  induction n with
  | zero =>
    intro b c1 c2 h hc hfit hn
    obtain ⟨e1, e2⟩ := hsame hc (by omega)
    exact ⟨b, rfl, hstay h e1 e2⟩
  | succ n ih =>
    intro b c1 c2 h hc hfit hn
    have hm := Nat.mul_le_mul_left (dxOf bits) hc
    rw [hswapLoop]
    by_cases hlt : dxOf bits * c1 + p < dxOf bits * c2 + q
    · rw [if_pos (by omega)]
      have hmid : c1 = c2 → p < q := by rintro rfl; omega
      rw [h.BMoffsethd_eq _ yb hH, h.BMoffsethd_eq _ ya (by omega), h.BMoffsethd_eq _ yb hH,
        h.BMoffsethd_eq _ ya (by omega), block_addr_any h.depth W H c1 yb hp, block_addr_any h.depth W H c1 ya hp,
        block_addr_any h.depth W H c2 yb hq, block_addr_any h.depth W H c2 ya hq]
      simp only [ok_bind]
      obtain ⟨b1, e1, g1⟩ := hs b c1 c2 ya yb h hc hfit hy hH
      rw [Int.toNat_natCast, e1]
      simp only [ok_bind]
      by_cases hin : c1 + 1 ≤ c2 - 1
      · have e3 : dxOf bits * c2 = dxOf bits * (c2 - 1) + dxOf bits := by
          conv_lhs => rw [show c2 = (c2 - 1) + 1 by omega]
          ring
        have e4 : dxOf bits * (c1 + 1) = dxOf bits * c1 + dxOf bits := by ring
        have x1 : ((dxOf bits * c1 + p : Nat) : Int) + (dxOf bits : Int) = ((dxOf bits * (c1 + 1) + p : Nat) : Int) := by
          omega
        have x2 : ((dxOf bits * c2 + q : Nat) : Int) - (dxOf bits : Int)
            = ((dxOf bits * (c2 - 1) + q : Nat) : Int) := by omega
        rw [x1, x2]
        have hfit' : bpp bits * (c2 - 1) + bpp bits ≤ rowLen W bits := by
          have := Nat.mul_le_mul_left (bpp bits) (show c2 - 1 ≤ c2 by omega)
          omega
        obtain ⟨b2, e2, g2⟩ := ih g1.valid hin hfit' (by omega)
        refine ⟨b2, e2, (g1.trans g2).congr ?_⟩
        intro y j hyH hj
        unfold hresG
        have hsum : c1 + 1 + (c2 - 1) = c1 + c2 := by omega
        simp only [treat_iff]
        rw [hsum]
        by_cases cy : ya ≤ y ∧ y ≤ yb
        · by_cases ci : c1 + 1 ≤ j / bpp bits ∧ j / bpp bits ≤ c2 - 1
          · by_cases cu : (2 * (j / bpp bits) = c1 + c2 → p < q) ∧ upd k (c1 + c2) (j / bpp bits) = true
            · rw [if_pos ⟨cy, ci, cu⟩, if_pos ⟨cy, by omega, cu⟩]
              obtain ⟨d1, d2⟩ := block_divmod bits (c1 + c2 - j / bpp bits) j
              rw [g1.cells _ _ hyH (block_lt hfit (by omega)), d1, if_neg (by omega)]
            · rw [if_neg (by tauto), if_neg (by tauto), g1.cells _ _ hyH hj, if_neg (by omega)]
          · rw [if_neg (by tauto), g1.cells _ _ hyH hj]
            by_cases cb : j / bpp bits = c1 ∨ j / bpp bits = c2
            · by_cases cu : upd k (c1 + c2) (j / bpp bits) = true
              · rw [if_pos ⟨cy, cb, cu⟩, if_pos ⟨cy, by omega, by omega, cu⟩]
              · rw [if_neg (by tauto), if_neg (by tauto)]
            · rw [if_neg (by tauto), if_neg (by omega)]
        · rw [if_neg (by tauto), if_neg (by tauto), g1.cells _ _ hyH hj, if_neg (by tauto)]
      · refine ⟨b1, ?_, g1.congr ?_⟩
        · cases n with
          | zero => rfl
          | succ n =>
            rw [hswapLoop, if_neg]
            · rfl
            · have : dxOf bits * c2 ≤ dxOf bits * (c1 + 1) := Nat.mul_le_mul_left _ (by omega)
              have e4 : dxOf bits * (c1 + 1) = dxOf bits * c1 + dxOf bits := by ring
              omega
        · intro y j hyH hj
          unfold hresG
          have : ((c1 ≤ j / bpp bits ∧ j / bpp bits ≤ c2) ∧ (2 * (j / bpp bits) = c1 + c2 → p < q) ∧
              upd k (c1 + c2) (j / bpp bits) = true) ↔
              (j / bpp bits = c1 ∨ j / bpp bits = c2) ∧ upd k (c1 + c2) (j / bpp bits) = true := by
            constructor
            · rintro ⟨u, _, v⟩; exact ⟨by omega, v⟩
            · rintro ⟨u, v⟩; exact ⟨by omega, by omega, v⟩
          simp only [treat_iff, this]
    · rw [if_neg (by omega)]
      obtain ⟨e1, e2⟩ := hsame hc (by omega)
      exact ⟨b, rfl, hstay h e1 e2⟩

/-- `horizontalbulkswap` on any rectangle inside the image. -/
theorem bulkswap_any {b : Bytes} {W H bits : Nat} (h : Valid b W H bits) {fn : SwapFn} {k : HKind}
    (hs : StepOK fn k W H bits) {x1 y1 x2 y2 : Int} {xa xb ya yb : Nat}
    (hxa : (xa : Int) = min x1 x2) (hxb : (xb : Int) = max x1 x2) (hya : (ya : Int) = min y1 y2)
    (hyb : (yb : Int) = max y1 y2) (hW : xb < W) (hH : yb < H) :
    bpp bits * (xb / dxOf bits) + bpp bits ≤ rowLen W bits ∧
    ∃ b', horizontalbulkswap b x1 y1 x2 y2 fn = .ok b' ∧
      Grid b b' W H bits (hresG b W H bits k (xa % dxOf bits) (xb % dxOf bits) ya yb (xa / dxOf bits) (xb / dxOf bits)) := by
  have hpos : 0 < dxOf bits := by unfold dxOf; split_ifs <;> omega
  have hfit : bpp bits * (xb / dxOf bits) + bpp bits ≤ rowLen W bits := by
    have := xcell_lt h.depth hW
    have e := block_addr_any h.depth W H (xb / dxOf bits) 0 (Nat.mod_lt xb hpos)
    rw [Nat.div_add_mod, addr_cell] at e
    unfold cell at e
    rcases h.depth with rfl | rfl | rfl | rfl <;> simp [dxOf, bpp] at this ⊢ <;> omega
  refine ⟨hfit, ?_⟩
  unfold horizontalbulkswap
  rw [rect_guard h, if_pos (by omega), h.bits_eq, h.xchrcnt_eq]
  simp only [ok_bind]
  rw [swapif_nat, swapif_nat, ← hya, ← hyb, ← hxa, ← hxb]
  have hdx : (if bits = 24 then pure 1 else if bits = 8 then pure 1 else if bits = 4 then pure 2
      else if bits = 1 then pure 8 else .error .keyError : Py Int) = .ok (dxOf bits : Int) := by
    rcases h.depth with rfl | rfl | rfl | rfl <;> simp [dxOf]
  rw [hdx]
  simp only [ok_bind]
  obtain ⟨b', e, g⟩ := hswapLoop_any hs (ya := ya) (yb := yb) (by omega) hH (Nat.mod_lt xa hpos) (Nat.mod_lt xb hpos)
    ((xb : Int) - (xa : Int)).toNat h (Nat.div_le_div_right (show xa ≤ xb by omega)) hfit
    (by rw [Nat.div_add_mod, Nat.div_add_mod]; omega)
  rw [Nat.div_add_mod, Nat.div_add_mod] at e
  exact ⟨b', e, g⟩

/-- In the pixels: every written pixel is the one at the mirrored position, but in one-bit images
the first pixel of each written byte becomes 0. -/
theorem hresG_pix {b b' : Bytes} {W H bits : Nat} (h : Valid b W H bits) {k : HKind} {p q ya yb c1 c2 : Nat}
    (g : Grid b b' W H bits (hresG b W H bits k p q ya yb c1 c2)) {x y : Nat} (hx : x < W) (hy : y < H)
    (hfit : bpp bits * c2 + bpp bits ≤ rowLen W bits) :
    pix b' W H bits x y =
      if (ya ≤ y ∧ y ≤ yb) ∧ treat k p q c1 c2 (x / dxOf bits) = true
      then if bits = 1 ∧ x % 8 = 0 then 0
        else pix b W H bits (dxOf bits * c1 + (dxOf bits * c2 + dxOf bits - 1) - x) y
      else pix b W H bits x y := by
  have hxc := xcell_lt h.depth hx
  rcases h.depth with rfl | rfl | rfl | rfl
  · -- 1 bit
    rw [pix_cell, if_neg (by omega)]
    simp only [bpp, dxOf] at hfit hxc ⊢
    norm_num at hfit hxc ⊢
    rw [g.cells y (x / 8) hy (by omega)]
    unfold hresG
    simp only [bpp]
    norm_num [Nat.mod_one]
    by_cases c : (ya ≤ y ∧ y ≤ yb) ∧ treat k p q c1 c2 (x / 8) = true
    · have hcc := (treat_iff.mp c.2).1
      rw [if_pos c, if_pos c]
      have hv : byte b (cell W H 1 y (c1 + c2 - x / 8)) < 256 := byte_lt_of_mem h.bytes _
      rw [show blockByte 1 (byte b (cell W H 1 y (c1 + c2 - x / 8))) =
        rotatebits (byte b (cell W H 1 y (c1 + c2 - x / 8))) by simp [blockByte]]
      rw [show shiftOf 1 x = 7 - x % 8 by simp [shiftOf], rotatebits_bit _ hv _ (by omega)]
      by_cases c0 : x % 8 = 0
      · rw [if_pos (by omega), if_pos c0]
      · rw [if_neg (by omega), if_neg c0, pix_cell, if_neg (by omega)]
        rw [show (8 * c1 + (8 * c2 + 7) - x) * 1 / 8 = c1 + c2 - x / 8 by omega,
          show shiftOf 1 (8 * c1 + (8 * c2 + 7) - x) = 7 - (7 - x % 8) by simp only [shiftOf]; omega,
          pow_one]
    · rw [if_neg c, if_neg c, pix_cell, if_neg (by omega)]
      norm_num
  · -- 4 bits
    rw [pix_cell, if_neg (by omega)]
    simp only [bpp, dxOf] at hfit hxc ⊢
    norm_num at hfit hxc ⊢
    rw [g.cells y (x * 4 / 8) hy (by omega)]
    unfold hresG
    simp only [bpp]
    norm_num [Nat.mod_one]
    rw [show x * 4 / 8 = x / 2 by omega]
    by_cases c : (ya ≤ y ∧ y ≤ yb) ∧ treat k p q c1 c2 (x / 2) = true
    · have hcc := (treat_iff.mp c.2).1
      rw [if_pos c, if_pos c]
      have hv : byte b (cell W H 4 y (c1 + c2 - x / 2)) < 256 := byte_lt_of_mem h.bytes _
      simp only [blockByte, if_true]
      rw [pix_cell, if_neg (by omega)]
      rw [show (2 * c1 + (2 * c2 + 1) - x) * 4 / 8 = c1 + c2 - x / 2 by omega]
      generalize byte b (cell W H 4 y (c1 + c2 - x / 2)) = v at hv
      rcases Nat.mod_two_eq_zero_or_one x with p | p
      · rw [show shiftOf 4 x = 4 by simp only [shiftOf]; omega,
          show shiftOf 4 (2 * c1 + (2 * c2 + 1) - x) = 0 by simp only [shiftOf]; omega]
        have q : (v / 16 + v % 16 * 16) / 2 ^ 4 = v % 16 := by omega
        rw [q]; omega
      · rw [show shiftOf 4 x = 0 by simp only [shiftOf]; omega,
          show shiftOf 4 (2 * c1 + (2 * c2 + 1) - x) = 4 by simp only [shiftOf]; omega]
        omega
    · rw [if_neg c, if_neg c, pix_cell, if_neg (by omega)]
      norm_num
      rw [show x * 4 / 8 = x / 2 by omega]
  · -- 8 bits
    rw [pix_cell, if_neg (by omega)]
    simp only [bpp, dxOf] at hfit hxc ⊢
    norm_num at hfit hxc ⊢
    rw [g.cells y x hy (by omega)]
    unfold hresG
    simp only [bpp]
    norm_num [Nat.mod_one]
    by_cases c : (ya ≤ y ∧ y ≤ yb) ∧ treat k p q c1 c2 x = true
    · rw [if_pos c, if_pos c, pix_cell, if_neg (by omega)]
      simp [blockByte, shiftOf]
    · rw [if_neg c, if_neg c, pix_cell, if_neg (by omega)]
      simp [shiftOf]
  · -- 24 bits
    simp only [bpp, dxOf] at hfit hxc ⊢
    norm_num at hfit hxc ⊢
    rw [pix_cell, if_pos rfl, pix_cell, if_pos rfl, pix_cell, if_pos rfl]
    rw [g.cells y (3 * x) hy (by omega), g.cells y (3 * x + 1) hy (by omega), g.cells y (3 * x + 2) hy (by omega)]
    unfold hresG
    simp only [bpp]
    norm_num [Nat.mod_one]
    rw [show (3 * x + 1) / 3 = x by omega, show (3 * x + 2) / 3 = x by omega]
    by_cases c : (ya ≤ y ∧ y ≤ yb) ∧ treat k p q c1 c2 x = true
    · simp only [if_pos c]
      simp [blockByte]
    · simp only [if_neg c]

/-- Flipping twice restores the file, whatever the rectangle. -/
theorem hflip_undo_any {b b' b2 : Bytes} {W H bits p q ya yb c1 c2 : Nat} (h : Valid b W H bits) (hb : bits ≠ 1)
    (hfit : bpp bits * c2 + bpp bits ≤ rowLen W bits)
    (g : Grid b b' W H bits (hresG b W H bits .flip p q ya yb c1 c2))
    (g2 : Grid b' b2 W H bits (hresG b' W H bits .flip p q ya yb c1 c2)) : b2 = b := by
  apply Grid.undo h g g2
  intro y j hy hj
  unfold hresG
  by_cases c : (ya ≤ y ∧ y ≤ yb) ∧ treat .flip p q c1 c2 (j / bpp bits) = true
  · obtain ⟨t1, t2, _⟩ := treat_iff.mp c.2
    rw [if_pos c, g.cells _ _ hy (block_lt hfit (by omega))]
    unfold hresG
    obtain ⟨d1, d2⟩ := block_divmod bits (c1 + c2 - j / bpp bits) j
    rw [d1, d2, if_pos ⟨c.1, treat_iff.mpr ⟨by omega, by omega, rfl⟩⟩, blockByte_twice hb (byte_lt_of_mem h.bytes _),
      show c1 + c2 - (c1 + c2 - j / bpp bits) = j / bpp bits by omega, block_join]
  · rw [if_neg c, g.cells _ _ hy hj]
    unfold hresG
    rw [if_neg c]

/-- Column of the pixel that comes to column `x` when the bytes from the one of column `x1` to the one of column `x2` are
put in reverse order with their pixels. If the last byte of the row is not full, this can be a column from `W` on: then the
bits are those behind the last pixel. -/
def byteMirror (bits : Nat) (x1 x2 : Int) (x : Nat) : Nat :=
  (dxOf bits * (x1 / dxOf bits + x2 / dxOf bits + 1) - 1 - x).toNat

/-- The pixels in the bytes that the functions treat: from the byte of column `x1` to the one of column `x2`, but a byte in
the middle only if the left column comes earlier in its byte than the right column in its own. -/
def ByteCols (bits : Nat) (x1 y1 x2 y2 : Int) (x y : Nat) : Prop :=
  (min y1 y2 ≤ (y : Int) ∧ (y : Int) ≤ max y1 y2) ∧
  (min x1 x2 / dxOf bits ≤ ((x / dxOf bits : Nat) : Int) ∧ ((x / dxOf bits : Nat) : Int) ≤ max x1 x2 / dxOf bits) ∧
  (2 * ((x / dxOf bits : Nat) : Int) = x1 / dxOf bits + x2 / dxOf bits → min x1 x2 % dxOf bits < max x1 x2 % dxOf bits)

instance (bits : Nat) (x1 y1 x2 y2 : Int) (x y : Nat) : Decidable (ByteCols bits x1 y1 x2 y2 x y) := by
  unfold ByteCols; infer_instance

/-- The bytes that are written: all, those from the middle on, those up to the middle. -/
def writes (k : HKind) (bits : Nat) (x1 x2 : Int) (x : Nat) : Prop :=
  match k with
  | .flip => True
  | .left => x1 / dxOf bits + x2 / dxOf bits ≤ 2 * ((x / dxOf bits : Nat) : Int)
  | .right => 2 * ((x / dxOf bits : Nat) : Int) ≤ x1 / dxOf bits + x2 / dxOf bits

instance (k : HKind) (bits : Nat) (x1 x2 : Int) (x : Nat) : Decidable (writes k bits x1 x2 x) := by
  unfold writes; cases k <;> infer_instance

theorem hregion_any {b : Bytes} {W H bits : Nat} (h : Valid b W H bits) (k : HKind) {x1 y1 x2 y2 : Int}
    (hi : InImage W H x1 y1 x2 y2) :
    ∃ b', hregion k b x1 y1 x2 y2 = .ok b' ∧ Redraws b b' W H bits (fun x y =>
      if ByteCols bits x1 y1 x2 y2 x y ∧ writes k bits x1 x2 x
      then if bits = 1 ∧ x % 8 = 0 then 0 else pix b W H bits (byteMirror bits x1 x2 x) y
      else pix b W H bits x y) := by
  obtain ⟨xa, xb, ya, yb, hxa, hxb, hya, hyb, hW, hH⟩ := corners hi
  obtain ⟨fn, e, s⟩ := hregion_eq h k (by omega)
  obtain ⟨hfit, b', e', g⟩ := bulkswap_any h s hxa hxb hya hyb hW hH
  refine ⟨b', by rw [e, e'], g.valid, g.header, ?_⟩
  intro x y hx hy
  rw [hresG_pix h g hx hy hfit]
  have hpos : 0 < dxOf bits := by unfold dxOf; split_ifs <;> omega
  have hle : xa / dxOf bits ≤ xb / dxOf bits := Nat.div_le_div_right (by omega)
  have hsum : x1 / (dxOf bits : Int) + x2 / (dxOf bits : Int) = ((xa / dxOf bits + xb / dxOf bits : Nat) : Int) := by
    push_cast
    rcases le_total x1 x2 with c | c
    · rw [show x1 = (xa : Int) by omega, show x2 = (xb : Int) by omega]
    · rw [show x1 = (xb : Int) by omega, show x2 = (xa : Int) by omega]; ring
  have hcond : ((ya ≤ y ∧ y ≤ yb) ∧ treat k (xa % dxOf bits) (xb % dxOf bits) (xa / dxOf bits) (xb / dxOf bits)
      (x / dxOf bits) = true) ↔ (ByteCols bits x1 y1 x2 y2 x y ∧ writes k bits x1 x2 x) := by
    rw [treat_iff]
    unfold ByteCols
    rw [← hya, ← hyb, ← hxa, ← hxb, hsum]
    have m1 : ((xa : Int) / (dxOf bits : Int)) = ((xa / dxOf bits : Nat) : Int) := by push_cast; rfl
    have m2 : ((xb : Int) / (dxOf bits : Int)) = ((xb / dxOf bits : Nat) : Int) := by push_cast; rfl
    have m3 : ((xa : Int) % (dxOf bits : Int)) = ((xa % dxOf bits : Nat) : Int) := by push_cast; rfl
    have m4 : ((xb : Int) % (dxOf bits : Int)) = ((xb % dxOf bits : Nat) : Int) := by push_cast; rfl
    rw [m1, m2, m3, m4]
    generalize xa / dxOf bits = c1 at *
    generalize xb / dxOf bits = c2 at *
    generalize xa % dxOf bits = p at *
    generalize xb % dxOf bits = q at *
    have hw : upd k (c1 + c2) (x / dxOf bits) = true ↔ writes k bits x1 x2 x := by
      unfold writes upd
      cases k <;> simp only [decide_eq_true_eq, hsum] <;> omega
    rw [hw, ← and_assoc, ← and_assoc]
    refine and_congr ?_ Iff.rfl
    generalize x / dxOf bits = c at *
    omega
  by_cases c : ByteCols bits x1 y1 x2 y2 x y ∧ writes k bits x1 x2 x
  · rw [if_pos c, if_pos (hcond.mpr c)]
    congr 2
    unfold byteMirror
    rw [hsum]
    have hr := (treat_iff.mp (hcond.mpr c).2).1
    have hx' : x < dxOf bits * (x / dxOf bits + 1) := by
      have := Nat.div_add_mod x (dxOf bits)
      have := Nat.mod_lt x hpos
      rw [Nat.mul_add]; omega
    have hmul : dxOf bits * (x / dxOf bits + 1) ≤ dxOf bits * (xa / dxOf bits + xb / dxOf bits + 1) :=
      Nat.mul_le_mul_left _ (Nat.add_le_add_right (hr.2.trans (Nat.le_add_left _ _)) 1)
    have e1 : (dxOf bits : Int) * (((xa / dxOf bits + xb / dxOf bits : Nat) : Int) + 1)
        = ((dxOf bits * (xa / dxOf bits + xb / dxOf bits + 1) : Nat) : Int) := by push_cast; ring
    have e2 : dxOf bits * (xa / dxOf bits + xb / dxOf bits + 1) =
        dxOf bits * (xa / dxOf bits) + dxOf bits * (xb / dxOf bits) + dxOf bits := by ring
    rw [e1]
    omega
  · rw [if_neg c, if_neg (fun u => c (hcond.mp u))]

/-- C53 for every rectangle in every depth: the bytes from the one of column `x1` to the one of column `x2` are put in
reverse order together with the pixels in them. -/
theorem C53_exact {b : Bytes} {W H bits : Nat} (h : Valid b W H bits) {x1 y1 x2 y2 : Int}
    (hi : InImage W H x1 y1 x2 y2) :
    ∃ b', fliphorizontalregion b x1 y1 x2 y2 = .ok b' ∧ Redraws b b' W H bits (fun x y =>
      if ByteCols bits x1 y1 x2 y2 x y
      then if bits = 1 ∧ x % 8 = 0 then 0 else pix b W H bits (byteMirror bits x1 x2 x) y
      else pix b W H bits x y) := by
  obtain ⟨b', e, r⟩ := hregion_any h .flip hi
  refine ⟨b', e, r.valid, r.header, fun x y hx hy => ?_⟩
  rw [r.pixels x y hx hy]
  simp only [writes, and_true]

/-- C53: flipping a rectangle twice restores the file, in 4-, 8- and 24-bit images. -/
theorem C53_undo {b : Bytes} {W H bits : Nat} (h : Valid b W H bits) (hb : bits ≠ 1) (x1 y1 x2 y2 : Int) :
    (do fliphorizontalregion (← fliphorizontalregion b x1 y1 x2 y2) x1 y1 x2 y2) = .ok b := by
  by_cases hi : InImage W H x1 y1 x2 y2
  · obtain ⟨xa, xb, ya, yb, hxa, hxb, hya, hyb, hW, hH⟩ := corners hi
    obtain ⟨fn, e, s⟩ := hregion_eq h .flip (by omega)
    obtain ⟨hfit, b', e', g⟩ := bulkswap_any h s hxa hxb hya hyb hW hH
    obtain ⟨fn2, e2, s2⟩ := hregion_eq g.valid .flip (by omega)
    obtain ⟨_, b2, e2', g2⟩ := bulkswap_any g.valid s2 hxa hxb hya hyb hW hH
    rw [show fliphorizontalregion b x1 y1 x2 y2 = hregion .flip b x1 y1 x2 y2 from rfl, e, e']
    simp only [ok_bind]
    rw [show fliphorizontalregion b' x1 y1 x2 y2 = hregion .flip b' x1 y1 x2 y2 from rfl, e2, e2',
      hflip_undo_any h hb hfit g g2]
  · have e := hregion_outside h .flip hi
    rw [show fliphorizontalregion b x1 y1 x2 y2 = hregion .flip b x1 y1 x2 y2 from rfl, e]
    exact e

/-- C54 for every rectangle in every depth: the bytes from the middle on are the earlier ones in reverse order. -/
theorem C54_left_exact {b : Bytes} {W H bits : Nat} (h : Valid b W H bits) {x1 y1 x2 y2 : Int}
    (hi : InImage W H x1 y1 x2 y2) :
    ∃ b', mirrorleftinregion b x1 y1 x2 y2 = .ok b' ∧ Redraws b b' W H bits (fun x y =>
      if ByteCols bits x1 y1 x2 y2 x y ∧ x1 / dxOf bits + x2 / dxOf bits ≤ 2 * ((x / dxOf bits : Nat) : Int)
      then if bits = 1 ∧ x % 8 = 0 then 0 else pix b W H bits (byteMirror bits x1 x2 x) y
      else pix b W H bits x y) := hregion_any h .left hi

/-- C54 for every rectangle in every depth: the bytes up to the middle are the later ones in reverse order. -/
theorem C54_right_exact {b : Bytes} {W H bits : Nat} (h : Valid b W H bits) {x1 y1 x2 y2 : Int}
    (hi : InImage W H x1 y1 x2 y2) :
    ∃ b', mirrorrightinregion b x1 y1 x2 y2 = .ok b' ∧ Redraws b b' W H bits (fun x y =>
      if ByteCols bits x1 y1 x2 y2 x y ∧ 2 * ((x / dxOf bits : Nat) : Int) ≤ x1 / dxOf bits + x2 / dxOf bits
      then if bits = 1 ∧ x % 8 = 0 then 0 else pix b W H bits (byteMirror bits x1 x2 x) y
      else pix b W H bits x y) := hregion_any h .right hi

theorem hwhole_any {b : Bytes} {W H bits : Nat} (h : Valid b W H bits) (k : HKind) :
    ∃ b', hwhole k b = .ok b' ∧ Redraws b b' W H bits (fun x y =>
      if (2 * (x / dxOf bits) = (W - 1) / dxOf bits → 0 < (W - 1) % dxOf bits) ∧
        upd k ((W - 1) / dxOf bits) (x / dxOf bits) = true
      then if bits = 1 ∧ x % 8 = 0 then 0
        else pix b W H bits (dxOf bits * ((W - 1) / dxOf bits + 1) - 1 - x) y
      else pix b W H bits x y) := by
  rw [hwhole_eq h]
  by_cases hi : InImage W H 0 0 ((W : Int) - 1) ((H : Int) - 1)
  · have hW : 0 < W := by unfold InImage at hi; omega
    have hH : 0 < H := by unfold InImage at hi; omega
    obtain ⟨fn, e, s⟩ := hregion_eq h k hW
    obtain ⟨hfit, b', e', g⟩ := bulkswap_any h s (x1 := 0) (y1 := 0) (x2 := (W : Int) - 1) (y2 := (H : Int) - 1)
      (xa := 0) (xb := W - 1) (ya := 0) (yb := H - 1) (by omega) (by omega) (by omega) (by omega) (by omega) (by omega)
    refine ⟨b', by rw [e, e'], g.valid, g.header, fun x y hx hy => ?_⟩
    rw [hresG_pix h g hx hy hfit]
    have hxle : x / dxOf bits ≤ (W - 1) / dxOf bits := Nat.div_le_div_right (by omega)
    have hc : ((0 ≤ y ∧ y ≤ H - 1) ∧ treat k (0 % dxOf bits) ((W - 1) % dxOf bits) (0 / dxOf bits) ((W - 1) / dxOf bits)
        (x / dxOf bits) = true) ↔ (2 * (x / dxOf bits) = (W - 1) / dxOf bits → 0 < (W - 1) % dxOf bits) ∧
        upd k ((W - 1) / dxOf bits) (x / dxOf bits) = true := by
      rw [treat_iff, Nat.zero_div, Nat.zero_mod, Nat.zero_add]
      constructor
      · rintro ⟨_, _, a, c⟩; exact ⟨a, c⟩
      · rintro ⟨a, c⟩; exact ⟨⟨by omega, by omega⟩, ⟨Nat.zero_le _, hxle⟩, a, c⟩
    simp only [hc]
    split_ifs <;> try rfl
    congr 1
    rw [Nat.zero_div, Nat.mul_zero, Nat.mul_add, Nat.mul_one]
    omega
  · refine ⟨b, hregion_outside h k hi, h, ⟨rfl, fun _ _ => rfl⟩, ?_⟩
    intro x y hx hy
    exact absurd (by unfold InImage; omega) hi

/-- C30 for every depth and width: `fliphorizontal` puts the bytes that hold the row in reverse order with their pixels. The
byte in the middle is left alone if the last column is the first pixel of its byte. In images of 8 and 24 bits `dxOf bits` is 1
and this is the reflection. -/
theorem C30_exact {b : Bytes} {W H bits : Nat} (h : Valid b W H bits) :
    ∃ b', fliphorizontal b = .ok b' ∧ Redraws b b' W H bits (fun x y =>
      if 2 * (x / dxOf bits) = (W - 1) / dxOf bits ∧ (W - 1) % dxOf bits = 0 then pix b W H bits x y
      else if bits = 1 ∧ x % 8 = 0 then 0 else pix b W H bits (dxOf bits * ((W - 1) / dxOf bits + 1) - 1 - x) y) := by
  obtain ⟨b', e, r⟩ := hwhole_any h .flip
  refine ⟨b', e, r.valid, r.header, fun x y hx hy => ?_⟩
  rw [r.pixels x y hx hy]
  simp only [upd, and_true]
  by_cases c : 2 * (x / dxOf bits) = (W - 1) / dxOf bits ∧ (W - 1) % dxOf bits = 0
  · rw [if_pos c, if_neg (by omega)]
  · rw [if_neg c, if_pos (by omega)]

/-- C31 for every depth and width: the bytes of the row from the middle on become the earlier ones in reverse order. -/
theorem C31_left_exact {b : Bytes} {W H bits : Nat} (h : Valid b W H bits) :
    ∃ b', mirrorleft b = .ok b' ∧ Redraws b b' W H bits (fun x y =>
      if (2 * (x / dxOf bits) = (W - 1) / dxOf bits → 0 < (W - 1) % dxOf bits) ∧
        (W - 1) / dxOf bits ≤ 2 * (x / dxOf bits)
      then if bits = 1 ∧ x % 8 = 0 then 0
        else pix b W H bits (dxOf bits * ((W - 1) / dxOf bits + 1) - 1 - x) y
      else pix b W H bits x y) := by
  obtain ⟨b', e, r⟩ := hwhole_any h .left
  refine ⟨b', e, r.valid, r.header, fun x y hx hy => ?_⟩
  rw [r.pixels x y hx hy]
  have : (W - 1) / dxOf bits - x / dxOf bits ≤ x / dxOf bits ↔ (W - 1) / dxOf bits ≤ 2 * (x / dxOf bits) := by omega
  simp only [upd, decide_eq_true_eq, this]

/-- C31 for every depth and width: the bytes of the row up to the middle become the later ones in reverse order. -/
theorem C31_right_exact {b : Bytes} {W H bits : Nat} (h : Valid b W H bits) :
    ∃ b', mirrorright b = .ok b' ∧ Redraws b b' W H bits (fun x y =>
      if (2 * (x / dxOf bits) = (W - 1) / dxOf bits → 0 < (W - 1) % dxOf bits) ∧
        2 * (x / dxOf bits) ≤ (W - 1) / dxOf bits
      then if bits = 1 ∧ x % 8 = 0 then 0
        else pix b W H bits (dxOf bits * ((W - 1) / dxOf bits + 1) - 1 - x) y
      else pix b W H bits x y) := by
  obtain ⟨b', e, r⟩ := hwhole_any h .right
  refine ⟨b', e, r.valid, r.header, fun x y hx hy => ?_⟩
  rw [r.pixels x y hx hy]
  have hxle : x / dxOf bits ≤ (W - 1) / dxOf bits := Nat.div_le_div_right (by omega)
  have : x / dxOf bits ≤ (W - 1) / dxOf bits - x / dxOf bits ↔ 2 * (x / dxOf bits) ≤ (W - 1) / dxOf bits := by omega
  simp only [upd, decide_eq_true_eq, this]

/-- C30: flipping twice restores the file, in 4-, 8- and 24-bit images of any width. -/
theorem C30_undo {b : Bytes} {W H bits : Nat} (h : Valid b W H bits) (hb : bits ≠ 1) :
    (do fliphorizontal (← fliphorizontal b)) = .ok b := by
  obtain ⟨b', e, r⟩ := hwhole_any h .flip
  have e1 := hwhole_eq h .flip
  have e2 := hwhole_eq r.valid .flip
  have u := C53_undo h hb 0 0 ((W : Int) - 1) ((H : Int) - 1)
  change hwhole .flip b = fliphorizontalregion b 0 0 ((W : Int) - 1) ((H : Int) - 1) at e1
  change hwhole .flip b' = fliphorizontalregion b' 0 0 ((W : Int) - 1) ((H : Int) - 1) at e2
  change (do hwhole .flip (← hwhole .flip b)) = .ok b
  rw [e, ok_bind, e2]
  rw [← e1, e, ok_bind] at u
  exact u

/-- A 4-bit row of five pixels has three bytes; the one in the middle stays and the free half of the last byte comes first. -/
example : (do let b ← newBMP 5 1 4; let b ← plotxybit b 0 0 1; let b ← plotxybit b 1 0 2; let b ← plotxybit b 2 0 3
              let b ← plotxybit b 3 0 4; let b ← plotxybit b 4 0 5; let f ← fliphorizontal b
              [0, 1, 2, 3, 4].mapM fun x => getxybit f x 0) = .ok [0, 5, 3, 4, 2] := by decide +kernel
example : (do let b ← newBMP 8 1 4; let b ← plotxybit b 2 0 3; let b ← plotxybit b 3 0 4; let b ← plotxybit b 7 0 8
              let b ← mirrorleftinregion b 3 0 6 0
              [2, 3, 4, 5, 6, 7].mapM fun x => getxybit b x 0) = .ok [3, 4, 0, 0, 4, 3] := by decide +kernel

end Verif.Props
