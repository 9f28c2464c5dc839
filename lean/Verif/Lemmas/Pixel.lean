import Verif.Lemmas.Header
import Mathlib.Tactic.IntervalCases
/-! Evaluation of pixel reads and writes on well-formed files. -/

namespace Verif
open Spec Model

/-- Position of the lowest bit of pixel `x` in its byte. -/
def shiftOf (bits x : Nat) : Nat := 8 - bits - x * bits % 8

/-- Replace the `bits`-wide field at `sh` of a byte. -/
def setField (v sh bits n : Nat) : Nat := v - v / 2 ^ sh % 2 ^ bits * 2 ^ sh + n * 2 ^ sh

/-- Effect of a pixel write on the bytes. -/
def plotP (b : Bytes) (W H bits x y n : Nat) : Bytes :=
  if bits = 24 then ow b (addr W H bits x y) [n % 256, n / 256 % 256, n / 65536]
  else b.set (addr W H bits x y) (setField (byte b (addr W H bits x y)) (shiftOf bits x) bits n)

theorem and_f0 : ∀ v, v < 256 → v &&& 0xf0 = v - v % 16 := by decide +kernel
theorem and_0f (v : Nat) : v &&& 0xf = v % 16 := Nat.and_two_pow_sub_one_eq_mod v 4
theorem and_f0_shr : ∀ v, v < 256 → (v &&& 0xf0) >>> 4 = v / 16 := by decide +kernel

set_option maxRecDepth 20000 in
theorem or_bit : ∀ s, s < 8 → ∀ v, v < 256 → v ||| (1 <<< s) = v - v / 2 ^ s % 2 * 2 ^ s + 2 ^ s := by
  decide +kernel

set_option maxRecDepth 20000 in
theorem clear_bit : ∀ s, s < 8 → ∀ v, v < 256 →
    (if (v &&& (1 <<< s)) = 1 <<< s then v ^^^ (1 <<< s) else v) = v - v / 2 ^ s % 2 * 2 ^ s := by
  decide +kernel

set_option maxRecDepth 20000 in
theorem get_bit : ∀ s, s < 8 → ∀ v, v < 256 → (v &&& (1 <<< s)) >>> s = v / 2 ^ s % 2 := by
  decide +kernel

theorem reduce_lt {bits : Nat} (c : Int) : reduce bits c < 2 ^ bits := by
  unfold reduce
  have : 0 < 2 ^ bits := Nat.two_pow_pos bits
  split_ifs with h1 h2
  · subst h1; norm_num
  · subst h1; norm_num
  · have h3 : (0 : Int) < 2 ^ bits := by positivity
    have h4 := Int.emod_lt_of_pos c h3
    have h5 := Int.emod_nonneg c (ne_of_gt h3)
    have : ((2 ^ bits : Nat) : Int) = (2 : Int) ^ bits := by push_cast; rfl
    omega

theorem reduce_24 {c : Int} (h0 : 0 ≤ c) (h1 : c < 2 ^ 24) : reduce 24 c = c.toNat := by
  unfold reduce; norm_num at *; omega
theorem reduce_8 (c : Int) : reduce 8 c = (c % 256).toNat := by unfold reduce; norm_num
theorem reduce_4 (c : Int) : reduce 4 c = (c % 16).toNat := by unfold reduce; norm_num
theorem reduce_1 (c : Int) : reduce 1 c = if c > 0 then 1 else 0 := by unfold reduce; simp

namespace Spec.Valid
variable {b : Bytes} {W H bits : Nat}

theorem plot_eq (h : Valid b W H bits) {x y : Nat} (hx : x < W) (hy : y < H) {c : Int}
    (hc : bits = 24 → 0 ≤ c ∧ c < 2 ^ 24) :
    plotxybit b (x : Int) (y : Int) c = .ok (plotP b W H bits x y (reduce bits c)) := by
  have hr := h.rowoff_eq (y : Int)
  rw [row_cast hy] at hr
  have ha := addr_lt h hx hy
  have hv := byte_lt_of_mem h.bytes (addr W H bits x y)
  unfold plotxybit
  rw [h.inb_true hx hy, h.bits_eq]
  simp only [ok_bind]
  rw [if_neg (by simp)]
  rcases h.depth with rfl | rfl | rfl | rfl
  · -- 1 bit
    simp only [Nat.cast_one] at hr
    norm_num only [ite_false, ite_true, if_true, if_false] at ha ⊢
    rw [hr]
    simp only [ok_bind]
    have hoff : pyShr (x : Int) 3 + (((H - 1 - y) * rowLen W 1 : Nat) : Int) + 62 = (addr W H 1 x y : Int) := by
      simp [addr, rel, dataOff, palSize, pyShr]; omega
    rw [hoff, getItem_ok rfl (by omega)]
    have hm : pyMod (x : Int) 8 = .ok ((x % 8 : Nat) : Int) := by
      simp [pyMod, Int.fmod_eq_emod_of_nonneg]
    simp only [ok_bind, hm]
    have hs : (7 - ((x % 8 : Nat) : Int)).toNat = shiftOf 1 x := by unfold shiftOf; omega
    have hs8 : shiftOf 1 x < 8 := by unfold shiftOf; omega
    rw [hs]
    set v := byte b (addr W H 1 x y) with hvdef
    by_cases hcp : c > 0
    · simp only [hcp, if_true]
      rw [or_bit _ hs8 v hv]
      rw [setItem_ok (n := addr W H 1 x y) rfl (by omega) rfl]
      · simp [plotP, setField, reduce_1, hcp, ← hvdef]
      · have := or_bit _ hs8 v hv
        rw [← this]
        exact Nat.or_lt_two_pow (n := 8) hv (by
          rw [Nat.one_shiftLeft]; exact Nat.pow_lt_pow_right (by norm_num) hs8)
    · simp only [hcp, if_false]
      norm_num only [ite_false, and_true, if_false]
      rw [clear_bit _ hs8 v hv]
      rw [setItem_ok (n := addr W H 1 x y) rfl (by omega) rfl (by omega)]
      simp [plotP, setField, reduce_1, hcp, ← hvdef]
  · -- 4 bit
    simp only [Nat.cast_ofNat] at hr
    norm_num only [ite_false, ite_true, if_true, if_false] at ha ⊢
    rw [hr]
    simp only [ok_bind]
    have hoff : pyShr (x : Int) 1 + (((H - 1 - y) * rowLen W 4 : Nat) : Int) + 118 = (addr W H 4 x y : Int) := by
      simp [addr, rel, dataOff, palSize, pyShr]; omega
    rw [hoff, getItem_ok rfl (by omega)]
    simp only [ok_bind, pyAnd_1, pyAnd_15]
    set v := byte b (addr W H 4 x y) with hvdef
    have hrd := reduce_4 c
    split_ifs with h1
    · rw [setItem_ok (n := addr W H 4 x y) (w := setField v (shiftOf 4 x) 4 (reduce 4 c)) rfl (by omega)]
      · rfl
      · have : shiftOf 4 x = 0 := by unfold shiftOf; omega
        rw [this, and_f0 v hv, hrd]; unfold setField; norm_num; omega
      · have : shiftOf 4 x = 0 := by unfold shiftOf; omega
        rw [this, hrd]; unfold setField; norm_num; omega
    · rw [setItem_ok (n := addr W H 4 x y) (w := setField v (shiftOf 4 x) 4 (reduce 4 c)) rfl (by omega)]
      · rfl
      · have : shiftOf 4 x = 4 := by unfold shiftOf; omega
        rw [this, and_0f v, hrd]; unfold setField pyShl; norm_num; omega
      · have : shiftOf 4 x = 4 := by unfold shiftOf; omega
        rw [this, hrd]; unfold setField; norm_num; omega
  · -- 8 bit
    simp only [Nat.cast_ofNat] at hr
    norm_num only [ite_false, ite_true, if_true, if_false] at ha ⊢
    rw [hr]
    simp only [ok_bind, pyAnd_255]
    have hoff : (x : Int) + (((H - 1 - y) * rowLen W 8 : Nat) : Int) + 1078 = (addr W H 8 x y : Int) := by
      simp [addr, rel, dataOff, palSize]; omega
    rw [hoff]
    have hrd := reduce_8 c
    have : shiftOf 8 x = 0 := by unfold shiftOf; omega
    rw [setItem_ok (n := addr W H 8 x y) (w := setField (byte b (addr W H 8 x y)) (shiftOf 8 x) 8 (reduce 8 c)) rfl (by omega)]
    · rfl
    · rw [this, hrd]; unfold setField; norm_num; omega
    · rw [this, hrd]; unfold setField; norm_num; omega
  · -- 24 bit
    simp only [Nat.cast_ofNat] at hr
    norm_num only [ite_false, ite_true, if_true, if_false] at ha ⊢
    rw [hr]
    simp only [ok_bind, pyAnd_255, pyShr_8, pyShr_16]
    obtain ⟨c0, c1⟩ := hc rfl
    have hrd := reduce_24 c0 c1
    rw [mkArray3_ok (x := reduce 24 c % 256) (y := reduce 24 c / 256 % 256) (z := reduce 24 c / 65536)
      (by omega) (by omega) (by omega) (by omega) (by omega) (by omega)]
    simp only [ok_bind, pure_eq_ok]
    rw [setSlice_ok (n := addr W H 24 x y)]
    · simp [plotP]
    · simp [addr, rel, dataOff, palSize]; omega
    · simp [addr, rel, dataOff, palSize]; omega
    · simp; omega

end Spec.Valid

/-! ### Algebra of bit fields -/

theorem setField_get {v sh bits n : Nat} (hn : n < 2 ^ bits) :
    setField v sh bits n / 2 ^ sh % 2 ^ bits = n := by
  unfold setField
  have hp : 0 < 2 ^ sh := Nat.two_pow_pos sh
  rw [Nat.add_mul_div_right _ _ hp]
  set q := v / 2 ^ sh
  have h1 : v = 2 ^ sh * q + v % 2 ^ sh := (Nat.div_add_mod v (2 ^ sh)).symm
  have h2 : q = 2 ^ bits * (q / 2 ^ bits) + q % 2 ^ bits := (Nat.div_add_mod q (2 ^ bits)).symm
  have h3 : v - q % 2 ^ bits * 2 ^ sh = (2 ^ bits * (q / 2 ^ bits)) * 2 ^ sh + v % 2 ^ sh := by
    have : v = (2 ^ bits * (q / 2 ^ bits)) * 2 ^ sh + q % 2 ^ bits * 2 ^ sh + v % 2 ^ sh := by
      conv_lhs => rw [h1, h2]
      ring
    omega
  rw [h3, Nat.add_comm (_ * 2 ^ sh), Nat.add_mul_div_right _ _ hp, Nat.div_eq_of_lt (Nat.mod_lt _ hp)]
  rw [show 0 + 2 ^ bits * (q / 2 ^ bits) + n = n + 2 ^ bits * (q / 2 ^ bits) by ring,
    Nat.add_mul_mod_self_left, Nat.mod_eq_of_lt hn]

theorem setField_lt {v sh bits n : Nat} (hv : v < 256) (hn : n < 2 ^ bits) (hs : sh + bits ≤ 8) :
    setField v sh bits n < 256 := by
  unfold setField
  have hp : 0 < 2 ^ sh := Nat.two_pow_pos sh
  set q := v / 2 ^ sh
  have h1 : v = 2 ^ sh * q + v % 2 ^ sh := (Nat.div_add_mod v (2 ^ sh)).symm
  have h2 : q = 2 ^ bits * (q / 2 ^ bits) + q % 2 ^ bits := (Nat.div_add_mod q (2 ^ bits)).symm
  have h0 : v = (2 ^ bits * (q / 2 ^ bits)) * 2 ^ sh + q % 2 ^ bits * 2 ^ sh + v % 2 ^ sh := by
    conv_lhs => rw [h1, h2]
    ring
  have h3 : v - q % 2 ^ bits * 2 ^ sh = (2 ^ bits * (q / 2 ^ bits)) * 2 ^ sh + v % 2 ^ sh := by omega
  have h4 : v % 2 ^ sh < 2 ^ sh := Nat.mod_lt _ hp
  rw [h3]
  -- quotient bound
  have e : 2 ^ sh * 2 ^ bits * 2 ^ (8 - sh - bits) = 256 := by
    rw [← pow_add, ← pow_add, show sh + bits + (8 - sh - bits) = 8 by omega]; norm_num
  have h5 : q / 2 ^ bits < 2 ^ (8 - sh - bits) := by
    rw [Nat.div_div_eq_div_mul]
    apply Nat.div_lt_of_lt_mul
    omega
  have h6 : q / 2 ^ bits + 1 ≤ 2 ^ (8 - sh - bits) := h5
  have h7 := Nat.mul_le_mul_left (2 ^ sh * 2 ^ bits) h6
  have h8 : (n + 1) * 2 ^ sh ≤ 2 ^ bits * 2 ^ sh := Nat.mul_le_mul_right _ hn
  rw [e] at h7
  nlinarith

theorem setField_other {bits v n x x' : Nat} (hd : bits = 1 ∨ bits = 4 ∨ bits = 8) (hv : v < 256)
    (hn : n < 2 ^ bits) (hne : x ≠ x') (heq : x * bits / 8 = x' * bits / 8) :
    setField v (shiftOf bits x) bits n / 2 ^ shiftOf bits x' % 2 ^ bits
      = v / 2 ^ shiftOf bits x' % 2 ^ bits := by
  rcases hd with rfl | rfl | rfl
  · have h1 : shiftOf 1 x = 7 - x % 8 := by unfold shiftOf; omega
    have h2 : shiftOf 1 x' = 7 - x' % 8 := by unfold shiftOf; omega
    have h3 : x % 8 ≠ x' % 8 := by omega
    have h4 : x % 8 < 8 := by omega
    have h5 : x' % 8 < 8 := by omega
    rw [h1, h2]
    unfold setField
    generalize x % 8 = i at *
    generalize x' % 8 = j at *
    interval_cases i <;> interval_cases j <;> (try contradiction) <;> norm_num at hn ⊢ <;> omega
  · have h1 : shiftOf 4 x = 4 - x % 2 * 4 := by unfold shiftOf; omega
    have h2 : shiftOf 4 x' = 4 - x' % 2 * 4 := by unfold shiftOf; omega
    have h3 : x % 2 ≠ x' % 2 := by omega
    have h4 : x % 2 < 2 := by omega
    have h5 : x' % 2 < 2 := by omega
    rw [h1, h2]
    unfold setField
    generalize x % 2 = i at *
    generalize x' % 2 = j at *
    interval_cases i <;> interval_cases j <;> (try contradiction) <;> norm_num at hn ⊢ <;> omega
  · omega

/-! ### Pixels after a pixel write -/

theorem pix_eq (b : Bytes) (W H bits x y : Nat) :
    pix b W H bits x y = if bits = 24 then
      byte b (addr W H 24 x y) + 256 * byte b (addr W H 24 x y + 1) + 65536 * byte b (addr W H 24 x y + 2)
    else byte b (addr W H bits x y) / 2 ^ shiftOf bits x % 2 ^ bits := by
  unfold pix
  split_ifs with h
  · subst h
    have : addr W H 24 x y = dataOff 24 + (H - 1 - y) * rowLen W 24 + 3 * x := by
      unfold addr rel; omega
    rw [this]
  · unfold addr rel shiftOf
    simp only [Nat.add_assoc]

theorem addr_row {W H bits x y x' y' : Nat} (hd : Depth bits) (hx : x < W) (hx' : x' < W)
    (hy : y < H) (hy' : y' < H) (h : y ≠ y') :
    addr W H bits x y + (if bits = 24 then 3 else 1) ≤ addr W H bits x' y' ∨
    addr W H bits x' y' + (if bits = 24 then 3 else 1) ≤ addr W H bits x y := by
  have h1 := xoff_lt hx hd
  have h2 := xoff_lt hx' hd
  unfold addr rel
  rcases Nat.lt_or_gt_of_ne h with h3 | h3
  · right
    have := row_lt (S := rowLen W bits) (show H - 1 - y' < H - 1 - y by omega)
    omega
  · left
    have := row_lt (S := rowLen W bits) (show H - 1 - y < H - 1 - y' by omega)
    omega

theorem addr_same_row (W H bits x y : Nat) :
    addr W H bits x y = addr W H bits 0 y + x * bits / 8 := by
  unfold addr rel; simp; omega

theorem shift_le {bits x : Nat} (hd : bits = 1 ∨ bits = 4 ∨ bits = 8) : shiftOf bits x + bits ≤ 8 := by
  unfold shiftOf; rcases hd with rfl | rfl | rfl <;> omega

namespace Spec.Valid
variable {b : Bytes} {W H bits : Nat}

theorem depth3 (h : Valid b W H bits) (h24 : bits ≠ 24) : bits = 1 ∨ bits = 4 ∨ bits = 8 := by
  rcases h.depth with h | h | h | h <;> omega

theorem length_plotP (h : Valid b W H bits) {x y n : Nat} (hx : x < W) (hy : y < H) :
    (plotP b W H bits x y n).length = b.length := by
  have ha := addr_lt h hx hy
  unfold plotP
  split_ifs with h24
  · rw [length_ow]; rw [if_pos h24] at ha; simpa using ha
  · simp

theorem byte_plotP_outside (h : Valid b W H bits) {x y n i : Nat} (hx : x < W) (hy : y < H)
    (hi : i < addr W H bits x y ∨ addr W H bits x y + (if bits = 24 then 3 else 1) ≤ i) :
    byte (plotP b W H bits x y n) i = byte b i := by
  have ha := addr_lt h hx hy
  unfold plotP
  split_ifs at * with h24
  · rw [byte_ow (by simpa using ha), if_neg]; simp; omega
  · rw [byte_set, if_neg]; omega

theorem valid_plotP (h : Valid b W H bits) {x y n : Nat} (hx : x < W) (hy : y < H) (hn : n < 2 ^ bits) :
    Valid (plotP b W H bits x y n) W H bits := by
  have ha := addr_lt h hx hy
  apply valid_congr h (h.length_plotP hx hy)
  · unfold plotP
    split_ifs with h24
    · apply ow_bytes h.bytes
      subst h24
      intro v hv; simp at hv; norm_num at hn; omega
    · intro v hv
      rcases List.mem_or_eq_of_mem_set hv with hv | rfl
      · exact h.bytes v hv
      · exact setField_lt (byte_lt_of_mem h.bytes _) hn (shift_le (h.depth3 h24))
  · intro i hi
    apply h.byte_plotP_outside hx hy
    left
    have := dataOff_ge bits
    unfold addr; omega

theorem pix_plotP (h : Valid b W H bits) {x y n x' y' : Nat} (hx : x < W) (hy : y < H)
    (hx' : x' < W) (hy' : y' < H) (hn : n < 2 ^ bits) :
    pix (plotP b W H bits x y n) W H bits x' y' =
      if x' = x ∧ y' = y then n else pix b W H bits x' y' := by
  have ha := addr_lt h hx hy
  have ha' := addr_lt h hx' hy'
  by_cases hyy : y = y'
  · subst hyy
    rw [pix_eq, pix_eq]
    by_cases h24 : bits = 24
    · subst h24
      simp only [if_true, plotP] at ha ha' hn ⊢
      have hl : addr W H 24 x y + [n % 256, n / 256 % 256, n / 65536].length ≤ b.length := by simpa using ha
      rw [byte_ow hl, byte_ow hl, byte_ow hl]
      have e1 := addr_same_row W H 24 x y
      have e2 := addr_same_row W H 24 x' y
      have e3 : x * 24 / 8 = 3 * x := by omega
      have e4 : x' * 24 / 8 = 3 * x' := by omega
      by_cases hxx : x' = x
      · subst hxx
        simp [byte]
        norm_num at hn
        omega
      · simp only [List.length_cons, List.length_nil]
        rw [if_neg (by omega), if_neg (by omega), if_neg (by omega), if_neg (by omega)]
    · simp only [h24, if_false, plotP] at ha ha' ⊢
      by_cases hxx : x' = x
      · subst hxx
        rw [byte_set, if_pos ⟨rfl, by omega⟩, setField_get hn]; simp
      · rw [byte_set, if_neg (show ¬ (x' = x ∧ True) by simpa using hxx)]
        by_cases hb : addr W H bits x' y = addr W H bits x y
        · rw [if_pos ⟨hb, by omega⟩, hb]
          apply setField_other (h.depth3 h24) (byte_lt_of_mem h.bytes _) hn (fun e => hxx e.symm)
          have e1 := addr_same_row W H bits x y
          have e2 := addr_same_row W H bits x' y
          omega
        · rw [if_neg (by omega)]
  · rw [if_neg (by omega)]
    have hr := addr_row h.depth hx hx' hy hy' hyy
    have ho := fun i => h.byte_plotP_outside (i := i) (n := n) hx hy
    rw [pix_eq, pix_eq]
    split_ifs with h24
    · subst h24
      simp only [if_true] at hr ho
      rw [ho _ (by omega), ho _ (by omega), ho _ (by omega)]
    · simp only [h24, if_false] at hr ho
      rw [ho _ (by omega)]

theorem pix_lt (h : Valid b W H bits) (x y : Nat) : pix b W H bits x y < 2 ^ bits := by
  rw [pix_eq]
  split_ifs with h24
  · subst h24
    have h0 := byte_lt_of_mem h.bytes (addr W H 24 x y)
    have h1 := byte_lt_of_mem h.bytes (addr W H 24 x y + 1)
    have h2 := byte_lt_of_mem h.bytes (addr W H 24 x y + 2)
    norm_num; omega
  · exact Nat.mod_lt _ (Nat.two_pow_pos bits)

theorem getxybit_eq (h : Valid b W H bits) {x y : Nat} (hx : x < W) (hy : y < H) :
    getxybit b (x : Int) (y : Int) = .ok (pix b W H bits x y : Int) := by
  have ha := addr_lt h hx hy
  have hv := byte_lt_of_mem h.bytes (addr W H bits x y)
  unfold getxybit
  rw [h.inb_true hx hy, h.bits_eq, h.BMoffsethd_eq x y hy]
  simp only [ok_bind, if_true]
  rw [pix_eq]
  rcases h.depth with rfl | rfl | rfl | rfl
  · norm_num only [ite_false, ite_true, if_true, if_false] at ha ⊢
    have hm : pyMod (x : Int) 8 = .ok ((x % 8 : Nat) : Int) := by
      simp [pyMod, Int.fmod_eq_emod_of_nonneg]
    have hs : (7 - ((x % 8 : Nat) : Int)).toNat = shiftOf 1 x := by unfold shiftOf; omega
    have hs8 : shiftOf 1 x < 8 := by unfold shiftOf; omega
    simp only [ok_bind, hm]
    rw [getItem_ok rfl (by omega)]
    simp only [ok_bind, pure_eq_ok]
    rw [hs, get_bit _ hs8 _ hv]
  · norm_num only [ite_false, ite_true, if_true, if_false] at ha ⊢
    rw [getItem_ok rfl (by omega)]
    simp only [ok_bind, pure_eq_ok, pyAnd_1]
    split_ifs with h1
    · rw [and_0f, show shiftOf 4 x = 0 by unfold shiftOf; omega]; norm_num
    · rw [and_f0_shr _ hv, show shiftOf 4 x = 4 by unfold shiftOf; omega]; norm_num; omega
  · norm_num only [ite_false, ite_true, if_true, if_false] at ha ⊢
    rw [getItem_ok rfl (by omega), show shiftOf 8 x = 0 by unfold shiftOf; omega]
    simp only [ok_bind, pure_eq_ok]
    norm_num; omega
  · norm_num only [ite_false, ite_true, if_true, if_false] at ha ⊢
    rw [getItem_ok (n := addr W H 24 x y + 2) (by push_cast; rfl) (by omega),
      getItem_ok (n := addr W H 24 x y + 1) (by push_cast; rfl) (by omega), getItem_ok rfl (by omega)]
    simp only [ok_bind, pure_eq_ok, RGB2int, pyShl]
    congr 1; push_cast; ring

end Spec.Valid
end Verif
