import Verif.Lemmas.Blocks
import Verif.Props.Crop
/-! C40: enlarging an image. -/

namespace Verif.Props
open Verif Spec Model

variable {b : Bytes} {W H bits : Nat}

/-- The number of columns that survive: rows are copied in whole bytes, and in 24-bit images the last
pixel of a row of odd length is lost. -/
def keepCols (W bits : Nat) : Nat :=
  if bits = 8 then W else if bits = 1 then W / 8 * 8 else W / 2 * 2

/-- In 1-bit images the eight pixels of each result byte are rotated by one place. -/
def rotCol (bits x : Nat) : Nat := if bits = 1 then 8 * (x / 8) + (x % 8 + 7) % 8 else x

theorem keep_le (W bits : Nat) : keepCols W bits ≤ W := by
  unfold keepCols; split_ifs <;> omega

theorem rotCol_lt {bits x : Nat} (K n : Nat) (hK : bits = 1 → K % 8 = 0) : rotCol bits x < K * n ↔ x < K * n := by
  unfold rotCol
  split_ifs with h
  · obtain ⟨q, rfl⟩ : ∃ q, K = 8 * q := ⟨K / 8, by have := hK h; omega⟩
    rw [Nat.mul_assoc]
    omega
  · rfl

theorem packed8_lt {f : Nat → Nat} (hf : ∀ t, f t < 2) : packed8 f < 256 := by
  unfold packed8
  have := hf 0; have := hf 1; have := hf 2; have := hf 3; have := hf 4; have := hf 5; have := hf 6; have := hf 7
  omega

theorem packed8_bit {f : Nat → Nat} (hf : ∀ t, f t < 2) {s : Nat} (hs : s < 8) :
    packed8 f / 2 ^ (7 - s) % 2 = f ((s + 7) % 8) := by
  unfold packed8
  have := hf 0; have := hf 1; have := hf 2; have := hf 3; have := hf 4; have := hf 5; have := hf 6; have := hf 7
  interval_cases s <;> norm_num <;> omega

/-- One row of the source, enlarged. -/
theorem resize_row (h : Valid b W H bits) {n : Nat} (hn : 0 < n) (y : Nat) :
    ∃ nb, resizebufNtimesbigger (seg b W H bits y 0 (W * bits / 8)) (n : Int) bits = .ok nb ∧ (∀ v ∈ nb, v < 256) ∧
      nb.length = keepCols W bits * n * bits / 8 ∧
      ∀ x, x < keepCols W bits * n → bufPx bits nb x = pix b W H bits (rotCol bits x / n) y := by
  have hsb := seg_bytes h y 0 (W * bits / 8)
  have hsb' : ∀ i, byte (seg b W H bits y 0 (W * bits / 8)) i < 256 := byte_lt_of_mem hsb
  have hsl := length_seg b W H bits y 0 (W * bits / 8)
  have hsq : ∀ i, i < W * bits / 8 → byte (seg b W H bits y 0 (W * bits / 8)) i = byte b (cell W H bits y i) := by
    intro i hi; rw [byte_seg _ _ _ _ _ _ hi, Nat.zero_add]
  generalize seg b W H bits y 0 (W * bits / 8) = s at *
  unfold resizebufNtimesbigger
  have hd := h.depth
  rcases hd with rfl | rfl | rfl | rfl
  · -- 1 bit
    rw [if_neg (by omega), if_neg (by omega), if_neg (by omega), if_pos rfl]
    unfold resize1bitbufNtimesbigger resizebitpattenNtimesbigger packbitlisttobuf
    rw [Nat.mul_one] at hsl hsq
    set blk : Nat → Bytes := fun a => (List.range n).map fun j => packed8 fun t => a / 2 ^ (7 - (8 * j + t) / n) % 2 with hblk
    have e1 : (s.flatMap fun a => packbitLoop ((enumbits a).flatMap fun bit => pyRepeat [bit] (n : Int)) 1 0)
        = s.flatMap blk := by
      apply List.flatMap_congr
      intro a ha
      rw [enumbits_eq a (hsb a ha), rep_eq _ hn, List.length_map, List.length_range, Nat.mul_comm n 8, packbit_eq _ _ rfl]
      apply List.map_congr_left
      intro j hj
      rw [List.mem_range] at hj
      unfold packed8
      dsimp only
      have hq : ∀ t, t < 8 → byte ((List.range 8).map fun t => a / 2 ^ (7 - t) % 2) ((8 * j + t) / n)
          = a / 2 ^ (7 - (8 * j + t) / n) % 2 := by
        intro t ht
        exact byte_rangeMap _ _ (Nat.div_lt_of_lt_mul (by
          have : 8 * (j + 1) ≤ 8 * n := Nat.mul_le_mul_left 8 (by omega)
          rw [Nat.mul_comm n 8]; omega))
      rw [hq 0 (by omega), hq 1 (by omega), hq 2 (by omega), hq 3 (by omega), hq 4 (by omega), hq 5 (by omega),
        hq 6 (by omega), hq 7 (by omega)]
    have hbl : ∀ a ∈ s, (blk a).length = n := by intro a _; simp [hblk]
    have hbb : ∀ v ∈ s.flatMap blk, v < 256 := by
      intro v hv
      simp only [hblk, List.mem_flatMap, List.mem_map] at hv
      obtain ⟨a, _, j, _, rfl⟩ := hv
      exact packed8_lt fun t => Nat.mod_lt _ (by omega)
    rw [e1]
    refine ⟨s.flatMap blk, mkArray_ok rfl hbb, hbb, ?_, ?_⟩
    · rw [length_flatMap_const _ _ hbl, hsl]
      unfold keepCols
      rw [if_neg (by omega), if_pos rfl, Nat.mul_one, Nat.mul_comm (W / 8) 8, Nat.mul_assoc,
        Nat.mul_div_cancel_left _ (by omega), Nat.mul_comm]
    · intro x hx
      unfold keepCols at hx
      rw [if_neg (by omega), if_pos rfl] at hx
      have hx8 : x / 8 < n * (W / 8) := by
        apply Nat.div_lt_of_lt_mul
        calc x < W / 8 * 8 * n := hx
          _ = 8 * (n * (W / 8)) := by ring
      have hq : x / 8 / n < W / 8 := Nat.div_lt_of_lt_mul hx8
      have hr : x / 8 % n < n := Nat.mod_lt _ hn
      have hqs : x / 8 / n < s.length := by rw [hsl]; exact hq
      unfold bufPx shiftOf
      rw [if_neg (by omega), Nat.mul_one, pix_cell, if_neg (by omega)]
      conv => lhs; rw [← Nat.div_add_mod (x / 8) n]
      rw [byte_flatMap _ _ hbl hqs hr, ← byte_eq_getElem _ _ hqs, hsq _ hq, hblk]
      dsimp only
      rw [byte_rangeMap _ _ hr]
      have hp := packed8_bit (f := fun t => byte b (cell W H 1 y (x / 8 / n)) / 2 ^ (7 - (8 * (x / 8 % n) + t) / n) % 2)
        (fun t => Nat.mod_lt _ (by omega)) (s := x % 8) (Nat.mod_lt _ (by omega))
      norm_num at hp ⊢
      rw [hp]
      have hz : rotCol 1 x / n = 8 * (x / 8 / n) + (8 * (x / 8 % n) + (x % 8 + 7) % 8) / n := by
        unfold rotCol
        rw [if_pos rfl]
        have : 8 * (x / 8) + (x % 8 + 7) % 8 = n * (8 * (x / 8 / n)) + (8 * (x / 8 % n) + (x % 8 + 7) % 8) := by
          have := Nat.div_add_mod (x / 8) n
          have e : 8 * (x / 8) = n * (8 * (x / 8 / n)) + 8 * (x / 8 % n) := by
            conv => lhs; rw [← this]
            ring
          rw [e, Nat.add_assoc]
        rw [this, Nat.mul_add_div hn]
      have ht : (8 * (x / 8 % n) + (x % 8 + 7) % 8) / n < 8 := Nat.div_lt_of_lt_mul (by
        have : 8 * (x / 8 % n + 1) ≤ 8 * n := Nat.mul_le_mul_left 8 (by omega)
        rw [Nat.mul_comm n 8]; omega)
      unfold shiftOf
      rw [hz]
      rw [show (x % 8 + 7) % 8 = (x + 7) % 8 by omega] at ht ⊢
      generalize (8 * (x / 8 % n) + (x + 7) % 8) / n = t at ht ⊢
      rw [show (8 * (x / 8 / n) + t) / 8 = x / 8 / n by omega, Nat.mul_one, show (8 * (x / 8 / n) + t) % 8 = t by omega]
  · -- 4 bit
    rw [if_neg (by omega), if_neg (by omega), if_pos rfl]
    unfold resize4bitbufNtimesbigger unpack4bitbufresizeNtimesbigger
    set nb : Bytes := s.flatMap fun a => [a / 16, a % 16] with hnb
    have h2 : ∀ a ∈ s, ([a / 16, a % 16] : Bytes).length = 2 := fun _ _ => rfl
    have hnl : nb.length = 2 * (W * 4 / 8) := by rw [hnb, length_flatMap_const _ _ h2, hsl]
    have hn16 : ∀ i, byte nb i < 16 := by
      intro i
      by_cases hi : i < nb.length
      · rw [byte_eq_getElem _ _ hi]
        have hm := List.getElem_mem hi
        simp only [hnb, List.mem_flatMap, List.mem_cons, List.not_mem_nil, or_false] at hm
        obtain ⟨a, ha, hv⟩ := hm
        have := hsb a ha
        rcases hv with hv | hv <;> rw [hv] <;> omega
      · rw [byte_of_ge _ _ (by omega)]; omega
    have e1 : (s.flatMap fun a => pyRepeat [a >>> 4] (n : Int) ++ pyRepeat [a &&& 0xf] (n : Int))
        = nb.flatMap fun a => pyRepeat [a] (n : Int) := by
      rw [hnb, List.flatMap_assoc]
      apply List.flatMap_congr
      intro a _
      have : a &&& 15 = a % 16 := Nat.and_two_pow_sub_one_eq_mod a 4
      rw [this, Nat.shiftRight_eq_div_pow]
      simp
    rw [e1, rep_eq _ hn, hnl, show n * (2 * (W * 4 / 8)) = 2 * (n * (W * 4 / 8)) by ring, pack4_eq]
    refine ⟨_, mkArray_ok rfl ?_, ?_, ?_, ?_⟩
    · intro v hv
      simp only [List.mem_map] at hv
      obtain ⟨j, _, rfl⟩ := hv
      have := hn16 (2 * j / n); have := hn16 ((2 * j + 1) / n)
      omega
    · intro v hv
      simp only [List.mem_map] at hv
      obtain ⟨j, _, rfl⟩ := hv
      have := hn16 (2 * j / n); have := hn16 ((2 * j + 1) / n)
      omega
    · unfold keepCols
      rw [if_neg (by omega), if_neg (by omega), List.length_map, List.length_range,
        show W * 4 / 8 = W / 2 by omega, show W / 2 * 2 * n * 4 = 8 * (n * (W / 2)) by ring, Nat.mul_div_cancel_left _ (by omega)]
    · intro x hx
      unfold keepCols at hx
      rw [if_neg (by omega), if_neg (by omega), show W / 2 * 2 * n = 2 * (n * (W / 2)) by ring] at hx
      unfold bufPx shiftOf
      rw [if_neg (by omega), show x * 4 / 8 = x / 2 by omega, show W * 4 / 8 = W / 2 by omega,
        byte_rangeMap _ _ (by omega), pix_cell, if_neg (by omega)]
      unfold rotCol
      rw [if_neg (by omega)]
      have hv : (byte nb (2 * (x / 2) / n) * 16 + byte nb ((2 * (x / 2) + 1) / n)) / 2 ^ (8 - 4 - x * 4 % 8) % 2 ^ 4
          = byte nb (x / n) := by
        have h1 := hn16 (2 * (x / 2) / n)
        have h2 := hn16 ((2 * (x / 2) + 1) / n)
        rcases Nat.mod_two_eq_zero_or_one x with hx2 | hx2
        · have : 2 * (x / 2) = x := by omega
          rw [this] at h1 h2 ⊢
          rw [show x * 4 % 8 = 0 by omega]
          norm_num; omega
        · have : 2 * (x / 2) + 1 = x := by omega
          rw [this] at h2 ⊢
          rw [show x * 4 % 8 = 4 by omega]
          norm_num; omega
      rw [hv]
      have hq : x / n < 2 * (W / 2) := Nat.div_lt_of_lt_mul (by rw [show n * (2 * (W / 2)) = 2 * (n * (W / 2)) by ring]; exact hx)
      have hqs : x / n / 2 < s.length := by rw [hsl]; omega
      rw [← Nat.div_add_mod (x / n) 2, hnb, byte_flatMap _ _ h2 hqs (Nat.mod_lt _ (by omega)), ← byte_eq_getElem _ _ hqs,
        hsq _ (by omega)]
      generalize x / n = z at *
      unfold shiftOf
      have hc := byte_lt_of_mem h.bytes (cell W H 4 y (z / 2))
      rw [show (2 * (z / 2) + z % 2) * 4 / 8 = z / 2 by omega, show (2 * (z / 2) + z % 2) * 4 % 8 = 4 * (z % 2) by omega]
      generalize byte b (cell W H 4 y (z / 2)) = v at *
      rcases Nat.mod_two_eq_zero_or_one z with hz | hz
      · rw [hz]; norm_num [byte]; omega
      · rw [hz]; norm_num [byte]
  · -- 8 bit
    rw [if_neg (by omega), if_pos rfl]
    unfold resize8bitbufNtimesbigger
    rw [rep_eq _ hn, hsl]
    refine ⟨_, mkArray_ok rfl ?_, ?_, ?_, ?_⟩
    · intro v hv
      simp only [List.mem_map] at hv
      obtain ⟨j, _, rfl⟩ := hv
      exact hsb' _
    · intro v hv
      simp only [List.mem_map] at hv
      obtain ⟨j, _, rfl⟩ := hv
      exact hsb' _
    · unfold keepCols
      rw [if_pos rfl, List.length_map, List.length_range, Nat.mul_div_cancel _ (by omega), Nat.mul_div_cancel _ (by omega),
        Nat.mul_comm]
    · intro x hx
      unfold keepCols at hx
      rw [if_pos rfl, Nat.mul_comm] at hx
      have hq : x / n < W := Nat.div_lt_of_lt_mul hx
      unfold bufPx shiftOf rotCol
      rw [if_neg (by omega), if_neg (by omega), Nat.mul_div_cancel _ (by omega), Nat.mul_div_cancel _ (by omega),
        byte_rangeMap _ _ hx, hsq _ (by omega), pix_cell, if_neg (by omega), Nat.mul_div_cancel _ (by omega)]
      unfold shiftOf
      norm_num
  · -- 24 bit
    rw [if_pos rfl]
    unfold resize24bitbufNtimesbigger
    have hsplit : altsplitbuf3way s = .ok ((List.range (W / 2 * 2)).map (fun j => byte s (0 + j * 3)),
        (List.range (W / 2 * 2)).map (fun j => byte s (1 + j * 3)), (List.range (W / 2 * 2)).map (fun j => byte s (2 + j * 3))) := by
      unfold altsplitbuf3way
      dsimp only
      rw [hsl, show W * 24 / 8 = 3 * W by omega, if_pos (by omega)]
      rw [show W * 24 / 8 = 3 * W by omega] at hsl
      by_cases hW : W / 2 * 2 = 0
      · rw [hW]
        have hW' : W = 0 ∨ W = 1 := by omega
        rcases hW' with rfl | rfl
        · have : s = [] := by simpa using hsl
          subst this
          decide
        · match s, hsl with
          | [a, b, c], _ => rfl
      · have hm : ((3 * W : Nat) : Int) - ((3 * W : Nat) : Int) % 2 = ((3 * W - W % 2 : Nat) : Int) := by omega
        rw [hm]
        have hM : 3 * W - W % 2 = 3 * (W / 2 * 2) + 2 * (W % 2) := by omega
        have hM2 : W / 2 * 2 ≤ W := by omega
        rw [show ((3 * W - W % 2 : Nat) : Int) - 2 = ((3 * W - W % 2 - 2 : Nat) : Int) by omega,
          show ((3 * W - W % 2 : Nat) : Int) - 1 = ((3 * W - W % 2 - 1 : Nat) : Int) by omega,
          show sliceStep s 0 _ 3 = _ from sliceStep_ok (b := s) (n := 0) (k := 3) (m := W / 2 * 2) rfl rfl (by omega) (by omega) (by omega) (by omega) (by omega),
          show sliceStep s 1 _ 3 = _ from sliceStep_ok (b := s) (n := 1) (k := 3) (m := W / 2 * 2) rfl rfl (by omega) (by omega) (by omega) (by omega) (by omega),
          show sliceStep s 2 _ 3 = _ from sliceStep_ok (b := s) (n := 2) (k := 3) (m := W / 2 * 2) rfl rfl (by omega) (by omega) (by omega) (by omega) (by omega)]
        rfl
    rw [hsplit]
    simp only [ok_bind]
    have h8 : ∀ c, resize8bitbufNtimesbigger ((List.range (W / 2 * 2)).map (fun j => byte s (c + j * 3))) (n : Int)
        = .ok ((List.range (n * (W / 2 * 2))).map fun i => byte s (c + i / n * 3)) := by
      intro c
      unfold resize8bitbufNtimesbigger
      rw [rep_eq _ hn, List.length_map, List.length_range]
      have e : ((List.range (n * (W / 2 * 2))).map fun i => byte ((List.range (W / 2 * 2)).map (fun j => byte s (c + j * 3))) (i / n))
          = (List.range (n * (W / 2 * 2))).map fun i => byte s (c + i / n * 3) := by
        apply List.map_congr_left
        intro i hi
        rw [List.mem_range] at hi
        rw [byte_rangeMap _ _ (Nat.div_lt_of_lt_mul hi)]
      rw [e]
      apply mkArray_ok rfl
      intro v hv
      simp only [List.mem_map] at hv
      obtain ⟨j, _, rfl⟩ := hv
      exact hsb' _
    rw [h8, h8, h8]
    simp only [ok_bind]
    rw [makeBGRbuf_range, ← List.flatMap_def]
    have h3 : ∀ j ∈ List.range (n * (W / 2 * 2)), ([byte s (0 + j / n * 3), byte s (1 + j / n * 3), byte s (2 + j / n * 3)] : Bytes).length = 3 :=
      fun _ _ => rfl
    refine ⟨_, rfl, ?_, ?_, ?_⟩
    · intro v hv
      simp only [List.mem_flatMap, List.mem_cons, List.not_mem_nil, or_false] at hv
      obtain ⟨j, _, rfl | rfl | rfl⟩ := hv <;> exact hsb' _
    · unfold keepCols
      rw [if_neg (by omega), if_neg (by omega), length_flatMap_const _ _ h3, List.length_range,
        show W / 2 * 2 * n * 24 = 8 * (3 * (n * (W / 2 * 2))) by ring, Nat.mul_div_cancel_left _ (by omega)]
    · intro x hx
      unfold keepCols at hx
      rw [if_neg (by omega), if_neg (by omega), Nat.mul_comm] at hx
      have hq : x / n < W / 2 * 2 := Nat.div_lt_of_lt_mul hx
      have hxl : x < (List.range (n * (W / 2 * 2))).length := by rw [List.length_range]; exact hx
      unfold bufPx rotCol
      rw [if_pos rfl, if_neg (by omega), pix_cell, if_pos rfl]
      have g0 := byte_flatMap _ _ h3 hxl (t := 0) (by omega)
      have g1 := byte_flatMap _ _ h3 hxl (t := 1) (by omega)
      have g2 := byte_flatMap _ _ h3 hxl (t := 2) (by omega)
      rw [Nat.add_zero] at g0
      rw [g0, g1, g2, List.getElem_range]
      generalize x / n = z at *
      rw [← show byte s (3 * z) = byte b (cell W H 24 y (3 * z)) from hsq _ (by omega),
        ← show byte s (3 * z + 1) = byte b (cell W H 24 y (3 * z + 1)) from hsq _ (by omega),
        ← show byte s (3 * z + 2) = byte b (cell W H 24 y (3 * z + 2)) from hsq _ (by omega)]
      simp only [byte, List.getD_cons_zero, List.getD_cons_succ]
      rw [show 0 + z * 3 = 3 * z by ring, show 1 + z * 3 = 3 * z + 1 by ring, show 2 + z * 3 = 3 * z + 2 by ring]

theorem pyRange_succ (j : Nat) : pyRange 0 ((j : Int) + 1) = pyRange 0 (j : Int) ++ [(j : Int)] := by
  unfold pyRange
  rw [show ((j : Int) + 1 - 0).toNat = j + 1 by omega, show ((j : Int) - 0).toNat = j by omega, List.range_succ, List.map_append]
  simp

/-- C40 and what happens otherwise: the enlarged image has the palette of the source and `n` times its
size; pixel `(x, y)` has the colour of source pixel `(x / n, y / n)`, except that the last columns may
be lost (`keepCols`) and the pixels of each byte of a 1-bit image are rotated (`rotCol`). -/
theorem C40_resize_exact (h : Valid b W H bits) (hW : 0 < W) (hH : 0 < H) {n : Nat} (hn : 0 < n)
    (hnW : W * n < 2 ^ 24) (hnH : H * n < 2 ^ 24) :
    ∃ b', resizeNtimesbigger b (n : Int) = .ok b' ∧ Shows b' (W * n) (H * n) bits (palRGB b) (fun x y =>
      if x < keepCols W bits * n then pix b W H bits (rotCol bits x / n) (y / n) else 0) := by
  unfold resizeNtimesbigger getmaxxy
  rw [h.bits_eq, h.getmaxx_eq, h.getmaxy_eq]
  simp only [ok_bind, pure_bind]
  obtain ⟨n0, e0, v0, _, _, _, _, hz0, _⟩ := C01_newBMP_valid (W * n) (H * n) bits h.depth hnW hnH
  rw [show (W : Int) * (n : Int) = ((W * n : Nat) : Int) by push_cast; rfl,
    show (H : Int) * (n : Int) = ((H * n : Nat) : Int) by push_cast; rfl, e0]
  simp only [ok_bind]
  obtain ⟨n1, e1, v1, hp1, hz1⟩ : ∃ n1, (if bits < 24 then copyRGBpal b n0 else pure n0 : Py Bytes) = .ok n1 ∧
      Valid n1 (W * n) (H * n) bits ∧ (bits ≠ 24 → ∀ c < 2 ^ bits, palRGB n1 c = palRGB b c) ∧
      ∀ x y, pix n1 (W * n) (H * n) bits x y = pix n0 (W * n) (H * n) bits x y := by
    by_cases h24 : bits < 24
    · rw [if_pos h24]; exact copyPal h v0
    · rw [if_neg h24]
      refine ⟨n0, rfl, v0, fun h' => ?_, fun _ _ => rfl⟩
      rcases h.depth with rfl | rfl | rfl | rfl <;> omega
  rw [e1]
  simp only [ok_bind]
  have hHn : 0 < H * n := Nat.mul_pos hH hn
  rw [show (0 : Int) = ((0 : Nat) : Int) from rfl, show ((H * n : Nat) : Int) - 1 = ((H * n - 1 : Nat) : Int) by omega,
    v1.BMoffset_eq 0 (H * n - 1) (by omega), v1.xchrcnt_eq]
  simp only [ok_bind]
  rw [show rel (W * n) (H * n) bits 0 (H * n - 1) = 0 by unfold rel; simp, show ((0 : Nat) : Int) = 0 from rfl]
  set g : Nat → Nat → Nat := fun x y =>
    if x < keepCols W bits * n then pix b W H bits (rotCol bits x / n) (y / n) else 0 with hg
  have hkn : keepCols W bits * n ≤ W * n := Nat.mul_le_mul_right n (keep_le W bits)
  have hinner : ∀ (nb : Bytes) (k : Nat) (hk : k < H) (st : Bytes),
      (∀ v ∈ nb, v < 256) → nb.length = keepCols W bits * n * bits / 8 →
      (∀ x, x < keepCols W bits * n → bufPx bits nb x = pix b W H bits (rotCol bits x / n) (H - 1 - k)) →
      RowsDone n1 st (W * n) (H * n) bits (k * n) g →
      ∀ j, j ≤ n → ∃ st', (pyRange 0 (j : Int)).foldlM (fun (st : Bytes × Int) _ => do
        let nbmp ← BMPbitBLTput st.1 st.2 nb
        pure (nbmp, st.2 + (rowLen (W * n) bits : Int))) (st, ((k * n * rowLen (W * n) bits : Nat) : Int))
          = .ok (st', (((k * n + j) * rowLen (W * n) bits : Nat) : Int)) ∧
        RowsDone n1 st' (W * n) (H * n) bits (k * n + j) g := by
    intro nb k hk st hb hl hpx hrd j
    induction j with
    | zero => intro _; exact ⟨st, rfl, hrd⟩
    | succ j ih =>
      intro hj
      obtain ⟨st1, e1, r1⟩ := ih (by omega)
      have hlt : k * n + j < H * n := by
        calc k * n + j < k * n + n := by omega
          _ = (k + 1) * n := by ring
          _ ≤ H * n := Nat.mul_le_mul_right n hk
      have hy : (H * n - 1 - (k * n + j)) / n = H - 1 - k := by
        obtain ⟨q, rfl⟩ : ∃ q, H = k + 1 + q := ⟨H - 1 - k, by omega⟩
        have : (k + 1 + q) * n - 1 - (k * n + j) = n * q + (n - 1 - j) := by
          have : (k + 1 + q) * n = k * n + n + n * q := by ring
          omega
        rw [this, Nat.mul_add_div hn, Nat.div_eq_of_lt (by omega)]
        omega
      obtain ⟨st2, e2, r2⟩ := r1.step_part (n := keepCols W bits * n) hlt hb
        (by
          rw [hl]
          have : keepCols W bits * n * bits ≤ W * n * bits := Nat.mul_le_mul_right bits hkn
          unfold rowLen; omega)
        (by
          intro x _ hx
          rw [hl]
          have hm : (bits = 1 → (keepCols W bits * n) % 8 = 0) ∧ (bits = 4 → (keepCols W bits * n) % 2 = 0) := by
            constructor
            · intro hb
              unfold keepCols
              rw [if_neg (by omega), if_pos hb, show W / 8 * 8 * n = 8 * (W / 8 * n) by ring]; omega
            · intro hb
              unfold keepCols
              rw [if_neg (by omega), if_neg (by omega), show W / 2 * 2 * n = 2 * (W / 2 * n) by ring]; omega
          generalize keepCols W bits * n = K at *
          unfold bpp
          rcases h.depth with rfl | rfl | rfl | rfl <;> norm_num at hm ⊢ <;> omega)
        (by
          intro x _ hx
          rw [hl]
          exact Nat.div_le_div_right (Nat.mul_le_mul_right bits hx))
        (by
          intro x _ hx
          rw [hpx x hx, hg]
          dsimp only
          rw [if_pos hx, hy])
        (by
          intro x hx hxn
          rw [hz1, hz0 x _ hx (by omega), hg]
          dsimp only
          rw [if_neg (by omega)])
      refine ⟨st2, ?_, r2⟩
      rw [show ((j + 1 : Nat) : Int) = (j : Int) + 1 by push_cast; rfl, pyRange_succ, List.foldlM_append, e1]
      simp only [ok_bind, List.foldlM_cons, List.foldlM_nil, e2, pure_bind]
      refine congrArg Except.ok (Prod.ext rfl ?_)
      dsimp only
      push_cast; ring
  obtain ⟨s, e, P⟩ := itercopyimage_rule (src := fun _ : Bytes × Int => b) (st := (n1, (0 : Int))) h hW hH
    (body := fun st buf => do
      let nbuf ← resizebufNtimesbigger buf (n : Int) bits
      (pyRange 0 (n : Int)).foldlM (fun (st : Bytes × Int) _ => do
        let nbmp ← BMPbitBLTput st.1 st.2 nbuf
        pure (nbmp, st.2 + (rowLen (W * n) bits : Int))) st)
    (P := fun k st => (k ≤ H → st.2 = ((k * n * rowLen (W * n) bits : Nat) : Int)) ∧
      RowsDone n1 st.1 (W * n) (H * n) bits (min k H * n) g)
    ⟨by simp, by simpa using RowsDone.start v1 _⟩
    (by
      rintro k ⟨nb, off⟩ hk ⟨hoff, hrd⟩
      refine ⟨h, ?_⟩
      dsimp only at hoff hrd
      rw [Nat.min_eq_left (by omega)] at hrd
      obtain ⟨nbuf, en, hb, hl, hpx⟩ := resize_row h hn (H - 1 - k)
      obtain ⟨st', e3, r3⟩ := hinner nbuf k hk nb hb hl hpx hrd n (le_refl _)
      refine ⟨(st', (((k * n + n) * rowLen (W * n) bits : Nat) : Int)), ?_, ?_, ?_⟩
      · rw [en, hoff (by omega)]
        exact e3
      · intro _
        dsimp only
        push_cast; ring
      · dsimp only
        rw [Nat.min_eq_left (by omega), show (k + 1) * n = k * n + n by ring]; exact r3)
    (by
      rintro hodd ⟨nb, off⟩ ⟨hoff, hrd⟩
      refine ⟨h, ?_⟩
      dsimp only at hoff hrd
      rw [Nat.min_eq_right (by omega)] at hrd
      have hen : resizebufNtimesbigger [] (n : Int) bits = .ok [] := by
        rcases h.depth with rfl | rfl | rfl | rfl
        · rfl
        · rfl
        · rfl
        · omega
      have hnil : ∀ (l : List Int) (k : Nat), ∃ o, l.foldlM (fun (st : Bytes × Int) _ => do
          let nbmp ← BMPbitBLTput st.1 st.2 []
          pure (nbmp, st.2 + (rowLen (W * n) bits : Int))) (nb, (k : Int)) = (.ok (nb, o) : Py (Bytes × Int)) := by
        intro l
        induction l with
        | nil => intro k; exact ⟨_, rfl⟩
        | cons a l ih =>
          intro k
          obtain ⟨o, eo⟩ := ih (k + rowLen (W * n) bits)
          refine ⟨o, ?_⟩
          rw [List.foldlM_cons, put_nil_any hrd.valid]
          simp only [ok_bind, pure_bind]
          rw [← eo]; push_cast; rfl
      obtain ⟨o, eo⟩ := hnil (pyRange 0 (n : Int)) (H * n * rowLen (W * n) bits)
      refine ⟨(nb, o), ?_, ?_, ?_⟩
      · rw [hen, hoff (le_refl _)]
        exact eo
      · intro hk; omega
      · dsimp only
        rw [Nat.min_eq_right (by omega)]; exact hrd)
  rw [e]
  refine ⟨s.1, rfl, P.2.valid, ?_, ?_⟩
  · intro h24 c hc
    rw [samePal P.2.header h24 hc, hp1 h24 c hc]
  · intro x y hx hy
    exact P.2.rows x y hx hy (by split_ifs <;> simp)

/-- C40: pixels are replicated in 8-bit images of every size and in 4- and 24-bit images of even width. -/
theorem C40_resize_partial (h : Valid b W H bits) (hW : 0 < W) (hH : 0 < H) {n : Nat} (hn : 0 < n)
    (hnW : W * n < 2 ^ 24) (hnH : H * n < 2 ^ 24) (hb : bits = 8 ∨ (bits = 4 ∨ bits = 24) ∧ W % 2 = 0) :
    ∃ b', resizeNtimesbigger b (n : Int) = .ok b' ∧
      Shows b' (W * n) (H * n) bits (palRGB b) (fun x y => pix b W H bits (x / n) (y / n)) := by
  obtain ⟨b', e, s⟩ := C40_resize_exact h hW hH hn hnW hnH
  refine ⟨b', e, s.valid, s.palette, ?_⟩
  intro x y hx hy
  rw [s.pixels x y hx hy, if_pos, rotCol, if_neg (by omega)]
  rw [show keepCols W bits = W by unfold keepCols; split_ifs <;> omega]
  exact hx

/-- C40 is false as stated, even for `n = 1`: in an 8 by 1 image of 1 bit per pixel the leftmost pixel
moves one place to the right. -/
theorem C40_false : ¬ ∀ (b : Bytes) (W H bits n : Nat), Valid b W H bits → 0 < W → 0 < H → 0 < n →
    W * n < 2 ^ 24 → H * n < 2 ^ 24 → ∃ b', resizeNtimesbigger b (n : Int) = .ok b' ∧
      Shows b' (W * n) (H * n) bits (palRGB b) (fun x y => pix b W H bits (x / n) (y / n)) := by
  intro hall
  obtain ⟨b0, e0, v0, _, _, _, _, hz0, _⟩ := C01_newBMP_valid 8 1 1 (by simp [Depth]) (by norm_num) (by norm_num)
  have v := v0.valid_plotP (x := 0) (y := 0) (n := 1) (by omega) (by omega) (by norm_num)
  obtain ⟨n1, e1, s1⟩ := hall _ _ _ _ 1 v (by omega) (by omega) (by omega) (by norm_num) (by norm_num)
  obtain ⟨n2, e2, s2⟩ := C40_resize_exact v (by omega) (by omega) (n := 1) (by omega) (by norm_num) (by norm_num)
  rw [e1] at e2
  obtain rfl := Except.ok.inj e2
  have h1 := s1.pixels 1 0 (by omega) (by omega)
  have h2 := s2.pixels 1 0 (by omega) (by omega)
  rw [h1] at h2
  norm_num [keepCols, rotCol] at h2
  rw [v0.pix_plotP (by omega) (by omega) (by omega) (by omega) (by norm_num),
    v0.pix_plotP (by omega) (by omega) (by omega) (by omega) (by norm_num), hz0 1 0 (by omega) (by omega)] at h2
  simp at h2

/-- The last column of a 24-bit image of odd width is lost. -/
theorem C40_24bit_odd_false : ¬ ∀ (b : Bytes) (W H n : Nat), Valid b W H 24 → 0 < W → 0 < H → 0 < n →
    W * n < 2 ^ 24 → H * n < 2 ^ 24 → ∃ b', resizeNtimesbigger b (n : Int) = .ok b' ∧
      Shows b' (W * n) (H * n) 24 (palRGB b) (fun x y => pix b W H 24 (x / n) (y / n)) := by
  intro hall
  obtain ⟨b0, e0, v0, _, _, _, _, hz0, _⟩ := C01_newBMP_valid 3 1 24 (by simp [Depth]) (by norm_num) (by norm_num)
  have v := v0.valid_plotP (x := 2) (y := 0) (n := 255) (by omega) (by omega) (by norm_num)
  obtain ⟨n1, e1, s1⟩ := hall _ _ _ 2 v (by omega) (by omega) (by omega) (by norm_num) (by norm_num)
  obtain ⟨n2, e2, s2⟩ := C40_resize_exact v (by omega) (by omega) (n := 2) (by omega) (by norm_num) (by norm_num)
  rw [e1] at e2
  obtain rfl := Except.ok.inj e2
  have h1 := s1.pixels 5 0 (by omega) (by omega)
  have h2 := s2.pixels 5 0 (by omega) (by omega)
  rw [h1] at h2
  norm_num [keepCols, rotCol] at h2
  rw [v0.pix_plotP (by omega) (by omega) (by omega) (by omega) (by norm_num)] at h2
  simp at h2

example : (do let n ← resizeNtimesbigger (← plotxybit (← newBMP 2 2 4) 1 0 12) 3
              pure (← getxybit n 3 0, ← getxybit n 5 2, ← getxybit n 2 2, ← getxybit n 5 3)) = .ok (12, 12, 0, 0) := by decide +kernel

end Verif.Props
