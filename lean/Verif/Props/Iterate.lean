import Verif.Lemmas.Iterate
import Verif.Props.Create
import Verif.Sample
import Mathlib.Data.List.Nodup
/-! C38, C39: the generators that run over all pixels of an image. -/

namespace Verif.Props
open Verif Spec Model

/-- Pixels taken in one round of the loop. -/
def ppr (bits : Nat) : Nat := if bits = 24 then 1 else 8 / bits
/-- Bytes taken in one round of the loop. -/
def bpr (bits : Nat) : Nat := if bits = 24 then 3 else 1
/-- Rounds for one row. -/
def rounds (W bits : Nat) : Nat := (W + ppr bits - 1) / ppr bits

theorem pdbytes_eq {bits : Nat} (hd : Depth bits) (W : Nat) :
    pdbytes (W : Int) (bits : Int) = .ok ((rowLen W bits - bpr bits * rounds W bits : Nat) : Int) := by
  unfold pdbytes pyDiv pyMod iif
  rcases hd with rfl | rfl | rfl | rfl <;>
    simp [pyAnd_3, rowLen, rounds, ppr, bpr, Int.fdiv_eq_ediv_of_nonneg, Int.fmod_eq_emod_of_nonneg] <;>
    split_ifs <;> omega

theorem rounds_fit {bits : Nat} (hd : Depth bits) (W : Nat) : bpr bits * rounds W bits ≤ rowLen W bits := by
  rcases hd with rfl | rfl | rfl | rfl <;> simp [rowLen, rounds, ppr, bpr] <;> omega

theorem rounds_cover {bits : Nat} (hd : Depth bits) (W : Nat) : W ≤ ppr bits * rounds W bits := by
  rcases hd with rfl | rfl | rfl | rfl <;> simp [rounds, ppr] <;> omega

theorem rounds_pos {bits : Nat} (hd : Depth bits) {W : Nat} (hW : 0 < W) : 0 < rounds W bits := by
  rcases hd with rfl | rfl | rfl | rfl <;> simp [rounds, ppr] <;> omega

/-- The end of a row is reached in the last round and not before. -/
theorem rounds_end {bits : Nat} (hd : Depth bits) (W i : Nat) (hi : i < rounds W bits) :
    (W ≤ ppr bits * (i + 1)) ↔ i + 1 = rounds W bits := by
  rcases hd with rfl | rfl | rfl | rfl <;> simp [rounds, ppr] at * <;> omega

variable {b : Bytes} {W H bits : Nat}

theorem imgbytes (h : Valid b W H bits) : ∃ B, getBMPimgbytes b = .ok B ∧ B.length = H * rowLen W bits ∧
    (∀ v ∈ B, v < 256) ∧ ∀ i, i < H * rowLen W bits → byte B i = byte b (dataOff bits + i) := by
  have hl := h.len
  refine ⟨slice b (dataOff bits : Int) (b.length : Int), ?_, ?_, ?_, ?_⟩
  · unfold getBMPimgbytes
    rw [h.hdsz_eq, h.flsz_eq]; rfl
  · rw [length_slice_ok rfl rfl (le_refl _) (by omega)]; omega
  · apply mem_lt_of_byte
    intro i _
    rw [byte_slice_ok rfl rfl (le_refl _) (by omega)]
    split_ifs
    · exact byte_lt_of_mem h.bytes _
    · omega
  · intro i hi
    rw [byte_slice_ok rfl rfl (le_refl _) (by omega), if_pos (by omega)]

theorem enumbits_eq (c : Nat) (hc : c < 256) : enumbits c = (List.range 8).map fun t => c / 2 ^ (7 - t) % 2 := by
  unfold enumbits
  have h := fun s hs => get_bit s hs c hc
  simp only [List.map_cons, List.map_nil, h 0 (by omega), h 1 (by omega), h 2 (by omega), h 3 (by omega),
    h 4 (by omega), h 5 (by omega), h 6 (by omega), h 7 (by omega)]
  rfl

/-- The colours in a byte (or in three). -/
theorem roundColors_any (hd : Depth bits) {B : Bytes} (hB : ∀ v ∈ B, v < 256) {i : Nat} (hi : i + bpr bits ≤ B.length) :
    roundColors bits B (i : Int) = .ok ((List.range (ppr bits)).map fun t =>
      ((if bits = 24 then byte B i + 256 * byte B (i + 1) + 65536 * byte B (i + 2)
        else byte B i / 2 ^ (8 - bits - t * bits) % 2 ^ bits : Nat) : Int)) := by
  have hb := byte_lt_of_mem hB i
  unfold roundColors
  rcases hd with rfl | rfl | rfl | rfl
  · rw [if_pos rfl, getItem_ok rfl (by simp [bpr] at hi; omega)]
    simp only [ok_bind, pure_eq_ok]
    rw [enumbits_eq _ hb, List.map_map]
    simp [ppr, Function.comp_def]
  · rw [if_neg (by omega), if_pos rfl, getItem_ok rfl (by simp [bpr] at hi; omega)]
    simp only [ok_bind, pure_eq_ok, ppr, Except.ok.injEq]
    have : byte B i / 16 % 16 = byte B i / 16 := by omega
    simp [List.range_succ]
    omega
  · rw [if_neg (by omega), if_neg (by omega), if_pos rfl, getItem_ok rfl (by simp [bpr] at hi; omega)]
    simp only [ok_bind, pure_eq_ok, ppr, Except.ok.injEq]
    simp [List.range_succ]
    omega
  · simp only [bpr, if_true] at hi
    rw [if_neg (by omega), if_neg (by omega), if_neg (by omega), if_pos rfl,
      getItem_ok (n := i + 2) (by push_cast; rfl) (by omega), getItem_ok (n := i + 1) (by push_cast; rfl) (by omega),
      getItem_ok rfl (by omega)]
    simp only [ok_bind, pure_eq_ok, ppr, Except.ok.injEq]
    simp [List.range_succ, Nat.shiftLeft_eq]
    ring

/-- The colours in round `i` of row `y` are those of the pixels there. -/
theorem round_pix (h : Valid b W H bits) {B : Bytes} (hB : ∀ i, i < H * rowLen W bits → byte B i = byte b (dataOff bits + i))
    {y i t : Nat} (hy : y < H) (hi : i < rounds W bits) (ht : t < ppr bits) :
    (if bits = 24 then byte B ((H - 1 - y) * rowLen W bits + bpr bits * i)
        + 256 * byte B ((H - 1 - y) * rowLen W bits + bpr bits * i + 1)
        + 65536 * byte B ((H - 1 - y) * rowLen W bits + bpr bits * i + 2)
      else byte B ((H - 1 - y) * rowLen W bits + bpr bits * i) / 2 ^ (8 - bits - t * bits) % 2 ^ bits)
      = pix b W H bits (ppr bits * i + t) y := by
  have hr := row_lt (S := rowLen W bits) (show H - 1 - y < H by omega)
  have hf := rounds_fit h.depth W
  have hi' : bpr bits * i + bpr bits ≤ rowLen W bits := by
    have := Nat.mul_le_mul_left (bpr bits) (show i + 1 ≤ rounds W bits by omega)
    rw [Nat.mul_add] at this; omega
  unfold pix
  dsimp only
  by_cases h24 : bits = 24
  · subst h24
    simp only [bpr, ppr, if_true] at hi' ht ⊢
    rw [hB _ (by omega), hB _ (by omega), hB _ (by omega)]
    have : t = 0 := by omega
    subst this
    have e : dataOff 24 + ((H - 1 - y) * rowLen W 24 + 3 * i) = dataOff 24 + (H - 1 - y) * rowLen W 24 + 3 * (1 * i + 0) := by ring
    rw [← e]
    rfl
  · rw [if_neg h24, if_neg h24]
    simp only [bpr, if_neg h24] at hi' ⊢
    rw [hB _ (by omega)]
    have h1 : (ppr bits * i + t) * bits / 8 = i ∧ (ppr bits * i + t) * bits % 8 = t * bits := by
      rcases h.depth3 h24 with rfl | rfl | rfl <;> simp [ppr] at ht ⊢ <;> omega
    rw [h1.1, h1.2]
    congr 3
    omega

/-- C38: `iterimagecolor` yields every pixel exactly once with its colour: row by row from the
bottom, each row from left to right, for any depth and size. -/
theorem C38_iterimagecolor (h : Valid b W H bits) :
    iterimagecolor b = .ok (scan W H fun x y => (pix b W H bits x y : Int)) := by
  obtain ⟨B, eB, hlen, hB, hbyte⟩ := imgbytes h
  unfold iterimagecolor getmaxx getmaxy
  rw [h.getmaxx_eq, h.getmaxy_eq, eB]
  simp only [ok_bind]
  rw [h.bits_eq]
  simp only [ok_bind]
  rw [pdbytes_eq h.depth]
  simp only [ok_bind]
  rw [hlen]
  by_cases hz : W = 0 ∨ H = 0
  · have hz' : H * rowLen W bits = 0 := by
      rcases hz with rfl | rfl
      · simp [rowLen]
      · simp
    have hs : scan W H (fun x y => (pix b W H bits x y : Int)) = [] := by
      rcases hz with rfl | rfl
      · unfold scan scanRow; simp
      · rfl
    rw [hz', hs]; rfl
  · have hp := rounds_pos h.depth (show 0 < W by omega)
    have hf := rounds_fit h.depth W
    have hbp : 0 < bpr bits := by unfold bpr; split_ifs <;> omega
    have key := iterLoop_scan (colors := roundColors bits B) (rowend := fun x => decide ((W : Int) ≤ x))
      (f := fun x y => (pix b W H bits x y : Int)) (W := W) (H := H) (R := rowLen W bits) (D := rounds W bits)
      (p := ppr bits) (doff := bpr bits) (pb := rowLen W bits - bpr bits * rounds W bits) (by omega) hbp
      (rounds_cover h.depth W) hp
      (by
        intro y i hy hi
        have hr := row_lt (S := rowLen W bits) (show H - 1 - y < H by omega)
        have hi' : bpr bits * i + bpr bits ≤ rowLen W bits := by
          have := Nat.mul_le_mul_left (bpr bits) (show i + 1 ≤ rounds W bits by omega)
          rw [Nat.mul_add] at this; omega
        rw [roundColors_any h.depth hB (by omega)]
        congr 1
        apply List.map_congr_left
        intro t ht
        rw [List.mem_range] at ht
        rw [round_pix h hbyte hy hi ht])
      (by
        intro i hi
        rw [decide_eq_decide, ← rounds_end h.depth W i hi]
        exact Int.ofNat_le)
      ((H - 1) * rounds W bits + (rounds W bits - 0)) (H - 1) 0 (H * rowLen W bits) (by omega) hp rfl (by
        have h1 : (H - 1) * rounds W bits + rounds W bits = H * rounds W bits := by
          rw [← Nat.succ_mul]; congr 1; omega
        have h2 : H * rounds W bits ≤ H * rowLen W bits := Nat.mul_le_mul_left _ (by
          have := Nat.mul_le_mul_right (rounds W bits) (show 1 ≤ bpr bits from hbp); omega)
        omega)
    rw [Nat.mul_zero, Nat.mul_zero, rowFrom_zero, show H - 1 - (H - 1) = 0 by omega, Nat.zero_mul] at key
    have hsc : scan W H (fun x y => (pix b W H bits x y : Int))
        = scanRow W (fun x y => (pix b W H bits x y : Int)) (H - 1) ++ scan W (H - 1) fun x y => (pix b W H bits x y : Int) := by
      rw [← scan_succ]; congr 1; omega
    rw [hsc, ← key, show ((H - 1 : Nat) : Int) = (H : Int) - 1 by omega]
    congr 1
    unfold bpr; split_ifs <;> rfl

/-- C38, without an order: a pair is yielded exactly when it is a pixel of the image with its colour,
and the list has no repetition. -/
theorem C38_exactly_once (h : Valid b W H bits) :
    ∃ l, iterimagecolor b = .ok l ∧ (l.map Prod.fst).Nodup ∧ l.length = W * H ∧
      (∀ x y c, ((x, y), c) ∈ l ↔ (0 ≤ x ∧ x < W ∧ 0 ≤ y ∧ y < H ∧ getxybit b x y = .ok c)) := by
  refine ⟨_, C38_iterimagecolor h, ?_, ?_, ?_⟩
  · unfold scan
    rw [List.map_flatMap, List.nodup_flatMap]
    constructor
    · intro y _
      unfold scanRow
      rw [List.map_map]
      refine List.nodup_range.map ?_
      intro a c hac
      simp at hac
      exact hac
    · refine List.Pairwise.imp ?_ (List.nodup_reverse.mpr List.nodup_range)
      intro y1 y2 hne p hp1 hp2
      unfold scanRow at hp1 hp2
      simp only [List.map_map, List.mem_map, Function.comp] at hp1 hp2
      obtain ⟨x1, _, rfl⟩ := hp1
      obtain ⟨x2, _, e⟩ := hp2
      simp at e
      exact hne e.2.symm
  · unfold scan
    rw [List.length_flatMap]
    simp only [scanRow, List.length_map, List.length_range, List.map_const', List.length_reverse]
    simp [Nat.mul_comm]
  · intro x y c
    unfold scan
    simp only [List.mem_flatMap, List.mem_reverse, List.mem_range, scanRow, List.mem_map, Prod.mk.injEq]
    constructor
    · rintro ⟨y', hy, x', hx, ⟨rfl, rfl⟩, rfl⟩
      exact ⟨by omega, by omega, by omega, by omega, h.getxybit_eq hx hy⟩
    · rintro ⟨h1, h2, h3, h4, h5⟩
      obtain ⟨x', rfl⟩ := Int.eq_ofNat_of_zero_le h1
      obtain ⟨y', rfl⟩ := Int.eq_ofNat_of_zero_le h3
      refine ⟨y', by omega, x', by omega, ⟨rfl, rfl⟩, ?_⟩
      rw [h.getxybit_eq (by omega) (by omega)] at h5
      exact Except.ok.inj h5

/-- The colour looked up by one round of `iterimageRGB`. -/
theorem roundRGB_pal (h : Valid b W H bits) (h24 : bits ≠ 24) {B : Bytes} (hB : ∀ v ∈ B, v < 256) {i : Nat} (hi : i < B.length) :
    roundRGB bits ((List.range (2 ^ bits)).map fun c => rgbI (palRGB b c)) B (i : Int)
      = .ok ((List.range (ppr bits)).map fun t => rgbI (palRGB b (byte B i / 2 ^ (8 - bits - t * bits) % 2 ^ bits))) := by
  unfold roundRGB
  rw [if_neg h24, roundColors_any h.depth hB (by unfold bpr; rw [if_neg h24]; omega)]
  simp only [ok_bind, if_neg h24]
  rw [mapM_ok _ _ (fun c : Int => rgbI (palRGB b c.toNat)), List.map_map]
  · rfl
  · intro c hc
    rw [List.mem_map] at hc
    obtain ⟨t, _, rfl⟩ := hc
    have hlt : byte B i / 2 ^ (8 - bits - t * bits) % 2 ^ bits < 2 ^ bits := Nat.mod_lt _ (by positivity)
    generalize byte B i / 2 ^ (8 - bits - t * bits) % 2 ^ bits = c at hlt
    rw [Int.toNat_natCast, List.getElem?_map, List.getElem?_range hlt]
    rfl

theorem roundRGB_24 (p : List RGB) {B : Bytes} {i : Nat} (hi : i + 3 ≤ B.length) :
    roundRGB 24 p B (i : Int) = .ok [rgbI (byte B (i + 2), byte B (i + 1), byte B i)] := by
  unfold roundRGB
  rw [if_pos rfl, getItem_ok (n := i + 2) (by push_cast; rfl) (by omega), getItem_ok (n := i + 1) (by push_cast; rfl) (by omega),
    getItem_ok rfl (by omega)]
  rfl

/-- Pixels per byte divide the width; always so for 8- and 24-bit images. -/
def FullBytes (W bits : Nat) : Prop := bits = 24 ∨ 8 ∣ W * bits

/-- C39: `iterimageRGB` yields every pixel exactly once with its RGB colour if the rows consist of
whole bytes. For other widths of 1- and 4-bit images this is false, see
`C39_only_bottom_row`. -/
theorem C39_iterimageRGB_partial (h : Valid b W H bits) (hw : FullBytes W bits) :
    iterimageRGB b = .ok (scan W H fun x y => rgbI (pixRGB b W H bits x y)) := by
  obtain ⟨B, eB, hlen, hB, hbyte⟩ := imgbytes h
  unfold iterimageRGB getmaxx getmaxy
  rw [h.getmaxx_eq, h.getmaxy_eq, eB]
  simp only [ok_bind]
  rw [h.bits_eq]
  simp only [ok_bind]
  rw [pdbytes_eq h.depth]
  simp only [ok_bind]
  rw [hlen]
  have hpal : ∃ p, (if bits < 24 then getallRGBpal b else pure []) = .ok p ∧
      (bits ≠ 24 → p = (List.range (2 ^ bits)).map fun c => rgbI (palRGB b c)) := by
    by_cases h24 : bits = 24
    · refine ⟨[], ?_, fun hne => absurd h24 hne⟩
      rw [if_neg (by omega)]; rfl
    · refine ⟨_, ?_, fun _ => rfl⟩
      rw [if_pos (by rcases h.depth with rfl | rfl | rfl | rfl <;> omega), h.getallRGBpal_eq h24]
  obtain ⟨p, ep, hp24⟩ := hpal
  rw [ep]
  simp only [ok_bind]
  by_cases hz : W = 0 ∨ H = 0
  · have hz' : H * rowLen W bits = 0 := by
      rcases hz with rfl | rfl
      · simp [rowLen]
      · simp
    have hs : scan W H (fun x y => rgbI (pixRGB b W H bits x y)) = [] := by
      rcases hz with rfl | rfl
      · unfold scan scanRow; simp
      · rfl
    rw [hz', hs]; rfl
  · have hp := rounds_pos h.depth (show 0 < W by omega)
    have hf := rounds_fit h.depth W
    have hbp : 0 < bpr bits := by unfold bpr; split_ifs <;> omega
    have key := iterLoop_scan (colors := roundRGB bits p B) (rowend := fun x => decide (x = (W : Int)))
      (f := fun x y => rgbI (pixRGB b W H bits x y)) (W := W) (H := H) (R := rowLen W bits) (D := rounds W bits)
      (p := ppr bits) (doff := bpr bits) (pb := rowLen W bits - bpr bits * rounds W bits) (by omega) hbp
      (rounds_cover h.depth W) hp
      (by
        intro y i hy hi
        have hr := row_lt (S := rowLen W bits) (show H - 1 - y < H by omega)
        have hi' : bpr bits * i + bpr bits ≤ rowLen W bits := by
          have := Nat.mul_le_mul_left (bpr bits) (show i + 1 ≤ rounds W bits by omega)
          rw [Nat.mul_add] at this; omega
        by_cases h24 : bits = 24
        · subst h24
          have hpx := fun t ht => round_pix h hbyte hy hi (t := t) ht
          rw [roundRGB_24 _ (by simp only [bpr, if_true] at hi' ⊢; omega)]
          have h0 := hpx 0 (by simp [ppr])
          rw [if_pos rfl] at h0
          have b0 := byte_lt_of_mem hB ((H - 1 - y) * rowLen W 24 + bpr 24 * i)
          have b1 := byte_lt_of_mem hB ((H - 1 - y) * rowLen W 24 + bpr 24 * i + 1)
          have b2 := byte_lt_of_mem hB ((H - 1 - y) * rowLen W 24 + bpr 24 * i + 2)
          simp only [ppr, if_true, List.range_one, List.map_cons, List.map_nil]
          simp only [ppr, if_true] at h0
          unfold pixRGB
          dsimp only
          rw [if_pos rfl, ← h0]
          congr 3
          rw [Prod.mk.injEq, Prod.mk.injEq]
          refine ⟨?_, ?_, ?_⟩ <;> omega
        · rw [hp24 h24, roundRGB_pal h h24 hB (by omega)]
          congr 1
          apply List.map_congr_left
          intro t ht
          rw [List.mem_range] at ht
          have := round_pix h hbyte hy hi ht
          rw [if_neg h24] at this
          rw [this]
          unfold pixRGB
          dsimp only
          rw [if_neg h24])
      (by
        intro i hi
        rw [decide_eq_decide, ← rounds_end h.depth W i hi]
        have := rounds_end h.depth W i hi
        have hle : ppr bits * (i + 1) ≤ W := by
          unfold FullBytes at hw
          rcases h.depth with rfl | rfl | rfl | rfl <;> simp [rounds, ppr] at * <;> omega
        omega)
      ((H - 1) * rounds W bits + (rounds W bits - 0)) (H - 1) 0 (H * rowLen W bits) (by omega) hp rfl (by
        have h1 : (H - 1) * rounds W bits + rounds W bits = H * rounds W bits := by
          rw [← Nat.succ_mul]; congr 1; omega
        have h2 : H * rounds W bits ≤ H * rowLen W bits := Nat.mul_le_mul_left _ (by
          have := Nat.mul_le_mul_right (rounds W bits) (show 1 ≤ bpr bits from hbp); omega)
        omega)
    rw [Nat.mul_zero, Nat.mul_zero, rowFrom_zero, show H - 1 - (H - 1) = 0 by omega, Nat.zero_mul] at key
    have hsc : scan W H (fun x y => rgbI (pixRGB b W H bits x y))
        = scanRow W (fun x y => rgbI (pixRGB b W H bits x y)) (H - 1) ++ scan W (H - 1) fun x y => rgbI (pixRGB b W H bits x y) := by
      rw [← scan_succ]; congr 1; omega
    rw [hsc, ← key, show ((H - 1 : Nat) : Int) = (H : Int) - 1 by omega]
    congr 1
    unfold bpr
    rcases h.depth with rfl | rfl | rfl | rfl <;> rfl

/-- For 1- and 4-bit images whose rows end inside a byte `iterimageRGB` yields the bottom row only:
the column counter steps over the width and the end of the row is never noticed. -/
theorem C39_only_bottom_row (h : Valid b W H bits) (hw : ¬ FullBytes W bits) (hH : 0 < H) :
    iterimageRGB b = .ok (scanRow W (fun x y => rgbI (pixRGB b W H bits x y)) (H - 1)) := by
  obtain ⟨B, eB, hlen, hB, hbyte⟩ := imgbytes h
  have h24 : bits ≠ 24 := fun e => hw (Or.inl e)
  have hW : 0 < W := by
    rcases Nat.eq_zero_or_pos W with rfl | h0
    · exact absurd (Or.inr (by simp)) hw
    · exact h0
  unfold iterimageRGB getmaxx getmaxy
  rw [h.getmaxx_eq, h.getmaxy_eq, eB]
  simp only [ok_bind]
  rw [h.bits_eq]
  simp only [ok_bind]
  rw [pdbytes_eq h.depth]
  simp only [ok_bind]
  rw [hlen, if_pos (by rcases h.depth with rfl | rfl | rfl | rfl <;> omega), h.getallRGBpal_eq h24]
  simp only [ok_bind]
  rw [if_pos (by rcases h.depth with rfl | rfl | rfl | rfl <;> omega)]
  have hf := rounds_fit h.depth W
  simp only [bpr, if_neg h24] at hf
  have hrow : 1 * rowLen W bits ≤ H * rowLen W bits := Nat.mul_le_mul_right _ hH
  have key := iterLoop_stuck (colors := roundRGB bits ((List.range (2 ^ bits)).map fun c => rgbI (palRGB b c)) B)
    (rowend := fun x => decide (x = (W : Int)))
    (f := fun x y => rgbI (pixRGB b W H bits x y)) (W := W) (D := rounds W bits)
    (p := ppr bits) (M := H * rowLen W bits) (pb := ((rowLen W bits - bpr bits * rounds W bits : Nat) : Int))
    (rounds_cover h.depth W) (by omega) (H - 1)
    (by
      intro i hi
      rw [roundRGB_pal h h24 hB (by omega)]
      congr 1
      apply List.map_congr_left
      intro t ht
      rw [List.mem_range] at ht
      have := round_pix h hbyte (show H - 1 < H by omega) hi ht
      rw [if_neg h24, show H - 1 - (H - 1) = 0 by omega, Nat.zero_mul, Nat.zero_add] at this
      simp only [bpr, if_neg h24, Nat.one_mul] at this
      rw [this]
      unfold pixRGB
      dsimp only
      rw [if_neg h24])
    (by
      intro i _ hi
      exact ⟨_, roundRGB_pal h h24 hB (by omega)⟩)
    (by
      intro i
      rw [decide_eq_false_iff_not]
      intro e
      apply hw
      right
      have e' : ppr bits * (i + 1) = W := by exact_mod_cast e
      rw [← e']
      rcases h.depth3 h24 with rfl | rfl | rfl <;> simp [ppr] <;> omega)
    (H * rowLen W bits) 0 (by omega)
  rw [Nat.mul_zero, rowFrom_zero, show ((H - 1 : Nat) : Int) = (H : Int) - 1 by omega] at key
  exact key

/-- C39 is false as stated: a 3 by 2 image with 4 bits has six pixels, three are yielded. -/
theorem C39_false : ¬ ∀ (b : Bytes) (W H bits : Nat), Valid b W H bits → 0 < W →
    ∃ l, iterimageRGB b = .ok l ∧ l.length = W * H := by
  intro hall
  obtain ⟨b0, e0, v0, _⟩ := C01_newBMP_valid (W := 3) (H := 2) (bits := 4) (by simp [Depth]) (by norm_num) (by norm_num)
  obtain ⟨l, e, hl⟩ := hall b0 3 2 4 v0 (by norm_num)
  rw [C39_only_bottom_row v0 (by unfold FullBytes; omega) (by omega)] at e
  have := Except.ok.inj e
  rw [← this] at hl
  simp [scanRow] at hl

/-- The order on a small image: bottom row first. -/
example : (do iterimagecolor (← plotxybit (← newBMP 3 2 4) 1 0 7))
    = .ok [((0, 1), 0), ((1, 1), 0), ((2, 1), 0), ((0, 0), 0), ((1, 0), 7), ((2, 0), 0)] := by decide +kernel

example : (do iterimageRGB (← plotxybit (← newBMP 2 2 24) 1 0 0x10203))
    = .ok [((0, 1), (0, 0, 0)), ((1, 1), (0, 0, 0)), ((0, 0), (0, 0, 0)), ((1, 0), (1, 2, 3))] := by decide +kernel

example : (do let l ← iterimageRGB (← newBMP 3 2 4); pure (l.map Prod.fst)) = .ok [(0, 1), (1, 1), (2, 1)] := by decide +kernel

end Verif.Props
