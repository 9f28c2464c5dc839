import Verif.Props.Foreign
import Verif.Props.Pixel
import Verif.Model.Draw
/-! Property C199: files that were cut off. -/

namespace Verif.Props
open Verif Spec Model

variable {b : Bytes} {W H bits n : Nat}

theorem readint_take {o k : Nat} (hn : o + k ≤ n) (hl : n ≤ b.length) :
    readint (o : Int) ((k : Int) + 1) (b.take n) = readint (o : Int) ((k : Int) + 1) b := by
  have e : (b.take n).length = n := by rw [List.length_take]; omega
  rw [readint_eq o k (by omega), readint_eq o k (by omega)]
  rw [le_congr (b' := b.take n) (b := b) fun i _ hi => by rw [byte_take, if_pos (by omega)]]

theorem getItem_take {i : Nat} (hi : i < n) (hl : n ≤ b.length) : getItem (b.take n) i = getItem b i := by
  have e : (b.take n).length = n := by rw [List.length_take]; omega
  rw [getItem_ok rfl (by omega), getItem_ok rfl (by omega), byte_take, if_pos hi]

theorem setItem_take {i : Nat} (v : Int) (hi : i < n) (hl : n ≤ b.length) : setItem (b.take n) i v = (setItem b i v).map (·.take n) := by
  have e : (b.take n).length = n := by rw [List.length_take]; omega
  unfold setItem
  rw [resolveIdx_ok (n := i) rfl (by omega), resolveIdx_ok (n := i) rfl (by omega)]
  dsimp only
  split_ifs
  · simp only [Except.map, List.take_set]
  · rfl

theorem cut_fields (h : Valid b W H bits) (hn : 54 ≤ n) (hl : n ≤ b.length) : Fields (b.take n) W H bits := by
  refine ⟨h.depth, fun v hv => h.bytes v (List.mem_of_mem_take hv), ?_, ?_, ?_⟩
  · rw [← h.getmaxx_eq]; exact readint_take (o := 18) (k := 3) (by omega) hl
  · rw [← h.getmaxy_eq]; exact readint_take (o := 22) (k := 3) (by omega) hl
  · rw [← h.bits_eq]; exact getItem_take (i := 28) (by omega) hl

/-- **C199**: a file that was cut off behind its size field is loaded as far as it goes, and saved as such. -/
theorem C199_load (h : Valid b W H bits) (hb : 54 < b.length) (hn : 10 ≤ n) (hl : n ≤ b.length) :
    loadBMP (b.take n) = .ok (b.take n) ∧ loadBMP (saveBMP (b.take n)) = .ok (b.take n) := by
  have e : (b.take n).length = n := by rw [List.length_take]; omega
  have hs : le (b.take n) 2 8 = b.length := by
    rw [← h.size]
    exact le_congr fun i _ hi => by rw [byte_take, if_pos (by omega)]
  have key : loadBMP (b.take n) = .ok (b.take n) := by
    obtain ⟨r, h1, h2, h3⟩ := (C16_load (b.take n)).2.2 (by omega) (by rw [byte_take, if_pos (by omega)]; exact h.magic.1)
      (by rw [byte_take, if_pos (by omega)]; exact h.magic.2) (by rw [hs]; exact hb) (by rw [hs]; have := h.len_lt; omega)
    rw [h1]
    congr 1
    rw [hs] at h2
    exact bytes_ext (by omega) h3
  exact ⟨key, key⟩

/-- **C199**: the pixels that are left in a cut file are read as in the whole file; the others raise an IndexError. -/
theorem C199_read (h : Valid b W H bits) (hn : 54 ≤ n) (hl : n ≤ b.length) {x y : Nat} (hx : x < W) (hy : y < H) :
    getmaxxy (b.take n) = .ok ((W : Int), (H : Int)) ∧
    (addr W H bits x y + bpp bits ≤ n → getxybit (b.take n) x y = getxybit b x y) ∧
    (n < addr W H bits x y + bpp bits → getxybit (b.take n) x y = .error .indexError) := by
  have e : (b.take n).length = n := by rw [List.length_take]; omega
  obtain ⟨h1, h2, h3⟩ := (cut_fields h hn hl).read hx hy
  rw [e] at h2 h3
  refine ⟨h1, fun ha => ?_, h3⟩
  rw [h2 ha, h.getxybit_eq hx hy]
  congr 2
  rw [pix_eq, pix_eq]
  unfold bpp at ha
  split_ifs with c
  · subst c
    rw [if_pos rfl] at ha
    simp only [byte_take]
    rw [if_pos (by omega), if_pos (by omega), if_pos (by omega)]
  · rw [if_neg c] at ha
    rw [byte_take, if_pos (by omega)]

/-- **C199**: plotting a pixel that is left in a cut file changes it as in the whole file. A pixel that is not left raises an IndexError on
images with a palette. On 24-bit images the file is cut off at this pixel, if it is longer, and the three bytes of the colour are put at
its end. -/
theorem C199_plot (h : Valid b W H bits) (hn : 54 ≤ n) (hl : n ≤ b.length) {x y : Nat} (hx : x < W) (hy : y < H) {c : Int}
    (hc : bits = 24 → 0 ≤ c ∧ c < 2 ^ 24) :
    (addr W H bits x y + bpp bits ≤ n → plotxybit (b.take n) x y c = (plotxybit b x y c).map (·.take n)) ∧
    (n < addr W H bits x y + bpp bits → bits ≠ 24 → plotxybit (b.take n) x y c = .error .indexError) ∧
    (n < addr W H bits x y + bpp bits → bits = 24 → plotxybit (b.take n) x y c =
      .ok (b.take (min n (addr W H bits x y)) ++ [c.toNat % 256, c.toNat / 256 % 256, c.toNat / 65536])) := by
  have e : (b.take n).length = n := by rw [List.length_take]; omega
  have F := cut_fields h hn hl
  have G : Fields b W H bits := ⟨h.depth, h.bytes, h.getmaxx_eq, h.getmaxy_eq, h.bits_eq⟩
  have r1 := F.row hy
  have r2 := G.row hy
  have ha := addr_lt h hx hy
  unfold plotxybit
  rw [F.inside hx hy, G.inside hx hy, F.bits_eq, G.bits_eq]
  simp only [ok_bind, Bool.true_eq_false, if_false]
  rcases h.depth with rfl | rfl | rfl | rfl
  · have ea : pyShr (x : Int) 3 + ((((H - 1 - y) * rowLen W 1 : Nat) : Int)) + 62 = ((addr W H 1 x y : Nat) : Int) := by
      norm_num [addr, rel, dataOff, palSize, pyShr]; omega
    simp only [Nat.cast_one] at r1 r2
    norm_num only [if_true, if_false, ite_true, ite_false, bpp]
    rw [r1, r2]
    simp only [ok_bind, ea]
    refine ⟨fun hi => ?_, fun hi _ => ?_, fun _ hf => by simp at hf⟩
    · rw [getItem_take (i := addr W H 1 x y) (by omega) hl, getItem_ok (n := addr W H 1 x y) rfl (by omega)]
      have hm : pyMod (x : Int) 8 = .ok ((x % 8 : Nat) : Int) := by
        simp [pyMod, Int.fmod_eq_emod_of_nonneg]
      simp only [ok_bind, hm]
      exact setItem_take _ (by omega) hl
    · rw [getItem_ge (by omega)]; rfl
  · have ea : pyShr (x : Int) 1 + ((((H - 1 - y) * rowLen W 4 : Nat) : Int)) + 118 = ((addr W H 4 x y : Nat) : Int) := by
      norm_num [addr, rel, dataOff, palSize, pyShr]; omega
    simp only [Nat.cast_ofNat] at r1 r2
    norm_num only [if_true, if_false, ite_true, ite_false, bpp]
    rw [r1, r2]
    simp only [ok_bind, ea]
    refine ⟨fun hi => ?_, fun hi _ => ?_, fun _ hf => by simp at hf⟩
    · rw [getItem_take (i := addr W H 4 x y) (by omega) hl, getItem_ok (n := addr W H 4 x y) rfl (by omega)]
      simp only [ok_bind]
      split_ifs
      · exact setItem_take _ (by omega) hl
      · exact setItem_take _ (by omega) hl
    · rw [getItem_ge (by omega)]; rfl
  · have ea : (x : Int) + ((((H - 1 - y) * rowLen W 8 : Nat) : Int)) + 1078 = ((addr W H 8 x y : Nat) : Int) := by
      norm_num [addr, rel, dataOff, palSize]; omega
    simp only [Nat.cast_ofNat] at r1 r2
    norm_num only [if_true, if_false, ite_true, ite_false, bpp]
    rw [r1, r2]
    simp only [ok_bind, ea]
    refine ⟨fun hi => ?_, fun hi _ => ?_, fun _ hf => by simp at hf⟩
    · exact setItem_take _ (by omega) hl
    · rw [setItem_ge (by omega)]
  · have ea : (x : Int) * 3 + ((((H - 1 - y) * rowLen W 24 : Nat) : Int)) + 54 = ((addr W H 24 x y : Nat) : Int) := by
      norm_num [addr, rel, dataOff, palSize]; omega
    simp only [Nat.cast_ofNat] at r1 r2
    norm_num only [if_true, if_false, ite_true, ite_false, bpp] at ha ⊢
    rw [r1, r2]
    simp only [ok_bind, ea]
    obtain ⟨c0, c1⟩ := hc rfl
    obtain ⟨k, rfl⟩ := Int.eq_ofNat_of_zero_le c0
    have em : mkArray [pyAnd (k : Int) 0xff, pyAnd (pyShr (k : Int) 8) 0xff, pyShr (k : Int) 16] =
        .ok [k % 256, k / 256 % 256, k / 65536] :=
      mkArray3_ok (by rw [pyAnd_255]; omega) (by rw [pyAnd_255, pyShr_8]; omega) (by unfold pyShr; omega) (by omega) (by omega) (by omega)
    rw [em]
    simp only [ok_bind, pure_eq_ok, Int.toNat_natCast]
    refine ⟨fun hi => ?_, fun _ hf => by simp at hf, fun hi _ => ?_⟩
    · rw [setSlice_ok (n := addr W H 24 x y) rfl (by simp) (by simp; omega), setSlice_ok (n := addr W H 24 x y) rfl (by simp) (by simp; omega)]
      refine congrArg Except.ok ?_
      have l1 : addr W H 24 x y + [k % 256, k / 256 % 256, k / 65536].length ≤ b.length := by simp; omega
      have l2 : addr W H 24 x y + [k % 256, k / 256 % 256, k / 65536].length ≤ (b.take n).length := by simp; omega
      apply bytes_ext
      · rw [length_ow l2, e, List.length_take, length_ow l1]; omega
      · intro i hi'
        rw [length_ow l2, e] at hi'
        rw [byte_ow l2, byte_take, if_pos hi']
        show _ = byte (List.take n _) i
        rw [byte_take, if_pos hi', byte_ow l1]
    · refine congrArg Except.ok ?_
      unfold setSlice clampIdx
      rw [e, if_neg (by omega), if_neg (by omega)]
      simp only [Int.toNat_natCast]
      rw [show max (min (addr W H 24 x y) n) (min ((addr W H 24 x y : Int) + 3).toNat n) = n by omega,
        List.drop_eq_nil_of_le (by rw [e]), List.append_nil, List.take_take,
        show min (min (addr W H 24 x y) n) n = min n (addr W H 24 x y) by omega]

/-- **C199 is false** for drawing: in a 24-bit file of 2 × 2 pixels that was cut off after its lower row, the pixel in the upper right corner
is plotted in the upper left one, and so is a row that begins there; turning the image upside down leaves the row where it is. -/
theorem C199_false : (do
    let b ← newBMP 2 2 24
    let b ← plotxybit b 0 1 5
    let b := b.take 62
    let p ← plotxybit b 1 0 7
    let q ← horiline b 0 1 1 7
    let f ← flipvertical b
    pure ([← getxybit b 0 1, ← getxybit p 0 0, ← getxybit q 0 0], getxybit b 0 0, getxybit p 1 0, (f.length, byte f 54))) =
      .ok ([5, 7, 7], .error .indexError, .error .indexError, (62, 5)) := by decide +kernel

-- A 4-bit image of 3 × 2 pixels, cut off after its lower row
example : (do
    let b ← newBMP 3 2 4
    let b ← plotxybit b 2 1 5
    let b := b.take 122
    let p ← plotxybit b 0 1 9
    pure (← getxybit b 2 1, getxybit b 2 0, ← getxybit p 0 1, plotxybit b 0 0 9)) =
      .ok (5, .error .indexError, 9, .error .indexError) := by decide +kernel

end Verif.Props
