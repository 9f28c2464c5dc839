import Verif.Sample
import Verif.Lemmas.Stride
/-! Properties C17 and C18: block transfer. -/

namespace Verif.Props
open Verif Spec Model

/-- C17: a block inside the pixel area is written and read back; nothing else changes. -/
theorem C17_put_get {b : Bytes} {W H bits : Nat} (h : Valid b W H bits) (off : Nat) (buf : Bytes)
    (hb : ∀ v ∈ buf, v < 256) (hfit : off + buf.length ≤ H * rowLen W bits) :
    ∃ b', BMPbitBLTput b off buf = .ok b' ∧ Valid b' W H bits ∧ SameHeader b b' bits ∧
      (∀ i, i < dataOff bits + off ∨ dataOff bits + off + buf.length ≤ i → byte b' i = byte b i) ∧
      (∀ j, j < buf.length → byte b' (dataOff bits + off + j) = byte buf j) ∧
      (buf ≠ [] → BMPbitBLTget b' off buf.length = .ok buf) := by
  have hl := h.len
  have hf : dataOff bits + off + buf.length ≤ b.length := by omega
  have hge := dataOff_ge bits
  have hv : Valid (ow b (dataOff bits + off) buf) W H bits := valid_ow h (by omega) hf hb
  refine ⟨ow b (dataOff bits + off) buf, ?_, hv, ⟨length_ow hf, ?_⟩, ?_, ?_, ?_⟩
  · unfold BMPbitBLTput
    rw [h.hdsz_eq]
    simp only [ok_bind]
    rw [if_pos (by omega), h.flsz_eq]
    simp only [ok_bind]
    rw [if_pos (by omega), setSlice_ok (n := dataOff bits + off) (by push_cast; rfl) (by push_cast; rfl) hf]
    rfl
  · intro i hi; rw [byte_ow hf, if_neg (by omega)]
  · intro i hi; rw [byte_ow hf, if_neg (by omega)]
  · intro j hj; rw [byte_ow hf, if_pos (by omega)]; congr 1; omega
  · intro hne
    have hpos : 0 < buf.length := List.length_pos_iff.mpr hne
    unfold BMPbitBLTget
    rw [hv.hdsz_eq]
    simp only [ok_bind]
    have hlo := length_ow hf
    rw [if_pos (by omega), hv.flsz_eq]
    simp only [ok_bind]
    rw [if_pos (by rw [hlo]; omega)]
    have e1 : (dataOff bits : Int) + (off : Int) = ((dataOff bits + off : Nat) : Int) := by push_cast; rfl
    have e2 : (dataOff bits : Int) + (off : Int) + (buf.length : Int)
        = ((dataOff bits + off + buf.length : Nat) : Int) := by push_cast; rfl
    rw [pure_eq_ok, e2, e1]
    congr 1
    apply bytes_ext
    · rw [length_slice_ok rfl rfl (by rw [hlo]; exact hf) (by omega)]; omega
    · intro i hi
      rw [length_slice_ok rfl rfl (by rw [hlo]; exact hf) (by omega)] at hi
      rw [byte_slice_ok rfl rfl (by rw [hlo]; exact hf) (by omega), if_pos hi, byte_ow hf, if_pos (by omega)]
      congr 1; omega

/-- C17: a block that does not lie inside the pixel area is refused. -/
theorem C17_rejected {b : Bytes} {W H bits : Nat} (h : Valid b W H bits) (off : Int) (buf : Bytes) (n : Int)
    (ho : off < 0 ∨ ((H * rowLen W bits : Nat) : Int) < off + n) :
    (n = buf.length → BMPbitBLTput b off buf = .ok b) ∧ BMPbitBLTget b off n = .ok [] := by
  have hl := h.len
  constructor
  · rintro rfl
    unfold BMPbitBLTput
    rw [h.hdsz_eq, h.flsz_eq]
    simp only [ok_bind]
    split_ifs <;> first | rfl | (exfalso; omega)
  · unfold BMPbitBLTget
    rw [h.hdsz_eq, h.flsz_eq]
    simp only [ok_bind]
    split_ifs <;> first | rfl | (exfalso; omega)

example : (do let b ← BMPbitBLTput sample8 2 [7, 8, 9]
              pure (← BMPbitBLTget b 2 3, ← getxybit b 2 3, ← getxybit b 0 2)) = .ok ([7, 8, 9], 7, 9) := by
  decide +kernel

theorem makeBGRbuf_range (n : Nat) (f g h : Nat → Nat) :
    makeBGRbuf ((List.range n).map f) ((List.range n).map g) ((List.range n).map h)
      = ((List.range n).map fun j => [f j, g j, h j]).flatten := by
  have key : ∀ (l : List Nat), makeBGRbuf (l.map f) (l.map g) (l.map h)
      = (l.map fun j => [f j, g j, h j]).flatten := by
    intro l
    induction l with
    | nil => rfl
    | cons a l ih => simp [makeBGRbuf, ih]
  exact key _

theorem flatten_singletons (l : List Nat) (f : Nat → Nat) : (l.map fun j => [f j]).flatten = l.map f := by
  induction l with
  | nil => rfl
  | cons a l ih => simp [ih]

/-- Column bounds after clipping. -/
theorem vert_clip {y1 y2 : Int} {H : Nat} (hm : max (min y1 y2) 0 ≤ min (max y1 y2) ((H : Int) - 1)) :
    ∃ lo hi : Nat, (lo : Int) = max (min y1 y2) 0 ∧ (hi : Int) = min (max y1 y2) ((H : Int) - 1) ∧
      lo ≤ hi ∧ hi < H ∧
      (let p := swapif y1 y2 (decide (y1 > y2)); setmin p.1 0 = (lo : Int) ∧ setmax p.2 ((H : Int) - 1) = (hi : Int)) := by
  refine ⟨(max (min y1 y2) 0).toNat, (min (max y1 y2) ((H : Int) - 1)).toNat, by omega, by omega, by omega, by omega, ?_⟩
  unfold swapif setmin setmax
  by_cases c : y1 > y2 <;> simp [c] <;> constructor <;> (split_ifs <;> omega)

/-- C18: the vertical read returns the pixels of the column between the clipped rows, lowest row
first (the order of the file). -/
theorem C18_vertical_get {b : Bytes} {W H bits : Nat} (h : Valid b W H bits) (hb : bits = 8 ∨ bits = 24)
    {x : Nat} (hx : x < W) {y1 y2 : Int} {lo hi : Nat} (hlo : (lo : Int) = max (min y1 y2) 0)
    (hhi : (hi : Int) = min (max y1 y2) ((H : Int) - 1)) (hle : lo ≤ hi) :
    vertBMPbitBLTget b x y1 y2 = .ok (some ((List.range (hi - lo + 1)).map fun j =>
      let c := pix b W H bits x (hi - j)
      if bits = 24 then [c % 256, c / 256 % 256, c / 65536] else [c]).flatten) := by
  obtain ⟨lo', hi', e1, e2, hle', hH, e3⟩ := vert_clip (y1 := y1) (y2 := y2) (H := H) (by omega)
  obtain rfl : lo = lo' := by omega
  obtain rfl : hi = hi' := by omega
  have hW : 0 < W := by omega
  have hr := rowLen_pos hW h.depth
  have hge := dataOff_ge bits
  unfold vertBMPbitBLTget
  rw [h.bits_eq, h.xchrcnt_eq]
  have hxy : getmaxxy b = .ok ((W : Int), (H : Int)) := by
    unfold getmaxxy; rw [h.getmaxx_eq, h.getmaxy_eq]; rfl
  rw [hxy]
  simp only [ok_bind]
  rw [if_pos (by simp [isinrange]; omega)]
  dsimp only at e3 ⊢
  rw [e3.1, e3.2, h.BMoffsethd_eq x hi hH, h.BMoffsethd_eq x lo (by omega)]
  simp only [ok_bind]
  have hcol := addr_col (W := W) (H := H) (bits := bits) (x := x) hH
  have hlo2 : addr W H bits x lo = addr W H bits x hi + (hi - lo) * rowLen W bits := by
    have := hcol (hi - lo) (by omega)
    rwa [show hi - (hi - lo) = lo by omega] at this
  have ha := addr_lt h hx (y := lo) (by omega)
  set r := rowLen W bits with hrdef
  set s := addr W H bits x hi with hs
  have hmul : (hi - lo + 1) * r = (hi - lo) * r + r := by ring
  have hbyte := fun i => byte_lt_of_mem h.bytes i
  rcases hb with rfl | rfl
  · rw [if_neg (by norm_num)]
    rw [sliceStep_ok (n := s) (m := hi - lo + 1) (eN := addr W H 8 x lo + r) rfl (by push_cast; rfl)
      (by simp; omega) (by omega) (by simp; omega) (by simp; omega) (by simp at *; omega)]
    simp only [ok_bind, pure_eq_ok]
    congr 2
    have : ∀ j ∈ List.range (hi - lo + 1), ([pix b W H 8 x (hi - j)] : List Nat) = [byte b (s + j * r)] := by
      intro j hj
      simp at hj
      rw [pix_eq, if_neg (by norm_num), hcol j (by omega)]
      have e : shiftOf 8 x = 0 := by unfold shiftOf; omega
      rw [e]
      have := hbyte (s + j * r)
      congr 1; omega
    simp only [show ((8 : Nat) = 24) = False by simp, if_false]
    rw [List.map_congr_left this]
    exact (flatten_singletons _ _).symm
  · rw [if_pos rfl]
    simp only [if_true] at ha
    have hE : (addr W H 24 x lo : Int) + (r : Int) = ((addr W H 24 x lo + r : Nat) : Int) := by push_cast; rfl
    rw [hE]
    rw [sliceStep_ok (n := s) (m := hi - lo + 1) (eN := addr W H 24 x lo + r - 2) rfl (by omega)
      (by simp; omega) (by omega) (by simp; omega) (by simp; omega) (by simp; omega)]
    simp only [ok_bind]
    rw [sliceStep_ok (n := s + 1) (m := hi - lo + 1) (eN := addr W H 24 x lo + r - 1) (by push_cast; rfl) (by omega)
      (by simp; omega) (by omega) (by simp; omega) (by simp; omega) (by simp; omega)]
    simp only [ok_bind]
    rw [sliceStep_ok (n := s + 2) (m := hi - lo + 1) (eN := addr W H 24 x lo + r) (by push_cast; rfl) (by omega)
      (by simp; omega) (by omega) (by simp; omega) (by simp; omega) (by simp; omega)]
    simp only [ok_bind, pure_eq_ok, makeBGRbuf_range]
    congr 3
    apply List.map_congr_left
    intro j hj
    simp at hj
    rw [if_pos trivial, pix_eq, if_pos rfl, hcol j (by omega)]
    simp only [Int.toNat_natCast]
    have h0 := hbyte (s + j * r)
    have h1 := hbyte (s + j * r + 1)
    have h2 := hbyte (s + j * r + 2)
    rw [show s + 1 + j * r = s + j * r + 1 by omega, show s + 2 + j * r = s + j * r + 2 by omega]
    congr 1
    · omega
    · congr 1
      · omega
      · congr 1; omega

/-- C18: a column outside the image gives nothing. -/
theorem C18_outside {b : Bytes} {W H bits : Nat} (h : Valid b W H bits) {x : Int}
    (hx : x < 0 ∨ (W : Int) ≤ x) (y1 y2 : Int) : vertBMPbitBLTget b x y1 y2 = .ok none := by
  unfold vertBMPbitBLTget
  have hxy : getmaxxy b = .ok ((W : Int), (H : Int)) := by
    unfold getmaxxy; rw [h.getmaxx_eq, h.getmaxy_eq]; rfl
  rw [h.bits_eq, h.xchrcnt_eq, hxy]
  simp only [ok_bind]
  rw [if_neg (by simp [isinrange]; omega)]
  rfl

example : (do let b ← plotxybit sample8 1 1 5; let b ← plotxybit b 1 3 6
              vertBMPbitBLTget b 1 99 1) = .ok (some [6, 0, 5]) := by decide +kernel
example : (do let b ← newBMP 3 4 24; let b ← plotxybit b 2 0 0x010203; let b ← plotxybit b 2 1 0x0a0b0c
              vertBMPbitBLTget b 2 (-5) 1) = .ok (some [0x0c, 0x0b, 0x0a, 3, 2, 1]) := by decide +kernel

end Verif.Props
