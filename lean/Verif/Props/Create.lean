import Verif.Lemmas.NewBMP
/-! Properties C01–C04: creation of bitmaps and geometry. -/

namespace Verif.Props
open Verif Spec Model

/-- C01: `newBMP` returns a well-formed file of the requested geometry; every pixel is 0, the
palette is the default palette, and all size queries give the requested values. -/
theorem C01_newBMP_valid (W H bits : Nat) (hd : Depth bits) (hW : W < 2 ^ 24) (hH : H < 2 ^ 24) :
    ∃ b, newBMP W H bits = .ok b ∧ Valid b W H bits ∧
      getmaxx b = .ok (W : Int) ∧ getmaxy b = .ok (H : Int) ∧
      getmaxxyandbits b = .ok (((W : Int), (H : Int)), (bits : Int)) ∧
      getmaxcolors b = .ok ((2 ^ bits : Nat) : Int) ∧
      (∀ x y, x < W → y < H → pix b W H bits x y = 0) ∧
      (∀ pal, getdefaultbitpal bits = .ok pal → getallRGBpal b = .ok pal) := by
  obtain ⟨pal, hp1, hp2, hp3, hoff, hnew⟩ := newBMP_eq hd hW hH
  have hv0 := valid_rawHdr hd hW hH
  have h54 : 54 ≤ dataOff bits + H * rowLen W bits := by have := dataOff_ge bits; omega
  have hl0 := length_rawHdr (hd := dataOff bits) (W := W) (H := H) (bits := bits) h54
  have hfit : 54 + 4 * pal.length ≤
      (rawHdr (dataOff bits + H * rowLen W bits) (dataOff bits) W H bits).length := by
    rw [hl0, hoff]; omega
  have hv : Valid (palW pal 54 (rawHdr (dataOff bits + H * rowLen W bits) (dataOff bits) W H bits)) W H bits := by
    apply valid_congr hv0 (length_palW _ _ _ hfit) (palW_bytes _ _ _ hp3 hv0.bytes)
    intro i hi
    exact byte_palW_outside _ _ _ hfit _ (by omega)
  refine ⟨_, hnew, hv, hv.getmaxx_eq, hv.getmaxy_eq, ?_, hv.getmaxcolors_eq, ?_, ?_⟩
  · simp [getmaxxyandbits, hv.getmaxx_eq, hv.getmaxy_eq, hv.clrbits_eq]
  · intro x y hx hy
    have hz : ∀ i, dataOff bits ≤ i →
        byte (palW pal 54 (rawHdr (dataOff bits + H * rowLen W bits) (dataOff bits) W H bits)) i = 0 := by
      intro i hi
      rw [byte_palW_outside _ _ _ hfit _ (by omega)]
      exact byte_rawHdr_ge h54 _ (by have := dataOff_ge bits; omega)
    rw [pix_eq]
    have ha : ∀ bits, dataOff bits ≤ addr W H bits x y := fun bits => by unfold addr; omega
    split_ifs with h24
    · subst h24
      have := ha 24
      rw [hz _ (by omega), hz _ (by omega), hz _ (by omega)]
    · rw [hz _ (ha bits)]; simp
  · intro pal' hpal'
    have h24 : bits ≠ 24 := by
      rintro rfl; simp [getdefaultbitpal] at hpal'
    have : pal' = pal := by
      have := hp1 h24; rw [hpal'] at this; exact Except.ok.inj this
    subst this
    have hlen : pal'.length = 2 ^ bits := by
      rw [dataOff, palSize, if_neg h24] at hoff; omega
    rw [hv.getallRGBpal_eq h24]
    congr 1
    apply List.ext_getElem
    · simp [hlen]
    · intro c h1 h2
      simp only [List.getElem_map, List.getElem_range]
      exact palRGB_palW pal' _ hfit c h2 hp3

/-- A concrete instance: a 5 by 3 image with 16 colours. -/
example : ∃ b, newBMP 5 3 4 = .ok b ∧ Valid b 5 3 4 := by
  obtain ⟨b, h1, h2, _⟩ := C01_newBMP_valid 5 3 4 (by simp [Depth]) (by norm_num) (by norm_num)
  exact ⟨b, h1, h2⟩

/-- The same instance computed: 118 bytes of header and palette and three rows of four bytes. -/
example : (newBMP 5 3 4).map List.length = .ok 130 := by decide +kernel

/-- C02: no other bit depth yields a bitmap. -/
theorem C02_newBMP_rejects (x y bits : Int) (hb : bits ≠ 1 ∧ bits ≠ 4 ∧ bits ≠ 8 ∧ bits ≠ 24) :
    ∃ e, newBMP x y bits = .error e := by
  obtain ⟨h1, h4, h8, h24⟩ := hb
  have hdict : bmpheadersizedict bits = .error .keyError := by
    simp [bmpheadersizedict, h1, h4, h8, h24]
  unfold newBMP bmmeta getbmflsz
  cases hx : xbytes x bits with
  | error e => exact ⟨e, rfl⟩
  | ok r => exact ⟨.keyError, by simp [hdict]⟩

/-- The exception depends on the depth: zero, too large, or merely unknown. -/
example : newBMP 2 2 0 = .error .zeroDivision ∧ newBMP 2 2 16 = .error .unboundLocal ∧
    newBMP 2 2 2 = .error .keyError ∧ newBMP 2 2 (-3) = .error .keyError := by decide +kernel

/-- C03 (partial): the width and height fields keep only the low 24 bits; sizes below `2^24` are
reported as requested. Missing: sizes from `2^24` on, for which the full statement
`getmaxx (newBMP w h bits) = w` is false, see `C03_exact` and `C03_width_truncated`. -/
theorem C03_size_partial (W H bits : Nat) (hd : Depth bits) (hW : W < 2 ^ 24) (hH : H < 2 ^ 24) :
    ∃ b, newBMP W H bits = .ok b ∧ getmaxxy b = .ok ((W : Int), (H : Int)) := by
  obtain ⟨b, h1, h2, _⟩ := C01_newBMP_valid W H bits hd hW hH
  exact ⟨b, h1, by simp [getmaxxy, h2.getmaxx_eq, h2.getmaxy_eq]⟩

/-- C03, what holds for all sizes: the array has the room for the image, and the size reported is the one requested
modulo `2^24`. -/
theorem C03_exact (W H bits : Nat) (hd : Depth bits) :
    ∃ b, newBMP W H bits = .ok b ∧ b.length = dataOff bits + H * rowLen W bits ∧
      getmaxxy b = .ok (((W % 2 ^ 24 : Nat) : Int), ((H % 2 ^ 24 : Nat) : Int)) := by
  obtain ⟨pal, _, _, _, hoff, hnew⟩ := newBMP_any W H hd
  have h54 : 54 ≤ dataOff bits + H * rowLen W bits := by have := dataOff_ge bits; omega
  rw [← rawHdr_mod] at hnew
  have hl0 := length_rawHdr (hd := dataOff bits) (W := W % 2 ^ 24) (H := H % 2 ^ 24) (bits := bits) h54
  generalize hraw : rawHdr (dataOff bits + H * rowLen W bits) (dataOff bits) (W % 2 ^ 24) (H % 2 ^ 24) bits = raw at hnew hl0
  have hfit : 54 + 4 * pal.length ≤ raw.length := by rw [hl0, hoff]; omega
  have hl : (palW pal 54 raw).length = dataOff bits + H * rowLen W bits := by rw [length_palW _ _ _ hfit, hl0]
  refine ⟨_, hnew, hl, ?_⟩
  have field : ∀ off n : Nat, off + 4 ≤ 54 → n < 2 ^ 24 → le raw off 4 = n → le (palW pal 54 raw) off 3 = n := by
    intro off n h1 h2 h3
    rw [le_congr (b := raw) (fun i hi1 hi2 => byte_palW_outside _ _ _ hfit _ (by omega))]
    rw [le_last] at h3
    have : byte raw (off + 3) = 0 := by omega
    rw [this] at h3
    omega
  have hx := field 18 (W % 2 ^ 24) (by omega) (by omega) (by rw [← hraw]; exact raw_width h54 (by omega))
  have hy := field 22 (H % 2 ^ 24) (by omega) (by omega) (by rw [← hraw]; exact raw_height h54 (by omega))
  have rx := readint_eq (b := palW pal 54 raw) 18 3 (by omega)
  have ry := readint_eq (b := palW pal 54 raw) 22 3 (by omega)
  unfold getmaxxy
  rw [show bmpx = ((18 : Nat) : Int) from rfl, show bmpy = ((22 : Nat) : Int) from rfl,
    show (4 : Int) = ((3 : Nat) : Int) + 1 from rfl, rx, ry, hx, hy]
  rfl

/-- The size reported is the one requested just for sizes below `2^24`. -/
theorem C03_iff (W H bits : Nat) (hd : Depth bits) :
    (do let b ← newBMP W H bits; getmaxxy b) = .ok ((W : Int), (H : Int)) ↔ W < 2 ^ 24 ∧ H < 2 ^ 24 := by
  obtain ⟨b, h1, _, h2⟩ := C03_exact W H bits hd
  rw [h1]
  simp only [ok_bind, h2, Except.ok.injEq, Prod.mk.injEq, Int.natCast_inj]
  omega

/-- C03 is false as stated: an image of width `2^24` and height 0 reports width 0. -/
theorem C03_width_truncated : ∃ b, newBMP (2 ^ 24) 0 24 = .ok b ∧ getmaxxy b = .ok (0, 0) := by
  have h : (do let b ← newBMP (2 ^ 24) 0 24; getmaxxy b) = .ok (0, 0) := by decide +kernel
  cases hb : newBMP (2 ^ 24) 0 24 with
  | error e => rw [hb] at h; exact absurd h (by simp)
  | ok b => rw [hb] at h; exact ⟨b, rfl, h⟩

/-- C04: the row length is the least multiple of 4 bytes that holds `W` pixels, and the padding
is the difference to the bytes needed. -/
theorem C04_row_length (W bits : Nat) (hd : Depth bits) :
    ∃ r p : Nat, xbytes W bits = .ok (r : Int) ∧ pdbytes W bits = .ok (p : Int) ∧
      4 ∣ r ∧ W * bits ≤ 8 * r ∧ (∀ r', 4 ∣ r' → W * bits ≤ 8 * r' → r ≤ r') ∧
      p < 4 ∧ r = (W * bits + 7) / 8 + p := by
  refine ⟨rowLen W bits, rowLen W bits - (W * bits + 7) / 8, xbytes_eq hd W, ?_, ?_, ?_, ?_, ?_, ?_⟩
  · unfold pdbytes pyDiv pyMod iif
    rcases hd with rfl | rfl | rfl | rfl <;>
      simp [pyAnd_3, rowLen, Int.fdiv_eq_ediv_of_nonneg, Int.fmod_eq_emod_of_nonneg] <;>
      split_ifs <;> omega
  · unfold rowLen; exact Nat.dvd_mul_left _ _
  · unfold rowLen; omega
  · intro r' h1 h2; unfold rowLen; omega
  · unfold rowLen; omega
  · unfold rowLen; omega

example : xbytes 9 1 = .ok 4 ∧ pdbytes 9 1 = .ok 2 ∧ xbytes 5 24 = .ok 16 ∧ pdbytes 5 24 = .ok 1 := by
  decide +kernel

end Verif.Props
