import Verif.Lemmas.Palette
/-! Evaluation of `newBMP`. -/

namespace Verif
open Spec Model

/-- The bytes after the header writes of `_setmeta`. -/
def rawHdr (size hd W H bits : Nat) : Bytes :=
  let b := List.replicate size 0
  let b := ow b 0 [66, 77]
  let b := ow b 2 (digits (size : Int) 7)
  let b := ow b 10 (digits (hd : Int) 3)
  let b := ow b 18 (digits (W : Int) 3)
  let b := ow b 22 (digits (H : Int) 3)
  let b := ow b 28 [bits]
  ow b 14 [40]

section
variable {size hd W H bits : Nat}

theorem length_rawHdr (hs : 54 ≤ size) : (rawHdr size hd W H bits).length = size := by
  simp only [rawHdr]
  iterate 7 (rw [length_ow (by simp [ow, length_digits]; omega)])
  simp

theorem byte_rawHdr_ge (hs : 54 ≤ size) (i : Nat) (hi : 29 ≤ i) : byte (rawHdr size hd W H bits) i = 0 := by
  simp only [rawHdr]
  iterate 7 (rw [byte_ow (by simp [ow, length_digits]; omega), if_neg (by simp [length_digits]; omega)])
  rw [byte_replicate]; split <;> rfl

theorem rawHdr_bytes (hb : bits < 256) : ∀ v ∈ rawHdr size hd W H bits, v < 256 := by
  simp only [rawHdr]
  apply ow_bytes _ (by simp)
  apply ow_bytes _ (by simpa using hb)
  apply ow_bytes _ (digits_bytes _ _)
  apply ow_bytes _ (digits_bytes _ _)
  apply ow_bytes _ (digits_bytes _ _)
  apply ow_bytes _ (digits_bytes _ _)
  apply ow_bytes _ (by simp)
  intro v hv
  have := List.eq_of_mem_replicate hv
  omega

theorem le_replicate_zero (size off n : Nat) : le (List.replicate size 0) off n = 0 := by
  induction n generalizing off with
  | zero => rfl
  | succ n ih => rw [le, ih, byte_replicate]; split <;> rfl

/-- Skip an overwrite that does not meet the field read. -/
local macro "skip1" : tactic =>
  `(tactic| rw [le_ow_outside (by simp [ow, length_digits]; omega) (by simp [length_digits])])

theorem raw_magic (hs : 54 ≤ size) :
    byte (rawHdr size hd W H bits) 0 = 66 ∧ byte (rawHdr size hd W H bits) 1 = 77 := by
  constructor
  · rw [byte_eq_le]; simp only [rawHdr]
    iterate 6 skip1
    rw [← byte_eq_le, byte_ow (by simp; omega)]; simp [byte]
  · rw [byte_eq_le]; simp only [rawHdr]
    iterate 6 skip1
    rw [← byte_eq_le, byte_ow (by simp; omega)]; simp [byte]

theorem raw_size (hs : 54 ≤ size) (hlt : size < 256 ^ 7) : le (rawHdr size hd W H bits) 2 8 = size := by
  rw [le_last]
  have : byte (rawHdr size hd W H bits) (2 + 7) = 0 := by
    rw [byte_eq_le]; simp only [rawHdr]
    iterate 7 skip1
    exact le_replicate_zero _ _ _
  rw [this]
  simp only [rawHdr]
  iterate 5 skip1
  rw [le_ow_digits (by simp [ow]; omega) hlt]
  ring

theorem raw_off (hs : 54 ≤ size) (hlt : hd < 256 ^ 3) : le (rawHdr size hd W H bits) 10 4 = hd := by
  rw [le_last]
  have : byte (rawHdr size hd W H bits) (10 + 3) = 0 := by
    rw [byte_eq_le]; simp only [rawHdr]
    iterate 7 skip1
    exact le_replicate_zero _ _ _
  rw [this]
  simp only [rawHdr]
  iterate 4 skip1
  rw [le_ow_digits (by simp [ow, length_digits]; omega) hlt]
  ring

theorem raw_width (hs : 54 ≤ size) (hlt : W < 256 ^ 3) : le (rawHdr size hd W H bits) 18 4 = W := by
  rw [le_last]
  have : byte (rawHdr size hd W H bits) (18 + 3) = 0 := by
    rw [byte_eq_le]; simp only [rawHdr]
    iterate 7 skip1
    exact le_replicate_zero _ _ _
  rw [this]
  simp only [rawHdr]
  iterate 3 skip1
  rw [le_ow_digits (by simp [ow, length_digits]; omega) hlt]
  ring

theorem raw_height (hs : 54 ≤ size) (hlt : H < 256 ^ 3) : le (rawHdr size hd W H bits) 22 4 = H := by
  rw [le_last]
  have : byte (rawHdr size hd W H bits) (22 + 3) = 0 := by
    rw [byte_eq_le]; simp only [rawHdr]
    iterate 7 skip1
    exact le_replicate_zero _ _ _
  rw [this]
  simp only [rawHdr]
  iterate 2 skip1
  rw [le_ow_digits (by simp [ow, length_digits]; omega) hlt]
  ring

theorem raw_bits (hs : 54 ≤ size) : le (rawHdr size hd W H bits) 28 2 = bits := by
  rw [le_last]
  have : byte (rawHdr size hd W H bits) (28 + 1) = 0 := byte_rawHdr_ge hs _ (by omega)
  rw [this]
  simp only [rawHdr]
  skip1
  rw [← byte_eq_le, byte_ow (by simp [ow, length_digits]; omega)]; simp [byte]

theorem raw_info (hs : 54 ≤ size) : le (rawHdr size hd W H bits) 14 4 = 40 := by
  rw [le, le_congr (b := List.replicate size 0), le_replicate_zero]
  · simp only [rawHdr]
    rw [byte_ow (by simp [ow, length_digits]; omega)]; simp [byte]
  · intro i h1 h2
    simp only [rawHdr]
    iterate 7 (rw [byte_ow (by simp [ow, length_digits]; omega), if_neg (by simp [length_digits]; omega)])
end

theorem valid_rawHdr {W H bits : Nat} (hd : Depth bits) (hW : W < 2 ^ 24) (hH : H < 2 ^ 24) :
    Valid (rawHdr (dataOff bits + H * rowLen W bits) (dataOff bits) W H bits) W H bits := by
  have h54 : 54 ≤ dataOff bits + H * rowLen W bits := by have := dataOff_ge bits; omega
  have h1 : rowLen W bits < 2 ^ 26 := by
    unfold rowLen
    rcases hd with rfl | rfl | rfl | rfl <;> omega
  have h4 : H * rowLen W bits ≤ 2 ^ 24 * 2 ^ 26 := Nat.mul_le_mul (by omega) (by omega)
  have h5 : dataOff bits ≤ 1078 := by
    unfold dataOff palSize
    rcases hd with rfl | rfl | rfl | rfl <;> norm_num
  have h6 : bits < 256 := by rcases hd with rfl | rfl | rfl | rfl <;> norm_num
  exact {
    depth := hd, wlt := hW, hlt := hH
    bytes := rawHdr_bytes h6
    len := length_rawHdr h54
    magic := raw_magic h54
    size := by rw [raw_size h54 (by omega), length_rawHdr h54]
    off := raw_off h54 (by omega)
    info := raw_info h54
    width := raw_width h54 (by omega)
    height := raw_height h54 (by omega)
    bitcount := raw_bits h54 }

theorem hdrdict_eq {bits : Nat} (hd : Depth bits) :
    bmpheadersizedict (bits : Int) = .ok (dataOff bits : Int) := by
  rcases hd with rfl | rfl | rfl | rfl <;> simp [bmpheadersizedict, dataOff, palSize]

theorem digits_mod (v : Int) (n : Nat) : digits (v % 256 ^ n) n = digits v n := by
  induction n generalizing v with
  | zero => rfl
  | succ n ih =>
    simp only [digits]
    have h1 : v % 256 ^ (n + 1) % 256 = v % 256 := Int.emod_emod_of_dvd _ (dvd_pow_self 256 (Nat.succ_ne_zero n))
    have h2 : v % 256 ^ (n + 1) / 256 = v / 256 % 256 ^ n := by
      have h3 : v / (256 * 256 ^ n) = v / 256 / 256 ^ n := (Int.ediv_ediv_of_nonneg (by norm_num)).symm
      rw [pow_succ', Int.emod_def, Int.emod_def, h3, mul_assoc,
        show v - 256 * (256 ^ n * (v / 256 / 256 ^ n)) = v + 256 * (-(256 ^ n * (v / 256 / 256 ^ n))) by ring,
        Int.add_mul_ediv_left _ _ (by norm_num)]
      ring
    rw [h1, h2, ih]

theorem rawHdr_mod (size hd W H bits : Nat) :
    rawHdr size hd (W % 2 ^ 24) (H % 2 ^ 24) bits = rawHdr size hd W H bits := by
  unfold rawHdr
  have h : ∀ n : Nat, digits ((n % 2 ^ 24 : Nat) : Int) 3 = digits (n : Int) 3 := by
    intro n
    rw [← digits_mod (n : Int) 3]
    norm_num
  rw [h, h]

theorem getmaxcolors_raw {size hd W H bits : Nat} (hs : 54 ≤ size) :
    getmaxcolors (rawHdr size hd W H bits) = .ok ((2 ^ bits : Nat) : Int) := by
  have h28 : byte (rawHdr size hd W H bits) 28 = bits := by
    have h1 := raw_bits (hd := hd) (W := W) (H := H) (bits := bits) hs
    have h2 : byte (rawHdr size hd W H bits) 29 = 0 := byte_rawHdr_ge hs 29 (by omega)
    simp only [le, h2] at h1
    omega
  have := getItem_ok (b := rawHdr size hd W H bits) (i := bmpcolorbits) (n := 28) rfl (by rw [length_rawHdr hs]; omega)
  simp [getmaxcolors, this, h28, pyShl]

/-- `newBMP` on valid arguments: raw header, then the default palette. -/
theorem newBMP_any (W H : Nat) {bits : Nat} (hd : Depth bits) :
    ∃ pal, (bits ≠ 24 → getdefaultbitpal (bits : Int) = .ok pal) ∧ (bits = 24 → pal = []) ∧
      (∀ p ∈ pal, ByteRGB p) ∧ 54 + 4 * pal.length = dataOff bits ∧
      newBMP (W : Int) (H : Int) (bits : Int) =
        .ok (palW pal 54 (rawHdr (dataOff bits + H * rowLen W bits) (dataOff bits) W H bits)) := by
  set size := dataOff bits + H * rowLen W bits with hsize
  have h54 : 54 ≤ size := by have := dataOff_ge bits; omega
  have hb256 : bits < 256 := by rcases hd with rfl | rfl | rfl | rfl <;> norm_num
  -- the header writes
  have key : newBMP (W : Int) (H : Int) (bits : Int) =
      (if (bits : Int) < 24 then do
        let pal ← getdefaultbitpal (bits : Int)
        setbmppal (rawHdr size (dataOff bits) W H bits) pal
       else pure (rawHdr size (dataOff bits) W H bits)) := by
    unfold newBMP bmmeta getbmflsz
    rw [xbytes_eq hd, hdrdict_eq hd]
    simp only [ok_bind, pure_eq_ok]
    have hsz : (rowLen W bits : Int) * (H : Int) + (dataOff bits : Int) = (size : Int) := by
      rw [hsize]; push_cast; ring
    rw [hsz]
    unfold setmeta
    simp only [pyRepeat_nat, Int.toNat_natCast]
    rw [setSlice_ok (b := List.replicate size 0) (s := 0) (e := 2) (buf := bmpheaderid) (n := 0) rfl rfl (by simp [bmpheaderid]; omega)]
    unfold setflsz sethdsz setx sety
    rw [show bmpfilesize = ((2 : Nat) : Int) from rfl, show (8 : Int) = ((7 : Nat) : Int) + 1 from rfl,
      writeint_eq 2 7 _ (by rw [length_ow (by simp [bmpheaderid]; omega)]; simp; omega)]
    simp only [ok_bind]
    rw [show bmphdrsize = ((10 : Nat) : Int) from rfl, show (4 : Int) = ((3 : Nat) : Int) + 1 from rfl,
      writeint_eq 10 3 _ (by simp [ow, length_digits, bmpheaderid]; omega)]
    simp only [ok_bind]
    rw [show bmpx = ((18 : Nat) : Int) from rfl,
      writeint_eq 18 3 _ (by simp [ow, length_digits, bmpheaderid]; omega)]
    simp only [ok_bind]
    rw [show bmpy = ((22 : Nat) : Int) from rfl,
      writeint_eq 22 3 _ (by simp [ow, length_digits, bmpheaderid]; omega)]
    simp only [ok_bind]
    rw [setItem_ok (i := bmpcolorbits) (n := 28) (w := bits) rfl
      (by simp [ow, length_digits, bmpheaderid]; omega) rfl hb256]
    simp only [ok_bind]
    rw [set_eq_ow (by simp [ow, length_digits, bmpheaderid]; omega)]
    rw [setItem_ok (i := 14) (v := 40) (n := 14) (w := 40) rfl
      (by simp [ow, length_digits, bmpheaderid]; omega) rfl (by omega)]
    simp only [ok_bind]
    rw [set_eq_ow (by simp [ow, length_digits, bmpheaderid]; omega)]
    rfl
  by_cases h24 : bits = 24
  · refine ⟨[], fun h => absurd h24 h, fun _ => rfl, by simp, by simp [dataOff, palSize, h24], ?_⟩
    rw [key, if_neg (by omega)]
    rfl
  · have hd3 : bits = 1 ∨ bits = 4 ∨ bits = 8 := by rcases hd with h | h | h | h <;> omega
    obtain ⟨pal, hp1, hp2, hp3⟩ := stdpal_facts hd3
    have hoff : 54 + 4 * pal.length = dataOff bits := by rw [hp2, dataOff, palSize, if_neg h24]
    refine ⟨pal, fun _ => hp1, fun h => absurd h h24, hp3, hoff, ?_⟩
    rw [key, if_pos (by rcases hd3 with rfl | rfl | rfl <;> norm_num), hp1]
    simp only [ok_bind]
    unfold setbmppal
    rw [getmaxcolors_raw h54]
    simp only [ok_bind]
    rw [if_pos (by rw [hp2])]
    exact setpalLoop_eq pal 54 _ hp3 (by rw [length_rawHdr h54, hoff]; omega)

/-- `newBMP` for sizes that fit the header. -/
theorem newBMP_eq {W H bits : Nat} (hd : Depth bits) (_hW : W < 2 ^ 24) (_hH : H < 2 ^ 24) :
    ∃ pal, (bits ≠ 24 → getdefaultbitpal (bits : Int) = .ok pal) ∧ (bits = 24 → pal = []) ∧
      (∀ p ∈ pal, ByteRGB p) ∧ 54 + 4 * pal.length = dataOff bits ∧
      newBMP (W : Int) (H : Int) (bits : Int) =
        .ok (palW pal 54 (rawHdr (dataOff bits + H * rowLen W bits) (dataOff bits) W H bits)) :=
  newBMP_any W H hd

end Verif
