import Verif.Lemmas.NewBMP
/-! Properties C12–C14: palettes. -/

namespace Verif.Props
open Verif Spec Model

/-- The files agree in the pixel area and in the first 54 bytes, and in length. -/
def SamePixels (b b' : Bytes) (bits : Nat) : Prop :=
  b'.length = b.length ∧ (∀ i < 54, byte b' i = byte b i) ∧
    ∀ i, dataOff bits ≤ i → byte b' i = byte b i

theorem SamePixels.pix {b b' : Bytes} {W H bits : Nat} (hs : SamePixels b b' bits) (x y : Nat) :
    Spec.pix b' W H bits x y = Spec.pix b W H bits x y := by
  have h := hs.2.2
  rw [pix_eq, pix_eq]
  split_ifs with h24
  · subst h24
    have : ∀ k, byte b' (addr W H 24 x y + k) = byte b (addr W H 24 x y + k) := fun k =>
      h _ (by unfold addr; omega)
    rw [this 1, this 2, ← Nat.add_zero (addr W H 24 x y), this 0]
  · rw [h _ (by unfold addr; omega)]

/-- C12: a palette entry is a register. -/
theorem C12_palette_entry {b : Bytes} {W H bits c : Nat} (h : Valid b W H bits) (h24 : bits ≠ 24)
    (hc : c < 2 ^ bits) {r g bl : Nat} (hr : r < 256) (hg : g < 256) (hbl : bl < 256) :
    ∃ b', setRGBpal b c r g bl = .ok b' ∧ Valid b' W H bits ∧ SamePixels b b' bits ∧
      getRGBpal b' c = .ok ((r : Int), (g : Int), (bl : Int)) ∧
      ∀ c', c' < 2 ^ bits → c' ≠ c → getRGBpal b' c' = getRGBpal b c' := by
  have hf := h.pal_fits h24 hc
  have hl := h.len
  have hfit : 54 + 4 * c + [bl, g, r].length ≤ b.length := by simp; omega
  have hw : setRGBpal b c r g bl = .ok (ow b (54 + 4 * c) [bl, g, r]) := by
    unfold setRGBpal
    dsimp only
    rw [mkArray3_ok rfl rfl rfl hbl hg hr]
    simp only [ok_bind, pure_eq_ok]
    rw [setSlice_ok (n := 54 + 4 * c)]
    · simp [bmppal, pyShl]; omega
    · simp [bmppal, pyShl]; omega
    · simpa using hfit
  have hv : Valid (ow b (54 + 4 * c) [bl, g, r]) W H bits :=
    valid_ow h (by omega) hfit (by intro v hv; simp at hv; omega)
  have hlen := length_ow hfit
  refine ⟨_, hw, hv, ⟨hlen, ?_, ?_⟩, ?_, ?_⟩
  · intro i hi; rw [byte_ow hfit, if_neg (by omega)]
  · intro i hi; rw [byte_ow hfit, if_neg (by simp; omega)]
  · rw [getRGBpal_eq (by rw [hlen]; omega)]
    unfold palRGB rgbI
    rw [byte_ow hfit, byte_ow hfit, byte_ow hfit]
    simp [byte]
  · intro c' hc' hne
    have := h.pal_fits h24 hc'
    rw [getRGBpal_eq (by rw [hlen]; omega), getRGBpal_eq (by omega)]
    have e : palRGB (ow b (54 + 4 * c) [bl, g, r]) c' = palRGB b c' := by
      unfold palRGB
      simp only [byte_ow hfit, List.length_cons, List.length_nil]
      rw [if_neg (by omega), if_neg (by omega), if_neg (by omega)]
    rw [e]

example : (do let b ← newBMP 2 2 4; let b ← setRGBpal b 3 10 20 30
              pure (← getRGBpal b 3, ← getRGBpal b 2)) = .ok ((10, 20, 30), (0, 128, 0)) := by
  decide +kernel

/-- C13: setting the whole palette; a list of the wrong length is ignored. -/
theorem C13_set_palette {b : Bytes} {W H bits : Nat} (h : Valid b W H bits) (h24 : bits ≠ 24)
    (pal : List RGB) :
    (pal.length = 2 ^ bits → (∀ p ∈ pal, ByteRGB p) →
      ∃ b', setbmppal b pal = .ok b' ∧ Valid b' W H bits ∧ SamePixels b b' bits ∧
        getallRGBpal b' = .ok pal) ∧
    (pal.length ≠ 2 ^ bits → setbmppal b pal = .ok b) := by
  constructor
  · intro hlen hp
    have hoff : 54 + 4 * pal.length = dataOff bits := by rw [hlen, dataOff, palSize, if_neg h24]
    have hfit : 54 + 4 * pal.length ≤ b.length := by rw [hoff, h.len]; omega
    have hv : Valid (palW pal 54 b) W H bits :=
      valid_congr h (length_palW _ _ _ hfit) (palW_bytes _ _ _ hp h.bytes)
        (fun i hi => byte_palW_outside _ _ _ hfit _ (by omega))
    refine ⟨palW pal 54 b, ?_, hv, ⟨length_palW _ _ _ hfit, ?_, ?_⟩, ?_⟩
    · unfold setbmppal
      rw [h.getmaxcolors_eq]
      simp only [ok_bind]
      rw [if_pos (by rw [hlen])]
      exact setpalLoop_eq pal 54 b hp hfit
    · intro i hi; exact byte_palW_outside _ _ _ hfit _ (by omega)
    · intro i hi; exact byte_palW_outside _ _ _ hfit _ (by omega)
    · rw [hv.getallRGBpal_eq h24]
      congr 1
      apply List.ext_getElem
      · simp [hlen]
      · intro c h1 h2
        simp only [List.getElem_map, List.getElem_range]
        exact palRGB_palW pal b hfit c h2 hp
  · intro hne
    unfold setbmppal
    rw [h.getmaxcolors_eq]
    simp only [ok_bind]
    rw [if_neg (by exact_mod_cast hne)]
    rfl

example : (do let b ← newBMP 2 2 1; let b ← setbmppal b [(1, 2, 3), (4, 5, 6)]; getallRGBpal b)
    = .ok [(1, 2, 3), (4, 5, 6)] := by decide +kernel

/-- Palette bytes rotated left by `k` entries. -/
def rotPal (b : Bytes) (bits k : Nat) : Bytes :=
  (List.range b.length).map fun i =>
    if 54 ≤ i ∧ i < dataOff bits then byte b (54 + (i - 54 + 4 * k) % palSize bits) else byte b i

theorem byte_map_range (n : Nat) (f : Nat → Nat) (i : Nat) :
    byte ((List.range n).map f) i = if i < n then f i else 0 := by
  unfold byte List.getD
  rw [List.getElem?_map]
  by_cases h : i < n
  · rw [List.getElem?_range h]; simp [h]
  · rw [List.getElem?_eq_none (by simpa using h)]; simp [h]

theorem palshift_eq {b : Bytes} {W H bits : Nat} (h : Valid b W H bits) (hb : bits = 4 ∨ bits = 8)
    (k : Int) : palshift b k = .ok (rotPal b bits (k.natAbs % 2 ^ bits)) := by
  have h24 : bits ≠ 24 := by omega
  have hps : palSize bits = 4 * 2 ^ bits := by rw [palSize, if_neg h24]
  have hlen := h.len
  have hdo : dataOff bits = 54 + 4 * 2 ^ bits := by rw [dataOff, hps]
  unfold palshift func4and8bitonly
  rw [h.bits_eq]
  simp only [ok_bind]
  rw [if_pos hb, h.getmaxcolors_eq]
  simp only [ok_bind]
  have hpos : 0 < 2 ^ bits := Nat.two_pow_pos bits
  set m := 2 ^ bits with hm
  set s := k.natAbs % m with hs
  have hsm : s < m := Nat.mod_lt _ hpos
  have hmod : pyMod (k.natAbs : Int) (m : Int) = .ok (s : Int) := by
    unfold pyMod
    rw [if_neg (by omega), Int.fmod_eq_emod_of_nonneg _ (by omega)]
    rw [hs]; push_cast; rfl
  rw [hmod]
  simp only [ok_bind, pure_eq_ok, bmppal]
  congr 1
  have he : ((m : Int) - (s : Int)) * 4 + 54 = ((54 + 4 * (m - s) : Nat) : Int) := by omega
  have hq : ((m : Int) - (s : Int)) * 4 + 54 + (s : Int) * 4 = ((54 + 4 * m : Nat) : Int) := by omega
  have hp : (54 : Int) + (s : Int) * 4 = ((54 + 4 * s : Nat) : Int) := by omega
  rw [hq, he, hp]
  set v1 := slice b 54 ((54 + 4 * s : Nat) : Int) with hv1
  set v2 := slice b ((54 + 4 * s : Nat) : Int) ((54 + 4 * m : Nat) : Int) with hv2
  have l1 : v1.length = 4 * s := by
    rw [hv1, length_slice_ok (s := 54) (n := 54) rfl rfl (by omega) (by omega)]; omega
  have l2 : v2.length = 4 * (m - s) := by
    rw [hv2, length_slice_ok rfl rfl (by omega) (by omega)]; omega
  rw [setSlice_ok (n := 54 + 4 * (m - s)) rfl (by rw [l1]; omega) (by rw [l1]; omega)]
  have lo1 : (ow b (54 + 4 * (m - s)) v1).length = b.length := length_ow (by rw [l1]; omega)
  rw [setSlice_ok (s := 54) (n := 54) rfl (by rw [l2]; omega) (by rw [l2, lo1]; omega)]
  have lo2 : (ow (ow b (54 + 4 * (m - s)) v1) 54 v2).length = b.length := by
    rw [length_ow (by rw [l2, lo1]; omega), lo1]
  apply bytes_ext
  · rw [lo2]; simp [rotPal]
  · intro i hi
    rw [lo2] at hi
    rw [byte_ow (by rw [l2, lo1]; omega), byte_ow (by rw [l1]; omega), rotPal, byte_map_range, if_pos hi,
      l1, l2, hdo, hps]
    by_cases c1 : 54 ≤ i ∧ i < 54 + 4 * (m - s)
    · rw [if_pos c1, if_pos (by omega), hv2, byte_slice_ok rfl rfl (by omega) (by omega), if_pos (by omega)]
      rw [Nat.mod_eq_of_lt (by omega)]
      congr 1; omega
    · rw [if_neg c1]
      by_cases c2 : 54 + 4 * (m - s) ≤ i ∧ i < 54 + 4 * (m - s) + 4 * s
      · rw [if_pos c2, if_pos (by omega), hv1, byte_slice_ok (s := 54) (n := 54) rfl rfl (by omega) (by omega), if_pos (by omega)]
        congr 1
        rw [show i - 54 + 4 * s = (i - (54 + 4 * (m - s))) + 4 * m by omega, Nat.add_mod_right,
          Nat.mod_eq_of_lt (by omega)]
      · rw [if_neg c2, if_neg (by omega)]

theorem length_rotPal (b : Bytes) (bits k : Nat) : (rotPal b bits k).length = b.length := by simp [rotPal]

theorem valid_rotPal {b : Bytes} {W H bits : Nat} (h : Valid b W H bits) (k : Nat) :
    Valid (rotPal b bits k) W H bits := by
  have hl := length_rotPal b bits k
  apply valid_congr h hl
  · apply mem_lt_of_byte
    intro i hi
    rw [rotPal, byte_map_range, if_pos (by simpa [rotPal] using hi)]
    split_ifs
    · exact byte_lt_of_mem h.bytes _
    · exact byte_lt_of_mem h.bytes _
  · intro i hi
    rw [rotPal, byte_map_range, if_pos (by have := h.len54; omega), if_neg (by omega)]

/-- C14: `palshift` rotates the palette of 16 and 256 colour images to the left by `|k|` entries
and touches neither pixels nor header; other depths are left alone. -/
theorem C14_palshift {b : Bytes} {W H bits : Nat} (h : Valid b W H bits) (k : Int) :
    ((bits = 4 ∨ bits = 8) → ∃ b', palshift b k = .ok b' ∧ Valid b' W H bits ∧ SamePixels b b' bits ∧
      ∀ c, c < 2 ^ bits → palRGB b' c = palRGB b ((c + k.natAbs) % 2 ^ bits)) ∧
    ((bits = 1 ∨ bits = 24) → palshift b k = .ok b) := by
  constructor
  · intro hb
    have h24 : bits ≠ 24 := by omega
    have hps : palSize bits = 4 * 2 ^ bits := by rw [palSize, if_neg h24]
    have hpos : 0 < 2 ^ bits := Nat.two_pow_pos bits
    have hdo : dataOff bits = 54 + 4 * 2 ^ bits := by rw [dataOff, hps]
    refine ⟨_, palshift_eq h hb k, valid_rotPal h _, ⟨length_rotPal _ _ _, ?_, ?_⟩, ?_⟩
    · intro i hi
      rw [rotPal, byte_map_range, if_pos (by have := h.len54; omega), if_neg (by omega)]
    · intro i hi
      rw [rotPal, byte_map_range]
      split_ifs with c1 c2
      · omega
      · rfl
      · rw [byte_of_ge _ _ (by omega)]
    · intro c hc
      have hl := h.len
      have key : ∀ j, j < 4 → byte (rotPal b bits (k.natAbs % 2 ^ bits)) (54 + 4 * c + j)
          = byte b (54 + 4 * ((c + k.natAbs) % 2 ^ bits) + j) := by
        intro j hj
        rw [rotPal, byte_map_range, if_pos (by omega), if_pos (by omega), hps]
        congr 1
        have e1 : (c + k.natAbs) % 2 ^ bits = (c + k.natAbs % 2 ^ bits) % 2 ^ bits := by
          rw [Nat.add_mod_mod]
        rw [e1]
        generalize k.natAbs % 2 ^ bits = s
        have e2 : 54 + 4 * c + j - 54 + 4 * s = 4 * (c + s) + j := by omega
        rw [e2]
        have e3 : (4 * (c + s) + j) % (4 * 2 ^ bits) = 4 * ((c + s) % 2 ^ bits) + j := by
          rw [Nat.mod_mul, show (4 * (c + s) + j) / 4 = c + s by omega]
          omega
        rw [e3]; omega
      unfold palRGB
      rw [key 2 (by omega), key 1 (by omega)]
      have := key 0 (by omega)
      rw [Nat.add_zero, Nat.add_zero] at this
      rw [this]
  · intro hb
    unfold palshift func4and8bitonly
    rw [h.bits_eq]
    simp only [ok_bind]
    rw [if_neg (by omega)]
    rfl

theorem rotPal_rotPal {b : Bytes} {bits : Nat} (h24 : bits ≠ 24) (hl : dataOff bits ≤ b.length) (j k : Nat) :
    rotPal (rotPal b bits j) bits k = rotPal b bits ((j + k) % 2 ^ bits) := by
  have hps : palSize bits = 4 * 2 ^ bits := by rw [palSize, if_neg h24]
  have hdo : dataOff bits = 54 + 4 * 2 ^ bits := by rw [dataOff, hps]
  have hpos : 0 < 2 ^ bits := Nat.two_pow_pos bits
  apply bytes_ext
  · simp [rotPal]
  · intro i hi
    have hi' : i < b.length := by simpa [rotPal] using hi
    conv_lhs => rw [rotPal, byte_map_range, if_pos (by simpa [rotPal] using hi')]
    conv_rhs => rw [rotPal, byte_map_range, if_pos hi']
    split_ifs with c
    · have hm : (i - 54 + 4 * k) % palSize bits < palSize bits := Nat.mod_lt _ (by omega)
      rw [rotPal, byte_map_range, if_pos (by omega), if_pos (by omega)]
      congr 2
      rw [Nat.add_sub_cancel_left, Nat.mod_add_mod, hps, ← Nat.mul_mod_mul_left, Nat.add_mod_mod]
      congr 1; ring
    · rw [rotPal, byte_map_range, if_pos hi', if_neg c]

/-- C14, shifts add up. -/
theorem C14_palshift_add {b : Bytes} {W H bits : Nat} (h : Valid b W H bits) (hb : bits = 4 ∨ bits = 8)
    (j k : Int) :
    (do let b1 ← palshift b j; palshift b1 k) = palshift b ((j.natAbs + k.natAbs : Nat) : Int) := by
  rw [palshift_eq h hb j]
  simp only [ok_bind]
  rw [palshift_eq (valid_rotPal h _) hb k, palshift_eq h hb,
    rotPal_rotPal (by omega) (by rw [h.len]; omega)]
  rw [Int.natAbs_natCast, ← Nat.add_mod]

/-- C14, a whole number of cycles restores the file. -/
theorem C14_palshift_cycle {b : Bytes} {W H bits : Nat} (h : Valid b W H bits) (hb : bits = 4 ∨ bits = 8)
    (k : Int) (hk : ((2 ^ bits : Nat) : Int) ∣ k) : palshift b k = .ok b := by
  rw [palshift_eq h hb k]
  have : k.natAbs % 2 ^ bits = 0 := Nat.mod_eq_zero_of_dvd (Int.natCast_dvd.mp hk)
  rw [this]
  congr 1
  have hps : palSize bits = 4 * 2 ^ bits := by rw [palSize, if_neg (by omega)]
  have hdo : dataOff bits = 54 + 4 * 2 ^ bits := by rw [dataOff, hps]
  apply bytes_ext
  · simp [rotPal]
  · intro i hi
    have hi' : i < b.length := by simpa [rotPal] using hi
    rw [rotPal, byte_map_range, if_pos hi']
    split_ifs with c
    · rw [Nat.mod_eq_of_lt (by omega)]; congr 1; omega
    · rfl

example : (do let b ← newBMP 1 1 4; let b ← palshift b (-3); getRGBpal b 14) = .ok (128, 0, 0) := by
  decide +kernel

end Verif.Props
