import Verif.Lemmas.Blocks
/-! C37: conversion to 24 bits. -/

namespace Verif.Props
open Verif Spec Model

variable {b : Bytes} {W H bits : Nat}

/-- One palette entry as bytes: blue, green, red. -/
def ent (b : Bytes) (c : Nat) : Bytes := [byte b (54 + 4 * c), byte b (54 + 4 * c + 1), byte b (54 + 4 * c + 2)]

theorem palbuf (h : Valid b W H bits) (h24 : bits ≠ 24) : ∃ p, getBGRpalbuf b = .ok p ∧
    ∀ c, c < 2 ^ bits → ∀ s e : Int, s = ((4 * c : Nat) : Int) → e = s + 3 → slice p s e = ent b c := by
  have hl := h.len
  have h54 := dataOff_ge bits
  have hlen : (slice b bmppal (dataOff bits : Int)).length = dataOff bits - 54 :=
    length_slice_ok (n := 54) rfl rfl (by omega) h54
  have hb : ∀ i, byte (slice b bmppal (dataOff bits : Int)) i = if i < dataOff bits - 54 then byte b (54 + i) else 0 :=
    fun i => byte_slice_ok (n := 54) rfl rfl (by omega) h54 i
  refine ⟨slice b bmppal (dataOff bits : Int), ?_, ?_⟩
  · unfold getBGRpalbuf
    rw [h.hdsz_eq]; rfl
  · intro c hc s e hs he
    have hp := h.pal_fits h24 hc
    have he' : e = ((4 * c + 3 : Nat) : Int) := by rw [he, hs]; push_cast; rfl
    apply bytes_ext
    · rw [length_slice_ok hs he' (by rw [hlen]; omega) (by omega)]
      simp [ent]
    · intro i hi
      rw [length_slice_ok hs he' (by rw [hlen]; omega) (by omega)] at hi
      rw [byte_slice_ok hs he' (by rw [hlen]; omega) (by omega), if_pos hi, hb, if_pos (by omega)]
      obtain rfl | rfl | rfl : i = 0 ∨ i = 1 ∨ i = 2 := by omega
      all_goals simp [ent, byte, Nat.add_assoc]

/-- What one byte of a row becomes. -/
theorem convertbuf_eq (hd : Depth bits) (h24 : bits ≠ 24) {p : Bytes}
    (hp : ∀ c, c < 2 ^ bits → ∀ s e : Int, s = ((4 * c : Nat) : Int) → e = s + 3 → slice p s e = ent b c)
    (buf : Bytes) (hbuf : ∀ v ∈ buf, v < 256) :
    convertbufto24bit buf p bits = buf.flatMap fun v =>
      (List.range (ppr bits)).flatMap fun t => ent b (v / 2 ^ (8 - bits - t * bits) % 2 ^ bits) := by
  unfold convertbufto24bit
  rw [List.flatMap_congr]
  intro v hv
  have hv := hbuf v hv
  rcases hd with rfl | rfl | rfl | rfl
  · rw [if_neg (by omega), if_neg (by omega), if_pos rfl, enumbits_eq v hv, List.flatMap_map]
    simp only [ppr]
    norm_num
    apply List.flatMap_congr
    intro t ht
    exact hp _ (by omega) _ _ (by rw [Int.shiftLeft_eq]; push_cast; ring) rfl
  · rw [if_neg (by omega), if_pos rfl]
    rw [hp (v / 16) (by omega) _ _ (by rw [Nat.shiftLeft_eq]; push_cast; ring) rfl,
      hp (v % 16) (by omega) _ _ (by rw [Nat.shiftLeft_eq]; push_cast; ring) rfl]
    have : v / 16 % 16 = v / 16 := by omega
    simp [ppr, List.range_succ, this]
  · rw [if_pos rfl, hp v (by omega) _ _ (by rw [Nat.shiftLeft_eq]; push_cast; ring) rfl]
    have : v % 256 = v := by omega
    simp [ppr, List.range_succ, this]
  · omega

/-- Columns stored in whole bytes: all of them, unless a packed row ends inside a byte. -/
def wholeCols (W bits : Nat) : Nat := if bits = 24 then W else W * bits / 8 * ppr bits

/-- C37 and what happens otherwise: `upgradeto24bitimage` gives a 24-bit image of the same size in
which every pixel looks the same, except that the last columns of 1- and 4-bit images are black when
the row ends inside a byte. -/
theorem C37_upgrade_exact (h : Valid b W H bits) (hW : 0 < W) (hH : 0 < H) :
    ∃ n, upgradeto24bitimage b = .ok n ∧ Valid n W H 24 ∧ ∀ x y, x < W → y < H →
      pixRGB n W H 24 x y = if x < wholeCols W bits then pixRGB b W H bits x y else (0, 0, 0) := by
  unfold upgradeto24bitimage
  rw [h.bits_eq]
  simp only [ok_bind]
  by_cases h24 : bits = 24
  · subst h24
    rw [if_pos rfl]
    refine ⟨b, rfl, h, ?_⟩
    intro x y hx hy
    rw [if_pos (by unfold wholeCols; simpa using hx)]
  rw [if_neg h24]
  unfold CopyBMPxydim2newBMP getmaxx getmaxy
  obtain ⟨n0, e0, v0, _, _, _, _, hz0, _⟩ := C01_newBMP_valid W H 24 (by simp [Depth]) h.wlt h.hlt
  obtain ⟨p, ep, hp⟩ := palbuf h h24
  rw [h.getmaxx_eq, h.getmaxy_eq]
  simp only [ok_bind]
  rw [show newBMP (W : Int) (H : Int) 24 = .ok n0 from e0]
  simp only [ok_bind]
  rw [ep]
  simp only [ok_bind]
  rw [show (0 : Int) = ((0 : Nat) : Int) from rfl, show (H : Int) - 1 = ((H - 1 : Nat) : Int) by omega,
    v0.BMoffset_eq 0 (H - 1) (by omega), v0.xchrcnt_eq]
  simp only [ok_bind]
  have hrel : rel W H 24 0 (H - 1) = 0 := by unfold rel; simp
  rw [hrel, show ((H - 1 : Nat) : Int) = (H : Int) - 1 by omega, show ((0 : Nat) : Int) = 0 from rfl]
  set g : Nat → Nat → Nat := fun x y => if x < wholeCols W bits then
    (let c := palRGB b (pix b W H bits x y); c.2.2 + 256 * c.2.1 + 65536 * c.1) else 0 with hg
  have hL : ∀ y, convertbufto24bit (seg b W H bits y 0 (W * bits / 8)) p bits
      = (seg b W H bits y 0 (W * bits / 8)).flatMap fun v =>
      (List.range (ppr bits)).flatMap fun t => ent b (v / 2 ^ (8 - bits - t * bits) % 2 ^ bits) :=
    fun y => convertbuf_eq h.depth h24 hp _ (seg_bytes h _ _ _)
  have hblk : ∀ v, ((List.range (ppr bits)).flatMap fun t => ent b (v / 2 ^ (8 - bits - t * bits) % 2 ^ bits)).length
      = 3 * ppr bits := by
    intro v
    rw [length_flatMap_const _ _ (m := 3) (fun a _ => rfl), List.length_range]
  have hlen : ∀ y, (convertbufto24bit (seg b W H bits y 0 (W * bits / 8)) p bits).length = 3 * wholeCols W bits := by
    intro y
    rw [hL, length_flatMap_const _ _ (fun a _ => hblk a), length_seg]
    unfold wholeCols; rw [if_neg h24]; ring
  have hcols : wholeCols W bits ≤ W := by
    unfold wholeCols ppr
    rw [if_neg h24, if_neg h24]
    rcases h.depth3 h24 with rfl | rfl | rfl <;> omega
  have hbytes : ∀ y, ∀ v ∈ convertbufto24bit (seg b W H bits y 0 (W * bits / 8)) p bits, v < 256 := by
    intro y v hv
    rw [hL] at hv
    simp only [List.mem_flatMap, ent, List.mem_cons, List.not_mem_nil, or_false] at hv
    obtain ⟨_, _, t, _, hv⟩ := hv
    rcases hv with rfl | rfl | rfl <;> exact byte_lt_of_mem h.bytes _
  have hpx : ∀ y x, x < wholeCols W bits →
      bufPx 24 (convertbufto24bit (seg b W H bits y 0 (W * bits / 8)) p bits) x = g x y := by
    intro y x hx
    have hx' : x < W * bits / 8 * ppr bits := by unfold wholeCols at hx; rwa [if_neg h24] at hx
    have hppr : 0 < ppr bits := by
      unfold ppr; rw [if_neg h24]; rcases h.depth3 h24 with rfl | rfl | rfl <;> omega
    have hq : x / ppr bits < W * bits / 8 := Nat.div_lt_of_lt_mul (by rwa [Nat.mul_comm])
    have hr : x % ppr bits < ppr bits := Nat.mod_lt _ hppr
    have hdm := Nat.div_add_mod x (ppr bits)
    have hbyte : ∀ u, u < 3 → byte (convertbufto24bit (seg b W H bits y 0 (W * bits / 8)) p bits) (3 * x + u)
        = byte (ent b (pix b W H bits x y)) u := by
      intro u hu
      have hin : x / ppr bits < (seg b W H bits y 0 (W * bits / 8)).length := by rw [length_seg]; exact hq
      rw [hL, show 3 * x + u = 3 * ppr bits * (x / ppr bits) + (3 * (x % ppr bits) + u) by
          rw [Nat.mul_assoc]; omega,
        byte_flatMap _ _ (fun a _ => hblk a) hin (by omega), ← byte_eq_getElem _ _ hin, byte_seg _ _ _ _ _ _ hq,
        byte_flatMap _ _ (m := 3) (fun a _ => rfl) (by rw [List.length_range]; exact hr) hu, List.getElem_range]
      congr 2
      rw [pix_cell, if_neg h24, Nat.zero_add]
      have e1 : x * bits / 8 = x / ppr bits := by
        unfold ppr; rw [if_neg h24]
        rcases h.depth3 h24 with rfl | rfl | rfl <;> omega
      have e2 : shiftOf bits x = 8 - bits - x % ppr bits * bits := by
        unfold shiftOf ppr; rw [if_neg h24]
        rcases h.depth3 h24 with rfl | rfl | rfl <;> omega
      rw [e1, e2]
    unfold bufPx
    rw [if_pos rfl, hg]
    dsimp only
    rw [if_pos hx]
    have b0 := hbyte 0 (by omega)
    rw [Nat.add_zero] at b0
    rw [b0, hbyte 1 (by omega), hbyte 2 (by omega)]
    rfl
  obtain ⟨s, e, P⟩ := itercopyimage_rule (src := fun _ : Bytes × Int => b) (st := (n0, (0 : Int))) h hW hH
    (body := fun st buf => do
      let nbmp ← BMPbitBLTput st.1 st.2 (convertbufto24bit buf p bits)
      pure (nbmp, st.2 + (rowLen W 24 : Int)))
    (P := fun k st => (k ≤ H → st.2 = ((k * rowLen W 24 : Nat) : Int)) ∧ RowsDone n0 st.1 W H 24 (min k H) g)
    ⟨by simp, by simpa using RowsDone.start v0 _⟩
    (by
      rintro k ⟨nb, off⟩ hk ⟨hoff, hrd⟩
      refine ⟨h, ?_⟩
      dsimp only at hoff hrd
      rw [Nat.min_eq_left (by omega)] at hrd
      obtain ⟨n3, e3, r3⟩ := hrd.step_part (n := wholeCols W bits) hk
        (buf := convertbufto24bit (seg b W H bits (H - 1 - k) 0 (W * bits / 8)) p bits) (hbytes _)
        (by rw [hlen]; unfold rowLen; omega)
        (by intro x _ hx; rw [hlen]; unfold bpp; norm_num; omega)
        (by intro x _ hx; rw [hlen]; omega)
        (by intro x _ hx; exact hpx _ x hx)
        (by
          intro x hx hn
          rw [hz0 x _ hx (by omega), hg]
          dsimp only
          rw [if_neg (by omega)])
      refine ⟨(n3, off + (rowLen W 24 : Int)), ?_, ?_, ?_⟩
      · dsimp only
        rw [hoff (by omega), e3]; rfl
      · intro _
        dsimp only
        rw [hoff (by omega)]; push_cast; ring
      · dsimp only
        rw [Nat.min_eq_left (by omega)]; exact r3)
    (by
      rintro _ ⟨nb, off⟩ ⟨hoff, hrd⟩
      refine ⟨h, ?_⟩
      dsimp only at hoff hrd
      refine ⟨(nb, off + (rowLen W 24 : Int)), ?_, ?_, ?_⟩
      · dsimp only
        rw [show convertbufto24bit [] p bits = [] from rfl, hoff (le_refl _), put_nil hrd.valid (le_refl _)]; rfl
      · intro hk; omega
      · dsimp only
        rw [Nat.min_eq_right (by omega)]
        rwa [Nat.min_eq_right (by omega)] at hrd)
  rw [e]
  refine ⟨s.1, rfl, P.2.valid, ?_⟩
  intro x y hx hy
  have hrows := P.2.rows x y hx hy (by split_ifs <;> omega)
  unfold pixRGB
  dsimp only
  rw [if_pos rfl, if_neg h24, hrows, hg]
  dsimp only
  by_cases hc : x < wholeCols W bits
  · rw [if_pos hc, if_pos hc]
    have h0 := byte_lt_of_mem h.bytes (54 + 4 * pix b W H bits x y)
    have h1 := byte_lt_of_mem h.bytes (54 + 4 * pix b W H bits x y + 1)
    have h2 := byte_lt_of_mem h.bytes (54 + 4 * pix b W H bits x y + 2)
    unfold palRGB
    dsimp only
    rw [Prod.mk.injEq, Prod.mk.injEq]
    refine ⟨?_, ?_, ?_⟩ <;> omega
  · rw [if_neg hc, if_neg hc]

/-- C37: every pixel looks the same after the conversion, if rows consist of whole bytes (always
so for 8- and 24-bit images). -/
theorem C37_upgrade_partial (h : Valid b W H bits) (hW : 0 < W) (hH : 0 < H) (hw : FullBytes W bits) :
    ∃ n, upgradeto24bitimage b = .ok n ∧ Valid n W H 24 ∧ ∀ x y, x < W → y < H →
      pixRGB n W H 24 x y = pixRGB b W H bits x y := by
  obtain ⟨n, e, v, hp⟩ := C37_upgrade_exact h hW hH
  refine ⟨n, e, v, fun x y hx hy => ?_⟩
  rw [hp x y hx hy, if_pos]
  unfold FullBytes at hw
  unfold wholeCols ppr
  rcases h.depth with rfl | rfl | rfl | rfl <;> norm_num at * <;> omega

/-- An image without pixels cannot be converted: the code iterates over `None`. -/
theorem C37_empty (h : Valid b W H bits) (h24 : bits ≠ 24) (hz : W = 0 ∨ H = 0) :
    upgradeto24bitimage b = .error .typeError := by
  unfold upgradeto24bitimage
  rw [h.bits_eq]
  simp only [ok_bind]
  rw [if_neg h24]
  unfold CopyBMPxydim2newBMP getmaxx getmaxy
  obtain ⟨n0, e0, v0, _⟩ := C01_newBMP_valid W H 24 (by simp [Depth]) h.wlt h.hlt
  obtain ⟨p, ep, _⟩ := palbuf h h24
  rw [h.getmaxx_eq, h.getmaxy_eq]
  simp only [ok_bind]
  rw [show newBMP (W : Int) (H : Int) 24 = .ok n0 from e0]
  simp only [ok_bind]
  rw [ep]
  simp only [ok_bind]
  have hoff : ∃ o, BMoffset n0 0 ((H : Int) - 1) = .ok o := by
    unfold BMoffset bmof24
    rw [v0.bits_eq]
    simp only [ok_bind, if_true]
    have := v0.rowoff_eq ((H : Int) - 1)
    rw [show ((24 : Nat) : Int) = 24 from rfl] at this
    rw [this]
    exact ⟨_, rfl⟩
  obtain ⟨o, eo⟩ := hoff
  rw [eo, v0.xchrcnt_eq]
  simp only [ok_bind]
  unfold foritercopyrect
  rw [rectinboundary_eq h, if_neg (by omega)]
  rfl

/-- C37 is false as stated: the last column of a 4-bit image of width 3 turns black. -/
theorem C37_false : ¬ ∀ (b : Bytes) (W H bits : Nat), Valid b W H bits → 0 < W → 0 < H →
    ∃ n, upgradeto24bitimage b = .ok n ∧ Valid n W H 24 ∧ ∀ x y, x < W → y < H →
      pixRGB n W H 24 x y = pixRGB b W H bits x y := by
  intro hall
  obtain ⟨b0, e0, v0, _, _, _, _, _, hp0⟩ := C01_newBMP_valid 3 1 4 (by simp [Depth]) (by norm_num) (by norm_num)
  have v := v0.valid_plotP (x := 2) (y := 0) (n := 15) (by omega) (by omega) (by norm_num)
  obtain ⟨n, e1, _, h1⟩ := hall _ _ _ _ v (by omega) (by omega)
  obtain ⟨n', e2, _, h2⟩ := C37_upgrade_exact v (by omega) (by omega)
  rw [e1] at e2
  obtain rfl := Except.ok.inj e2
  have h3 := h1 2 0 (by omega) (by omega)
  rw [h2 2 0 (by omega) (by omega), if_neg (by decide)] at h3
  have e3 : newBMP 3 1 4 = .ok b0 := e0
  have : (do let b ← newBMP 3 1 4; pure (pixRGB (plotP b 3 1 4 2 0 15) 3 1 4 2 0)) = .ok (255, 255, 255) := by decide +kernel
  rw [e3] at this
  have := Except.ok.inj this
  rw [← h3] at this
  simp at this

example : (do let n ← upgradeto24bitimage (← plotxybit (← newBMP 2 2 4) 1 0 12)
              pure (← getRGBxybit n 1 0, ← getRGBxybit n 0 0)) = .ok (some (0, 0, 255), some (0, 0, 0)) := by decide +kernel

end Verif.Props
