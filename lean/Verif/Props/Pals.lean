import Verif.Model.Pals
import Verif.Props.Palette
import Verif.Props.Colors
import Verif.Props.Hilbert
import Verif.Props.Edges
import Verif.Props.Histogram
import Verif.Props.Fractal
import Verif.Props.Line4
import Mathlib.Data.Int.ModEq
import Mathlib.RingTheory.Coprime.Lemmas
/-! C127 to C130: computed palettes, fewer colours, hue and saturation. -/

namespace Verif.Props.Pals
open Verif Spec Model Verif.Props

/-- The brightness of entry `k` of an evenly spaced palette from 0 to 255. -/
def grey (bits k : Nat) : Nat := 255 * k / (2 ^ bits - 1)

/-- A factor between 0 and 1. -/
def Unit (f : ℚ × ℚ × ℚ) : Prop := (0 ≤ f.1 ∧ f.1 ≤ 1) ∧ (0 ≤ f.2.1 ∧ f.2.1 ≤ 1) ∧ (0 ≤ f.2.2 ∧ f.2.2 ≤ 1)

theorem lums {bits : Nat} (hb : bits = 1 ∨ bits = 4 ∨ bits = 8) :
    pyRange3 0 256 (palinc bits) = .ok ((List.range (2 ^ bits)).map fun k => (grey bits k : Int)) := by
  rcases hb with rfl | rfl | rfl
  · decide
  · decide
  · unfold pyRange3
    rw [show palinc 8 = 1 from rfl]
    simp only [one_ne_zero, if_false, Int.one_pos, if_true, zero_add, one_mul]
    refine congrArg Except.ok ?_
    rw [show (((256 : Int) - 0 + 1 - 1) / 1).toNat = 2 ^ 8 from rfl]
    apply List.map_congr_left
    intro k _
    unfold grey
    norm_num

theorem grey_le {bits k : Nat} (hb : bits = 1 ∨ bits = 4 ∨ bits = 8) (hk : k < 2 ^ bits) : grey bits k ≤ 255 := by
  unfold grey
  rcases hb with rfl | rfl | rfl <;> norm_num at hk ⊢ <;> omega

theorem part_spec {q : ℚ} (h0 : 0 ≤ q) (h1 : q ≤ 1) {j : Nat} (hj : j ≤ 255) :
    0 ≤ rnd (fl (q * (j : Int))) ∧ rnd (fl (q * (j : Int))) < 256 ∧
      |(rnd (fl (q * (j : Int))) : ℚ) - q * j| ≤ 1 / 2 + 1 / 2 ^ 45 := by
  push_cast
  have hjq : (j : ℚ) ≤ 255 := by exact_mod_cast hj
  have hj0 : (0 : ℚ) ≤ j := by positivity
  have hp : 0 ≤ q * j := by positivity
  have hle : q * j ≤ 255 := by nlinarith
  have e := fl_err (q * j)
  rw [abs_of_nonneg hp] at e
  have n := rnd_near (fl (q * j))
  have f0 := fl_nonneg hp
  have f1 : fl (q * j) ≤ ((255 : Nat) : ℚ) := fl_le_of_int (by norm_num) hp (by exact_mod_cast hle)
  have r0 := rnd_mono f0
  have r1 := rnd_mono f1
  have i0 := rnd_int 0
  have i1 := rnd_int 255
  push_cast at i0 i1 r1
  rw [i0] at r0
  rw [i1] at r1
  refine ⟨r0, by omega, ?_⟩
  have : q * j / 2 ^ 53 ≤ 1 / 2 ^ 45 := by
    rw [div_le_div_iff₀ (by norm_num) (by norm_num)]
    linarith
  calc |(rnd (fl (q * j)) : ℚ) - q * j| = |((rnd (fl (q * j)) : ℚ) - fl (q * j)) + (fl (q * j) - q * j)| := by ring_nf
    _ ≤ _ := (abs_add_le _ _).trans (by linarith)

theorem part_mono {q : ℚ} (h0 : 0 ≤ q) {i j : Nat} (h : i ≤ j) : rnd (fl (q * (i : Int))) ≤ rnd (fl (q * (j : Int))) := by
  push_cast
  have : (i : ℚ) ≤ j := by exact_mod_cast h
  exact rnd_mono (fl_mono (by positivity) (by nlinarith))

theorem shade_byte {f : ℚ × ℚ × ℚ} (hf : Unit f) {j : Nat} (hj : j ≤ 255) : Verif.ByteRGB (shadeRGB f j) := by
  unfold Verif.ByteRGB shadeRGB
  have h1 := part_spec hf.1.1 hf.1.2 hj
  have h2 := part_spec hf.2.1.1 hf.2.1.2 hj
  have h3 := part_spec hf.2.2.1 hf.2.2.2 hj
  exact ⟨⟨h1.1, h1.2.1⟩, ⟨h2.1, h2.2.1⟩, ⟨h3.1, h3.2.1⟩⟩

/-- The parts of the colour are as near to the shares `f` of `j` as whole numbers can be, up to the rounding of
the product. -/
def ShadeOf (f : ℚ × ℚ × ℚ) (j : Nat) (p : RGB) : Prop :=
  |(p.1 : ℚ) - f.1 * j| ≤ 1 / 2 + 1 / 2 ^ 45 ∧ |(p.2.1 : ℚ) - f.2.1 * j| ≤ 1 / 2 + 1 / 2 ^ 45 ∧
    |(p.2.2 : ℚ) - f.2.2 * j| ≤ 1 / 2 + 1 / 2 ^ 45

theorem shade_of {f : ℚ × ℚ × ℚ} (hf : Unit f) {j : Nat} (hj : j ≤ 255) : ShadeOf f j (shadeRGB f j) :=
  ⟨(part_spec hf.1.1 hf.1.2 hj).2.2, (part_spec hf.2.1.1 hf.2.1.2 hj).2.2, (part_spec hf.2.2.1 hf.2.2.2 hj).2.2⟩

/-- C127: a monochrome palette has an entry for each colour number, evenly spaced from black to the full colour,
never getting darker, with bytes only. -/
theorem C127_monochrome {bits : Nat} (hb : bits = 1 ∨ bits = 4 ∨ bits = 8) {f : ℚ × ℚ × ℚ} (hf : Unit f) :
    ∃ pal, monochromepal bits f = .ok pal ∧ pal.length = 2 ^ bits ∧
      (∀ (k : Nat) (hk : k < pal.length), Verif.ByteRGB pal[k] ∧ ShadeOf f (grey bits k) pal[k]) ∧
      ∀ (i k : Nat) (hk : k < pal.length) (h : i ≤ k),
        (pal[i]'(by omega)).1 ≤ pal[k].1 ∧ (pal[i]'(by omega)).2.1 ≤ pal[k].2.1 ∧ (pal[i]'(by omega)).2.2 ≤ pal[k].2.2 := by
  refine ⟨_, by unfold monochromepal; rw [lums hb, ok_bind, pure_eq_ok], by simp, ?_, ?_⟩
  · intro k hk
    simp only [List.length_map, List.length_range] at hk
    simp only [List.getElem_map, List.getElem_range]
    exact ⟨shade_byte hf (grey_le hb hk), shade_of hf (grey_le hb hk)⟩
  · intro i k hk h
    simp only [List.getElem_map, List.getElem_range]
    have hg : grey bits i ≤ grey bits k := Nat.div_le_div_right (by omega)
    exact ⟨part_mono hf.1.1 hg, part_mono hf.2.1.1 hg, part_mono hf.2.2.1 hg⟩

/-- C127: with all factors 1 the entries are the greys themselves. -/
theorem C127_greys {bits : Nat} (hb : bits = 1 ∨ bits = 4 ∨ bits = 8) :
    monochromepal bits (1, 1, 1) = .ok ((List.range (2 ^ bits)).map fun k => ((grey bits k : Int), (grey bits k : Int), (grey bits k : Int))) := by
  unfold monochromepal
  rw [lums hb, ok_bind, pure_eq_ok, List.map_map]
  congr 1
  apply List.map_congr_left
  intro k hk
  have h := grey_le hb (List.mem_range.mp hk)
  unfold shadeRGB
  dsimp only [Function.comp_apply]
  rw [one_mul, fl_int (by rw [abs_of_nonneg (by omega)]; omega), rnd_int]

/-- C127: there is no such palette for true colour. -/
theorem C127_truecolour (f : ℚ × ℚ × ℚ) : monochromepal 24 f = .error .valueError := rfl

/-- C127: `setBMP2monochrome` puts this palette into the image and leaves the pixels alone. -/
theorem C127_set {b : Bytes} {W H bits : Nat} (h : Valid b W H bits) (h24 : bits ≠ 24) {f : ℚ × ℚ × ℚ} (hf : Unit f) :
    ∃ b' pal, setBMP2monochrome b f = .ok (b', pal) ∧ monochromepal bits f = .ok pal ∧ Valid b' W H bits ∧
      SamePixels b b' bits ∧ getallRGBpal b' = .ok pal := by
  have hb : bits = 1 ∨ bits = 4 ∨ bits = 8 := by have := h.depth; unfold Depth at this; omega
  obtain ⟨pal, e, hl, hp, -⟩ := C127_monochrome hb hf
  obtain ⟨b', e', hv, hs, hg⟩ := (C13_set_palette h h24 pal).1 hl (by
    intro p hp'
    obtain ⟨k, hk, rfl⟩ := List.mem_iff_getElem.mp hp'
    exact (hp k hk).1)
  refine ⟨b', pal, ?_, e, hv, hs, hg⟩
  unfold setBMP2monochrome
  rw [h.bits_eq, ok_bind, e, ok_bind, e', ok_bind, pure_eq_ok]

/-- C127: the inverse palette without shift is the monochrome palette backwards. -/
theorem C127_inverse {bits : Nat} (hb : bits = 1 ∨ bits = 4 ∨ bits = 8) (f : ℚ × ℚ × ℚ) :
    monoinverseshiftablepal bits f 1 0 = (monochromepal bits f).map List.reverse := by
  unfold monochromepal monoinverseshiftablepal
  rw [lums hb]
  simp only [ok_bind, pure_eq_ok, Except.map]
  congr 1
  rw [← List.map_reverse, List.map_map]
  rw [show ((List.range (2 ^ bits)).map fun k => (grey bits k : Int)).reverse
      = (List.range (2 ^ bits)).map fun k => (255 - (grey bits k : Int)) * 1 + 0 from ?_]
  · rw [List.map_map]
    apply List.map_congr_left
    intro k hk
    have h := grey_le hb (List.mem_range.mp hk)
    simp only [Function.comp_apply]
    rw [Int.emod_eq_of_lt (by omega) (by omega)]
  · apply List.ext_getElem
    · simp
    · intro i h1 h2
      simp only [List.length_map, List.length_range, List.length_reverse] at h1
      simp only [List.getElem_reverse, List.getElem_map, List.getElem_range, List.length_map, List.length_range]
      unfold grey
      rcases hb with rfl | rfl | rfl <;> norm_num at h1 ⊢ <;> omega

/-- C127: a shift of an 8-bit palette turns it around. -/
theorem C127_shift (f : ℚ × ℚ × ℚ) (s : Int) :
    ∃ pal pal0, monoshiftablepal 8 f 1 s = .ok pal ∧ monochromepal 8 f = .ok pal0 ∧ pal.length = 256 ∧ pal0.length = 256 ∧
      ∀ k : Nat, k < 256 → pal[k]? = pal0[((k + s) % 256).toNat]? := by
  refine ⟨_, _, by unfold monoshiftablepal; rw [lums (by simp), ok_bind, pure_eq_ok],
    by unfold monochromepal; rw [lums (by simp), ok_bind, pure_eq_ok], by simp, by simp, ?_⟩
  intro k hk
  have hm : ((k + s) % 256).toNat < 256 := by omega
  have g : ∀ j, grey 8 j = j := by intro j; unfold grey; norm_num
  simp only [List.getElem?_map, List.getElem?_range (show k < 2 ^ 8 by omega), List.getElem?_range (show ((k + s) % 256).toNat < 2 ^ 8 by omega),
    Option.map_some, g]
  rw [mul_one, Int.toNat_of_nonneg (by omega)]

/-- Odd multiples reach every remainder of 256 once. -/
theorem perm256 {mult : Int} (hm : mult % 2 = 1) (shift : Int) :
    ((List.range 256).map fun (k : Nat) => ((k : Int) * mult + shift) % 256).Perm ((List.range 256).map fun (k : Nat) => (k : Int)) := by
  have inj : ∀ i j : Nat, i < 256 → j < 256 → ((i : Int) * mult + shift) % 256 = ((j : Int) * mult + shift) % 256 → i = j := by
    intro i j hi hj e
    have h1 : (256 : Int) ∣ ((i : Int) - j) * mult := by
      have h2 := Int.ModEq.dvd (show ((j : Int) * mult + shift) ≡ ((i : Int) * mult + shift) [ZMOD 256] from e.symm)
      rwa [show (i : Int) * mult + shift - (j * mult + shift) = (i - j) * mult by ring] at h2
    have hc : IsCoprime (256 : Int) mult := by
      rw [show (256 : Int) = 2 ^ 8 by norm_num]
      apply IsCoprime.pow_left
      exact ⟨-(mult / 2), 1, by omega⟩
    obtain ⟨q, hq⟩ := hc.dvd_of_dvd_mul_right h1
    omega
  have n1 : ((List.range 256).map fun (k : Nat) => ((k : Int) * mult + shift) % 256).Nodup := by
    rw [List.nodup_map_iff_inj_on List.nodup_range]
    intro i hi j hj e
    exact inj i j (List.mem_range.mp hi) (List.mem_range.mp hj) e
  refine (List.subperm_of_subset n1 ?_).perm_of_length_le (by simp)
  intro v hv
  simp only [List.mem_map, List.mem_range] at hv ⊢
  obtain ⟨k, -, rfl⟩ := hv
  exact ⟨(((k : Int) * mult + shift) % 256).toNat, by omega, by omega⟩

/-- C127: with an odd multiplier no shade of an 8-bit palette is lost or repeated. -/
theorem C127_odd {mult : Int} (hm : mult % 2 = 1) (f : ℚ × ℚ × ℚ) (shift : Int) :
    ∃ pal inv pal0, monoshiftablepal 8 f mult shift = .ok pal ∧ monoinverseshiftablepal 8 f mult shift = .ok inv ∧
      monochromepal 8 f = .ok pal0 ∧ pal.Perm pal0 ∧ inv.Perm pal0 := by
  have g : ∀ j, grey 8 j = j := by intro j; unfold grey; norm_num
  refine ⟨_, _, _, by unfold monoshiftablepal; rw [lums (by simp), ok_bind, pure_eq_ok],
    by unfold monoinverseshiftablepal; rw [lums (by simp), ok_bind, pure_eq_ok],
    by unfold monochromepal; rw [lums (by simp), ok_bind, pure_eq_ok], ?_, ?_⟩
  · have := (perm256 hm shift).map (shadeRGB f)
    simp only [g]
    rw [List.map_map] at this ⊢
    exact this
  · have := (perm256 (mult := -mult) (by omega) (255 * mult + shift)).map (shadeRGB f)
    simp only [g]
    rw [List.map_map] at this ⊢
    rw [show ((fun c : Int => shadeRGB f (((255 - c) * mult + shift) % 256)) ∘ fun (k : Nat) => (k : Int))
      = shadeRGB f ∘ fun (k : Nat) => ((k : Int) * -mult + (255 * mult + shift)) % 256 from ?_]
    · exact this
    · funext k
      simp only [Function.comp_apply]
      rw [show (255 - (k : Int)) * mult + shift = k * -mult + (255 * mult + shift) by ring]

/-- C127 is false for the multiplier 20 that `setBMP2invshiftedmonochrome` uses if none is given: in an 8-bit palette
every entry comes again 64 places later, so that only 64 shades are left. -/
theorem C127_default_false (f : ℚ × ℚ × ℚ) (shift : Int) :
    ∃ pal, monoinverseshiftablepal 8 f 20 shift = .ok pal ∧ ∀ k : Nat, k < 192 → pal[k]? = pal[k + 64]? := by
  refine ⟨_, by unfold monoinverseshiftablepal; rw [lums (by simp), ok_bind, pure_eq_ok], ?_⟩
  intro k hk
  have g : ∀ j, grey 8 j = j := by intro j; unfold grey; norm_num
  simp only [List.getElem?_map, List.getElem?_range (show k < 2 ^ 8 by omega), List.getElem?_range (show k + 64 < 2 ^ 8 by omega),
    Option.map_some, g]
  refine congrArg some (congrArg (shadeRGB f) ?_)
  push_cast
  omega

/-- The palette of the file is the given list. -/
theorem setBGRA {b : Bytes} {W H bits : Nat} (h : Valid b W H bits) (h24 : bits ≠ 24) {pal : List RGB}
    (hl : pal.length = 2 ^ bits) (hp : ∀ p ∈ pal, Verif.ByteRGB p) :
    ∃ b', setbmppalwithBGRAlist b (RGB2BGRAlist pal) = .ok b' ∧ Valid b' W H bits ∧ SamePixels b b' bits ∧
      getallRGBpal b' = .ok pal := by
  set m : Bytes := pal.flatMap fun p => [p.2.2.toNat, p.2.1.toNat, p.1.toNat, 0] with hm
  have hoff : 54 + 4 * pal.length = dataOff bits := by rw [hl, dataOff, palSize, if_neg h24]
  have hml : m.length = 4 * pal.length := by
    rw [hm, length_flatMap_const _ _ (m := 4) (fun a _ => rfl)]
  have hfit : 54 + m.length ≤ b.length := by rw [hml, hoff, h.len]; omega
  have hb : ∀ v ∈ m, v < 256 := by
    intro v hv
    rw [hm] at hv
    simp only [List.mem_flatMap, List.mem_cons, List.not_mem_nil, or_false] at hv
    obtain ⟨p, hp', hv⟩ := hv
    obtain ⟨h1, h2, h3⟩ := hp p hp'
    omega
  have harr : mkArray (RGB2BGRAlist pal).flatten = .ok m := by
    apply mkArray_ok _ hb
    rw [hm, RGB2BGRAlist, ← List.flatMap_def, List.map_flatMap]
    apply List.flatMap_congr
    intro p hp'
    obtain ⟨h1, h2, h3⟩ := hp p hp'
    simp only [List.map_cons, List.map_nil, Int.ofNat_eq_natCast]
    rw [Int.toNat_of_nonneg h1.1, Int.toNat_of_nonneg h2.1, Int.toNat_of_nonneg h3.1]
    rfl
  have hv : Valid (ow b 54 m) W H bits := valid_ow h (le_refl _) hfit hb
  refine ⟨ow b 54 m, ?_, hv, ⟨length_ow hfit, ?_, ?_⟩, ?_⟩
  · unfold setbmppalwithBGRAlist
    rw [h.getmaxcolors_eq]
    simp only [ok_bind]
    rw [if_pos (by unfold RGB2BGRAlist; rw [List.length_map, hl]), harr]
    simp only [ok_bind, pure_eq_ok]
    refine congrArg _ (setSlice_ok (n := 54) rfl ?_ hfit)
    rw [hml]
    have : (RGB2BGRAlist pal).flatten.length = 4 * pal.length := by
      unfold RGB2BGRAlist
      rw [List.length_flatten, List.map_map]
      rw [show (List.length ∘ fun p : RGB => [p.2.2, p.2.1, p.1, 0]) = fun _ => 4 from rfl]
      simp [mul_comm]
    rw [this]
    rfl
  · intro i hi; rw [byte_ow hfit, if_neg (by omega)]
  · intro i hi; rw [byte_ow hfit, if_neg (by omega)]
  · rw [hv.getallRGBpal_eq h24]
    refine congrArg _ ?_
    apply List.ext_getElem
    · simp [hl]
    · intro c h1 h2
      simp only [List.getElem_map, List.getElem_range]
      obtain ⟨p1, p2, p3⟩ := hp _ (List.getElem_mem h2)
      have hbyte : ∀ k < 4, byte (ow b 54 m) (54 + 4 * c + k) = byte [pal[c].2.2.toNat, pal[c].2.1.toNat, pal[c].1.toNat, 0] k := by
        intro k hk
        rw [byte_ow hfit, if_pos (by omega), show 54 + 4 * c + k - 54 = 4 * c + k by omega, hm,
          byte_flatMap _ _ (m := 4) (fun a _ => rfl) h2 hk]
      unfold palRGB rgbI
      rw [show 54 + 4 * c = 54 + 4 * c + 0 by omega, hbyte 0 (by omega), show 54 + 4 * c + 0 + 2 = 54 + 4 * c + 2 by omega,
        hbyte 2 (by omega), show 54 + 4 * c + 0 + 1 = 54 + 4 * c + 1 by omega, hbyte 1 (by omega)]
      simp only [byte, List.getD_cons_zero, List.getD_cons_succ]
      rw [Int.toNat_of_nonneg p1.1, Int.toNat_of_nonneg p2.1, Int.toNat_of_nonneg p3.1]

/-- C127: `setBMP2invshiftedmonochrome` puts the shades of brightness `(255 - grey) * mult + shift` modulo 256 into
the palette and leaves the pixels alone. -/
theorem C127_invshifted {b : Bytes} {W H bits : Nat} (h : Valid b W H bits) (h24 : bits ≠ 24) {f : ℚ × ℚ × ℚ} (hf : Unit f)
    (mult shift : Int) :
    ∃ b' l pal, setBMP2invshiftedmonochrome b f mult shift = .ok (b', l) ∧ Valid b' W H bits ∧ SamePixels b b' bits ∧
      getallRGBpal b' = .ok pal ∧ pal.length = 2 ^ bits ∧ monoinverseshiftablepal bits f mult shift = .ok pal ∧
      ∀ (k : Nat) (hk : k < pal.length), ShadeOf f (((255 - grey bits k) * mult + shift) % 256).toNat pal[k] := by
  have hb : bits = 1 ∨ bits = 4 ∨ bits = 8 := by have := h.depth; unfold Depth at this; omega
  set pal : List RGB := (List.range (2 ^ bits)).map fun k => shadeRGB f (((255 - (grey bits k : Int)) * mult + shift) % 256) with hpal
  have hj : ∀ k : Nat, shadeRGB f (((255 - (grey bits k : Int)) * mult + shift) % 256)
      = shadeRGB f (((((255 - (grey bits k : Int)) * mult + shift) % 256).toNat : Nat) : Int) := by
    intro k; rw [Int.toNat_of_nonneg (by omega)]
  have hlen : pal.length = 2 ^ bits := by simp [hpal]
  obtain ⟨b', e, hv, hs, hg⟩ := setBGRA h h24 hlen (by
    intro p hp
    rw [hpal] at hp
    simp only [List.mem_map, List.mem_range] at hp
    obtain ⟨k, -, rfl⟩ := hp
    rw [hj]
    exact shade_byte hf (by omega))
  refine ⟨b', RGB2BGRAlist pal, pal, ?_, hv, hs, hg, hlen, ?_, ?_⟩
  · unfold setBMP2invshiftedmonochrome monoinverseshiftableBGRApal
    rw [h.bits_eq, ok_bind, lums hb]
    simp only [ok_bind, pure_eq_ok, List.map_map]
    rw [show (List.map ((fun c : Int =>
        let p := shadeRGB f (((255 - c) * mult + shift) % 256)
        [p.2.2, p.2.1, p.1, 0]) ∘ fun k => (grey bits k : Int)) (List.range (2 ^ bits))) = RGB2BGRAlist pal by
      rw [hpal, RGB2BGRAlist, List.map_map]; rfl]
    rw [e, ok_bind]
  · unfold monoinverseshiftablepal
    rw [lums hb, ok_bind, pure_eq_ok, List.map_map]
    rfl
  · intro k hk
    simp only [hpal, List.getElem_map, List.getElem_range]
    rw [hj]
    exact shade_of hf (by omega)

/-- Black, dark and full red. -/
example : monochromepal 1 (1, 1 / 2, 0) = .ok [(0, 0, 0), (255, 128, 0)] := by decide +kernel
example : monoshiftablepal 4 (1, 0, 0) 1 17 = .ok [(17, 0, 0), (34, 0, 0), (51, 0, 0), (68, 0, 0), (85, 0, 0), (102, 0, 0),
    (119, 0, 0), (136, 0, 0), (153, 0, 0), (170, 0, 0), (187, 0, 0), (204, 0, 0), (221, 0, 0), (238, 0, 0), (255, 0, 0), (16, 0, 0)] := by
  decide +kernel

/-- C127: `newBMPwithPAL` with three factors gives an image of colour number 0 with the inverse palette of
multiplier 20. -/
theorem C127_new {W H bits : Nat} (hb : bits = 1 ∨ bits = 4 ∨ bits = 8) (hW : W < 2 ^ 24) (hH : H < 2 ^ 24) {f : ℚ × ℚ × ℚ}
    (hf : Unit f) :
    ∃ b pal, newBMPwithPAL W H bits (.mono f) = .ok b ∧ Valid b W H bits ∧ (∀ x y, x < W → y < H → pix b W H bits x y = 0) ∧
      getallRGBpal b = .ok pal ∧ monoinverseshiftablepal bits f 20 0 = .ok pal := by
  obtain ⟨n, e, hv, -, -, -, -, hz, -⟩ := C01_newBMP_valid W H bits (by unfold Depth; omega) hW hH
  obtain ⟨b', l, pal, e', hv', hs, hg, -, hp, -⟩ := C127_invshifted hv (by omega) hf 20 0
  refine ⟨b', pal, ?_, hv', ?_, hg, hp⟩
  · unfold newBMPwithPAL
    rw [e, ok_bind, if_pos (by omega)]
    dsimp only
    rw [e', ok_bind, pure_eq_ok]
  · intro x y hx hy
    rw [hs.pix]
    exact hz x y hx hy

/-- The mix of `n - i` parts of `a` and `i` parts of `b`. -/
def mix (a b : Int) (i n : Nat) : ℚ := ((n - i : ℚ) * a + i * b) / n

/-- The place of step `i`. -/
def place (n : Nat) (mult shift : Int) (i : Nat) : Nat := (((n - i : Int) * mult + shift) % n).toNat

theorem place_lt {n : Nat} (hn : 0 < n) (mult shift : Int) (i : Nat) : place n mult shift i < n := by
  unfold place
  have h1 := Int.emod_nonneg ((n - i : Int) * mult + shift) (show (n : Int) ≠ 0 by omega)
  have h2 := Int.emod_lt_of_pos ((n - i : Int) * mult + shift) (show (0 : Int) < n by omega)
  omega

theorem place_inj {n : Nat} {mult : Int} (hc : IsCoprime (n : Int) mult) (shift : Int) {i j : Nat} (hi : i < n) (hj : j < n)
    (h : place n mult shift i = place n mult shift j) : i = j := by
  unfold place at h
  have h1 := Int.emod_nonneg ((n - i : Int) * mult + shift) (show (n : Int) ≠ 0 by omega)
  have h2 := Int.emod_nonneg ((n - j : Int) * mult + shift) (show (n : Int) ≠ 0 by omega)
  have e : ((n - i : Int) * mult + shift) % n = ((n - j : Int) * mult + shift) % n := by omega
  have h3 := Int.ModEq.dvd (show ((n - i : Int) * mult + shift) ≡ ((n - j : Int) * mult + shift) [ZMOD n] from e)
  rw [show ((n - j : Int) * mult + shift) - ((n - i : Int) * mult + shift) = ((i : Int) - j) * mult by ring] at h3
  obtain ⟨q, hq⟩ := hc.dvd_of_dvd_mul_right h3
  have hq0 : q = 0 := by
    by_contra g
    rcases lt_or_gt_of_ne g with g | g
    · nlinarith
    · nlinarith
  subst hq0
  omega

theorem place_surj {n : Nat} {mult : Int} (hc : IsCoprime (n : Int) mult) (shift : Int) {k : Nat} (hk : k < n) :
    ∃ i < n, place n mult shift i = k := by
  have n1 : ((List.range n).map (place n mult shift)).Nodup := by
    rw [List.nodup_map_iff_inj_on List.nodup_range]
    intro i hi j hj e
    exact place_inj hc shift (List.mem_range.mp hi) (List.mem_range.mp hj) e
  have hp := (List.subperm_of_subset n1 (l₂ := List.range n) (by
    intro v hv
    simp only [List.mem_map, List.mem_range] at hv ⊢
    obtain ⟨i, hi, rfl⟩ := hv
    exact place_lt (by omega) _ _ _)).perm_of_length_le (by simp)
  have := hp.mem_iff.mpr (List.mem_range.mpr hk)
  simpa using this

theorem foldl_set {α : Type} (ix : Nat → Nat) (val : Nat → α) (is : List Nat) (v : List α)
    (hn : (is.map ix).Nodup) (hl : ∀ i ∈ is, ix i < v.length) :
    (is.foldl (fun v i => v.set (ix i) (val i)) v).length = v.length ∧
    (∀ i ∈ is, (is.foldl (fun v i => v.set (ix i) (val i)) v)[ix i]? = some (val i)) ∧
    ∀ k, (∀ i ∈ is, ix i ≠ k) → (is.foldl (fun v i => v.set (ix i) (val i)) v)[k]? = v[k]? := by
  induction is generalizing v with
  | nil => simp
  | cons j is ih =>
    rw [List.map_cons, List.nodup_cons] at hn
    obtain ⟨h1, h2, h3⟩ := ih (v.set (ix j) (val j)) hn.2 (by
      intro i hi; rw [List.length_set]; exact hl i (by simp [hi]))
    refine ⟨by rw [List.foldl_cons, h1, List.length_set], ?_, ?_⟩
    · intro i hi
      rw [List.foldl_cons]
      rcases List.mem_cons.mp hi with rfl | hi
      · rw [h3 (ix i) (by
          intro k hk e
          exact hn.1 (by rw [← e]; exact List.mem_map_of_mem hk))]
        simp [hl i (by simp)]
      · exact h2 i hi
    · intro k hk
      rw [List.foldl_cons, h3 k (fun i hi => hk i (by simp [hi]))]
      rw [List.getElem?_set_ne (hk j (by simp))]

theorem lerp_exact {m i : Nat} (hm : m ≤ 8) (hi : i < 2 ^ m) {a b : Int} (ha : 0 ≤ a ∧ a < 256) (hb : 0 ≤ b ∧ b < 256) :
    lerpF a b (fl ((i : ℚ) / (2 ^ m : Nat))) = mix a b i (2 ^ m) := by
  have h2 : (0 : ℚ) < 2 ^ m := by positivity
  have hmq : (2 : ℚ) ^ m ≤ 2 ^ 8 := pow_le_pow_right₀ (by norm_num) hm
  have hiq : (i : ℚ) < 2 ^ m := by exact_mod_cast hi
  have hi0 : (0 : ℚ) ≤ i := by positivity
  have ha0 : (0 : ℚ) ≤ a := by exact_mod_cast ha.1
  have hb0 : (0 : ℚ) ≤ b := by exact_mod_cast hb.1
  have ha1 : (a : ℚ) ≤ 255 := by exact_mod_cast (show a ≤ 255 by omega)
  have hb1 : (b : ℚ) ≤ 255 := by exact_mod_cast (show b ≤ 255 by omega)
  set j : ℚ := i / 2 ^ m with hj
  have j0 : 0 ≤ j := by positivity
  have j1 : j < 1 := by rw [hj, div_lt_one h2]; exact hiq
  have hR : ∀ R : ℚ, 0 ≤ R → R ≤ 1000 → R * 2 ^ m ≤ 2 ^ 53 := by
    intro R r0 r1
    calc R * 2 ^ m ≤ 1000 * 2 ^ 8 := by gcongr
      _ ≤ 2 ^ 53 := by norm_num
  have e1 : fl ((i : ℚ) / (2 ^ m : Nat)) = j := by
    push_cast
    exact fl_grid (M := m) (R := 1) ⟨i, by push_cast; rfl⟩ (by rw [abs_of_nonneg j0]; exact j1.le) (hR 1 (by norm_num) (by norm_num))
  have e2 : fl (1 - j) = 1 - j := fl_grid (M := m) (R := 1) ⟨2 ^ m - i, by rw [hj]; push_cast; field_simp⟩
    (by rw [abs_of_nonneg (by linarith)]; linarith) (hR 1 (by norm_num) (by norm_num))
  have e3 : fl ((1 - j) * a) = (1 - j) * a := fl_grid (M := m) (R := 255) ⟨(2 ^ m - i) * a, by rw [hj]; push_cast; field_simp⟩
    (by rw [abs_of_nonneg (mul_nonneg (by linarith) ha0)]; nlinarith) (hR 255 (by norm_num) (by norm_num))
  have e4 : fl (j * b) = j * b := fl_grid (M := m) (R := 255) ⟨i * b, by rw [hj]; push_cast; field_simp⟩
    (by rw [abs_of_nonneg (mul_nonneg j0 hb0)]; nlinarith) (hR 255 (by norm_num) (by norm_num))
  have e5 : fl ((1 - j) * a + j * b) = (1 - j) * a + j * b :=
    fl_grid (M := m) (R := 510) ⟨(2 ^ m - i) * a + i * b, by rw [hj]; push_cast; field_simp⟩
    (by rw [abs_of_nonneg (add_nonneg (mul_nonneg (by linarith) ha0) (mul_nonneg j0 hb0))]; nlinarith) (hR 510 (by norm_num) (by norm_num))
  unfold lerpF mix
  rw [e1, e2, e3, e4, e5, hj]
  push_cast
  field_simp

/-- A colour between two others: `i` of `n` steps from `p` to `q`, rounded. -/
def between (p q : RGB) (i n : Nat) : RGB := (rnd (mix p.1 q.1 i n), rnd (mix p.2.1 q.2.1 i n), rnd (mix p.2.2 q.2.2 i n))

theorem mix_between {a b : Int} {i n : Nat} (hi : i < n) {lo hi' : Int} (ha : lo ≤ a ∧ a ≤ hi') (hb : lo ≤ b ∧ b ≤ hi') :
    lo ≤ rnd (mix a b i n) ∧ rnd (mix a b i n) ≤ hi' := by
  have hn : (0 : ℚ) < n := by exact_mod_cast (show 0 < n by omega)
  have hin : (0 : ℚ) ≤ n - i := by have : (i : ℚ) < n := by exact_mod_cast hi
                                   linarith
  have hi0 : (0 : ℚ) ≤ i := by positivity
  have a0 : (lo : ℚ) ≤ a := by exact_mod_cast ha.1
  have a1 : (a : ℚ) ≤ hi' := by exact_mod_cast ha.2
  have b0 : (lo : ℚ) ≤ b := by exact_mod_cast hb.1
  have b1 : (b : ℚ) ≤ hi' := by exact_mod_cast hb.2
  have h1 : (lo : ℚ) ≤ mix a b i n := by
    unfold mix; rw [le_div_iff₀ hn]; nlinarith
  have h2 : mix a b i n ≤ (hi' : ℚ) := by
    unfold mix; rw [div_le_iff₀ hn]; nlinarith
  have := rnd_mono h1
  have := rnd_mono h2
  rw [rnd_int] at *
  exact ⟨‹_›, ‹_›⟩

/-- C128: a palette of two colours has the steps from the first towards the second, each at exactly one place, for
every multiplier that has no divisor in common with the number of entries. -/
theorem C128_dichromatic {bits : Nat} (hb : bits ≤ 8) {c1 c2 : Int} (h1 : 0 ≤ c1 ∧ c1 < 2 ^ 24) (h2 : 0 ≤ c2 ∧ c2 < 2 ^ 24)
    {mult : Int} (hc : IsCoprime ((2 ^ bits : Nat) : Int) mult) (shift : Int) :
    (dichromaticpal c1 c2 (2 ^ bits) mult shift).length = 2 ^ bits ∧
    (∀ i < 2 ^ bits, (dichromaticpal c1 c2 (2 ^ bits) mult shift)[place (2 ^ bits) mult shift i]?
      = some (between (int2RGB c1) (int2RGB c2) i (2 ^ bits))) ∧
    (∀ k < 2 ^ bits, ∃ i < 2 ^ bits, place (2 ^ bits) mult shift i = k) ∧
    ∀ p ∈ dichromaticpal c1 c2 (2 ^ bits) mult shift, Verif.ByteRGB p := by
  have hpos : 0 < 2 ^ bits := by positivity
  have rgb : ∀ c : Int, 0 ≤ c ∧ c < 2 ^ 24 → Verif.ByteRGB (int2RGB c) := by
    intro c hc
    unfold Verif.ByteRGB int2RGB
    rw [show (0xff : Int) = 255 from rfl, pyAnd_255, pyAnd_255]
    unfold pyShr
    dsimp only
    omega
  have hfold := foldl_set (place (2 ^ bits) mult shift) (fun i => interpolateRGB (int2RGB c1) (int2RGB c2) (fl ((i : ℚ) / (2 ^ bits : Nat))))
    (List.range (2 ^ bits)) (List.replicate (2 ^ bits) (int2RGB c1)) (by
      rw [List.nodup_map_iff_inj_on List.nodup_range]
      intro i hi j hj e
      exact place_inj hc shift (List.mem_range.mp hi) (List.mem_range.mp hj) e) (by
      intro i _; rw [List.length_replicate]; exact place_lt hpos _ _ _)
  have hd : dichromaticpal c1 c2 (2 ^ bits) mult shift = (List.range (2 ^ bits)).foldl (fun v i => v.set (place (2 ^ bits) mult shift i)
      (interpolateRGB (int2RGB c1) (int2RGB c2) (fl ((i : ℚ) / (2 ^ bits : Nat))))) (List.replicate (2 ^ bits) (int2RGB c1)) := by
    unfold dichromaticpal dichromLoop place
    rfl
  rw [← hd] at hfold
  obtain ⟨f1, f2, -⟩ := hfold
  have hval : ∀ i < 2 ^ bits, (dichromaticpal c1 c2 (2 ^ bits) mult shift)[place (2 ^ bits) mult shift i]?
      = some (between (int2RGB c1) (int2RGB c2) i (2 ^ bits)) := by
    intro i hi
    obtain ⟨r1, r2, r3⟩ := rgb c1 h1
    obtain ⟨s1, s2, s3⟩ := rgb c2 h2
    have := f2 i (List.mem_range.mpr hi)
    unfold interpolateRGB at this
    rw [lerp_exact hb hi r1 s1, lerp_exact hb hi r2 s2, lerp_exact hb hi r3 s3] at this
    exact this
  have hlen : (dichromaticpal c1 c2 (2 ^ bits) mult shift).length = 2 ^ bits := f1.trans (by simp)
  refine ⟨hlen, hval, fun k hk => place_surj hc shift hk, ?_⟩
  intro p hp
  obtain ⟨k, hk, rfl⟩ := List.mem_iff_getElem.mp hp
  obtain ⟨i, hi, rfl⟩ := place_surj hc shift (show k < 2 ^ bits by omega)
  have := hval i hi
  rw [List.getElem?_eq_getElem hk] at this
  rw [Option.some.inj this]
  obtain ⟨r1, r2, r3⟩ := rgb c1 h1
  obtain ⟨s1, s2, s3⟩ := rgb c2 h2
  unfold between Verif.ByteRGB
  have m1 := mix_between hi (lo := 0) (hi' := 255) (a := (int2RGB c1).1) (b := (int2RGB c2).1) (by omega) (by omega)
  have m2 := mix_between hi (lo := 0) (hi' := 255) (a := (int2RGB c1).2.1) (b := (int2RGB c2).2.1) (by omega) (by omega)
  have m3 := mix_between hi (lo := 0) (hi' := 255) (a := (int2RGB c1).2.2) (b := (int2RGB c2).2.2) (by omega) (by omega)
  dsimp only
  omega

theorem odd_coprime (bits : Nat) : IsCoprime ((2 ^ bits : Nat) : Int) 3 := by
  push_cast
  apply IsCoprime.pow_left
  exact ⟨-1, 1, by norm_num⟩

/-- C128: `setBMP2dichromaticpal` puts the palette of step 3 into the image and leaves the pixels alone. -/
theorem C128_set {b : Bytes} {W H bits : Nat} (h : Valid b W H bits) (h24 : bits ≠ 24) {c1 c2 : Int} (h1 : 0 ≤ c1 ∧ c1 < 2 ^ 24)
    (h2 : 0 ≤ c2 ∧ c2 < 2 ^ 24) :
    ∃ b' l, setBMP2dichromaticpal b c1 c2 = .ok (b', l) ∧ Valid b' W H bits ∧ SamePixels b b' bits ∧
      getallRGBpal b' = .ok (dichromaticpal c1 c2 (2 ^ bits) 3 0) := by
  have hb : bits ≤ 8 := by have := h.depth; unfold Depth at this; omega
  obtain ⟨hl, -, -, hp⟩ := C128_dichromatic hb h1 h2 (odd_coprime bits) 0
  obtain ⟨b', e, hv, hs, hg⟩ := setBGRA h h24 hl hp
  refine ⟨b', RGB2BGRAlist (dichromaticpal c1 c2 (2 ^ bits) 3 0), ?_, hv, hs, hg⟩
  unfold setBMP2dichromaticpal
  rw [h.getmaxcolors_eq]
  simp only [ok_bind, Int.toNat_natCast]
  rw [e, ok_bind, pure_eq_ok]

/-- C128: the first colour is at the place of the shift. -/
theorem C128_first {bits : Nat} (hb : bits ≤ 8) {c1 c2 : Int} (h1 : 0 ≤ c1 ∧ c1 < 2 ^ 24) (h2 : 0 ≤ c2 ∧ c2 < 2 ^ 24)
    {mult : Int} (hc : IsCoprime ((2 ^ bits : Nat) : Int) mult) (shift : Int) :
    (dichromaticpal c1 c2 (2 ^ bits) mult shift)[(shift % (2 ^ bits : Nat)).toNat]? = some (int2RGB c1) := by
  have hpos : 0 < 2 ^ bits := by positivity
  have := (C128_dichromatic hb h1 h2 hc shift).2.1 0 hpos
  have hq : ((2 ^ bits : Nat) : ℚ) ≠ 0 := by positivity
  have hm : ∀ a b : Int, rnd (mix a b 0 (2 ^ bits)) = a := by
    intro a b
    unfold mix
    rw [show (((2 ^ bits : Nat) - ((0 : Nat) : ℚ)) * a + ((0 : Nat) : ℚ) * b) / (2 ^ bits : Nat) = (a : ℚ) by
      rw [Nat.cast_zero, sub_zero, zero_mul, add_zero]; field_simp]
    exact rnd_int a
  unfold between at this
  rw [hm, hm, hm] at this
  rw [← this]
  congr 1
  unfold place
  rw [Nat.cast_zero, sub_zero, Int.add_emod, Int.mul_emod_right, zero_add, Int.emod_emod]

/-- C128: `newBMPwithPAL` with two colours. -/
theorem C128_new {W H bits : Nat} (hb : bits = 1 ∨ bits = 4 ∨ bits = 8) (hW : W < 2 ^ 24) (hH : H < 2 ^ 24) {c1 c2 : Int}
    (h1 : 0 ≤ c1 ∧ c1 < 2 ^ 24) (h2 : 0 ≤ c2 ∧ c2 < 2 ^ 24) :
    ∃ b, newBMPwithPAL W H bits (.two c1 c2) = .ok b ∧ Valid b W H bits ∧ (∀ x y, x < W → y < H → pix b W H bits x y = 0) ∧
      getallRGBpal b = .ok (dichromaticpal c1 c2 (2 ^ bits) 3 0) := by
  obtain ⟨n, e, hv, -, -, -, -, hz, -⟩ := C01_newBMP_valid W H bits (by unfold Depth; omega) hW hH
  obtain ⟨b', l, e', hv', hs, hg⟩ := C128_set hv (by omega) h1 h2
  refine ⟨b', ?_, hv', ?_, hg⟩
  · unfold newBMPwithPAL
    rw [e, ok_bind, if_pos (by omega)]
    dsimp only
    rw [e', ok_bind, pure_eq_ok]
  · intro x y hx hy
    rw [hs.pix]
    exact hz x y hx hy

/-- C128: the second colour is never reached. In two colours from black to white the other one is grey. -/
theorem C128_end_false : dichromaticpal 0 0xffffff 2 3 0 = [(0, 0, 0), (128, 128, 128)] := by decide +kernel

/-- C128: with a common divisor places are left out and keep the first colour. -/
theorem C128_even_wrong : dichromaticpal 0 0xffffff 4 2 0 = [(128, 128, 128), (0, 0, 0), (191, 191, 191), (0, 0, 0)] := by
  decide +kernel

example : dichromaticpal 0 0xff8000 4 3 1 = [(191, 96, 0), (0, 0, 0), (64, 32, 0), (128, 64, 0)] := by decide +kernel

/-- The distance of the colours is less than `t`. -/
def Close (t : Int) (p q : RGB) : Prop := 0 < t ∧ (p.1 - q.1) ^ 2 + (p.2.1 - q.2.1) ^ 2 + (p.2.2 - q.2.2) ^ 2 < t ^ 2

theorem close_iff (t : Int) (p q : RGB) : distLt p q t = true ↔ Close t p q := by
  unfold distLt Close distRGB
  simp only [Bool.and_eq_true, decide_eq_true_eq, pow_two]

theorem newpal_spec (colors t : Int) (hs : List (Nat × Int)) (pal : List RGB) (hl : (pal.length : Int) < colors)
    (hp : pal.Pairwise fun p q => ¬ Close t p q) :
    ∃ l : List (Nat × Int), l.Sublist hs ∧ newpalLoop colors t hs pal = pal ++ l.map (fun h => int2RGB h.2) ∧
      ((newpalLoop colors t hs pal).length : Int) ≤ colors ∧ (newpalLoop colors t hs pal).Pairwise (fun p q => ¬ Close t p q) ∧
      (((newpalLoop colors t hs pal).length : Int) = colors ∨
        ∀ h ∈ hs, int2RGB h.2 ∈ newpalLoop colors t hs pal ∨ ∃ p ∈ newpalLoop colors t hs pal, Close t p (int2RGB h.2)) := by
  induction hs generalizing pal with
  | nil => exact ⟨[], List.Sublist.refl _, by simp [newpalLoop], by simp only [newpalLoop]; omega, hp, .inr (by simp)⟩
  | cons h hs ih =>
    unfold newpalLoop
    dsimp only
    by_cases g : pal.all (fun p => !distLt p (int2RGB h.2) t) = true
    · have hfar : ∀ p ∈ pal, ¬ Close t p (int2RGB h.2) := by
        intro p hpp hc
        have := List.all_eq_true.mp g p hpp
        rw [(close_iff _ _ _).mpr hc] at this
        simp at this
      rw [if_pos g]
      have hp' : (pal ++ [int2RGB h.2]).Pairwise fun p q => ¬ Close t p q := by
        rw [List.pairwise_append]
        exact ⟨hp, by simp, by intro a ha b hb; rw [List.mem_singleton.mp hb]; exact hfar a ha⟩
      by_cases gl : ((pal ++ [int2RGB h.2]).length : Int) = colors
      · rw [if_pos gl]
        exact ⟨[h], by simp, by simp, le_of_eq gl, hp', .inl gl⟩
      · rw [if_neg gl]
        obtain ⟨l, h1, h2, h3, h4, h5⟩ := ih (pal ++ [int2RGB h.2]) (by
          rw [List.length_append, List.length_singleton] at gl ⊢; push_cast at gl ⊢; omega) hp'
        refine ⟨h :: l, h1.cons_cons h, by rw [h2]; simp, h3, h4, ?_⟩
        rcases h5 with h5 | h5
        · exact .inl h5
        · right
          intro k hk
          rcases List.mem_cons.mp hk with rfl | hk
          · left; rw [h2]; simp
          · exact h5 k hk
    · rw [if_neg g, if_neg (by omega)]
      obtain ⟨l, h1, h2, h3, h4, h5⟩ := ih pal hl hp
      refine ⟨l, h1.cons h, h2, h3, h4, ?_⟩
      rcases h5 with h5 | h5
      · exact .inl h5
      · right
        intro k hk
        rcases List.mem_cons.mp hk with rfl | hk
        · right
          rw [Bool.not_eq_true, List.all_eq_false] at g
          obtain ⟨p, hpp, hd⟩ := g
          refine ⟨p, ?_, (close_iff _ _ _).mp (by simpa using hd)⟩
          rw [h2]; simp [hpp]
        · exact h5 k hk

/-- C129: the palette taken from a histogram is black followed by colours of the histogram in its order, at most as many
as requested, no two of them closer than the threshold; unless it is full, every colour of the histogram is in it or
closer than the threshold to one of its entries. -/
theorem C129_palette (chist : List (Nat × Int)) {colors : Int} (hc : 2 ≤ colors) (t : Int) :
    ∃ l : List (Nat × Int), l.Sublist chist ∧ makenewpalfromcolorhist chist colors t = (0, 0, 0) :: l.map (fun h => int2RGB h.2) ∧
      ((makenewpalfromcolorhist chist colors t).length : Int) ≤ colors ∧
      (makenewpalfromcolorhist chist colors t).Pairwise (fun p q => ¬ Close t p q) ∧
      (((makenewpalfromcolorhist chist colors t).length : Int) = colors ∨ ∀ h ∈ chist,
        int2RGB h.2 ∈ makenewpalfromcolorhist chist colors t ∨ ∃ p ∈ makenewpalfromcolorhist chist colors t, Close t p (int2RGB h.2)) :=
  newpal_spec colors t chist [(0, 0, 0)] (by simp; omega) (by simp)

example : makenewpalfromcolorhist [(9, 0xff0000), (5, 0xfe0000), (4, 1), (2, 0x00ff00), (1, 0xffffff)] 3 10 =
    [(0, 0, 0), (255, 0, 0), (0, 255, 0)] := by decide +kernel

/-- The entry `k` is the first nearest one among the entries that are not black. -/
def NearestNotBlack (pal : List RGB) (rgb : RGB) (k : Nat) : Prop :=
  ∃ hk : k < pal.length, (k = 0 ∧ ∀ p ∈ pal, p = (0, 0, 0)) ∨
    (pal[k] ≠ (0, 0, 0) ∧ (∀ p ∈ pal, p ≠ (0, 0, 0) → sqDist rgb pal[k] ≤ sqDist rgb p) ∧
      ∀ (j : Nat) (hj : j < k), pal[j]'(by omega) ≠ (0, 0, 0) → sqDist rgb pal[k] < sqDist rgb (pal[j]'(by omega)))

theorem match_tuple {pal : List RGB} (hne : pal ≠ []) (hp : ∀ p ∈ pal, Verif.ByteRGB p) {rgb : RGB} (hb : Verif.ByteRGB rgb) :
    ∃ k : Nat, matchRGBtopal rgb false pal = k ∧ NearestNotBlack pal rgb k := by
  have hl := List.length_pos_iff.mpr hne
  unfold matchRGBtopal
  rw [if_neg (by simp)]
  rcases matchLoop_tuple rgb pal 0 0 (442 ^ 2) with ⟨g1, g2⟩ | ⟨k, hk, g1, g2, g3, g4, g5⟩
  · refine ⟨0, by rw [g1]; rfl, hl, .inl ⟨rfl, ?_⟩⟩
    intro p hpp
    by_contra hz
    have h1 := g2 p hpp hz
    have h2 := sqDist_lt (p := rgb) (q := p) hb (hp p hpp)
    omega
  · exact ⟨k, by rw [g1]; omega, hk, .inr ⟨g2, g4, g5⟩⟩

/-- C129 is false for black pixels: whatever the palette, they get an entry that is not black, if there is one. -/
theorem C129_black_wrong {pal : List RGB} (hp : ∀ p ∈ pal, Verif.ByteRGB p) (hx : ∃ p ∈ pal, p ≠ (0, 0, 0)) :
    ∃ (k : Nat) (hk : k < pal.length), matchRGBtopal (0, 0, 0) false pal = k ∧ pal[k] ≠ (0, 0, 0) := by
  obtain ⟨p, hpp, hz⟩ := hx
  obtain ⟨k, e, hk, h⟩ := match_tuple (rgb := (0, 0, 0)) (List.ne_nil_of_mem hpp) hp (by decide)
  rcases h with ⟨-, h⟩ | ⟨h, -⟩
  · exact absurd (h p hpp) hz
  · exact ⟨k, hk, e, h⟩

/-- All pixels of an image plotted one after the other. -/
theorem plot_all {W H bits : Nat} {α : Type} (val : Nat → Nat → α) (c : (Int × Int) × α → Int)
    (hc : bits = 24 → ∀ v, 0 ≤ c v ∧ c v < 2 ^ 24) {b : Bytes} (h : Valid b W H bits) :
    ∃ b', (scan W H val).foldlM (fun b v => plotxybit b v.1.1 v.1.2 (c v)) b = .ok b' ∧
      Redraws b b' W H bits (fun x y => reduce bits (c (((x : Int), (y : Int)), val x y))) := by
  have e : (scan W H val).foldlM (fun b v => plotxybit b v.1.1 v.1.2 (c v)) b
      = ((scan W H val).map fun v => (v.1.1, v.1.2, c v)).foldlM (fun b (p : Int × Int × Int) => plotxybit b p.1 p.2.1 p.2.2) b := by
    rw [List.foldlM_map]
  obtain ⟨b', e', hv, hs, hpx⟩ := plots_redraw (W := W) (H := H) (bits := bits)
    (fun b (p : Int × Int × Int) => plotxybit b p.1 p.2.1 p.2.2) (fun p => reduce bits p.2.2)
    (fun x y => reduce bits (c (((x : Int), (y : Int)), val x y))) ((scan W H val).map fun v => (v.1.1, v.1.2, c v))
    (by
      intro b hb p hp
      simp only [List.mem_map] at hp
      obtain ⟨v, hv, rfl⟩ := hp
      obtain ⟨b', e, hpt⟩ := plots_paints hb [(v.1.1, v.1.2)] (c := c v) (fun h => hc h v)
      simp only [List.foldlM, bind_pure] at e
      refine ⟨b', e, hpt.congr ?_⟩
      intro x y _ _
      simp [Prod.ext_iff])
    (by
      intro p hp x y hx hy
      simp only [List.mem_map] at hp
      obtain ⟨v, hv, rfl⟩ := hp
      obtain ⟨-, h2⟩ := (Edges.mem_scan W H _ v).mp hv
      dsimp only at hx hy ⊢
      have : v = (((x : Int), (y : Int)), val x y) := by
        apply Prod.ext
        · exact Prod.ext hx.symm hy.symm
        · rw [h2, ← hx, ← hy]; simp
      rw [this]) h
  refine ⟨b', e.trans e', hv, hs, ?_⟩
  intro x y hx hy
  apply (hpx x y hx hy).1
  refine ⟨((x : Int), (y : Int), c (((x : Int), (y : Int)), val x y)), ?_, rfl, rfl⟩
  rw [List.mem_map]
  exact ⟨(((x : Int), (y : Int)), val x y), (Edges.mem_scan W H _ _).mpr ⟨by unfold Edges.Inside; dsimp only; omega, by simp⟩, rfl⟩

theorem pal_header {b b' : Bytes} {W H bits : Nat} (h : Valid b W H bits) (h' : Valid b' W H bits) (hh : SameHeader b b' bits)
    (h24 : bits ≠ 24) : getallRGBpal b' = getallRGBpal b := by
  rw [h.getallRGBpal_eq h24, h'.getallRGBpal_eq h24]
  refine congrArg Except.ok ?_
  apply List.map_congr_left
  intro c hc
  rw [samePal hh h24 (List.mem_range.mp hc)]

theorem hist_bytes {b : Bytes} {W H : Nat} (h : Valid b W H 24) {l : List (Nat × Int)} (e : colorhistogram b = .ok l) :
    ∀ p ∈ l, 0 ≤ p.2 ∧ p.2 < 2 ^ 24 := by
  obtain ⟨l', e', h1, h2, -⟩ := C51_colorhistogram h
  rw [e] at e'
  obtain rfl := Except.ok.inj e'
  rintro ⟨n, c⟩ hp
  have h0 := h2 _ hp
  obtain ⟨c, rfl⟩ := Int.eq_ofNat_of_zero_le h0
  obtain ⟨hn, hc⟩ := (h1 n c).mp hp
  refine ⟨h0, ?_⟩
  by_contra hb
  have : pixCount b W H 24 c = 0 := by
    unfold pixCount
    rw [List.sum_eq_zero]
    intro n hn
    rw [List.mem_map] at hn
    obtain ⟨y, -, rfl⟩ := hn
    rw [List.countP_eq_zero]
    intro x _ hx
    have := h.pix_lt x y
    simp only [decide_eq_true_eq] at hx
    dsimp only at hb
    omega
  omega

theorem newpal_bytes {b : Bytes} {W H : Nat} (h : Valid b W H 24) {l : List (Nat × Int)} (e : colorhistogram b = .ok l)
    {colors : Int} (hc : 2 ≤ colors) (t : Int) : ∀ p ∈ makenewpalfromcolorhist l colors t, Verif.ByteRGB p := by
  obtain ⟨s, hs, es, -⟩ := C129_palette l hc t
  intro p hp
  rw [es, List.mem_cons] at hp
  rcases hp with rfl | hp
  · decide
  · rw [List.mem_map] at hp
    obtain ⟨q, hq, rfl⟩ := hp
    exact ((C41_pack_unpack q.2).2.mp (hist_bytes h e q (hs.subset hq)))

/-- The pixels drawn with the entries of a palette. -/
theorem reduce_draw {b n : Bytes} {W H bits : Nat} (h : Valid b W H 24) (hn : Valid n W H bits) (hb : bits = 4 ∨ bits = 8)
    {pal : List RGB} (hne : pal ≠ []) (hl : pal.length ≤ 2 ^ bits) (hp : ∀ p ∈ pal, Verif.ByteRGB p) (random : Int × Int → Int) :
    ∃ n', (do
        let l ← iterimageRGB b
        let n ← l.foldlM (fun bmp (v : (Int × Int) × RGB) => plotxybit bmp v.1.1 v.1.2
          (if (bits : Int) = 1 then probplotRGBto1bit 2 (random v.1) else matchRGBtopal v.2 false pal)) n
        pure (some n)) = .ok (some n') ∧ Valid n' W H bits ∧ getallRGBpal n' = getallRGBpal n ∧
      ∀ x y, x < W → y < H → NearestNotBlack pal (rgbI (pixRGB b W H 24 x y)) (pix n' W H bits x y) := by
  rw [C39_iterimageRGB_partial h (.inl rfl), ok_bind]
  obtain ⟨n', e, hr⟩ := plot_all (fun x y => rgbI (pixRGB b W H 24 x y))
    (fun v => if (bits : Int) = 1 then probplotRGBto1bit 2 (random v.1) else matchRGBtopal v.2 false pal) (by omega) hn
  refine ⟨n', by rw [e, ok_bind, pure_eq_ok], hr.valid, pal_header hn hr.valid hr.header (by omega), ?_⟩
  intro x y hx hy
  have hbr : Verif.ByteRGB (rgbI (pixRGB b W H 24 x y)) := by
    have := pixRGB_lt h x y
    unfold Verif.ByteRGB rgbI
    dsimp only
    omega
  obtain ⟨k, ek, hk⟩ := match_tuple hne hp hbr
  have hlt := hk.1
  rw [hr.pixels x y hx hy, if_neg (by omega)]
  dsimp only
  rw [ek]
  unfold reduce
  rw [if_neg (by omega), Int.emod_eq_of_lt (by omega) (by
    have : (k : Int) < (2 ^ bits : Nat) := by omega
    push_cast at this; exact this)]
  exact hk

variable {fs : Files} {ex nw : String} {b : Bytes} {W H bits : Nat}

/-- C129: `reduce24bitimagebits` with a palette of shades: the image saved has the palette, and every pixel is the
nearest entry of it that is not black. -/
theorem C129_reduce_mono (h : Stored fs ex b W H 24) (hb : bits = 4 ∨ bits = 8) (random : Int × Int → Int) (t : Int)
    {f : ℚ × ℚ × ℚ} (hf : Unit f) :
    ∃ fs' pal, monochromepal bits f = .ok pal ∧ reduce24bitimagebits random fs ex nw bits t (some f) = .ok fs' ∧
      Saved fs fs' nw (fun n => Valid n W H bits ∧ getallRGBpal n = .ok pal ∧
        ∀ x y, x < W → y < H → NearestNotBlack pal (rgbI (pixRGB b W H 24 x y)) (pix n W H bits x y)) := by
  obtain ⟨n0, e0, hv0, -⟩ := C01_newBMP_valid W H bits (by unfold Depth; omega) h.valid.wlt h.valid.hlt
  obtain ⟨n1, pal, e1, ep, hv1, -, hg⟩ := C127_set hv0 (by omega) hf
  obtain ⟨pal', ep', hl, hby, -⟩ := C127_monochrome (bits := bits) (by omega) hf
  rw [ep] at ep'
  obtain rfl := Except.ok.inj ep'
  obtain ⟨n2, e2, hv2, hp2, hpx⟩ := reduce_draw h.valid hv1 hb (pal := pal)
    (by intro g; rw [g, List.length_nil] at hl; have : 0 < 2 ^ bits := by positivity
        omega) (le_of_eq hl)
    (by intro p hp; obtain ⟨k, hk, rfl⟩ := List.getElem_of_mem hp; exact (hby k hk).1) random
  refine ⟨writeFile fs nw n2, pal, ep, ?_, writeFile_saved fs nw ⟨hv2, hp2.trans hg, hpx⟩⟩
  unfold reduce24bitimagebits
  rw [applysaveopt_run h]
  rw [h.valid.bits_eq, ok_bind]
  dsimp only
  rw [if_neg (by simp)]
  unfold CopyBMPxydim2newBMP
  unfold getmaxx getmaxy
  rw [h.valid.getmaxx_eq, h.valid.getmaxy_eq]
  simp only [ok_bind]
  rw [e0, ok_bind, if_pos (by omega), e1, ok_bind]
  dsimp only
  rw [e2, ok_bind]
  rfl

/-- C129: `reduce24bitimagebits` with a palette from the colours of the image: every pixel is the number of the nearest
entry of that palette that is not black, but the palette is in the image saved only if it is full. -/
theorem C129_reduce (h : Stored fs ex b W H 24) (hb : bits = 4 ∨ bits = 8) (random : Int × Int → Int) (t : Int) :
    ∃ fs' hist pal def', colorhistogram b = .ok hist ∧ pal = makenewpalfromcolorhist hist ((2 ^ bits : Nat) : Int) t ∧
      getdefaultbitpal bits = .ok def' ∧
      reduce24bitimagebits random fs ex nw bits t none = .ok fs' ∧
      Saved fs fs' nw (fun n => Valid n W H bits ∧ getallRGBpal n = .ok (if pal.length = 2 ^ bits then pal else def') ∧
        ∀ x y, x < W → y < H → NearestNotBlack pal (rgbI (pixRGB b W H 24 x y)) (pix n W H bits x y)) := by
  obtain ⟨n0, e0, hv0, -, -, -, -, -, hdef⟩ := C01_newBMP_valid W H bits (by unfold Depth; omega) h.valid.wlt h.valid.hlt
  obtain ⟨hist, eh, -⟩ := C51_colorhistogram h.valid
  obtain ⟨def', ed⟩ : ∃ d, getdefaultbitpal bits = .ok d := by rcases hb with rfl | rfl <;> exact ⟨_, rfl⟩
  have h2 : (2 : Int) ≤ ((2 ^ bits : Nat) : Int) := by rcases hb with rfl | rfl <;> decide
  obtain ⟨s, -, es, hlen, -⟩ := C129_palette hist h2 t
  have hby := newpal_bytes h.valid eh h2 t
  obtain ⟨pal, hpal⟩ : ∃ pal, pal = makenewpalfromcolorhist hist ((2 ^ bits : Nat) : Int) t := ⟨_, rfl⟩
  rw [← hpal] at es hlen hby
  obtain ⟨n1, e1, hv1, hg1⟩ : ∃ n1, setbmppal n0 pal = .ok n1 ∧ Valid n1 W H bits ∧
      getallRGBpal n1 = .ok (if pal.length = 2 ^ bits then pal else def') := by
    by_cases g : pal.length = 2 ^ bits
    · obtain ⟨n1, e1, hv1, -, hg⟩ := (C13_set_palette hv0 (by omega) pal).1 g hby
      exact ⟨n1, e1, hv1, by rw [if_pos g]; exact hg⟩
    · exact ⟨n0, (C13_set_palette hv0 (by omega) pal).2 g, hv0, by rw [if_neg g]; exact hdef _ ed⟩
  obtain ⟨n2, e2, hv2, hp2, hpx⟩ := reduce_draw h.valid hv1 hb (pal := pal) (by rw [es]; simp) (by omega) hby random
  refine ⟨writeFile fs nw n2, hist, pal, def', eh, hpal, ed, ?_, writeFile_saved fs nw ⟨hv2, hp2.trans hg1, hpx⟩⟩
  unfold reduce24bitimagebits
  rw [applysaveopt_run h]
  rw [h.valid.bits_eq, ok_bind]
  dsimp only
  rw [if_neg (by simp)]
  unfold CopyBMPxydim2newBMP
  unfold getmaxx getmaxy
  rw [h.valid.getmaxx_eq, h.valid.getmaxy_eq]
  simp only [ok_bind]
  rw [e0, ok_bind, if_pos (by omega)]
  unfold setnewpalfromsourcebmp
  rw [eh, ok_bind, hv0.getmaxcolors_eq, ok_bind]
  dsimp only
  rw [← hpal, e1, ok_bind, pure_eq_ok, ok_bind]
  dsimp only
  rw [e2, ok_bind]
  rfl

/-- The threshold of the random dots. -/
theorem dot_on {k : Int} (h0 : 0 ≤ k) : 0 < probplotRGBto1bit 2 k ↔ 192 < k := by
  unfold probplotRGBto1bit
  constructor
  · intro h
    by_contra hk
    have h1 : fl (((2 * k : Int) : ℚ) / 768) ≤ fl (1 / 2) := by
      apply fl_mono (by positivity)
      rw [div_le_div_iff₀ (by norm_num) (by norm_num)]
      have : ((2 * k : Int) : ℚ) ≤ 384 := by exact_mod_cast (by omega : 2 * k ≤ 384)
      linarith
    have h2 := rnd_mono h1
    rw [show rnd (fl (1 / 2)) = 0 by decide +kernel] at h2
    omega
  · intro hk
    have h1 : fl (386 / 768) ≤ fl (((2 * k : Int) : ℚ) / 768) := by
      apply fl_mono (by norm_num)
      have : (386 : ℚ) ≤ ((2 * k : Int) : ℚ) := by exact_mod_cast (by omega : 386 ≤ 2 * k)
      rw [div_le_div_iff₀ (by norm_num) (by norm_num)]
      linarith
    have h2 := rnd_mono h1
    rw [show rnd (fl (386 / 768)) = 1 by decide +kernel] at h2
    omega

/-- C129: `reduce24bitimagebits` to one bit sets a pixel if the number drawn is more than 192. -/
theorem C129_onebit (h : Stored fs ex b W H 24) {random : Int × Int → Int} (h0 : ∀ v, 0 ≤ random v) (t : Int) (mono : Option (ℚ × ℚ × ℚ)) :
    ∃ fs', reduce24bitimagebits random fs ex nw 1 t mono = .ok fs' ∧
      Saved fs fs' nw (fun n => Valid n W H 1 ∧
        ∀ x y, x < W → y < H → pix n W H 1 x y = if 192 < random ((x : Int), (y : Int)) then 1 else 0) := by
  obtain ⟨n0, e0, hv0, -⟩ := C01_newBMP_valid W H 1 (by unfold Depth; omega) h.valid.wlt h.valid.hlt
  obtain ⟨n', e, hr⟩ := plot_all (fun x y => rgbI (pixRGB b W H 24 x y))
    (fun v => probplotRGBto1bit 2 (random v.1)) (by omega) hv0
  refine ⟨writeFile fs nw n', ?_, writeFile_saved fs nw ⟨hr.valid, ?_⟩⟩
  · unfold reduce24bitimagebits
    rw [applysaveopt_run h]
    rw [h.valid.bits_eq, ok_bind]
    dsimp only
    rw [if_neg (by simp)]
    unfold CopyBMPxydim2newBMP
    unfold getmaxx getmaxy
    rw [h.valid.getmaxx_eq, h.valid.getmaxy_eq]
    simp only [ok_bind]
    rw [show newBMP (W : Int) (H : Int) 1 = .ok n0 from e0, ok_bind, if_neg (by decide), pure_eq_ok, ok_bind]
    dsimp only
    rw [C39_iterimageRGB_partial h.valid (.inl rfl), ok_bind]
    simp only [if_true]
    rw [e, ok_bind]
    rfl
  · intro x y hx hy
    rw [hr.pixels x y hx hy]
    unfold reduce
    rw [if_pos rfl]
    by_cases g : 192 < random ((x : Int), (y : Int))
    · rw [if_pos g, if_pos ((dot_on (h0 _)).mpr g)]
    · rw [if_neg g, if_neg (by intro hh; exact g ((dot_on (h0 _)).mp hh))]

/-- C129: images of other depths are left alone. -/
theorem C129_other (h : Stored fs ex b W H bits) (h24 : bits ≠ 24) (random : Int × Int → Int) (newbits t : Int)
    (mono : Option (ℚ × ℚ × ℚ)) : reduce24bitimagebits random fs ex nw newbits t mono = .ok fs := by
  unfold reduce24bitimagebits
  rw [applysaveopt_run h]
  rw [h.valid.bits_eq, ok_bind]
  dsimp only
  rw [if_pos (by omega)]
  rfl

/-- A file with a true colour image of one blue pixel. -/
def oneBlue : Files := fun n =>
  if n = "a" then (match newBMP 1 1 24 >>= fun b => plotxybit b 0 0 0x0000ff with | .ok b => some b | .error _ => none) else none

/-- C129 is false for images with few colours: the palette is not put into the image. A blue image becomes dark red
although the palette computed has the blue, and although the default palette has it too. -/
theorem C129_few_false :
    (do
      let fs ← reduce24bitimagebits (fun _ => 0) oneBlue "a" "b" 4 10 none
      let n := (fs "b").getD []
      let c ← getxybit n 0 0
      let p ← getallRGBpal n
      pure (p[c.toNat]?, decide ((0, 0, 255) ∈ p))) = (.ok (some (128, 0, 0), true) : Py (Option RGB × Bool)) := by
  decide +kernel

/-- A number limited to the interval from 0 to 1. -/
def limit (t : ℚ) : ℚ := max 0 (min 1 t)

/-- The colour with hue `h` (in sixths of the circle), saturation `s` and luminosity `l`. -/
def hslColour (h s l : ℚ) : ℚ × ℚ × ℚ :=
  let c := (1 - |2 * l - 1|) * s
  (l + c * (limit (|h - 3| - 1) - 1 / 2), l + c * (limit (2 - |h - 2|) - 1 / 2), l + c * (limit (2 - |h - 4|) - 1 / 2))

theorem limit_lo {t : ℚ} (h : t ≤ 0) : limit t = 0 := by
  unfold limit
  exact max_eq_left ((min_le_right _ _).trans h)

theorem limit_hi {t : ℚ} (h : 1 ≤ t) : limit t = 1 := by
  unfold limit
  rw [min_eq_left h, max_eq_right zero_le_one]

theorem limit_mid {t : ℚ} (h : 0 ≤ t) (h' : t ≤ 1) : limit t = t := by
  unfold limit
  rw [min_eq_right h', max_eq_right h]

/-- The hue, the saturation and the luminosity of three numbers with the largest `hi` and the smallest `lo`. -/
theorem sat_chroma {hi lo : ℚ} (h0 : 0 ≤ lo) (h1 : hi ≤ 1) (hlt : lo < hi) :
    (1 - |2 * ((hi + lo) / 2) - 1|) * ((hi - lo) / (1 - |2 * ((hi + lo) / 2) - 1|)) = hi - lo ∧
    0 ≤ (hi - lo) / (1 - |2 * ((hi + lo) / 2) - 1|) ∧ (hi - lo) / (1 - |2 * ((hi + lo) / 2) - 1|) ≤ 1 := by
  have hp : hi - lo ≤ 1 - |2 * ((hi + lo) / 2) - 1| := by
    rcases abs_cases (2 * ((hi + lo) / 2) - 1) with ⟨e, -⟩ | ⟨e, -⟩ <;> rw [e] <;> linarith
  have hc : 0 < 1 - |2 * ((hi + lo) / 2) - 1| := by linarith
  refine ⟨?_, ?_, ?_⟩
  · rw [← mul_div_assoc]; exact mul_div_cancel_left₀ _ hc.ne'
  · exact div_nonneg (by linarith) hc.le
  · rw [div_le_one hc]; exact hp

theorem hsl_core {r g b : ℚ} {hi lo hue : ℚ}
    (hhi : hi = max (max r g) b) (hlo : lo = min (min r g) b) (hne : hi ≠ lo)
    (hhue : hue = if hi = r then (g - b) / (hi - lo) + (if g < b then 6 else 0)
      else if hi = g then (b - r) / (hi - lo) + 2 else (r - g) / (hi - lo) + 4) :
    (0 ≤ hue ∧ hue < 6) ∧
    lo + (hi - lo) * limit (|hue - 3| - 1) = r ∧ lo + (hi - lo) * limit (2 - |hue - 2|) = g ∧
      lo + (hi - lo) * limit (2 - |hue - 4|) = b := by
  have a1 : r ≤ hi := by rw [hhi]; exact (le_max_left _ _).trans (le_max_left _ _)
  have a2 : g ≤ hi := by rw [hhi]; exact (le_max_right _ _).trans (le_max_left _ _)
  have a3 : b ≤ hi := by rw [hhi]; exact le_max_right _ _
  have b1 : lo ≤ r := by rw [hlo]; exact (min_le_left _ _).trans (min_le_left _ _)
  have b2 : lo ≤ g := by rw [hlo]; exact (min_le_left _ _).trans (min_le_right _ _)
  have b3 : lo ≤ b := by rw [hlo]; exact min_le_right _ _
  have hm : hi = r ∨ hi = g ∨ hi = b := by
    rw [hhi]
    rcases max_choice (max r g) b with e | e
    · rcases max_choice r g with e' | e'
      · left; rw [e, e']
      · right; left; rw [e, e']
    · right; right; exact e
  have hm' : lo = r ∨ lo = g ∨ lo = b := by
    rw [hlo]
    rcases min_choice (min r g) b with e | e
    · rcases min_choice r g with e' | e'
      · left; rw [e, e']
      · right; left; rw [e, e']
    · right; right; exact e
  clear hhi hlo
  have hc : 0 < hi - lo := lt_of_le_of_ne (by linarith) (fun e => hne (by linarith))
  have hc' := hc.ne'
  -- quotients of differences
  have q1 : ∀ t : ℚ, 0 ≤ t → t ≤ hi - lo → 0 ≤ t / (hi - lo) ∧ t / (hi - lo) ≤ 1 :=
    fun t h h' => ⟨div_nonneg h hc.le, (div_le_one hc).mpr h'⟩
  have q2 : ∀ t : ℚ, (hi - lo) * (t / (hi - lo)) = t := fun t => by field_simp
  by_cases c1 : hi = r
  · rw [if_pos c1] at hhue
    by_cases c2 : g < b
    · rw [if_pos c2] at hhue
      have hl : lo = g := by
        rcases hm' with e | e | e
        · exact absurd (c1.trans e.symm) hne
        · exact e
        · linarith
      obtain ⟨t0, t1⟩ := q1 (b - lo) (by linarith) (by linarith)
      have hh : hue = 6 - (b - lo) / (hi - lo) := by rw [hhue, ← hl]; field_simp; ring
      have tp : 0 < (b - lo) / (hi - lo) := div_pos (by linarith) hc
      have e1 := q2 (b - lo)
      generalize (b - lo) / (hi - lo) = t at *
      subst hh
      refine ⟨⟨by linarith, by linarith⟩, ?_, ?_, ?_⟩
      · rw [abs_of_nonneg (by linarith), limit_hi (by linarith)]; linarith
      · rw [abs_of_nonneg (by linarith), limit_lo (by linarith)]; linarith
      · rw [abs_of_nonneg (by linarith), show 2 - (6 - t - 4) = t by ring, limit_mid t0 t1]; linarith
    · rw [if_neg c2] at hhue
      have hl : lo = b := by
        rcases hm' with e | e | e
        · exact absurd (c1.trans e.symm) hne
        · linarith
        · exact e
      obtain ⟨t0, t1⟩ := q1 (g - lo) (by linarith) (by linarith)
      have hh : hue = (g - lo) / (hi - lo) := by rw [hhue, ← hl]; ring
      have e1 := q2 (g - lo)
      generalize (g - lo) / (hi - lo) = t at *
      subst hh
      refine ⟨⟨by linarith, by linarith⟩, ?_, ?_, ?_⟩
      · rw [abs_of_nonpos (by linarith), limit_hi (by linarith)]; linarith
      · rw [abs_of_nonpos (by linarith), show 2 - -(hue - 2) = hue by ring, limit_mid t0 t1]; linarith
      · rw [abs_of_nonpos (by linarith), limit_lo (by linarith)]; linarith
  · rw [if_neg c1] at hhue
    by_cases c3 : hi = g
    · rw [if_pos c3] at hhue
      by_cases c2 : b ≤ r
      · have hl : lo = b := by
          rcases hm' with e | e | e
          · linarith
          · exact absurd (c3.trans e.symm) hne
          · exact e
        obtain ⟨t0, t1⟩ := q1 (r - lo) (by linarith) (by linarith)
        have hh : hue = 2 - (r - lo) / (hi - lo) := by rw [hhue, ← hl]; field_simp; ring
        have e1 := q2 (r - lo)
        generalize (r - lo) / (hi - lo) = t at *
        subst hh
        refine ⟨⟨by linarith, by linarith⟩, ?_, ?_, ?_⟩
        · rw [abs_of_nonpos (by linarith), show -(2 - t - 3) - 1 = t by ring, limit_mid t0 t1]; linarith
        · rw [abs_of_nonpos (by linarith), limit_hi (by linarith)]; linarith
        · rw [abs_of_nonpos (by linarith), limit_lo (by linarith)]; linarith
      · have hl : lo = r := by
          rcases hm' with e | e | e
          · exact e
          · exact absurd (c3.trans e.symm) hne
          · linarith
        obtain ⟨t0, t1⟩ := q1 (b - lo) (by linarith) (by linarith)
        have hh : hue = 2 + (b - lo) / (hi - lo) := by rw [hhue, ← hl]; ring
        have e1 := q2 (b - lo)
        generalize (b - lo) / (hi - lo) = t at *
        subst hh
        refine ⟨⟨by linarith, by linarith⟩, ?_, ?_, ?_⟩
        · rw [abs_of_nonpos (by linarith), limit_lo (by linarith)]; linarith
        · rw [abs_of_nonneg (by linarith), limit_hi (by linarith)]; linarith
        · rw [abs_of_nonpos (by linarith), show 2 - -(2 + t - 4) = t by ring, limit_mid t0 t1]; linarith
    · rw [if_neg c3] at hhue
      have c4 : hi = b := by
        rcases hm with e | e | e
        · exact absurd e c1
        · exact absurd e c3
        · exact e
      by_cases c2 : r ≤ g
      · have hl : lo = r := by
          rcases hm' with e | e | e
          · exact e
          · linarith
          · exact absurd (c4.trans e.symm) hne
        obtain ⟨t0, t1⟩ := q1 (g - lo) (by linarith) (by linarith)
        have hh : hue = 4 - (g - lo) / (hi - lo) := by rw [hhue, ← hl]; field_simp; ring
        have e1 := q2 (g - lo)
        generalize (g - lo) / (hi - lo) = t at *
        subst hh
        refine ⟨⟨by linarith, by linarith⟩, ?_, ?_, ?_⟩
        · rw [limit_lo (by rcases abs_cases (4 - t - 3) with ⟨e, -⟩ | ⟨e, -⟩ <;> rw [e] <;> linarith)]; linarith
        · rw [abs_of_nonneg (by linarith), show 2 - (4 - t - 2) = t by ring, limit_mid t0 t1]; linarith
        · rw [abs_of_nonpos (by linarith), limit_hi (by linarith)]; linarith
      · have hl : lo = g := by
          rcases hm' with e | e | e
          · linarith
          · exact e
          · exact absurd (c4.trans e.symm) hne
        obtain ⟨t0, t1⟩ := q1 (r - lo) (by linarith) (by linarith)
        have hh : hue = 4 + (r - lo) / (hi - lo) := by rw [hhue, ← hl]; ring
        have e1 := q2 (r - lo)
        generalize (r - lo) / (hi - lo) = t at *
        subst hh
        refine ⟨⟨by linarith, by linarith⟩, ?_, ?_, ?_⟩
        · rw [abs_of_nonneg (by linarith), show 4 + t - 3 - 1 = t by ring, limit_mid t0 t1]; linarith
        · rw [abs_of_nonneg (by linarith), limit_lo (by linarith)]; linarith
        · rw [abs_of_nonneg (by linarith), limit_hi (by linarith)]; linarith

/-- C130: hue, saturation and luminosity before rounding are those of the colour, in their ranges. -/
theorem C130_hsl {r g b : Int} (hr : 0 ≤ r ∧ r ≤ 255) (hg : 0 ≤ g ∧ g ≤ 255) (hb : 0 ≤ b ∧ b ≤ 255) :
    hslColour (hslExact r g b).1 (hslExact r g b).2.1 (hslExact r g b).2.2 = ((r : ℚ) / 255, (g : ℚ) / 255, (b : ℚ) / 255) ∧
    (0 ≤ (hslExact r g b).1 ∧ (hslExact r g b).1 < 6) ∧ (0 ≤ (hslExact r g b).2.1 ∧ (hslExact r g b).2.1 ≤ 1) ∧
      (0 ≤ (hslExact r g b).2.2 ∧ (hslExact r g b).2.2 ≤ 1) := by
  have key : ∀ {n : Int}, 0 ≤ n ∧ n ≤ 255 → 0 ≤ (n : ℚ) / 255 ∧ (n : ℚ) / 255 ≤ 1 := by
    intro n ⟨h0, h1⟩
    have h0' : (0 : ℚ) ≤ n := by exact_mod_cast h0
    have h1' : (n : ℚ) ≤ 255 := by exact_mod_cast h1
    exact ⟨by positivity, by rw [div_le_one (by norm_num)]; exact h1'⟩
  have kr := key hr
  have kg := key hg
  have kb := key hb
  unfold hslExact
  dsimp only
  generalize (r : ℚ) / 255 = R at *
  generalize (g : ℚ) / 255 = G at *
  generalize (b : ℚ) / 255 = B at *
  have a1 : R ≤ max (max R G) B := (le_max_left _ _).trans (le_max_left _ _)
  have a2 : G ≤ max (max R G) B := (le_max_right _ _).trans (le_max_left _ _)
  have a3 : B ≤ max (max R G) B := le_max_right _ _
  have a4 : max (max R G) B ≤ 1 := max_le (max_le kr.2 kg.2) kb.2
  have b1 : min (min R G) B ≤ R := (min_le_left _ _).trans (min_le_left _ _)
  have b2 : min (min R G) B ≤ G := (min_le_left _ _).trans (min_le_right _ _)
  have b3 : min (min R G) B ≤ B := min_le_right _ _
  have b4 : 0 ≤ min (min R G) B := le_min (le_min kr.1 kg.1) kb.1
  by_cases hne : max (max R G) B ≠ min (min R G) B
  · rw [if_pos hne]
    have core := hsl_core rfl rfl hne rfl
    dsimp only
    generalize (if max (max R G) B = R then (G - B) / (max (max R G) B - min (min R G) B) + (if G < B then 6 else 0)
      else if max (max R G) B = G then (B - R) / (max (max R G) B - min (min R G) B) + 2
      else (R - G) / (max (max R G) B - min (min R G) B) + 4) = hue at core ⊢
    generalize max (max R G) B = hi at *
    generalize min (min R G) B = lo at *
    obtain ⟨s1, s2, s3⟩ := sat_chroma b4 a4 (lt_of_le_of_ne (by linarith) hne.symm)
    obtain ⟨k0, k1, k2, k3⟩ := core
    refine ⟨?_, k0, ⟨s2, s3⟩, by linarith, by linarith⟩
    unfold hslColour
    dsimp only
    rw [s1]
    refine Prod.ext ?_ (Prod.ext ?_ ?_) <;> dsimp only <;> linarith
  · rw [if_neg hne]
    rw [ne_eq, not_not] at hne
    generalize max (max R G) B = hi at *
    generalize min (min R G) B = lo at *
    dsimp only
    refine ⟨?_, by norm_num, by norm_num, by linarith, by linarith⟩
    unfold hslColour
    dsimp only
    rw [mul_zero]
    refine Prod.ext ?_ (Prod.ext ?_ ?_) <;> dsimp only <;> linarith

/-- C130: the rounded values are from 0 to 360, 0 to 100 and 0 to 100. -/
theorem C130_range {r g b : Int} (hr : 0 ≤ r ∧ r ≤ 255) (hg : 0 ≤ g ∧ g ≤ 255) (hb : 0 ≤ b ∧ b ≤ 255) :
    (0 ≤ (RGB2HSL r g b).1 ∧ (RGB2HSL r g b).1 ≤ 360) ∧ (0 ≤ (RGB2HSL r g b).2.1 ∧ (RGB2HSL r g b).2.1 ≤ 100) ∧
      (0 ≤ (RGB2HSL r g b).2.2 ∧ (RGB2HSL r g b).2.2 ≤ 100) := by
  obtain ⟨-, ⟨h0, h1⟩, ⟨s0, s1⟩, l0, l1⟩ := C130_hsl hr hg hb
  have key : ∀ {q : ℚ} {m : Int}, 0 ≤ q → q ≤ m → 0 ≤ rnd q ∧ rnd q ≤ m := by
    intro q m h h'
    have e1 := rnd_mono h
    have e2 := rnd_mono h'
    rw [rnd_int] at e2
    rw [show rnd 0 = 0 from by decide +kernel] at e1
    exact ⟨e1, e2⟩
  unfold RGB2HSL
  dsimp only
  exact ⟨key (by linarith) (by push_cast; linarith), key (by linarith) (by push_cast; linarith), key (by linarith) (by push_cast; linarith)⟩

/-- C130: saturation 0 before rounding means grey, and grey has hue 0. -/
theorem C130_grey {r g b : Int} (hr : 0 ≤ r ∧ r ≤ 255) (hg : 0 ≤ g ∧ g ≤ 255) (hb : 0 ≤ b ∧ b ≤ 255) :
    ((hslExact r g b).2.1 = 0 ↔ r = g ∧ g = b) ∧ (r = g ∧ g = b → (hslExact r g b).1 = 0) := by
  have h255 : ∀ m n : Int, (m : ℚ) / 255 = (n : ℚ) / 255 → m = n := by
    intro m n h
    have : (m : ℚ) = n := by linarith
    exact_mod_cast this
  refine ⟨⟨?_, ?_⟩, ?_⟩
  · intro hs
    have := (C130_hsl hr hg hb).1
    rw [hs] at this
    unfold hslColour at this
    dsimp only at this
    rw [mul_zero, zero_mul, zero_mul, zero_mul, Prod.mk.injEq, Prod.mk.injEq] at this
    exact ⟨h255 _ _ (this.1.symm.trans this.2.1), h255 _ _ (this.2.1.symm.trans this.2.2)⟩
  · rintro ⟨rfl, rfl⟩
    simp [hslExact]
  · rintro ⟨rfl, rfl⟩
    simp [hslExact]

/-- C130: the hue 0 also appears as 360. -/
theorem C130_hue_wrong : RGB2HSL 255 0 1 = (360, 100, 50) ∧ RGB2HSL 255 1 0 = (0, 100, 50) := by decide +kernel

example : RGB2HSL 255 128 0 = (30, 100, 50) ∧ RGB2HSL 0 64 128 = (210, 100, 25) ∧ RGB2HSL 200 200 200 = (0, 0, 78) := by
  decide +kernel

end Verif.Props.Pals
