import Verif.Props.Pals
/-! C127: the shifted palettes of every depth. -/

namespace Verif.Props.Pals
open Verif Spec Model Verif.Props

/-- C127: at every place of the shifted palettes of all depths is the shade of the grey that belongs to the place,
or of the opposite one, multiplied and shifted modulo 256. -/
theorem C127_shift_exact {bits : Nat} (hb : bits = 1 ∨ bits = 4 ∨ bits = 8) {f : ℚ × ℚ × ℚ} (hf : Unit f) (mult shift : Int) :
    ∃ pal inv, monoshiftablepal bits f mult shift = .ok pal ∧ monoinverseshiftablepal bits f mult shift = .ok inv ∧
      pal.length = 2 ^ bits ∧ inv.length = 2 ^ bits ∧
      (∀ (k : Nat) (hk : k < pal.length), ShadeOf f ((grey bits k * mult + shift) % 256).toNat pal[k]) ∧
      ∀ (k : Nat) (hk : k < inv.length), ShadeOf f (((255 - grey bits k) * mult + shift) % 256).toNat inv[k] := by
  have hj : ∀ v : Int, shadeRGB f (v % 256) = shadeRGB f (((v % 256).toNat : Nat) : Int) := by
    intro v; rw [Int.toNat_of_nonneg (by omega)]
  refine ⟨_, _, by unfold monoshiftablepal; rw [lums hb, ok_bind, pure_eq_ok],
    by unfold monoinverseshiftablepal; rw [lums hb, ok_bind, pure_eq_ok], by simp, by simp, ?_, ?_⟩
  · intro k hk
    simp only [List.getElem_map, List.getElem_range]
    rw [hj]
    exact shade_of hf (by omega)
  · intro k hk
    simp only [List.getElem_map, List.getElem_range]
    rw [hj]
    exact shade_of hf (by omega)

/-- C127: the opposite shades with 256 colours are rotated the other way. -/
theorem C127_inverse_shift (f : ℚ × ℚ × ℚ) (s : Int) :
    ∃ pal pal0, monoinverseshiftablepal 8 f 1 s = .ok pal ∧ monochromepal 8 f = .ok pal0 ∧ pal.length = 256 ∧ pal0.length = 256 ∧
      ∀ k : Nat, k < 256 → pal[k]? = pal0[((255 - k + s) % 256).toNat]? := by
  refine ⟨_, _, by unfold monoinverseshiftablepal; rw [lums (by simp), ok_bind, pure_eq_ok],
    by unfold monochromepal; rw [lums (by simp), ok_bind, pure_eq_ok], by simp, by simp, ?_⟩
  intro k hk
  have hm : ((255 - k + s) % 256).toNat < 256 := by omega
  have g : ∀ j, grey 8 j = j := by intro j; unfold grey; norm_num
  simp only [List.getElem?_map, List.getElem?_range (show k < 2 ^ 8 by omega), List.getElem?_range (show ((255 - k + s) % 256).toNat < 2 ^ 8 by omega),
    Option.map_some, g]
  rw [mul_one, Int.toNat_of_nonneg (by omega)]

/-- C127 is false with 16 colours: after a shift by one place, 17 levels, the last entry is a dark shade that is not in
the palette without the shift. -/
theorem C127_shift_false : ∃ pal pal0, monoshiftablepal 4 (1, 0, 0) 1 17 = .ok pal ∧ monochromepal 4 (1, 0, 0) = .ok pal0 ∧
    (16, 0, 0) ∈ pal ∧ (16, 0, 0) ∉ pal0 ∧ (0, 0, 0) ∉ pal ∧ (0, 0, 0) ∈ pal0 := by
  refine ⟨[(17, 0, 0), (34, 0, 0), (51, 0, 0), (68, 0, 0), (85, 0, 0), (102, 0, 0), (119, 0, 0), (136, 0, 0), (153, 0, 0),
    (170, 0, 0), (187, 0, 0), (204, 0, 0), (221, 0, 0), (238, 0, 0), (255, 0, 0), (16, 0, 0)],
    [(0, 0, 0), (17, 0, 0), (34, 0, 0), (51, 0, 0), (68, 0, 0), (85, 0, 0), (102, 0, 0), (119, 0, 0), (136, 0, 0), (153, 0, 0),
    (170, 0, 0), (187, 0, 0), (204, 0, 0), (221, 0, 0), (238, 0, 0), (255, 0, 0)], ?_⟩
  decide +kernel

end Verif.Props.Pals
