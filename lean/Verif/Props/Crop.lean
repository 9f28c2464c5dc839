import Verif.Lemmas.NewImage
import Verif.Props.Invert
/-! C35: cutting out a rectangle. -/

namespace Verif.Props
open Verif Spec Model

variable {b : Bytes} {W H bits : Nat}

/-- The palette of a new image of the given depth. -/
def freshPal (bits c : Nat) : Nat × Nat × Nat :=
  match getdefaultbitpal (bits : Int) with
  | .ok pal => let p := pal.getD c (0, 0, 0); (p.1.toNat, p.2.1.toNat, p.2.2.toNat)
  | .error _ => (0, 0, 0)

theorem newBMP_pal {n0 : Bytes} (v0 : Valid n0 W H bits) (h24 : bits ≠ 24)
    (hp : ∀ pal, getdefaultbitpal bits = .ok pal → getallRGBpal n0 = .ok pal) {c : Nat} (hc : c < 2 ^ bits) :
    palRGB n0 c = freshPal bits c := by
  obtain ⟨pal, e, hl, _⟩ := stdpal_facts (v0.depth3 h24)
  have h1 := hp pal e
  rw [v0.getallRGBpal_eq h24] at h1
  have h2 := Except.ok.inj h1
  unfold freshPal
  rw [e, ← h2]
  dsimp only
  simp [List.getD, List.getElem?_map, List.getElem?_range hc, rgbI]

theorem map_some_ok {α : Type} (x : α) : (some <$> (.ok x : Py α)) = .ok (some x) := rfl

/-- C35, the pixels: a rectangle inside the image gives an image of its size with the same colour
numbers. The palette is the source palette for 1- and 4-bit images, but that of a new image for 8-bit
images, see `C35_false`. -/
theorem C35_crop_partial (h : Valid b W H bits) {x1 y1 x2 y2 : Int} (hi : InImage W H x1 y1 x2 y2) :
    ∃ n, crop b x1 y1 x2 y2 = .ok (some n) ∧
      Shows n ((max x1 x2 - min x1 x2).toNat + 1) ((max y1 y2 - min y1 y2).toNat + 1) bits
        (if bits < 8 then palRGB b else freshPal bits)
        (fun x y => pix b W H bits ((min x1 x2).toNat + x) ((min y1 y2).toNat + y)) := by
  obtain ⟨xa, hxa⟩ : ∃ n : Nat, (n : Int) = min x1 x2 := ⟨(min x1 x2).toNat, by unfold InImage at hi; omega⟩
  obtain ⟨xb, hxb⟩ : ∃ n : Nat, (n : Int) = max x1 x2 := ⟨(max x1 x2).toNat, by unfold InImage at hi; omega⟩
  obtain ⟨ya, hya⟩ : ∃ n : Nat, (n : Int) = min y1 y2 := ⟨(min y1 y2).toNat, by unfold InImage at hi; omega⟩
  obtain ⟨yb, hyb⟩ : ∃ n : Nat, (n : Int) = max y1 y2 := ⟨(max y1 y2).toNat, by unfold InImage at hi; omega⟩
  have hW : xb < W := by unfold InImage at hi; omega
  have hH : yb < H := by unfold InImage at hi; omega
  have hxle : xa ≤ xb := by omega
  have hyle : ya ≤ yb := by omega
  have hwlt := h.wlt
  have hhlt := h.hlt
  unfold InImage at hi
  unfold crop
  rw [rectinboundary_eq h, if_pos hi]
  rw [sortrec_eq]
  dsimp only
  rw [← hxa, ← hxb, ← hya, ← hyb, Int.toNat_natCast, Int.toNat_natCast,
    show ((xb : Int) - (xa : Int)).toNat + 1 = xb - xa + 1 by omega,
    show ((yb : Int) - (ya : Int)).toNat + 1 = yb - ya + 1 by omega,
    show (xb : Int) - (xa : Int) + 1 = ((xb - xa + 1 : Nat) : Int) by omega,
    show (yb : Int) - (ya : Int) + 1 = ((yb - ya + 1 : Nat) : Int) by omega, h.bits_eq]
  simp only [ok_bind]
  obtain ⟨n0, e0, v0, _, _, _, _, _, hp0⟩ := C01_newBMP_valid (xb - xa + 1) (yb - ya + 1) bits h.depth (by omega) (by omega)
  rw [e0]
  simp only [ok_bind]
  by_cases h8 : bits < 8
  · rw [if_pos h8, if_pos h8]
    obtain ⟨n1, e1, v1, pal1, pix1⟩ := copyPal h v0
    rw [e1]
    simp only [ok_bind]
    obtain ⟨n2, e2, v2, s2, p2⟩ := foldl_plot (W := xb - xa + 1) (H := yb - ya + 1) (bits := bits)
      (fun (nbmp : Bytes) (p : Int × Int) => do
        let c ← getxybit b p.1 p.2
        plotxybit nbmp (p.1 - (xa : Int)) (p.2 - (ya : Int)) c)
      (rectPoints xa ya xb yb) (fun p => (p.1 - (xa : Int)).toNat) (fun p => (p.2 - (ya : Int)).toNat)
      (fun p => pix b W H bits p.1.toNat p.2.toNat)
      (fun x y => pix b W H bits (xa + x) (ya + y))
      (by
        intro p hp
        rw [mem_rectPoints] at hp
        refine ⟨by omega, by omega, h.pix_lt _ _, ?_⟩
        congr 1 <;> omega)
      (by
        intro nb hnb p hp
        rw [mem_rectPoints] at hp
        obtain ⟨x, hx⟩ : ∃ n : Nat, p.1 = (n : Int) := ⟨p.1.toNat, by omega⟩
        obtain ⟨y, hy⟩ : ∃ n : Nat, p.2 = (n : Int) := ⟨p.2.toNat, by omega⟩
        rw [hx, hy, h.getxybit_eq (by omega) (by omega)]
        have := h.pix_lt x y
        simp only [ok_bind]
        rw [show (x : Int) - (xa : Int) = ((x - xa : Nat) : Int) by omega,
          show (y : Int) - (ya : Int) = ((y - ya : Nat) : Int) by omega,
          hnb.plot_eq (by omega) (by omega) (fun h24 => by omega), reduce_of_colour h.depth ⟨by omega, by exact_mod_cast this⟩]
        rfl) v1
    rw [e2]
    refine ⟨n2, rfl, v2, ?_, ?_⟩
    · intro h24 c hc
      rw [samePal s2 h24 hc, pal1 h24 c hc]
    · intro x y hx hy
      apply (p2 x y hx hy).1
      refine ⟨((xa + x : Nat), (ya + y : Nat)), ?_, ?_, ?_⟩
      · rw [mem_rectPoints]; dsimp only; omega
      · dsimp only; omega
      · dsimp only; omega
  · rw [if_neg h8, if_neg h8, v0.xchrcnt_eq]
    have hb : bits = 8 ∨ bits = 24 := by rcases h.depth with rfl | rfl | rfl | rfl <;> omega
    simp only [ok_bind]
    obtain ⟨s, e, P⟩ := itercopyrect_rule (src := fun _ : Bytes × Int => b) (st := (n0, (0 : Int))) h
      (x1 := xa) (y1 := ya) (x2 := xb) (y2 := yb) (xa := xa) (xb := xb) (ya := ya) (yb := yb)
      (by omega) (by omega) (by omega) (by omega) hW hH
      (by unfold Aligned; rcases hb with rfl | rfl <;> omega)
      (body := fun st buf => do
        let nbmp ← BMPbitBLTput st.1 st.2 buf
        pure (nbmp, st.2 + (rowLen (xb - xa + 1) bits : Int)))
      (P := fun k st => st.2 = ((k * rowLen (xb - xa + 1) bits : Nat) : Int) ∧
        RowsDone n0 st.1 (xb - xa + 1) (yb - ya + 1) bits k (fun x y => pix b W H bits (xa + x) (ya + y)))
      ⟨by simp, RowsDone.start v0 _⟩
      (by
        rintro k ⟨nb, off⟩ hk ⟨hoff, hrd⟩
        refine ⟨h, ?_⟩
        obtain ⟨n3, e3, r3⟩ := hrd.step (by omega)
          (buf := seg b W H bits (yb - k) (xa * bits / 8) ((xb - xa + 1) * bits / 8)) (seg_bytes h _ _ _)
          (by rw [length_seg]; unfold rowLen; rcases hb with rfl | rfl <;> omega)
          (by intro x hx; rw [length_seg]; unfold bpp; rcases hb with rfl | rfl <;> norm_num <;> omega)
          (by
            intro x hx
            rw [bufPx_seg h.depth (by rcases hb with rfl | rfl <;> omega)
              (by unfold bpp; rcases hb with rfl | rfl <;> norm_num <;> omega)]
            congr 1; omega)
        dsimp only at hoff
        refine ⟨(n3, off + (rowLen (xb - xa + 1) bits : Int)), ?_, ?_, r3⟩
        · dsimp only
          rw [hoff, e3]; rfl
        · dsimp only
          rw [hoff]; push_cast; ring)
    rw [e]
    refine ⟨s.1, rfl, P.2.valid, ?_, fun x y hx hy => P.2.rows x y hx hy (by omega)⟩
    intro h24 c hc
    rw [samePal P.2.header h24 hc, newBMP_pal v0 h24 hp0 hc]

/-- C35: a selection that is not inside the image is rejected. -/
theorem C35_outside (h : Valid b W H bits) {x1 y1 x2 y2 : Int} (hi : ¬ InImage W H x1 y1 x2 y2) :
    crop b x1 y1 x2 y2 = .ok none := by
  unfold InImage at hi
  unfold crop
  rw [rectinboundary_eq h, if_neg hi]

/-- C35: for 1-, 4- and 24-bit images the cut-out looks like the source. -/
theorem C35_looks_same_partial (h : Valid b W H bits) (h8 : bits ≠ 8) {x1 y1 x2 y2 : Int} (hi : InImage W H x1 y1 x2 y2) :
    ∃ n W' H', crop b x1 y1 x2 y2 = .ok (some n) ∧ Valid n W' H' bits ∧
      (W' : Int) = max x1 x2 - min x1 x2 + 1 ∧ (H' : Int) = max y1 y2 - min y1 y2 + 1 ∧
      ∀ x y, x < W' → y < H' → pixRGB n W' H' bits x y
        = pixRGB b W H bits ((min x1 x2).toNat + x) ((min y1 y2).toNat + y) := by
  obtain ⟨n, e, s⟩ := C35_crop_partial h hi
  refine ⟨n, _, _, e, s.valid, by omega, by omega, ?_⟩
  intro x y hx hy
  have hp := s.pixels x y hx hy
  unfold pixRGB
  dsimp only
  rw [hp]
  by_cases h24 : bits = 24
  · rw [if_pos h24, if_pos h24]
  · rw [if_neg h24, if_neg h24, s.palette h24 _ (h.pix_lt _ _), if_pos]
    rcases h.depth with rfl | rfl | rfl | rfl <;> omega

/-- C35 is false as stated: the palette of an 8-bit image is lost. Colour 1 of the grey sample image
is `(1, 1, 1)`; in the cut-out it is a blue. -/
theorem C35_false : ¬ ∀ (b : Bytes) (W H bits : Nat) (x1 y1 x2 y2 : Int), Valid b W H bits → InImage W H x1 y1 x2 y2 →
    ∃ n W' H', crop b x1 y1 x2 y2 = .ok (some n) ∧ Valid n W' H' bits ∧
      (W' : Int) = max x1 x2 - min x1 x2 + 1 ∧ (H' : Int) = max y1 y2 - min y1 y2 + 1 ∧
      ∀ x y, x < W' → y < H' → pixRGB n W' H' bits x y
        = pixRGB b W H bits ((min x1 x2).toNat + x) ((min y1 y2).toNat + y) := by
  intro hall
  have h8 := sample8_valid
  have v := h8.valid_plotP (x := 0) (y := 0) (n := 1) (by omega) (by omega) (by norm_num)
  have hi : InImage 3 4 0 0 1 1 := by unfold InImage; omega
  obtain ⟨n, W', H', e1, v1, hw, hh, hp⟩ := hall _ _ _ _ 0 0 1 1 v hi
  obtain ⟨n', e2, s2⟩ := C35_crop_partial v hi
  rw [e1] at e2
  obtain rfl := Option.some.inj (Except.ok.inj e2)
  obtain rfl : W' = 2 := by omega
  obtain rfl : H' = 2 := by omega
  have h1 := hp 0 0 (by omega) (by omega)
  have h2 := s2.pixels 0 0 (by omega) (by omega)
  have h3 := s2.palette (by omega) 1 (by norm_num)
  have hpx : pix (plotP sample8 3 4 8 0 0 1) 3 4 8 0 0 = 1 := by
    rw [h8.pix_plotP (by omega) (by omega) (by omega) (by omega) (by norm_num)]; simp
  unfold pixRGB at h1
  dsimp only at h1 h2
  have e0 : (min (0 : Int) 1).toNat + 0 = 0 := rfl
  rw [if_neg (by omega), if_neg (by omega), e0, hpx] at h1
  rw [e0, hpx] at h2
  have e3 : (max (0 : Int) 1 - min 0 1).toNat + 1 = 2 := rfl
  rw [e3] at h2
  rw [h2, h3, if_neg (by omega)] at h1
  have e4 : palRGB (plotP sample8 3 4 8 0 0 1) 1 = (1, 1, 1) := by decide +kernel
  have e5 : freshPal 8 1 ≠ (1, 1, 1) := by decide +kernel
  rw [e4] at h1
  exact e5 h1

example : (do let n ← crop (← plotxybit (← newBMP 5 3 4) 3 1 7) 4 2 2 1
              match n with
              | some n => pure (← getmaxxy n, ← getxybit n 1 0, ← getxybit n 0 0)
              | none => .error .typeError) = .ok ((3, 2), 7, 0) := by decide +kernel
example : (do crop (← newBMP 5 3 4) 4 2 5 1) = .ok none := by decide +kernel

end Verif.Props
