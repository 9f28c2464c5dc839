import Verif.Sample
import Verif.Props.Lines
/-! Properties C21 and C22: filled rectangles. -/

namespace Verif.Props
open Verif Spec Model

/-- Pixels of the closed rectangle with the given corners. -/
def RectSet (x1 y1 x2 y2 : Int) (x y : Nat) : Prop :=
  min x1 x2 ≤ x ∧ (x : Int) ≤ max x1 x2 ∧ min y1 y2 ≤ y ∧ (y : Int) ≤ max y1 y2

theorem sortrec_eq (x1 y1 x2 y2 : Int) :
    sortrecpoints x1 y1 x2 y2 = (min x1 x2, min y1 y2, max x1 x2, max y1 y2) := by
  unfold sortrecpoints
  dsimp only
  rw [swap_min, swap_min, swap_max, swap_max]

theorem rect_guard {b : Bytes} {W H bits : Nat} (h : Valid b W H bits)
    (f : Bytes → Int → Int → Int → Int → Py Bytes) (x1 y1 x2 y2 : Int) :
    entirerectinboundary f b x1 y1 x2 y2 =
      if (0 ≤ x1 ∧ x1 < W ∧ 0 ≤ y1 ∧ y1 < H) ∧ (0 ≤ x2 ∧ x2 < W ∧ 0 ≤ y2 ∧ y2 < H)
      then f b x1 y1 x2 y2 else .ok b := by
  unfold entirerectinboundary
  rw [h.inb_eq, h.inb_eq]
  simp only [ok_bind, pure_eq_ok]
  by_cases c1 : 0 ≤ x1 ∧ x1 < W ∧ 0 ≤ y1 ∧ y1 < H
  · by_cases c2 : 0 ≤ x2 ∧ x2 < W ∧ 0 ≤ y2 ∧ y2 < H
    · simp [c1, c2]
    · simp [c1, c2]
  · simp [c1]

theorem rectLoop_paints {W H bits : Nat} (hb : bits = 8 ∨ bits = 24) {xa n y1 c : Nat}
    (hx : xa + n ≤ W) (hn : 0 < n) (hc : c < 2 ^ bits) (m : Nat) (hm : y1 + m < H)
    {b : Bytes} (h : Valid b W H bits) (fuel : Nat) (hf : m + 1 ≤ fuel) :
    Paints b (rectLoop (run bits c n) (addr W H bits (xa + n - 1) y1 : Int) (b.length : Int) (rowLen W bits : Int)
        fuel b (addr W H bits xa (y1 + m) : Int)) W H bits
      (fun x y => y1 ≤ y ∧ y ≤ y1 + m ∧ xa ≤ x ∧ x < xa + n) c := by
  induction m generalizing b fuel with
  | zero =>
    obtain ⟨fuel, rfl⟩ : ∃ f, fuel = f + 1 := ⟨fuel - 1, by omega⟩
    have hfit := addr_le_len h hb hx hn (show y1 + 0 < H by omega)
    rw [← length_run bits c n] at hfit
    have hk := addr_x (W := W) (H := H) hb xa y1
    have hk2 := addr_x (W := W) (H := H) hb (xa + n - 1) y1
    have hin := addr_in_row (H := H) (x := xa + n - 1) (y := y1) h.depth (show xa + n - 1 < W by omega)
    have hbp : (if bits = 24 then 3 else 1) = bpp bits := rfl
    rw [hbp] at hin
    have hbpos : 1 ≤ bpp bits := by unfold bpp; split_ifs <;> omega
    have hmono : bpp bits * xa ≤ bpp bits * (xa + n - 1) := Nat.mul_le_mul_left _ (by omega)
    rw [rectLoop, if_pos ⟨by simp; omega, by exact_mod_cast hfit⟩]
    rw [setSlice_ok (n := addr W H bits xa (y1 + 0)) rfl rfl hfit]
    have hp := run_paints (c := c) h hb hx hn (show y1 + 0 < H by omega) hc
    have hstop : ∀ f b', rectLoop (run bits c n) (addr W H bits (xa + n - 1) y1 : Int) (b.length : Int) (rowLen W bits : Int)
        f b' ((addr W H bits xa (y1 + 0) : Int) + (rowLen W bits : Int)) = b' := by
      intro f b'
      cases f with
      | zero => rfl
      | succ f => rw [rectLoop, if_neg]; simp; omega
    rw [hstop]
    apply hp.congr
    intro x y _ _; omega
  | succ m ih =>
    obtain ⟨fuel, rfl⟩ : ∃ f, fuel = f + 1 := ⟨fuel - 1, by omega⟩
    have hfit := addr_le_len h hb hx hn hm
    rw [← length_run bits c n] at hfit
    have hp := run_paints (c := c) h hb hx hn hm hc
    have hcol : addr W H bits xa y1 = addr W H bits xa (y1 + (m + 1)) + (m + 1) * rowLen W bits := by
      have := addr_col (W := W) (H := H) (bits := bits) (x := xa) hm (m + 1) (by omega)
      rwa [show y1 + (m + 1) - (m + 1) = y1 by omega] at this
    have hcol1 : addr W H bits xa (y1 + m) = addr W H bits xa (y1 + (m + 1)) + rowLen W bits := by
      have := addr_col (W := W) (H := H) (bits := bits) (x := xa) hm 1 (by omega)
      rw [show y1 + (m + 1) - 1 = y1 + m by omega] at this
      omega
    have hk := addr_x (W := W) (H := H) hb xa y1
    have hk2 := addr_x (W := W) (H := H) hb (xa + n - 1) y1
    have hmono : bpp bits * xa ≤ bpp bits * (xa + n - 1) := Nat.mul_le_mul_left _ (by omega)
    rw [rectLoop, if_pos ⟨by omega, by exact_mod_cast hfit⟩]
    rw [setSlice_ok (n := addr W H bits xa (y1 + (m + 1))) rfl rfl hfit]
    have hl : (ow b (addr W H bits xa (y1 + (m + 1))) (run bits c n)).length = b.length := length_ow hfit
    have hq := ih (by omega) hp.valid fuel (by omega)
    rw [hl] at hq
    have e : (addr W H bits xa (y1 + (m + 1)) : Int) + (rowLen W bits : Int) = (addr W H bits xa (y1 + m) : Int) := by
      rw [hcol1]; push_cast; rfl
    rw [e]
    apply hp.trans hq
    intro x y _ _; omega

theorem filledrect_run {b : Bytes} {W H bits : Nat} (h : Valid b W H bits) (hb : bits = 8 ∨ bits = 24)
    {x1 y1 x2 y2 color : Int}
    (h1 : 0 ≤ x1 ∧ x1 < W ∧ 0 ≤ y1 ∧ y1 < H) (h2 : 0 ≤ x2 ∧ x2 < W ∧ 0 ≤ y2 ∧ y2 < H) {c : Nat} (hc : c < 2 ^ bits)
    (hbuf : ∀ n : Nat, (if bits = 24 then mkArray (pyRepeat [(int2RGB color).2.2, (int2RGB color).2.1, (int2RGB color).1] (n : Int))
        else do
          let pal ← getallRGBpal b
          mkArray (pyRepeat [matchRGBtopal (int2RGB color) false pal] (n : Int))) = .ok (run bits c n)) :
    ∃ b', filledrect b x1 y1 x2 y2 color = .ok b' ∧ Paints b b' W H bits (RectSet x1 y1 x2 y2) c := by
  unfold filledrect
  rw [rect_guard h, if_pos ⟨h1, h2⟩, h.bits_eq, sortrec_eq, h.xchrcnt_eq, h.flsz_eq]
  simp only [ok_bind]
  rw [if_neg (by omega)]
  obtain ⟨xa, hxa⟩ := Int.eq_ofNat_of_zero_le (show 0 ≤ min x1 x2 by omega)
  obtain ⟨xb, hxb⟩ := Int.eq_ofNat_of_zero_le (show 0 ≤ max x1 x2 by omega)
  obtain ⟨ya, hya⟩ := Int.eq_ofNat_of_zero_le (show 0 ≤ min y1 y2 by omega)
  obtain ⟨yb, hyb⟩ := Int.eq_ofNat_of_zero_le (show 0 ≤ max y1 y2 by omega)
  rw [hxa, hxb, hya, hyb]
  have hdx : (xb : Int) - (xa : Int) + 1 = ((xb - xa + 1 : Nat) : Int) := by omega
  have hB := hbuf (xb - xa + 1)
  rw [hdx, h.BMoffsethd_eq xa yb (by omega), h.BMoffsethd_eq xb ya (by omega)]
  have hp := rectLoop_paints (W := W) (H := H) (bits := bits) hb (xa := xa) (n := xb - xa + 1) (y1 := ya) (c := c)
    (by omega) (by omega) hc (yb - ya) (by omega) h
    ((addr W H bits xb ya : Int) - (addr W H bits xa yb : Int) + 1).toNat (by
      have hcol := addr_col (W := W) (H := H) (bits := bits) (x := xa) (show yb < H by omega) (yb - ya) (by omega)
      rw [show yb - (yb - ya) = ya by omega] at hcol
      have hk := addr_x (W := W) (H := H) hb xa ya
      have hk2 := addr_x (W := W) (H := H) hb xb ya
      have hmono : bpp bits * xa ≤ bpp bits * xb := Nat.mul_le_mul_left _ (by omega)
      have hr := rowLen_pos (bits := bits) (show 0 < W by omega) h.depth
      have : (yb - ya) * 4 ≤ (yb - ya) * rowLen W bits := Nat.mul_le_mul_left _ hr
      omega)
  rw [show xa + (xb - xa + 1) - 1 = xb by omega, show ya + (yb - ya) = yb by omega] at hp
  refine ⟨_, ?_, hp.congr ?_⟩
  · split_ifs at hB ⊢ with h24
    · rw [hB]; simp only [ok_bind]; rfl
    · cases hg : getallRGBpal b with
      | error e => rw [hg] at hB; simp at hB
      | ok pal =>
        rw [hg] at hB
        simp only [ok_bind] at hB ⊢
        rw [hB]; simp only [ok_bind]; rfl
  · intro x y hx hy
    unfold RectSet
    omega

theorem matchLoop_range (rgb : RGB) (isL : Bool) (pal : List RGB) (i c d2 : Int) (N : Int)
    (hc : 0 ≤ c ∧ c < N) (hi : 0 ≤ i) (hN : i + pal.length ≤ N) :
    0 ≤ matchLoop rgb isL pal i c d2 ∧ matchLoop rgb isL pal i c d2 < N := by
  induction pal generalizing i c d2 with
  | nil => exact hc
  | cons p ps ih =>
    simp only [List.length_cons, Nat.cast_add, Nat.cast_one] at hN
    rw [matchLoop]
    split_ifs
    · exact ih _ _ _ ⟨hi, by omega⟩ (by omega) (by omega)
    · exact ih _ _ _ hc (by omega) (by omega)
    · exact ih _ _ _ hc (by omega) (by omega)

/-- C21 where the code does it: on 24-bit and 1-bit images without restriction, on 4-bit images if
the left edge is even and the right edge is odd. Missing: other 4-bit rectangles (the fault of
`horiline`, `C21_4bit_wrong`), and the painted colour on 8-bit images (`C21_filledrect_8bit`,
`C22_wrong_index`). -/
theorem C21_filledrect_partial {b : Bytes} {W H bits : Nat} (h : Valid b W H bits) {x1 y1 x2 y2 color : Int}
    (h1 : 0 ≤ x1 ∧ x1 < W ∧ 0 ≤ y1 ∧ y1 < H) (h2 : 0 ≤ x2 ∧ x2 < W ∧ 0 ≤ y2 ∧ y2 < H)
    (hc : IsColour bits color)
    (hok : bits = 1 ∨ bits = 24 ∨ (bits = 4 ∧ (min x1 x2) % 2 = 0 ∧ (max x1 x2) % 2 = 1)) :
    ∃ b', filledrect b x1 y1 x2 y2 color = .ok b' ∧ Paints b b' W H bits (RectSet x1 y1 x2 y2) color.toNat := by
  by_cases h24 : bits = 24
  · subst h24
    refine filledrect_run h (Or.inr rfl) h1 h2 (c := color.toNat) ?_ ?_
    · have := hc.2; have := hc.1; norm_num at *; omega
    · intro n; rw [if_pos rfl]; exact pyRepeat_run24 hc.1 hc.2 n
  · unfold filledrect
    rw [rect_guard h, if_pos ⟨h1, h2⟩, h.bits_eq, sortrec_eq]
    simp only [ok_bind]
    rw [if_pos (by omega)]
    obtain ⟨xa, hxa⟩ := Int.eq_ofNat_of_zero_le (show 0 ≤ min x1 x2 by omega)
    obtain ⟨xb, hxb⟩ := Int.eq_ofNat_of_zero_le (show 0 ≤ max x1 x2 by omega)
    obtain ⟨b', e, p⟩ := foldl_paints (W := W) (H := H) (bits := bits) (c := color.toNat)
      (fun b (y : Int) => horiline b y (min x1 x2) (max x1 x2) color)
      (fun y x' y' => HSeg y (min x1 x2) (max x1 x2) x' y')
      (pyRange (min y1 y2) (max y1 y2 + 1))
      (fun b hb a _ => by
        apply C19_horiline_partial hb hc
        rcases hok with e | e | e
        · exact Or.inl e
        · omega
        · refine Or.inr (Or.inr ⟨e.1, xa, xb, by omega, by omega, by omega, by omega, by omega⟩)) h
    refine ⟨b', e, p.congr ?_⟩
    intro x' y' hx' hy'
    unfold RectSet pyRange HSeg
    simp only [List.mem_map, List.mem_range]
    constructor
    · rintro ⟨e1, e2, e3, e4⟩
      exact ⟨(y' : Int), ⟨((y' : Int) - min y1 y2).toNat, by omega, by omega⟩, rfl, by omega, by omega⟩
    · rintro ⟨a, ⟨k, hk, rfl⟩, e2, e3, e4⟩
      omega

/-- C21 on 8-bit images: exactly the rectangle is painted, in one colour. -/
theorem C21_filledrect_8bit {b : Bytes} {W H : Nat} (h : Valid b W H 8) {x1 y1 x2 y2 : Int} (color : Int)
    (h1 : 0 ≤ x1 ∧ x1 < W ∧ 0 ≤ y1 ∧ y1 < H) (h2 : 0 ≤ x2 ∧ x2 < W ∧ 0 ≤ y2 ∧ y2 < H) :
    ∃ b' c, c < 256 ∧ filledrect b x1 y1 x2 y2 color = .ok b' ∧ Paints b b' W H 8 (RectSet x1 y1 x2 y2) c := by
  obtain ⟨pal, hpal, hlen⟩ : ∃ pal : List RGB, getallRGBpal b = .ok pal ∧ pal.length = 256 := by
    refine ⟨_, h.getallRGBpal_eq (by norm_num), by simp⟩
  have hr : 0 ≤ matchRGBtopal (int2RGB color) false pal ∧ matchRGBtopal (int2RGB color) false pal < 256 := by
    unfold matchRGBtopal
    rw [if_neg (by simp)]
    apply matchLoop_range <;> omega
  obtain ⟨c, hc⟩ := Int.eq_ofNat_of_zero_le hr.1
  obtain ⟨b', e, p⟩ := filledrect_run (color := color) (c := c) h (Or.inl rfl) h1 h2 (by norm_num; omega) (by
    intro n
    rw [if_neg (by norm_num), hpal]
    simp only [ok_bind]
    rw [hc, mkArray_replicate rfl (by omega)]
    unfold run enc
    rw [if_neg (by norm_num)]
    congr 1
    induction n with
    | zero => rfl
    | succ k ih =>
      simp only [Int.toNat_natCast] at ih ⊢
      rw [List.replicate_succ, List.replicate_succ, List.flatten_cons, ← ih]; rfl)
  exact ⟨b', c, by omega, e, p⟩

/-- C21: a corner outside the image: nothing happens, in every depth. -/
theorem C21_rejected {b : Bytes} {W H bits : Nat} (h : Valid b W H bits) {x1 y1 x2 y2 : Int} (color : Int)
    (ho : ¬ ((0 ≤ x1 ∧ x1 < W ∧ 0 ≤ y1 ∧ y1 < H) ∧ (0 ≤ x2 ∧ x2 < W ∧ 0 ≤ y2 ∧ y2 < H))) :
    filledrect b x1 y1 x2 y2 color = .ok b := by
  unfold filledrect
  rw [rect_guard h, if_neg ho]

/-- C21 is false on 4-bit images: the column 1 to 1 is left alone and column 0 is painted. -/
theorem C21_4bit_wrong :
    (do let b ← newBMP 4 2 4; let b ← filledrect b 1 0 1 1 9; pure (← getxybit b 0 0, ← getxybit b 1 0))
      = .ok (9, 0) := by decide +kernel

/-- C22 is false: on an 8-bit image with a grey palette `filledrect` paints index 67 when asked for
index 200, which `plotxybit` does paint. -/
theorem C22_wrong_index : ∃ b, Valid b 3 4 8 ∧
    (do let b ← filledrect b 0 0 1 1 200; getxybit b 0 0) = .ok 67 ∧
    (do let b ← plotxybit b 0 0 200; getxybit b 0 0) = .ok 200 :=
  ⟨sample8, sample8_valid, by decide +kernel, by decide +kernel⟩

example : (do let b ← newBMP 5 4 24; let b ← filledrect b 3 2 1 1 7
              pure (← getxybit b 1 1, ← getxybit b 3 2, ← getxybit b 0 1, ← getxybit b 4 2, ← getxybit b 2 3)) =
    .ok (7, 7, 0, 0, 0) := by decide +kernel

end Verif.Props
