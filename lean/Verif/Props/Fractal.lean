import Verif.Lemmas.Float
import Verif.Lemmas.Paint
import Verif.Model.Fractal
import Verif.Props.Colors
import Verif.Props.Invert
import Verif.Props.Float
import Verif.Sample
/-! C108: the pixels of a fractal; C109: the loops that compute them. -/

namespace Verif.Props
open Verif Spec Model

variable {b : Bytes} {W H bits : Nat}

/-! ## The domain -/

/-- C108: the pixels of the half-open rectangle, row by row; the value at a pixel depends on its own
column and row only. -/
theorem C108_points {x1 y1 x2 y2 : Int} (hx : x1 ≠ x2) (hy : y1 ≠ y2) (func : ℚ → ℚ → Int) (pmax pmin qmax qmin : ℚ) :
    itermultifractal x1 y1 x2 y2 func (pmax, pmin, qmax, qmin) = .ok
      ((pyRange (min y1 y2) (max y1 y2)).flatMap fun y => (pyRange (min x1 x2) (max x1 x2)).map fun x =>
        (x, y, func (domainAt pmax pmin (min x1 x2) (max x1 x2) x) (domainAt qmax qmin (min y1 y2) (max y1 y2) y))) := by
  unfold itermultifractal mapfractaldomain
  rw [sortrec_eq]
  dsimp only
  rw [if_neg (by omega)]
  simp only [bind, Except.bind, pure, Except.pure, List.flatMap_map, List.map_map, Function.comp_def]

/-- C108: a rectangle without width or height raises `ZeroDivisionError`. -/
theorem C108_empty {x1 y1 x2 y2 : Int} (h : x1 = x2 ∨ y1 = y2) (func : ℚ → ℚ → Int) (dom : ℚ × ℚ × ℚ × ℚ) :
    itermultifractal x1 y1 x2 y2 func dom = .error .zeroDivision := by
  unfold itermultifractal mapfractaldomain
  rw [sortrec_eq]
  dsimp only
  rw [if_pos (by omega)]
  rfl

theorem fl_mono {p q : ℚ} (h0 : 0 ≤ p) (h : p ≤ q) : fl p ≤ fl q := by
  rcases eq_or_lt_of_le h0 with h0 | h0
  · rw [← h0, fl_zero]; exact fl_nonneg (by linarith)
  · exact fl_mono_pos h0 h

/-- C108: the first column and row get the lower limits of the domain. -/
theorem C108_corner {hi lo : ℚ} (hlo : fl lo = lo) (x1 x2 : Int) : domainAt hi lo x1 x2 x1 = lo := by
  unfold domainAt
  rw [sub_self, Int.cast_zero, zero_mul, fl_zero, add_zero, hlo]

/-- C108: for a domain that starts at 0 or above, the values increase with the pixels and are never below
the lower limit. -/
theorem C108_increasing {hi lo : ℚ} (h0 : 0 ≤ lo) (hl : lo ≤ hi) {x1 x2 x x' : Int} (h12 : x1 < x2) (hx : x1 ≤ x) (hxx : x ≤ x') :
    domainAt hi lo x1 x2 x ≤ domainAt hi lo x1 x2 x' := by
  unfold domainAt
  have hd : (0 : ℚ) < ((x2 - x1 : Int) : ℚ) := by exact_mod_cast (by omega : 0 < x2 - x1)
  have hs : 0 ≤ fl (fl (hi - lo) / ((x2 - x1 : Int) : ℚ)) :=
    fl_nonneg (div_nonneg (fl_nonneg (by linarith)) hd.le)
  have ha : (0 : ℚ) ≤ ((x - x1 : Int) : ℚ) := by exact_mod_cast (by omega : 0 ≤ x - x1)
  have hb : ((x - x1 : Int) : ℚ) ≤ ((x' - x1 : Int) : ℚ) := by exact_mod_cast (by omega : x - x1 ≤ x' - x1)
  have h1 := fl_mono (mul_nonneg ha hs) (mul_le_mul_of_nonneg_right hb hs)
  have h2 := fl_nonneg (mul_nonneg ha hs)
  exact fl_mono (by linarith) (by linarith)

example : domainAt 1 0 0 4 3 = 3 / 4 ∧ domainAt (7 / 4) (-7 / 4) 0 3 1 = -2627099782632789 / 4503599627370496 := by
  decide +kernel

/-! ## Plotting -/

/-- Plotting points whose colour is a function of their position. -/
theorem plots_redraw {W H bits : Nat} (f : Bytes → Int × Int × Int → Py Bytes) (sh : Int × Int × Int → Nat) (g : Nat → Nat → Nat)
    (l : List (Int × Int × Int))
    (step : ∀ b, Valid b W H bits → ∀ p ∈ l, ∃ b', f b p = .ok b' ∧
      Paints b b' W H bits (fun x y => (x : Int) = p.1 ∧ (y : Int) = p.2.1) (sh p))
    (hg : ∀ p ∈ l, ∀ x y : Nat, (x : Int) = p.1 → (y : Int) = p.2.1 → sh p = g x y) :
    ∀ {b : Bytes}, Valid b W H bits → ∃ b', l.foldlM f b = .ok b' ∧ Valid b' W H bits ∧ SameHeader b b' bits ∧
      ∀ x y, x < W → y < H →
        ((∃ p ∈ l, (x : Int) = p.1 ∧ (y : Int) = p.2.1) → pix b' W H bits x y = g x y) ∧
        ((¬ ∃ p ∈ l, (x : Int) = p.1 ∧ (y : Int) = p.2.1) → pix b' W H bits x y = pix b W H bits x y) := by
  induction l with
  | nil =>
    intro b h
    exact ⟨b, rfl, h, ⟨rfl, fun _ _ => rfl⟩, fun x y _ _ => ⟨by simp, fun _ => rfl⟩⟩
  | cons a l ih =>
    intro b h
    obtain ⟨b1, e1, p1⟩ := step b h a (by simp)
    obtain ⟨b2, e2, v2, s2, q2⟩ := ih (fun b hb a' ha' => step b hb a' (by simp [ha'])) (fun p hp => hg p (by simp [hp])) p1.valid
    refine ⟨b2, ?_, v2, ⟨?_, ?_⟩, ?_⟩
    · rw [List.foldlM_cons, e1]; exact e2
    · rw [s2.1, p1.header.1]
    · intro i hi; rw [s2.2 i hi, p1.header.2 i hi]
    · intro x y hx hy
      obtain ⟨r1, r2⟩ := q2 x y hx hy
      by_cases hl : ∃ p ∈ l, (x : Int) = p.1 ∧ (y : Int) = p.2.1
      · refine ⟨fun _ => r1 hl, fun hn => absurd ?_ hn⟩
        obtain ⟨p, hp, hh⟩ := hl
        exact ⟨p, by simp [hp], hh⟩
      · rw [r2 hl]
        by_cases ha : (x : Int) = a.1 ∧ (y : Int) = a.2.1
        · refine ⟨fun _ => ?_, fun hn => absurd ⟨a, by simp, ha⟩ hn⟩
          rw [p1.inside x y hx hy ha]
          exact hg a (by simp) x y ha.1 ha.2
        · refine ⟨?_, fun _ => p1.outside x y hx hy ha⟩
          rintro ⟨p, hp, hh⟩
          rcases List.mem_cons.mp hp with rfl | hp
          · exact absurd hh ha
          · exact absurd ⟨p, hp, hh⟩ hl

/-- The colour number for the value `c`: for 24 bits the mix of the three factors at brightness
`20 (255 - c)` modulo 256, with a palette the value itself reduced to the palette. -/
def shade (bits : Nat) (r g d : ℚ) (c : Int) : Nat :=
  if bits = 24 then
    let lum := ((255 - c) * 20) % 256
    ((trunc (fl (r * lum))).toNat * 65536 + (trunc (fl (g * lum))).toNat * 256 + (trunc (fl (d * lum))).toNat)
  else (c % 2 ^ bits).toNat

theorem mixByte {r : ℚ} (h0 : 0 ≤ r) (h1 : r ≤ 1) {lum : Int} (hl0 : 0 ≤ lum) (hl1 : lum < 256) :
    0 ≤ trunc (fl (r * lum)) ∧ trunc (fl (r * lum)) ≤ lum := by
  obtain ⟨k, rfl⟩ := Int.eq_ofNat_of_zero_le hl0
  have hk : ((k : Int) : ℚ) = (k : ℚ) := Int.cast_natCast k
  rw [hk]
  have hp0 : 0 ≤ r * (k : ℚ) := by positivity
  have hp1 : r * (k : ℚ) ≤ k := by
    have := mul_le_mul_of_nonneg_right h1 (show (0 : ℚ) ≤ k by positivity)
    linarith
  have hz0 := fl_nonneg hp0
  have hz1 := fl_le_of_int (k := k) (by norm_num; omega) hp0 hp1
  rw [trunc_nonneg hz0]
  constructor
  · exact Int.floor_nonneg.mpr hz0
  · have : (⌊fl (r * (k : ℚ))⌋ : ℚ) ≤ (k : ℚ) := le_trans (Int.floor_le _) hz1
    exact_mod_cast this

/-- C108: a mix of factors between 0 and 1 is a 24-bit colour whose channels are at most the brightness. -/
theorem C108_colormix {r g d : ℚ} (hr : 0 ≤ r ∧ r ≤ 1) (hg : 0 ≤ g ∧ g ≤ 1) (hd : 0 ≤ d ∧ d ≤ 1) {lum : Int} (h0 : 0 ≤ lum) (h1 : lum < 256) :
    ∃ c : Int, colormix lum [r, g, d] = .ok c ∧ 0 ≤ c ∧ c < 2 ^ 24 ∧
      int2RGB c = (trunc (fl (r * lum)), trunc (fl (g * lum)), trunc (fl (d * lum))) := by
  have br := mixByte hr.1 hr.2 h0 h1
  have bg := mixByte hg.1 hg.2 h0 h1
  have bd := mixByte hd.1 hd.2 h0 h1
  have := C41_unpack_pack (r := trunc (fl (r * lum))) (g := trunc (fl (g * lum))) (b := trunc (fl (d * lum)))
    ⟨br.1, by omega⟩ ⟨bg.1, by omega⟩ ⟨bd.1, by omega⟩
  exact ⟨_, rfl, this.2.1, this.2.2, this.1⟩

/-- Writing a byte directly is the same as plotting, inside an 8-bit image. -/
theorem direct8 (h : Valid b W H 8) {x y : Int} (hx : 0 ≤ x ∧ x < W) (hy : 0 ≤ y ∧ y < H) {c : Int} (hc : 0 ≤ c ∧ c < 256) :
    (do setItem b (← bmofhd8 b x y) c) = plotxybit b x y c := by
  obtain ⟨k, rfl⟩ := Int.eq_ofNat_of_zero_le hc.1
  have hr := h.rowoff_eq y
  have hand : pyAnd (k : Int) 0xff = k := by
    have : k &&& 255 = k % 256 := Nat.and_two_pow_sub_one_eq_mod k 8
    show ((k &&& 255 : Nat) : Int) = k
    rw [this]; omega
  have hin : isinBMPrectbnd b x y = .ok true := by
    rw [h.inb_eq]; congr 1; simp; omega
  have hbits := h.bits_eq
  unfold plotxybit bmofhd8
  simp only [hin, hbits, bind, Except.bind, pure, Except.pure]
  norm_num at hr ⊢
  rw [hr]
  simp only [hand]

/-- C108: `plotmultifractal` gives every pixel of the half-open rectangle the shade of its own value and
leaves the others as they are, for all depths, three colour factors between 0 and 1 and values of a byte. -/
theorem C108_plot (h : Valid b W H bits) {x1 y1 x2 y2 : Int} (hx : x1 ≠ x2) (hy : y1 ≠ y2)
    (hx1 : 0 ≤ min x1 x2 ∧ max x1 x2 ≤ W) (hy1 : 0 ≤ min y1 y2 ∧ max y1 y2 ≤ H) (func : ℚ → ℚ → Int)
    (hf : ∀ p q, 0 ≤ func p q ∧ func p q < 256) (pmax pmin qmax qmin : ℚ) {r g d : ℚ}
    (hr : 0 ≤ r ∧ r ≤ 1) (hg : 0 ≤ g ∧ g ≤ 1) (hd : 0 ≤ d ∧ d ≤ 1) :
    ∃ b', (itermultifractal x1 y1 x2 y2 func (pmax, pmin, qmax, qmin) >>= fun pts => plotmultifractal b pts [r, g, d]) = .ok b' ∧
      Redraws b b' W H bits (fun x y =>
        if min x1 x2 ≤ x ∧ (x : Int) < max x1 x2 ∧ min y1 y2 ≤ y ∧ (y : Int) < max y1 y2 then
          shade bits r g d (func (domainAt pmax pmin (min x1 x2) (max x1 x2) x) (domainAt qmax qmin (min y1 y2) (max y1 y2) y))
        else pix b W H bits x y) := by
  rw [C108_points hx hy]
  simp only [bind, Except.bind]
  generalize hval : (fun x y : Int => func (domainAt pmax pmin (min x1 x2) (max x1 x2) x) (domainAt qmax qmin (min y1 y2) (max y1 y2) y)) = val
  have hval' : ∀ x y, func (domainAt pmax pmin (min x1 x2) (max x1 x2) x) (domainAt qmax qmin (min y1 y2) (max y1 y2) y) = val x y := by
    intro x y; rw [← hval]
  have hvb : ∀ x y, 0 ≤ val x y ∧ val x y < 256 := by intro x y; rw [← hval]; exact hf _ _
  simp only [hval']
  generalize hl : ((pyRange (min y1 y2) (max y1 y2)).flatMap fun y => (pyRange (min x1 x2) (max x1 x2)).map fun x => (x, y, val x y)) = l
  have hmem : ∀ p, p ∈ l ↔ (min x1 x2 ≤ p.1 ∧ p.1 < max x1 x2) ∧ (min y1 y2 ≤ p.2.1 ∧ p.2.1 < max y1 y2) ∧ p.2.2 = val p.1 p.2.1 := by
    rintro ⟨x, y, c⟩
    rw [← hl]
    simp only [List.mem_flatMap, List.mem_map, mem_pyRange, Prod.mk.injEq]
    constructor
    · rintro ⟨y', hy', x', hx', rfl, rfl, rfl⟩; exact ⟨hx', hy', rfl⟩
    · rintro ⟨h1, h2, h3⟩; exact ⟨y, h2, x, h1, rfl, rfl, h3.symm⟩
  have main : ∀ f : Bytes → Int × Int × Int → Py Bytes,
      (∀ b, Valid b W H bits → ∀ p ∈ l, ∃ b', f b p = .ok b' ∧
        Paints b b' W H bits (fun x y => (x : Int) = p.1 ∧ (y : Int) = p.2.1) (shade bits r g d p.2.2)) →
      ∃ b', l.foldlM f b = .ok b' ∧ Redraws b b' W H bits (fun x y =>
        if min x1 x2 ≤ x ∧ (x : Int) < max x1 x2 ∧ min y1 y2 ≤ y ∧ (y : Int) < max y1 y2 then shade bits r g d (val x y)
        else pix b W H bits x y) := by
    intro f hstep
    obtain ⟨b', e, v, s, px⟩ := plots_redraw f (fun p => shade bits r g d p.2.2) (fun x y => shade bits r g d (val x y)) l hstep (by
      intro p hp x y hx hy
      rw [((hmem p).mp hp).2.2, hx, hy]) h
    refine ⟨b', e, v, s, ?_⟩
    intro x y hx hy
    obtain ⟨q1, q2⟩ := px x y hx hy
    split_ifs with hc
    · exact q1 ⟨((x : Int), (y : Int), val x y), (hmem _).mpr ⟨⟨hc.1, hc.2.1⟩, ⟨hc.2.2.1, hc.2.2.2⟩, rfl⟩, rfl, rfl⟩
    · apply q2
      rintro ⟨p, hp, e1, e2⟩
      have := (hmem p).mp hp
      rw [e1, e2] at hc
      exact hc ⟨this.1.1, this.1.2, this.2.1.1, this.2.1.2⟩
  unfold plotmultifractal
  simp only [h.getmaxcolors_eq, h.bits_eq, bind, Except.bind, List.length_cons, List.length_nil]
  have hpaint : ∀ (p : Int × Int × Int) (c : Int), (bits = 24 → 0 ≤ c ∧ c < 2 ^ 24) → reduce bits c = shade bits r g d p.2.2 →
      ∀ b, Valid b W H bits → ∃ b', plotxybit b p.1 p.2.1 c = .ok b' ∧
        Paints b b' W H bits (fun x y => (x : Int) = p.1 ∧ (y : Int) = p.2.1) (shade bits r g d p.2.2) := by
    intro p c hc hs b hb
    obtain ⟨b', e, pt⟩ := plot_paints hb p.1 p.2.1 hc
    rw [hs] at pt
    exact ⟨b', e, pt⟩
  rcases h.depth with rfl | rfl | rfl | rfl
  · rw [if_neg (by norm_num), if_neg (by norm_num), if_neg (by norm_num), if_pos (by norm_num)]
    apply main
    rintro b hb ⟨x, y, c⟩ hp
    apply hpaint (x, y, c) _ (by norm_num) _ b hb
    have hc : c.fmod 2 = c % 2 := Int.fmod_eq_emod_of_nonneg _ (by norm_num)
    rw [shade, if_neg (by norm_num)]
    norm_num only [pow_one]
    rw [hc]
    rcases Int.emod_two_eq c with e | e <;> rw [e] <;> decide
  · rw [if_neg (by norm_num), if_neg (by norm_num), if_pos (by norm_num)]
    apply main
    rintro b hb ⟨x, y, c⟩ hp
    apply hpaint (x, y, c) _ (by norm_num) _ b hb
    rw [reduce_4, shade, if_neg (by norm_num)]
    norm_num
  · rw [if_neg (by norm_num), if_pos (by norm_num)]
    apply main
    rintro b hb ⟨x, y, c⟩ hp
    have hm := (hmem _).mp hp
    have hcb := hvb x y
    dsimp only at hm hcb ⊢
    rw [← hm.2.2] at hcb
    have := direct8 hb (x := x) (y := y) (by omega) (by omega) hcb
    simp only [bind, Except.bind] at this
    rw [this]
    apply hpaint (x, y, c) _ (by norm_num) _ b hb
    rw [reduce_8, shade, if_neg (by norm_num)]
    norm_num
  · rw [if_pos rfl]
    apply main
    rintro b hb ⟨x, y, c⟩ hp
    have hlum : ((255 - c) * 20).fmod 256 = ((255 - c) * 20) % 256 := Int.fmod_eq_emod_of_nonneg _ (by norm_num)
    dsimp only
    rw [hlum]
    obtain ⟨k, ek, k0, k1, k2⟩ := C108_colormix hr hg hd (lum := ((255 - c) * 20) % 256) (by omega) (by omega)
    simp only [ek]
    apply hpaint (x, y, c) k (fun _ => ⟨k0, k1⟩) _ b hb
    rw [reduce_24 k0 k1, shade, if_pos rfl]
    have hpk := (C41_pack_unpack k).1
    rw [k2] at hpk
    have br := mixByte hr.1 hr.2 (lum := ((255 - c) * 20) % 256) (by omega) (by omega)
    have bg := mixByte hg.1 hg.2 (lum := ((255 - c) * 20) % 256) (by omega) (by omega)
    have bd := mixByte hd.1 hd.2 (lum := ((255 - c) * 20) % 256) (by omega) (by omega)
    rw [RGB2int_eq, rgbValue] at hpk
    dsimp only at hpk ⊢
    generalize trunc (fl (r * (((255 - c) * 20 % 256 : Int) : ℚ))) = t1 at *
    generalize trunc (fl (g * (((255 - c) * 20 % 256 : Int) : ℚ))) = t2 at *
    generalize trunc (fl (d * (((255 - c) * 20 % 256 : Int) : ℚ))) = t3 at *
    omega

/-- C108: with another number of colour factors the colours of 4-bit and 8-bit images are counted from the
last one of the palette down, for all points, inside the image or not. -/
theorem C108_reversed (h : Valid b W H bits) (hb : bits = 4 ∨ bits = 8) {f : List ℚ} (hf : f.length ≠ 3)
    {pts : List (Int × Int × Int)} (val : Int → Int → Int) (hv : ∀ p ∈ pts, p.2.2 = val p.1 p.2.1) :
    ∃ b', plotmultifractal b pts f = .ok b' ∧ Valid b' W H bits ∧ SameHeader b b' bits ∧
      ∀ x y : Nat, x < W → y < H →
        ((∃ p ∈ pts, (x : Int) = p.1 ∧ (y : Int) = p.2.1) →
          (pix b' W H bits x y : Int) = (2 ^ bits - 1 - val x y) % 2 ^ bits) ∧
        ((¬ ∃ p ∈ pts, (x : Int) = p.1 ∧ (y : Int) = p.2.1) → pix b' W H bits x y = pix b W H bits x y) := by
  have hred : ∀ c : Int, reduce bits (((2 ^ bits - 1 : Int) - c).fmod (2 ^ bits)) = (((2 ^ bits - 1 : Int) - c) % 2 ^ bits).toNat := by
    intro c
    rw [Int.fmod_eq_emod_of_nonneg _ (by positivity)]
    rcases hb with rfl | rfl
    · rw [reduce_4, Int.emod_emod_of_dvd _ (by norm_num)]; norm_num
    · rw [reduce_8, Int.emod_emod_of_dvd _ (by norm_num)]; norm_num
  obtain ⟨b', e, v, s, px⟩ := plots_redraw (fun bmp (p : Int × Int × Int) => plotxybit bmp p.1 p.2.1 ((((2 ^ bits - 1 : Int)) - p.2.2).fmod (2 ^ bits)))
    (fun p => (((2 ^ bits - 1 : Int) - p.2.2) % 2 ^ bits).toNat) (fun x y => (((2 ^ bits - 1 : Int) - val x y) % 2 ^ bits).toNat) pts
    (by
      intro b hb' p _
      obtain ⟨b', e, pt⟩ := plot_paints hb' p.1 p.2.1 (c := (((2 ^ bits - 1 : Int)) - p.2.2).fmod (2 ^ bits))
        (fun e => by rcases hb with g | g <;> omega)
      rw [hred] at pt
      exact ⟨b', e, pt⟩)
    (by intro p hp x y hx hy; rw [hv p hp, hx, hy]) h
  refine ⟨b', ?_, v, s, fun x y hx hy => ⟨fun g => ?_, (px x y hx hy).2⟩⟩
  · unfold plotmultifractal
    simp only [h.getmaxcolors_eq, h.bits_eq, bind, Except.bind]
    rcases hb with rfl | rfl
    · rw [if_neg (by norm_num), if_neg (by norm_num), if_neg (fun g => hf g.2), if_neg (by norm_num)]
      exact e
    · rw [if_neg (by norm_num), if_neg (fun g => hf g.2), if_neg (by norm_num), if_neg (by norm_num)]
      exact e
  · rw [(px x y hx hy).1 g]
    exact Int.toNat_of_nonneg (Int.emod_nonneg _ (by positivity))

example : (do pure (pix (← plotmultifractal sample8 [(2, 1, 7)] [1, 1]) 3 4 8 2 1)) = .ok 248 := by decide +kernel

/-- C108: the 8-bit branch does not check bounds: a point right of an image of 3 by 4 pixels is drawn in the
first column of the row above. -/
theorem C108_clip_false : (do pure (pix (← plotmultifractal sample8 [(4, 1, 7)] [1, 1, 1]) 3 4 8 0 0)) = .ok 7 := by
  decide +kernel

theorem escapeFrom_eq {α : Type} (step : α → α) (out : α → Bool) (m : Nat) : ∀ (fuel i : Nat) (z : α), i + fuel = m →
    (∃ k, k < fuel ∧ escapeFrom step out m fuel i z = i + k ∧ out (step^[k + 1] z) = true ∧ ∀ j < k, out (step^[j + 1] z) = false) ∨
    (escapeFrom step out m fuel i z = m ∧ ∀ j < fuel, out (step^[j + 1] z) = false)
  | 0, i, z, _ => Or.inr ⟨rfl, by omega⟩
  | fuel + 1, i, z, h => by
    unfold escapeFrom
    dsimp only
    cases e : out (step z) with
    | true => exact Or.inl ⟨0, by omega, by simp, e, by omega⟩
    | false =>
      have cons : ∀ k, (∀ j < k, out (step^[j + 1] (step z)) = false) → ∀ j < k + 1, out (step^[j + 1] z) = false := by
        intro k hk j hj
        cases j with
        | zero => exact e
        | succ j => exact hk j (by omega)
      rcases escapeFrom_eq step out m fuel (i + 1) (step z) (by omega) with ⟨k, hk, e1, e2, e3⟩ | ⟨e1, e2⟩
      · refine Or.inl ⟨k + 1, by omega, ?_, e2, cons k e3⟩
        rw [if_neg (by simp), e1]; omega
      · refine Or.inr ⟨?_, cons fuel e2⟩
        rw [if_neg (by simp), e1]

/-- C109: the escape loop returns `i` below `maxiter` exactly when the orbit is beyond the bound after
`i + 1` steps and not after fewer. -/
theorem C109_escape {α : Type} (step : α → α) (out : α → Bool) (z : α) (m i : Nat) (hi : i < m) :
    escape step out z m = i ↔ out (step^[i + 1] z) = true ∧ ∀ j < i, out (step^[j + 1] z) = false := by
  unfold escape
  rcases escapeFrom_eq step out m m 0 z (by omega) with ⟨k, hk, e1, e2, e3⟩ | ⟨e1, e2⟩
  · rw [e1]
    constructor
    · intro h; obtain rfl : k = i := by omega
      exact ⟨e2, e3⟩
    · rintro ⟨h1, h2⟩
      rcases Nat.lt_trichotomy k i with h | h | h
      · rw [h2 k h] at e2; cases e2
      · omega
      · rw [e3 i h] at h1; cases h1
  · rw [e1]
    constructor
    · omega
    · rintro ⟨h1, _⟩
      rw [e2 i hi] at h1; cases h1

/-- C109: it returns `maxiter` exactly when the orbit stays within the bound for `maxiter` steps. -/
theorem C109_inside {α : Type} (step : α → α) (out : α → Bool) (z : α) (m : Nat) :
    escape step out z m = m ↔ ∀ j < m, out (step^[j + 1] z) = false := by
  unfold escape
  rcases escapeFrom_eq step out m m 0 z (by omega) with ⟨k, hk, e1, e2, e3⟩ | ⟨e1, e2⟩
  · rw [e1]
    constructor
    · omega
    · intro h; rw [h k hk] at e2; cases e2
  · exact ⟨fun _ => e2, fun _ => e1⟩

theorem C109_le {α : Type} (step : α → α) (out : α → Bool) (z : α) (m : Nat) : escape step out z m ≤ m := by
  unfold escape
  rcases escapeFrom_eq step out m m 0 z (by omega) with ⟨k, hk, e1, _⟩ | ⟨e1, _⟩ <;> omega

theorem escapeFrom_mirror {α : Type} {step step' : α → α} {out : α → Bool} {σ : α → α}
    (hs : ∀ z, step' (σ z) = σ (step z)) (ho : ∀ z, out (σ z) = out z) (m : Nat) :
    ∀ (fuel i : Nat) (z : α), escapeFrom step' out m fuel i (σ z) = escapeFrom step out m fuel i z
  | 0, _, _ => rfl
  | fuel + 1, i, z => by
    simp only [escapeFrom, hs, ho, escapeFrom_mirror hs ho m fuel]

/-- C109: the multibrot set is symmetric about the real axis. -/
theorem C109_mirror (c : ℂ) (d m : Nat) : multibrot (starRingEnd ℂ c) d m = multibrot c d m := by
  have := escapeFrom_mirror (step := fun z => z ^ d + c) (step' := fun z => z ^ d + starRingEnd ℂ c)
    (out := beyond2) (σ := starRingEnd ℂ) (by intro z; simp) (by intro z; simp [beyond2, Complex.norm_conj]) m m 0 0
  rw [map_zero] at this
  exact this

/-- C109: the multibrot set of degree `d` is symmetric under rotation by `d - 1`-th roots of unity. -/
theorem C109_rotate (c w : ℂ) (d m : Nat) (hw : w ^ d = w) (hn : ‖w‖ = 1) : multibrot (w * c) d m = multibrot c d m := by
  have := escapeFrom_mirror (step := fun z => z ^ d + c) (step' := fun z => z ^ d + w * c)
    (out := beyond2) (σ := fun z => w * z) (by intro z; simp only [mul_pow, hw]; ring) (by intro z; simp [beyond2, hn]) m m 0 0
  rw [mul_zero] at this
  exact this

/-- C109: the multicorn of degree `d` has the symmetry of `d + 1`-th roots of unity. -/
theorem C109_multicorn (c w : ℂ) (d m : Nat) (hw : (starRingEnd ℂ w) ^ d = w) (hn : ‖w‖ = 1) :
    multicorn (w * c) d m = multicorn c d m := by
  have := escapeFrom_mirror (step := fun z => (starRingEnd ℂ z) ^ d + c) (step' := fun z => (starRingEnd ℂ z) ^ d + w * c)
    (out := beyond2) (σ := fun z => w * z) (by intro z; simp only [map_mul, mul_pow, hw]; ring) (by intro z; simp [beyond2, hn]) m m 0 0
  rw [mul_zero] at this
  exact this

/-- From a point beyond 2 and beyond `c` on, a step that raises the distance to a power of at least 2 and
adds at most `‖c‖` goes away without bound. -/
theorem runaway {step : ℂ → ℂ} {d : Nat} (hd : 2 ≤ d) {K : ℝ} (hstep : ∀ z, ‖z‖ ^ d - K ≤ ‖step z‖) {z : ℂ}
    (h2 : 2 < ‖z‖) (hK : K ≤ ‖z‖) : ∀ n : Nat, ‖z‖ * (‖z‖ - 1) ^ n ≤ ‖step^[n] z‖ ∧ ‖z‖ ≤ ‖step^[n] z‖
  | 0 => by simp
  | n + 1 => by
    obtain ⟨h1, h3⟩ := runaway hd hstep h2 hK n
    rw [Function.iterate_succ_apply']
    have hs := hstep (step^[n] z)
    generalize ‖step^[n] z‖ = t at *
    generalize ‖step (step^[n] z)‖ = u at *
    generalize ‖z‖ = r at *
    have ht : t ^ 2 ≤ t ^ d := pow_le_pow_right₀ (by linarith) hd
    have hu : t * (r - 1) ≤ u := by nlinarith
    constructor
    · calc r * (r - 1) ^ (n + 1) = (r * (r - 1) ^ n) * (r - 1) := by ring
        _ ≤ t * (r - 1) := by apply mul_le_mul_of_nonneg_right h1; linarith
        _ ≤ u := hu
    · nlinarith

theorem runaway_unbounded {step : ℂ → ℂ} {d : Nat} (hd : 2 ≤ d) {K : ℝ} (hstep : ∀ z, ‖z‖ ^ d - K ≤ ‖step z‖) {z : ℂ} {k : Nat}
    (h2 : 2 < ‖step^[k] z‖) (hK : K ≤ ‖step^[k] z‖) (M : ℝ) : ∃ n, M < ‖step^[n] z‖ := by
  obtain ⟨n, hn⟩ := pow_unbounded_of_one_lt M (show 1 < ‖step^[k] z‖ - 1 by linarith)
  refine ⟨n + k, ?_⟩
  rw [Function.iterate_add_apply]
  have := (runaway hd hstep h2 hK n).1
  have hp : 0 < (‖step^[k] z‖ - 1) ^ n := pow_pos (by linarith) n
  nlinarith

/-- C109: a point to which `multibrot` gives less than `maxiter` is really outside the set: its orbit has
no bound at all. -/
theorem C109_outside (c : ℂ) {d m : Nat} (hd : 2 ≤ d) (h : multibrot c d m < m) :
    ∀ M : ℝ, ∃ n, M < ‖(fun z : ℂ => z ^ d + c)^[n] 0‖ := by
  obtain ⟨he, _⟩ := (C109_escape (fun z : ℂ => z ^ d + c) beyond2 0 m _ h).mp rfl
  have he : 2 < ‖(fun z : ℂ => z ^ d + c)^[multibrot c d m + 1] 0‖ := of_decide_eq_true he
  have hstep : ∀ z : ℂ, ‖z‖ ^ d - ‖c‖ ≤ ‖z ^ d + c‖ := by
    intro z
    have := norm_sub_le_norm_add (z ^ d) c
    rwa [Complex.norm_pow] at this
  intro M
  by_cases hc : ‖c‖ ≤ 2
  · exact runaway_unbounded hd hstep he (by linarith) M
  · have h1 : (fun z : ℂ => z ^ d + c)^[1] 0 = c := by
      show (0 : ℂ) ^ d + c = c
      rw [zero_pow (by omega), zero_add]
    exact runaway_unbounded hd hstep (k := 1) (by rw [h1]; linarith) (by rw [h1]) M

/-- C109: the same for `multijulia`, provided the parameter is within 2. -/
theorem C109_julia (z c : ℂ) {d m : Nat} (hd : 2 ≤ d) (hc : ‖c‖ ≤ 2) (h : multijulia z c d m < m) :
    ∀ M : ℝ, ∃ n, M < ‖(fun z : ℂ => z ^ d + c)^[n] z‖ := by
  obtain ⟨he, _⟩ := (C109_escape (fun z : ℂ => z ^ d + c) _ z m _ h).mp rfl
  rw [decide_eq_true_eq, Complex.mul_conj, Complex.ofReal_re, Complex.normSq_eq_norm_sq] at he
  have he : 2 < ‖(fun z : ℂ => z ^ d + c)^[multijulia z c d m + 1] z‖ := by
    by_contra hh
    have := norm_nonneg ((fun z : ℂ => z ^ d + c)^[multijulia z c d m + 1] z)
    nlinarith
  have hstep : ∀ z : ℂ, ‖z‖ ^ d - ‖c‖ ≤ ‖z ^ d + c‖ := by
    intro z
    have := norm_sub_le_norm_add (z ^ d) c
    rwa [Complex.norm_pow] at this
  exact fun M => runaway_unbounded hd hstep he (by linarith) M

/-- C109: with a parameter beyond 2 the test is wrong: the orbit of 3 under `z² - 6` is constant, and yet
it is reported to escape at once. -/
theorem C109_julia_false : multijulia 3 (-6) 2 10 = 0 ∧ ∀ n, (fun z : ℂ => z ^ 2 + (-6))^[n] 3 = 3 := by
  have h1 : (3 : ℂ) ^ 2 + (-6) = 3 := by norm_num
  refine ⟨?_, ?_⟩
  · unfold multijulia
    rw [C109_escape _ _ _ _ _ (by norm_num)]
    refine ⟨?_, by omega⟩
    simp only [zero_add, Function.iterate_one, h1, decide_eq_true_eq]
    norm_num [Complex.conj_ofNat]
  · intro n
    induction n with
    | zero => rfl
    | succ n ih => rw [Function.iterate_succ_apply', ih]; exact h1

example : escape (fun z : Int => z ^ 2 + 1) (fun z => decide (2 < |z|)) 0 9 = 2 := by decide +kernel
example : escape (fun z : Int => z ^ 2 - 1) (fun z => decide (2 < |z|)) 0 9 = 9 := by decide +kernel

theorem biomorphFrom_eq {α : Type} (f : α → α) (re im : α → Bool) (m : Nat) : ∀ (fuel i : Nat) (z : α), i + fuel = m →
    (∃ k, k < fuel ∧ biomorphFrom f re im m fuel i z = i + k ∧ (re (f^[k + 1] z) = true ∧ im (f^[k + 1] z) = true) ∧
      ∀ j < k, re (f^[j + 1] z) = false ∧ im (f^[j + 1] z) = false) ∨
    (biomorphFrom f re im m fuel i z = m ∧
      ¬ ∃ k, k < fuel ∧ (re (f^[k + 1] z) = true ∧ im (f^[k + 1] z) = true) ∧ ∀ j < k, re (f^[j + 1] z) = false ∧ im (f^[j + 1] z) = false)
  | 0, i, z, _ => Or.inr ⟨rfl, by rintro ⟨k, hk, _⟩; omega⟩
  | fuel + 1, i, z, h => by
    unfold biomorphFrom
    dsimp only
    by_cases hb : re (f z) = true ∧ im (f z) = true
    · exact Or.inl ⟨0, by omega, by simp [hb.1, hb.2], hb, by omega⟩
    · rw [if_neg (by simpa using hb)]
      by_cases ha : re (f z) = true ∨ im (f z) = true
      · rw [if_pos (by simpa using ha)]
        refine Or.inr ⟨rfl, ?_⟩
        rintro ⟨k, hk, h1, h2⟩
        cases k with
        | zero => exact hb h1
        | succ k =>
          have := h2 0 (by omega)
          simp only [zero_add, Function.iterate_one] at this
          rw [this.1, this.2] at ha
          simp at ha
      · rw [if_neg (by simpa using ha)]
        have hz : re (f z) = false ∧ im (f z) = false := by simpa using ha
        rcases biomorphFrom_eq f re im m fuel (i + 1) (f z) (by omega) with ⟨k, hk, e1, e2, e3⟩ | ⟨e1, e2⟩
        · refine Or.inl ⟨k + 1, by omega, by rw [e1]; omega, e2, ?_⟩
          intro j hj
          cases j with
          | zero => exact hz
          | succ j => exact e3 j (by omega)
        · refine Or.inr ⟨e1, ?_⟩
          rintro ⟨k, hk, h1, h2⟩
          cases k with
          | zero => exact hb h1
          | succ k => exact e2 ⟨k, by omega, h1, fun j hj => h2 (j + 1) (by omega)⟩

/-- C109: `biomorphfunc` returns `i` below `maxiter` exactly when both parts pass the bound after `i + 1`
steps and neither did before. -/
theorem C109_biomorph {α : Type} (f : α → α) (re im : α → Bool) (z : α) (m i : Nat) (hi : i < m) :
    biomorphfunc f re im z m = i ↔
      (re (f^[i + 1] z) = true ∧ im (f^[i + 1] z) = true) ∧ ∀ j < i, re (f^[j + 1] z) = false ∧ im (f^[j + 1] z) = false := by
  unfold biomorphfunc
  rcases biomorphFrom_eq f re im m m 0 z (by omega) with ⟨k, hk, e1, e2, e3⟩ | ⟨e1, e2⟩
  · rw [e1]
    constructor
    · intro h; obtain rfl : k = i := by omega
      exact ⟨e2, e3⟩
    · rintro ⟨h1, h2⟩
      rcases Nat.lt_trichotomy k i with h | h | h
      · have := (h2 k h).1; rw [e2.1] at this; cases this
      · omega
      · have := (e3 i h).1; rw [h1.1] at this; cases this
  · rw [e1]
    constructor
    · omega
    · intro h; exact absurd ⟨i, hi, h⟩ e2

theorem newtonFrom_some {α : Type} (quot : α → Option α) (sub : α → α → α) (small : α → Bool) :
    ∀ (fuel i : Nat) (x r : α) (n : Nat), newtonFrom quot sub small fuel i x = some (r, n) →
      i ≤ n ∧ n < i + fuel ∧ (∃ dx, quot r = some dx ∧ small dx = true) ∧
      ∃ s : Nat → α, s i = x ∧ s n = r ∧ ∀ k, i ≤ k → k < n → ∃ dx, quot (s k) = some dx ∧ small dx = false ∧ s (k + 1) = sub (s k) dx
  | 0, _, _, _, _, h => by simp [newtonFrom] at h
  | fuel + 1, i, x, r, n, h => by
    unfold newtonFrom at h
    cases hq : quot x with
    | none => simp [hq] at h
    | some dx =>
      simp only [hq] at h
      cases hsm : small dx with
      | true =>
        simp only [hsm, if_true, Option.some.injEq, Prod.mk.injEq] at h
        obtain ⟨rfl, rfl⟩ := h
        exact ⟨le_refl _, by omega, ⟨dx, hq, hsm⟩, fun _ => x, rfl, rfl, by omega⟩
      | false =>
        simp only [hsm, Bool.false_eq_true, if_false] at h
        obtain ⟨h1, h2, h3, s, s1, s2, s3⟩ := newtonFrom_some quot sub small fuel (i + 1) (sub x dx) r n h
        refine ⟨by omega, by omega, h3, fun k => if k = i then x else s k, by simp, by dsimp only; rw [if_neg (by omega)]; exact s2, ?_⟩
        intro k hk hn
        by_cases e : k = i
        · subst e
          exact ⟨dx, by simp [hq], hsm, by simp [s1]⟩
        · dsimp only
          rw [if_neg e, if_neg (by omega)]
          exact s3 k (by omega) hn

/-- C109: a root and a count that `newtonmethod` returns are those of Newton's sequence from the start
value: the next step from the root is smaller than the tolerance and no earlier one is. -/
theorem C109_newton (f f' : ℂ → ℂ) (tol : ℝ) (small : ℂ → Bool) (hs : ∀ z, small z = true ↔ ‖z‖ < tol) (x0 r : ℂ) (m n : Nat)
    (h : newtonmethod (fun x => if f' x = 0 then none else some (f x / f' x)) (fun a b => a - b) small x0 m = some (r, n)) :
    n < m ∧ r = (fun x => x - f x / f' x)^[n] x0 ∧ f' r ≠ 0 ∧ ‖f r‖ < tol * ‖f' r‖ ∧
      ∀ k < n, tol * ‖f' ((fun x => x - f x / f' x)^[k] x0)‖ ≤ ‖f ((fun x => x - f x / f' x)^[k] x0)‖ := by
  obtain ⟨_, hn, ⟨dx, hdx, hsm⟩, s, s0, sn, hstep⟩ := newtonFrom_some _ _ _ _ _ _ _ _ h
  have hq : ∀ x dx, (if f' x = 0 then none else some (f x / f' x)) = some dx → f' x ≠ 0 ∧ dx = f x / f' x := by
    intro x dx e
    split_ifs at e with h0
    exact ⟨h0, (Option.some.inj e).symm⟩
  have hit : ∀ k ≤ n, s k = (fun x => x - f x / f' x)^[k] x0 := by
    intro k
    induction k with
    | zero => intro _; exact s0
    | succ k ih =>
      intro hk
      obtain ⟨dx, e1, _, e3⟩ := hstep k (by omega) (by omega)
      rw [Function.iterate_succ_apply', ← ih (by omega), e3, (hq _ _ e1).2]
  obtain ⟨h0, rfl⟩ := hq _ _ hdx
  refine ⟨by omega, by rw [← sn]; exact hit n (le_refl n), h0, ?_, ?_⟩
  · have := (hs _).mp hsm
    rw [Complex.norm_div, div_lt_iff₀ (norm_pos_iff.mpr h0)] at this
    exact this
  · intro k hk
    obtain ⟨dx, e1, e2, _⟩ := hstep k (by omega) hk
    obtain ⟨g0, rfl⟩ := hq _ _ e1
    rw [hit k (by omega)] at e2 g0
    have : ¬ ‖f ((fun x => x - f x / f' x)^[k] x0) / f' ((fun x => x - f x / f' x)^[k] x0)‖ < tol := by
      rw [← hs]; simp [e2]
    rw [Complex.norm_div, div_lt_iff₀ (norm_pos_iff.mpr g0)] at this
    exact not_lt.mp this

/-- Newton's method for the square root of 2 from 1: 17/12 after two steps, since 17/12 - 577/408 < 1/100. -/
example : newtonmethod (fun x : ℚ => if 2 * x = 0 then none else some ((x * x - 2) / (2 * x))) (fun a b => a - b)
    (fun d => decide (|d| < 1 / 100)) 1 9 = some (17 / 12, 2) := by decide +kernel

end Verif.Props
