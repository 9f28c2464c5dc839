import Verif.Model.Tone
import Verif.Props.CircGrad
/-! Properties C83 to C85: luminosity threshold, gamma correction and brightness gradients of 24-bit images. -/

namespace Verif.Props
open Verif Spec Model

section
variable {b b' : Bytes} {W H bits : Nat}

/-! ### Filters that work pixel by pixel -/

theorem bufPx24_cons (p q r : Nat) (t : Bytes) (i : Nat) :
    bufPx 24 (p :: q :: r :: t) (i + 1) = bufPx 24 t i := by
  unfold bufPx
  rw [if_pos rfl, if_pos rfl, show 3 * (i + 1) = 3 * i + 3 by omega]
  rfl

theorem bufPx24_head (p q r : Nat) (t : Bytes) : bufPx 24 (p :: q :: r :: t) 0 = rgb r q p := by
  unfold bufPx rgb byte
  rw [if_pos rfl]
  simp
  omega

theorem forpixels_maps {px : Nat → Nat → Nat → Py Bytes} {rest : Bytes → Py Bytes} {G : Nat → Nat}
    (hpx : ∀ p q r, p < 256 → q < 256 → r < 256 → ∃ p' q' r', p' < 256 ∧ q' < 256 ∧ r' < 256 ∧
      px p q r = .ok [p', q', r'] ∧ rgb r' q' p' = G (rgb r q p)) (n : Nat) :
    MapsPx (forpixels px rest) n (fun _ c => G c) := by
  induction n with
  | zero => exact maps_zero (f := forpixels px rest) rfl _
  | succ n ih =>
    intro buf hb hl
    match buf, hl with
    | p :: q :: r :: t, hl =>
      simp only [List.length_cons] at hl
      obtain ⟨out, e, ol, ob, op⟩ := ih t (fun v hv => hb v (by simp [hv])) (by omega)
      obtain ⟨p', q', r', a1, a2, a3, e', eG⟩ := hpx p q r (hb _ (by simp)) (hb _ (by simp)) (hb _ (by simp))
      refine ⟨p' :: q' :: r' :: out, ?_, by simp only [List.length_cons]; omega, ?_, ?_⟩
      · unfold forpixels
        rw [e', ok_bind, e, ok_bind]
        rfl
      · intro v hv
        simp only [List.mem_cons] at hv
        rcases hv with rfl | rfl | rfl | hv
        · exact a1
        · exact a2
        · exact a3
        · exact ob v hv
      · intro i hi
        cases i with
        | zero => rw [bufPx24_head, bufPx24_head, eG]
        | succ i => rw [bufPx24_cons, bufPx24_cons]; exact op i (by omega)

theorem rgb_channels {r g b : Nat} (hr : r < 256) (hg : g < 256) (hb : b < 256) :
    redOf (rgb r g b) = r ∧ greenOf (rgb r g b) = g ∧ blueOf (rgb r g b) = b := by
  unfold redOf greenOf blueOf rgb; omega

theorem three_ok {u v w : Int} (hu : 0 ≤ u ∧ u < 256) (hv : 0 ≤ v ∧ v < 256) (hw : 0 ≤ w ∧ w < 256) :
    mkArray [u, v, w] = .ok [u.toNat, v.toNat, w.toNat] := by
  unfold mkArray
  rw [if_pos]
  · rfl
  · simp [hu, hv, hw]

/-- A region filter of this kind, for a rectangle and for the whole image. -/
theorem tone_region (h : Valid b W H 24) {f : Bytes → Py Bytes} {G : Nat → Nat} (hf : ∀ n, MapsPx f n (fun _ c => G c))
    {x1 y1 x2 y2 : Int} (hi : InImage W H x1 y1 x2 y2) :
    ∃ b', filterregion24 (fun _ => f) b x1 y1 x2 y2 = .ok b' ∧ Redraws b b' W H 24 (fun x y =>
      if inRect x1 y1 x2 y2 x y then G (pix b W H 24 x y) else pix b W H 24 x y) := by
  rw [filterregion24_run h _ hi]
  exact region24 h hi (φ := fun _ _ c => G c) (fun k _ => hf _)

theorem tone_image (h : Valid b W H 24) {f : Bytes → Py Bytes} {G : Nat → Nat} (hf : ∀ n, MapsPx f n (fun _ c => G c))
    (hW : 0 < W) (hH : 0 < H) :
    ∃ b', filterregion24 (fun _ => f) b 0 0 ((W : Int) - 1) ((H : Int) - 1) = .ok b' ∧
      Redraws b b' W H 24 (fun x y => G (pix b W H 24 x y)) := by
  obtain ⟨b', e, r⟩ := tone_region h hf (x1 := 0) (y1 := 0) (x2 := (W : Int) - 1) (y2 := (H : Int) - 1)
    (by unfold InImage; omega)
  refine ⟨b', e, r.valid, r.header, ?_⟩
  intro x y hx hy
  rw [r.pixels x y hx hy, if_pos]
  unfold inRect
  rw [decide_eq_true_eq]
  omega

/-! ### Luminosity threshold -/

/-- The luminosity of a colour: its largest channel. -/
def lum (c : Nat) : Nat := max (redOf c) (max (greenOf c) (blueOf c))

/-- The channels scaled by `lim / lum`. -/
def relit (t : Nat → Nat → Nat → Int) (lim c : Nat) : Nat :=
  rgb (t lim (lum c) (redOf c)).toNat (t lim (lum c) (greenOf c)).toNat (t lim (lum c) (blueOf c)).toNat

/-- Black and the colours whose luminosity is in the range stay as they are; the others are scaled to the nearer limit. -/
def limited (t : Nat → Nat → Nat → Int) (lo hi c : Nat) : Nat :=
  if lum c = 0 ∨ (lo ≤ lum c ∧ lum c ≤ hi) then c else if lum c < lo then relit t lo c else relit t hi c

/-- What is assumed of `int(lim / lum * v)`: the exact quotient rounded down, or one less. -/
def Scales (t : Nat → Nat → Nat → Int) : Prop :=
  ∀ lim l v, lim < 256 → l < 256 → 0 < l → v ≤ l →
    0 ≤ t lim l v ∧ t lim l v * l ≤ lim * v ∧ (lim : Int) * v ≤ (t lim l v + 1) * l

example : Scales (fun lim l v => ((lim * v / l : Nat) : Int)) := by
  intro lim l v _ _ hl _
  refine ⟨by positivity, ?_, ?_⟩
  · dsimp only; exact_mod_cast Nat.div_mul_le_self _ _
  · have := Nat.lt_div_mul_add hl (a := lim * v)
    have h2 : lim * v ≤ (lim * v / l + 1) * l := by rw [Nat.add_mul, Nat.one_mul]; omega
    dsimp only; exact_mod_cast h2

/-- A scaled channel is at most the limit. -/
theorem Scales.le {t : Nat → Nat → Nat → Int} (ht : Scales t) {lim l v : Nat} (h1 : lim < 256) (h2 : l < 256) (h3 : 0 < l)
    (h4 : v ≤ l) : 0 ≤ t lim l v ∧ t lim l v ≤ lim := by
  obtain ⟨a, c, _⟩ := ht lim l v h1 h2 h3 h4
  refine ⟨a, ?_⟩
  have : (lim : Int) * v ≤ lim * l := by exact_mod_cast Nat.mul_le_mul_left _ h4
  exact Int.le_of_mul_le_mul_right (le_trans c this) (by exact_mod_cast h3)

/-- The largest channel becomes the limit or one less. -/
theorem Scales.top {t : Nat → Nat → Nat → Int} (ht : Scales t) {lim l : Nat} (h1 : lim < 256) (h2 : l < 256) (h3 : 0 < l) :
    (lim : Int) - 1 ≤ t lim l l := by
  obtain ⟨_, _, c⟩ := ht lim l l h1 h2 h3 (Nat.le_refl _)
  have := Int.le_of_mul_le_mul_right c (by exact_mod_cast h3)
  omega

theorem lum_rgb {p q r : Nat} (hp : p < 256) (hq : q < 256) (hr : r < 256) : lum (rgb r q p) = lumof p q r := by
  obtain ⟨e1, e2, e3⟩ := rgb_channels hr hq hp
  unfold lum lumof
  rw [e1, e2, e3]
  omega

theorem threshold_maps {t : Nat → Nat → Nat → Int} (ht : Scales t) (l0 l1 : Int) (n : Nat) :
    MapsPx (applythresholdadjtoBGRbuf t l0 l1) n
      (fun _ c => limited t (min (l0 % 256) (l1 % 256)).toNat (max (l0 % 256) (l1 % 256)).toNat c) := by
  unfold applythresholdadjtoBGRbuf
  dsimp only
  rw [pyAnd_255, pyAnd_255]
  have e1 : min (l0 % 256).toNat (l1 % 256).toNat = (min (l0 % 256) (l1 % 256)).toNat := by omega
  have e2 : max (l0 % 256).toNat (l1 % 256).toNat = (max (l0 % 256) (l1 % 256)).toNat := by omega
  rw [e1, e2]
  obtain ⟨lo, hlo⟩ : ∃ lo, lo = (min (l0 % 256) (l1 % 256)).toNat := ⟨_, rfl⟩
  obtain ⟨hi, hhi⟩ : ∃ hi, hi = (max (l0 % 256) (l1 % 256)).toNat := ⟨_, rfl⟩
  rw [← hlo, ← hhi]
  have b1 : lo < 256 := by omega
  have b2 : hi < 256 := by omega
  have b3 : lo ≤ hi := by omega
  apply forpixels_maps
  intro p q r hp hq hr
  obtain ⟨c1, c2, c3⟩ := rgb_channels hr hq hp
  have hl := lum_rgb hp hq hr
  have l1 : p ≤ lumof p q r ∧ q ≤ lumof p q r ∧ r ≤ lumof p q r ∧ lumof p q r < 256 := by unfold lumof; omega
  have go : ∀ lim, lim < 256 → 0 < lumof p q r → ∃ p' q' r', p' < 256 ∧ q' < 256 ∧ r' < 256 ∧
      mkArray [t lim (lumof p q r) p, t lim (lumof p q r) q, t lim (lumof p q r) r] = .ok [p', q', r'] ∧
      rgb r' q' p' = relit t lim (rgb r q p) := by
    intro lim hlim h0
    have s1 := ht.le hlim l1.2.2.2 h0 l1.1
    have s2 := ht.le hlim l1.2.2.2 h0 l1.2.1
    have s3 := ht.le hlim l1.2.2.2 h0 l1.2.2.1
    refine ⟨_, _, _, ?_, ?_, ?_, three_ok (by omega) (by omega) (by omega), ?_⟩
    · omega
    · omega
    · omega
    · unfold relit
      rw [c1, c2, c3, hl]
  unfold thresholdpx limited
  dsimp only
  rw [hl]
  by_cases k0 : lumof p q r = 0 ∨ (lo ≤ lumof p q r ∧ lumof p q r ≤ hi)
  · rw [if_pos k0, if_neg (by omega), if_neg (by omega)]
    exact ⟨p, q, r, hp, hq, hr, rfl, rfl⟩
  · by_cases k1 : lumof p q r < lo
    · rw [if_neg k0, if_pos k1, if_neg (by omega), if_pos (by omega)]
      exact go lo b1 (by omega)
    · rw [if_neg k0, if_neg k1, if_pos (by omega)]
      exact go hi b2 (by omega)

/-- C83: `thresholdadjto24bitregion` limits the luminosity of the pixels of the rectangle; the limits are taken modulo 256
and in either order. -/
theorem C83_region (h : Valid b W H 24) {t : Nat → Nat → Nat → Int} (ht : Scales t) (l0 l1 : Int) {x1 y1 x2 y2 : Int}
    (hi : InImage W H x1 y1 x2 y2) :
    ∃ b', thresholdadjto24bitregion t b x1 y1 x2 y2 l0 l1 = .ok b' ∧ Redraws b b' W H 24 (fun x y =>
      if inRect x1 y1 x2 y2 x y then
        limited t (min (l0 % 256) (l1 % 256)).toNat (max (l0 % 256) (l1 % 256)).toNat (pix b W H 24 x y)
      else pix b W H 24 x y) :=
  tone_region h (threshold_maps ht l0 l1) hi

/-- C83: other depths and rectangles that leave the image are left alone. -/
theorem C83_rejected (h : Valid b W H bits) (t : Nat → Nat → Nat → Int) (l0 l1 : Int) {x1 y1 x2 y2 : Int}
    (hi : ¬ (bits = 24 ∧ InImage W H x1 y1 x2 y2)) : thresholdadjto24bitregion t b x1 y1 x2 y2 l0 l1 = .ok b :=
  filterregion24_reject h _ hi

/-- The luminosity after the adjustment. -/
theorem limited_lum {t : Nat → Nat → Nat → Int} (ht : Scales t) {lo hi c : Nat} (hc : lum c ≠ 0) (hlo : lo ≤ hi) (hhi : hi < 256) :
    lo ≤ lum (limited t lo hi c) + 1 ∧ lum (limited t lo hi c) ≤ hi := by
  have b0 : redOf c < 256 ∧ greenOf c < 256 ∧ blueOf c < 256 := by unfold redOf greenOf blueOf; omega
  have b1 : redOf c ≤ lum c ∧ greenOf c ≤ lum c ∧ blueOf c ≤ lum c ∧ lum c < 256 ∧
      (redOf c = lum c ∨ greenOf c = lum c ∨ blueOf c = lum c) := by unfold lum; omega
  have go : ∀ lim, lim < 256 → lim ≤ lum (relit t lim c) + 1 ∧ lum (relit t lim c) ≤ lim := by
    intro lim hlim
    have s1 := ht.le hlim b1.2.2.2.1 (by omega) b1.1
    have s2 := ht.le hlim b1.2.2.2.1 (by omega) b1.2.1
    have s3 := ht.le hlim b1.2.2.2.1 (by omega) b1.2.2.1
    have st := ht.top hlim b1.2.2.2.1 (by omega)
    unfold relit
    rw [lum_rgb (by omega) (by omega) (by omega)]
    unfold lumof
    rcases b1.2.2.2.2 with e | e | e
    · rw [← e] at s1 s2 s3 st; rw [← e]; omega
    · rw [← e] at s1 s2 s3 st; rw [← e]; omega
    · rw [← e] at s1 s2 s3 st; rw [← e]; omega
  unfold limited
  split_ifs with k0 k1
  · omega
  · have := go lo (by omega); omega
  · have := go hi hhi; omega

/-- C83: after `thresholdadjto24bitimage` the luminosity of every pixel that was not black is at most the upper limit and
at least the lower limit less one; black pixels stay black. -/
theorem C83_image (h : Valid b W H 24) {t : Nat → Nat → Nat → Int} (ht : Scales t) (l0 l1 : Int) (hW : 0 < W) (hH : 0 < H) :
    ∃ b', thresholdadjto24bitimage t b l0 l1 = .ok b' ∧ Valid b' W H 24 ∧ SameHeader b b' 24 ∧ ∀ x y, x < W → y < H →
      (pix b W H 24 x y = 0 → pix b' W H 24 x y = 0) ∧
      (pix b W H 24 x y ≠ 0 → min (l0 % 256) (l1 % 256) - 1 ≤ lum (pix b' W H 24 x y) ∧
        (lum (pix b' W H 24 x y) : Int) ≤ max (l0 % 256) (l1 % 256)) ∧
      (min (l0 % 256) (l1 % 256) ≤ lum (pix b W H 24 x y) → (lum (pix b W H 24 x y) : Int) ≤ max (l0 % 256) (l1 % 256) →
        pix b' W H 24 x y = pix b W H 24 x y) := by
  obtain ⟨b', e, r⟩ := tone_image h (threshold_maps ht l0 l1) hW hH
  refine ⟨b', ?_, r.valid, r.header, ?_⟩
  · unfold thresholdadjto24bitimage getmaxx getmaxy
    rw [h.getmaxx_eq, h.getmaxy_eq]
    exact e
  intro x y hx hy
  rw [r.pixels x y hx hy]
  have hp := h.pix_lt x y
  refine ⟨?_, ?_, ?_⟩
  · intro h0
    rw [h0]
    unfold limited
    rw [if_pos (Or.inl (by decide))]
  · intro h0
    have hl : lum (pix b W H 24 x y) ≠ 0 := by
      unfold lum redOf greenOf blueOf
      omega
    have := limited_lum ht hl (lo := (min (l0 % 256) (l1 % 256)).toNat) (hi := (max (l0 % 256) (l1 % 256)).toNat) (by omega) (by omega)
    omega
  · intro h1 h2
    unfold limited
    rw [if_pos (Or.inr (by omega))]

example : (do let b ← newBMP 4 1 24
              let b ← plotxybit b 0 0 0x102030; let b ← plotxybit b 1 0 0x806040; let b ← plotxybit b 2 0 0xff7f00
              let b ← thresholdadjto24bitimage (fun lim l v => ((lim * v / l : Nat) : Int)) b 200 96
              pure (← getxybit b 0 0, ← getxybit b 1 0, ← getxybit b 2 0, ← getxybit b 3 0)) =
    .ok (0x204060, 0x806040, 0xc86300, 0) := by decide +kernel

/-- C83, what `thresholdadjcircregion` does. -/
theorem C83_circ_exact (h : Valid b W H 24) {t : Nat → Nat → Nat → Int} (ht : Scales t) (l0 l1 : Int) {x y r : Int} (hx : -18 ≤ x) :
    ∃ b', thresholdadjcircregion t b x y r l0 l1 = .ok b' ∧ Alters b b' W H 24 (CircCols W 24 x y r)
      (fun px py => limited t (min (l0 % 256) (l1 % 256)).toNat (max (l0 % 256) (l1 % 256)).toNat (pix b W H 24 px py)) := by
  obtain ⟨b', e, c⟩ := use24_run h (threshold_maps ht l0 l1) (y := y) (r := r) hx
  exact ⟨b', e, circ24_alters h (threshold_maps ht l0 l1) c⟩

/-- C83 with the disc. Missing: the right end of every row. -/
theorem C83_circ_partial (h : Valid b W H 24) {t : Nat → Nat → Nat → Int} (ht : Scales t) (l0 l1 : Int) {x y r : Int}
    (hs : SquareInside W H x y r) :
    ∃ b', thresholdadjcircregion t b x y r l0 l1 = .ok b' ∧ Alters b b' W H 24
      (fun px py => DiscSet x y r px py ∧ DiscSet x y r (px + 1) py)
      (fun px py => limited t (min (l0 % 256) (l1 % 256)).toNat (max (l0 % 256) (l1 % 256)).toNat (pix b W H 24 px py)) := by
  have h0 := hs x y (by simp) (by simp)
  obtain ⟨b', e, a⟩ := C83_circ_exact h ht l0 l1 (x := x) (y := y) (r := r) (by omega)
  exact ⟨b', e, a.valid, a.header, fun px py hpx hpy d => a.inside px py hpx hpy ((circCols_disc (Or.inr rfl) hs px py).mpr d),
    fun px py hpx hpy d => a.outside px py hpx hpy (fun g => d ((circCols_disc (Or.inr rfl) hs px py).mp g))⟩

example : (do let b ← newBMP 5 5 24; let b ← plotxybit b 1 2 0xff7f00; let b ← plotxybit b 3 2 0xff7f00
              let b ← thresholdadjcircregion (fun lim l v => ((lim * v / l : Nat) : Int)) b 2 2 1 0 100
              pure (← getxybit b 1 2, ← getxybit b 3 2)) = .ok (0x643100, 0xff7f00) := by decide +kernel

/-! ### Gamma correction -/

/-- The channels after a correction that depends on the luminosity; black counts as luminosity 1. -/
def corrected (t : Nat → Nat → Int) (c : Nat) : Nat :=
  let ch := fun v => (t (max 1 (lum c)) v % 256).toNat
  rgb (ch (redOf c)) (ch (greenOf c)) (ch (blueOf c))

theorem gamma_maps (t : Nat → Nat → Int) (n : Nat) : MapsPx (applygammaBGRbuf t) n (fun _ c => corrected t c) := by
  apply forpixels_maps
  intro p q r hp hq hr
  obtain ⟨c1, c2, c3⟩ := rgb_channels hr hq hp
  have hl := lum_rgb hp hq hr
  unfold gammapx
  dsimp only
  rw [pyAnd_255, pyAnd_255, pyAnd_255,
    show (if lumof p q r = 0 then 1 else lumof p q r) = max 1 (lumof p q r) by split_ifs <;> omega]
  refine ⟨_, _, _, ?_, ?_, ?_, three_ok (by omega) (by omega) (by omega), ?_⟩
  · omega
  · omega
  · omega
  · unfold corrected
    dsimp only
    rw [c1, c2, c3, hl]

/-- C84: `gammaadjto24bitregion` corrects every pixel of the rectangle and leaves the others alone. -/
theorem C84_region (h : Valid b W H 24) (t : Nat → Nat → Int) {x1 y1 x2 y2 : Int} (hi : InImage W H x1 y1 x2 y2) :
    ∃ b', gammaadjto24bitregion t b x1 y1 x2 y2 = .ok b' ∧ Redraws b b' W H 24 (fun x y =>
      if inRect x1 y1 x2 y2 x y then corrected t (pix b W H 24 x y) else pix b W H 24 x y) :=
  tone_region h (gamma_maps t) hi

/-- C84: other depths and rectangles that leave the image are left alone. -/
theorem C84_rejected (h : Valid b W H bits) (t : Nat → Nat → Int) {x1 y1 x2 y2 : Int}
    (hi : ¬ (bits = 24 ∧ InImage W H x1 y1 x2 y2)) : gammaadjto24bitregion t b x1 y1 x2 y2 = .ok b :=
  filterregion24_reject h _ hi

/-- C84: the whole image. -/
theorem C84_image (h : Valid b W H 24) (t : Nat → Nat → Int) (hW : 0 < W) (hH : 0 < H) :
    ∃ b', gammaadjto24bitimage t b = .ok b' ∧ Redraws b b' W H 24 (fun x y => corrected t (pix b W H 24 x y)) := by
  obtain ⟨b', e, r⟩ := tone_image h (gamma_maps t) hW hH
  refine ⟨b', ?_, r⟩
  unfold gammaadjto24bitimage getmaxx getmaxy
  rw [h.getmaxx_eq, h.getmaxy_eq]
  exact e

/-- C84: greys become greys, and black stays black when the correction keeps 0. -/
theorem C84_grey (t : Nat → Nat → Int) {v : Nat} (hv : v < 256) :
    (∃ w, w < 256 ∧ corrected t (rgb v v v) = rgb w w w) ∧ ((∀ l, t l 0 = 0) → corrected t 0 = 0) := by
  obtain ⟨c1, c2, c3⟩ := rgb_channels hv hv hv
  constructor
  · refine ⟨(t (max 1 (lum (rgb v v v))) v % 256).toNat, by omega, ?_⟩
    unfold corrected
    dsimp only
    rw [c1, c2, c3]
  · intro h0
    unfold corrected
    dsimp only
    rw [show redOf 0 = 0 from rfl, show greenOf 0 = 0 from rfl, show blueOf 0 = 0 from rfl, h0]
    rfl

example : (do let b ← newBMP 3 1 24; let b ← plotxybit b 0 0 0x102030; let b ← plotxybit b 1 0 0x404040
              let b ← gammaadjto24bitregion (fun l v => ((v * (l * l / 255) / l : Nat) : Int)) b 2 0 1 0
              pure (← getxybit b 0 0, ← getxybit b 1 0, ← getxybit b 2 0)) = .ok (0x102030, 0x101010, 0) := by decide +kernel

/-- C84, what `gammacorrectcircregion` does. -/
theorem C84_circ_exact (h : Valid b W H 24) (t : Nat → Nat → Int) {x y r : Int} (hx : -18 ≤ x) :
    ∃ b', gammacorrectcircregion t b x y r = .ok b' ∧ Alters b b' W H 24 (CircCols W 24 x y r)
      (fun px py => corrected t (pix b W H 24 px py)) := by
  obtain ⟨b', e, c⟩ := use24_run h (gamma_maps t) (y := y) (r := r) hx
  exact ⟨b', e, circ24_alters h (gamma_maps t) c⟩

/-- C84 with the disc. Missing: the right end of every row. -/
theorem C84_circ_partial (h : Valid b W H 24) (t : Nat → Nat → Int) {x y r : Int} (hs : SquareInside W H x y r) :
    ∃ b', gammacorrectcircregion t b x y r = .ok b' ∧ Alters b b' W H 24
      (fun px py => DiscSet x y r px py ∧ DiscSet x y r (px + 1) py) (fun px py => corrected t (pix b W H 24 px py)) := by
  have h0 := hs x y (by simp) (by simp)
  obtain ⟨b', e, a⟩ := C84_circ_exact h t (x := x) (y := y) (r := r) (by omega)
  exact ⟨b', e, a.valid, a.header, fun px py hpx hpy d => a.inside px py hpx hpy ((circCols_disc (Or.inr rfl) hs px py).mpr d),
    fun px py hpx hpy d => a.outside px py hpx hpy (fun g => d ((circCols_disc (Or.inr rfl) hs px py).mp g))⟩

example : (do let b ← newBMP 5 5 24; let b ← plotxybit b 1 2 0x404040; let b ← plotxybit b 3 2 0x404040
              let b ← gammacorrectcircregion (fun l v => ((v * (l * l / 255) / l : Nat) : Int)) b 2 2 1
              pure (← getxybit b 1 2, ← getxybit b 3 2)) = .ok (0x101010, 0x404040) := by decide +kernel

/-! ### Brightness gradients -/

/-- One column of the horizontal gradient: the row `lo` itself is left out. -/
theorem hgradcol_eq (g : Nat → Int) (h : Valid b W H 24) {px lo hi : Nat} (hx : px < W) (hle : lo ≤ hi) (hH : hi < H) :
    ∃ b', hgradcol g (rowLen W 24) b px lo hi = .ok b' ∧ Grid b b' W H 24 (fun y' j =>
      if j / 3 = px ∧ lo < y' ∧ y' ≤ hi then nearestByte (g (rowOf b W H 24 y' j)) else byte b (cell W H 24 y' j)) := by
  have hr : 3 * W ≤ rowLen W 24 := by unfold rowLen; omega
  unfold hgradcol
  rw [BMoffsethd_col h _ hH, BMoffsethd_col h _ (show lo < H by omega)]
  simp only [ok_bind, cell_col_int]
  rw [show px * 24 / 8 = 3 * px by omega]
  rcases Nat.eq_or_lt_of_le hle with rfl | hlt
  · have emp : ∀ (b : Bytes) (s e : Int) (k : Nat), 0 ≤ s → 0 ≤ e → e ≤ s → k ≠ 0 → sliceStep b s e k = .ok [] ∧
        (k ≠ 1 → setSliceStep b s e k [] = .ok b) := by
      intro b s e k h1 h1' h2 hk
      have hc : stepCount (clampIdx b.length s) (clampIdx b.length e) k = 0 := by
        unfold stepCount clampIdx
        split_ifs <;> omega
      unfold sliceStep setSliceStep
      constructor
      · rw [if_neg hk]; dsimp only; rw [hc]; rfl
      · intro hk1
        rw [if_neg hk, if_neg hk1]; dsimp only; rw [hc, if_pos (show 0 = ([] : Bytes).length from rfl)]; rfl
    have hpos : 54 ≤ cell W H 24 lo (3 * px) := by unfold cell dataOff; omega
    have hk : rowLen W 24 ≠ 0 := by omega
    have hk1 : rowLen W 24 ≠ 1 := by omega
    have m0 := emp b (cell W H 24 lo (3 * px)) ((cell W H 24 lo (3 * px) : Int) - 2) _ (by omega) (by omega) (by omega) hk
    have m1 := emp b ((cell W H 24 lo (3 * px) : Int) + 1) ((cell W H 24 lo (3 * px) : Int) - 1) _ (by omega) (by omega) (by omega) hk
    have m2 := emp b ((cell W H 24 lo (3 * px) : Int) + 2) ((cell W H 24 lo (3 * px) : Int)) _ (by omega) (by omega) (by omega) hk
    have hb : applybrightnessadjtoBGRbuf g [] = .ok [] := rfl
    simp only [m0.1, m1.1, m2.1, ok_bind, hb, m0.2 hk1, m1.2 hk1, m2.2 hk1]
    refine ⟨b, rfl, (Grid.refl h).congr ?_⟩
    intro y' j _ _
    rw [if_neg (by omega)]
  · have step : ∀ b1, Valid b1 W H 24 → ∀ t : Nat, t < 3 → ∀ s e : Int, s = (cell W H 24 hi (3 * px) : Int) + t →
        e = (cell W H 24 lo (3 * px) : Int) + t - 2 → sliceStep b1 s e (rowLen W 24) = .ok (column b1 W H 24 (lo + 1) hi (3 * px + t)) ∧
        ∀ col, col.length = hi - lo → (∀ v ∈ col, v < 256) → ∃ b2, setSliceStep b1 s e (rowLen W 24) col = .ok b2 ∧
        Grid b1 b2 W H 24 (fun y' j => if j = 3 * px + t ∧ lo + 1 ≤ y' ∧ y' ≤ hi then byte col (hi - y')
          else byte b1 (cell W H 24 y' j)) := by
      intro b1 h1 t ht s e es0 ee0
      have hj : 3 * px + t < rowLen W 24 := by omega
      have hc : cell W H 24 lo (3 * px) = cell W H 24 (lo + 1) (3 * px) + rowLen W 24 := by
        unfold cell
        rw [show H - 1 - lo = (H - 1 - (lo + 1)) + 1 by omega, Nat.add_mul]
        omega
      have es : s = (cell W H 24 hi (3 * px + t) : Nat) := by rw [es0]; unfold cell; push_cast; omega
      have ee : e = ((cell W H 24 (lo + 1) (3 * px + t) + rowLen W 24 - 2 : Nat) : Int) := by
        rw [ee0, hc]; unfold cell; push_cast; omega
      have hlt' : lo + 1 ≤ hi := hlt
      refine ⟨column_read h1 hlt' hH hj es ee (by omega) (by omega), ?_⟩
      intro col hcl hcb
      exact column_write h1 hlt' hH hj es (by omega) ee (by omega) (by omega) (by omega) hcb
    have hlen : ∀ t, ((column b W H 24 (lo + 1) hi (3 * px + t)).map fun v => nearestByte (g v)).length = hi - lo := by
      intro t; rw [List.length_map, length_column]; omega
    have hby : ∀ t, ∀ v ∈ (column b W H 24 (lo + 1) hi (3 * px + t)).map (fun v => nearestByte (g v)), v < 256 := by
      intro t v hv; obtain ⟨w, _, rfl⟩ := List.mem_map.mp hv; exact nearestByte_lt _
    obtain ⟨d0, w0⟩ := step b h 0 (by omega) (cell W H 24 hi (3 * px) : Int) ((cell W H 24 lo (3 * px) : Int) - 2) (by omega) (by omega)
    obtain ⟨d1, _⟩ := step b h 1 (by omega) ((cell W H 24 hi (3 * px) : Int) + 1) ((cell W H 24 lo (3 * px) : Int) - 1) (by omega) (by omega)
    obtain ⟨d2, _⟩ := step b h 2 (by omega) ((cell W H 24 hi (3 * px) : Int) + 2) (cell W H 24 lo (3 * px) : Int) (by omega) (by omega)
    obtain ⟨b1, f1, g1⟩ := w0 _ (hlen 0) (hby 0)
    obtain ⟨b2, f2, g2⟩ := (step b1 g1.valid 1 (by omega) ((cell W H 24 hi (3 * px) : Int) + 1) ((cell W H 24 lo (3 * px) : Int) - 1)
      (by omega) (by omega)).2 _ (hlen 1) (hby 1)
    obtain ⟨b3, f3, g3⟩ := (step b2 g2.valid 2 (by omega) ((cell W H 24 hi (3 * px) : Int) + 2) (cell W H 24 lo (3 * px) : Int)
      (by omega) (by omega)).2 _ (hlen 2) (hby 2)
    refine ⟨b3, ?_, ((g1.trans g2).trans g3).congr ?_⟩
    · simp only [d0, d1, d2, bright_eq, f1, f2, f3, ok_bind]
    · intro y' j hy hj
      have r1 := g1.cells y' j hy hj
      have r2 := g2.cells y' j hy hj
      rw [r2, r1]
      have hcol : ∀ t, lo + 1 ≤ y' → y' ≤ hi → j = 3 * px + t →
          byte ((column b W H 24 (lo + 1) hi (3 * px + t)).map fun v => nearestByte (g v)) (hi - y') =
            nearestByte (g (rowOf b W H 24 y' j)) := by
        intro t c1 c2 ej
        rw [byte_eq_getElem _ _ (by rw [hlen]; omega), List.getElem_map, ← byte_eq_getElem, byte_column c1 c2, ej]
        rfl
      by_cases c : lo + 1 ≤ y' ∧ y' ≤ hi
      · by_cases d : j / 3 = px
        · rw [if_pos (show j / 3 = px ∧ lo < y' ∧ y' ≤ hi by omega)]
          have : j = 3 * px + 0 ∨ j = 3 * px + 1 ∨ j = 3 * px + 2 := by omega
          rcases this with e | e | e
          · rw [if_neg (by omega), if_neg (by omega), if_pos ⟨e, c⟩, hcol 0 c.1 c.2 e]
          · rw [if_neg (by omega), if_pos ⟨e, c⟩, hcol 1 c.1 c.2 e]
          · rw [if_pos ⟨e, c⟩, hcol 2 c.1 c.2 e]
        · rw [if_neg (by omega), if_neg (by omega), if_neg (by omega), if_neg (by omega)]
      · rw [if_neg (by omega), if_neg (by omega), if_neg (by omega), if_neg (by omega)]

/-- C85, what `horizontalbrightnessgradto24bitregion` does: column `x` is brightened with the factor of round `x - left`,
except for its top row. -/
theorem C85_horigradient_exact (h : Valid b W H 24) (f : Nat → Nat → Int) {x1 y1 x2 y2 : Int}
    (hi : InImage W H x1 y1 x2 y2) (hx : x1 ≠ x2) :
    ∃ b', horizontalbrightnessgradto24bitregion f b x1 y1 x2 y2 = .ok b' ∧ Redraws b b' W H 24 (fun x y =>
      if inRect x1 y1 x2 y2 x y ∧ (y : Int) ≠ min y1 y2 then brightened (f ((x : Int) - min x1 x2).toNat) (pix b W H 24 x y)
      else pix b W H 24 x y) := by
  obtain ⟨xa, xb, ya, yb, exa, exb, eya, eyb, hxW, hyH⟩ := corners hi
  have hr : 3 * W ≤ rowLen W 24 := by unfold rowLen; omega
  unfold horizontalbrightnessgradto24bitregion
  rw [(C44_rect_guards h _ x1 y1 x2 y2).2.1.1 ⟨rfl, hi⟩, h.xchrcnt_eq, ok_bind, sortrec_eq]
  dsimp only
  rw [if_neg (by omega), ← exa, ← exb, ← eya, ← eyb, Int.toNat_natCast]
  obtain ⟨b', e, hv, hh, hc⟩ := zone_fold (W := W) (H := H) (bits := 24)
    (fun b p q => rowOf b W H 24 q p) (fun p q => q < H ∧ p < rowLen W 24)
    (fun (x : Int) p q => ((p / 3 : Nat) : Int) = x ∧ ya < q ∧ q ≤ yb)
    (fun x g p q => nearestByte (f (x - xa).toNat (g p q)))
    (fun bmp (x : Int) => hgradcol (f (x - xa).toNat) (rowLen W 24) bmp x ya yb) (pyRange (xa : Int) ((xb : Int) + 1))
    ((nodup_pyRange _ _).imp (by intro a a' hne p q h1 h2; omega))
    (by intro a _ g g' hg p q hD hz; rw [hg p q hD hz])
    (by
      intro b0 h0 x hxm
      rw [mem_pyRange] at hxm
      obtain ⟨n, rfl⟩ := Int.eq_ofNat_of_zero_le (show 0 ≤ x by omega)
      obtain ⟨b1, e1, g1⟩ := hgradcol_eq (f ((n : Int) - xa).toNat) h0 (px := n) (lo := ya) (hi := yb) (by omega) (by omega) hyH
      refine ⟨b1, e1, g1.valid, g1.header, ?_⟩
      rintro p q ⟨hq, hp⟩
      have := g1.cells q p hq hp
      constructor
      · intro hz
        rw [if_pos (by omega)] at this
        exact this
      · intro hz
        rw [if_neg (by omega)] at this
        exact this) h
  rw [e]
  refine ⟨b', rfl, hv, hh, ?_⟩
  intro x y hx' hy'
  have ir : (inRect x1 y1 x2 y2 x y = true) ↔ (xa ≤ x ∧ x ≤ xb ∧ ya ≤ y ∧ y ≤ yb) := by
    unfold inRect; rw [decide_eq_true_eq]; omega
  by_cases c : xa ≤ x ∧ x ≤ xb ∧ ya < y ∧ y ≤ yb
  · rw [if_pos ⟨ir.mpr (by omega), by omega⟩]
    apply pix_bright h
    intro t ht
    have := (hc (3 * x + t) y ⟨hy', by omega⟩).1 x (by rw [mem_pyRange]; omega) ⟨by omega, c.2.2⟩
    exact this
  · rw [if_neg (by rw [ir]; omega)]
    apply pix_congr rfl
    intro t ht
    have ht3 : t < 3 := by unfold bpp at ht; simpa using ht
    have := (hc (x * 24 / 8 + t) y ⟨hy', by omega⟩).2 (by
      intro a ha; rw [mem_pyRange] at ha; omega)
    exact this

example : (do let b ← newBMP 3 3 24; let b ← plotxybit b 0 0 10; let b ← plotxybit b 0 1 10; let b ← plotxybit b 1 1 10
              let b ← plotxybit b 2 2 10
              let b ← horizontalbrightnessgradto24bitregion (fun k v => (k + 2) * v) b 0 0 2 2
              pure (← getxybit b 0 0, ← getxybit b 0 1, ← getxybit b 1 1, ← getxybit b 2 2)) = .ok (10, 20, 30, 40) := by
  decide +kernel

/-- C85 for the rows below the top one. Missing: the top row of the rectangle. -/
theorem C85_horigradient_partial (h : Valid b W H 24) (f : Nat → Nat → Int) {x1 y1 x2 y2 : Int}
    (hi : InImage W H x1 y1 x2 y2) (hx : x1 ≠ x2) :
    ∃ b', horizontalbrightnessgradto24bitregion f b x1 y1 x2 y2 = .ok b' ∧ Valid b' W H 24 ∧ SameHeader b b' 24 ∧
      ∀ x y, x < W → y < H → min y1 y2 < (y : Int) → pix b' W H 24 x y =
        if inRect x1 y1 x2 y2 x y then brightened (f ((x : Int) - min x1 x2).toNat) (pix b W H 24 x y) else pix b W H 24 x y := by
  obtain ⟨b', e, r⟩ := C85_horigradient_exact h f hi hx
  refine ⟨b', e, r.valid, r.header, ?_⟩
  intro x y hx' hy' hy
  rw [r.pixels x y hx' hy']
  by_cases c : inRect x1 y1 x2 y2 x y = true
  · rw [if_pos ⟨c, by omega⟩, if_pos c]
  · rw [if_neg (by tauto), if_neg c]

/-- C85 is false: the top row keeps its colours. -/
theorem C85_false : ¬ ∀ (b : Bytes) (W H : Nat), Valid b W H 24 → ∀ (f : Nat → Nat → Int) (x1 y1 x2 y2 : Int),
    InImage W H x1 y1 x2 y2 → x1 ≠ x2 →
    ∃ b', horizontalbrightnessgradto24bitregion f b x1 y1 x2 y2 = .ok b' ∧ Redraws b b' W H 24 (fun x y =>
      if inRect x1 y1 x2 y2 x y then brightened (f ((x : Int) - min x1 x2).toNat) (pix b W H 24 x y) else pix b W H 24 x y) := by
  intro hall
  obtain ⟨b, _, v, -, -, -, -, hz, -⟩ := C01_newBMP_valid 2 1 24 (by simp [Depth]) (by norm_num) (by norm_num)
  have hi : InImage 2 1 0 0 1 0 := by unfold InImage; omega
  obtain ⟨b1, e1, a1⟩ := hall b 2 1 v (fun _ _ => 255) 0 0 1 0 hi (by omega)
  obtain ⟨b2, e2, a2⟩ := C85_horigradient_exact v (fun _ _ => 255) hi (by omega)
  rw [e1] at e2
  obtain rfl := Except.ok.inj e2
  have h1 := a1.pixels 0 0 (by omega) (by omega)
  have h2 := a2.pixels 0 0 (by omega) (by omega)
  rw [h1, if_pos (by decide), if_neg (by decide), hz 0 0 (by omega) (by omega)] at h2
  revert h2
  decide

/-- C85: a region of one column is a division by zero. -/
theorem C85_one_column (h : Valid b W H 24) (f : Nat → Nat → Int) {x1 y1 x2 y2 : Int}
    (hi : InImage W H x1 y1 x2 y2) (hx : x1 = x2) :
    horizontalbrightnessgradto24bitregion f b x1 y1 x2 y2 = .error .zeroDivision := by
  unfold horizontalbrightnessgradto24bitregion
  rw [(C44_rect_guards h _ x1 y1 x2 y2).2.1.1 ⟨rfl, hi⟩, h.xchrcnt_eq, ok_bind, sortrec_eq]
  dsimp only
  rw [if_pos (by omega)]
  rfl

/-- C85: other depths and rectangles that leave the image are left alone. -/
theorem C85_rejected (h : Valid b W H bits) (f : Nat → Nat → Int) {x1 y1 x2 y2 : Int}
    (hi : ¬ (bits = 24 ∧ InImage W H x1 y1 x2 y2)) : horizontalbrightnessgradto24bitregion f b x1 y1 x2 y2 = .ok b := by
  unfold horizontalbrightnessgradto24bitregion
  rw [(C44_rect_guards h _ x1 y1 x2 y2).2.1.2 hi]
  rfl

/-- C85: the gradients of the whole image. -/
theorem C85_images (h : Valid b W H 24) (f : Nat → Nat → Int) (hW : 1 < W) (hH : 1 < H) :
    (∃ b', horizontalbrightnessgradto24bitimage f b = .ok b' ∧ Redraws b b' W H 24 (fun x y =>
      if y ≠ 0 then brightened (f x) (pix b W H 24 x y) else pix b W H 24 x y)) ∧
    (∃ b', verticalbrightnessgradto24bitimage f b = .ok b' ∧ Redraws b b' W H 24 (fun x y =>
      brightened (f (H - 1 - y)) (pix b W H 24 x y))) := by
  have hi : InImage W H 0 0 ((W : Int) - 1) ((H : Int) - 1) := by unfold InImage; omega
  constructor
  · obtain ⟨b', e, r⟩ := C85_horigradient_exact h f hi (by omega)
    refine ⟨b', ?_, r.valid, r.header, ?_⟩
    · unfold horizontalbrightnessgradto24bitimage getmaxx getmaxy
      rw [h.getmaxx_eq, h.getmaxy_eq]
      exact e
    · intro x y hx hy
      rw [r.pixels x y hx hy]
      have : inRect 0 0 ((W : Int) - 1) ((H : Int) - 1) x y = true := by unfold inRect; rw [decide_eq_true_eq]; omega
      rw [show ((x : Int) - min 0 ((W : Int) - 1)).toNat = x by omega]
      by_cases c : y = 0
      · rw [if_neg (by omega), if_neg (by omega)]
      · rw [if_pos ⟨this, by omega⟩, if_pos c]
  · obtain ⟨b', e, r⟩ := C60_vertgradient_partial h f hi (by omega)
    refine ⟨b', ?_, r.valid, r.header, ?_⟩
    · unfold verticalbrightnessgradto24bitimage getmaxx getmaxy
      rw [h.getmaxx_eq, h.getmaxy_eq]
      exact e
    · intro x y hx hy
      rw [r.pixels x y hx hy, if_pos (by unfold inRect; rw [decide_eq_true_eq]; omega),
        show (max 0 ((H : Int) - 1) - y).toNat = H - 1 - y by omega]

end
end Verif.Props
