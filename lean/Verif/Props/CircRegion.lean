import Verif.Lemmas.CircRegion
import Verif.Props.Filters
import Verif.SpecRegion
/-! Properties C68 to C70: operations on circular regions that work row by row. -/

namespace Verif.Props
open Verif Spec Model

/-- The pixels that the row operations reach: a row of the circle goes from its left end up to the pixel before its
right end, and stops before the last column of the image; columns are counted in whole bytes. -/
def CircCols (W bits : Nat) (x y r : Int) (px py : Nat) : Prop :=
  ∃ hw, HalfWidth r hw |(py : Int) - y| ∧ max (x - hw) 0 * bits / 8 ≤ (px : Int) * bits / 8 ∧
    (px : Int) * bits / 8 < min (x + hw) ((W : Int) - 1) * bits / 8

section
variable {b b' : Bytes} {W H bits : Nat}

/-- Bytes `lo .. hi-1` of a row. -/
def rowSeg (ρ : Nat → Nat) (lo hi : Nat) : Bytes := (List.range (hi - lo)).map fun i => ρ (lo + i)

/-- The value of a computation that succeeds. -/
def outOf (v : Py Bytes) : Bytes := match v with
  | .ok o => o
  | .error _ => []

/-- A function applied to the slice of a row. -/
theorem rowFn_of (hd : Depth bits) {func : Bytes → Py Bytes}
    (hrun : ∀ buf : Bytes, (∀ v ∈ buf, v < 256) → (bits = 24 → 3 ∣ buf.length) →
      ∃ out, func buf = .ok out ∧ out.length = buf.length ∧ ∀ v ∈ out, v < 256) :
    RowFn (fun b s e => func (slice b s e)) (fun ρ lo hi => outOf (func (rowSeg ρ lo hi))) W H bits := by
  have hseg : ∀ ρ : Nat → Nat, (∀ j, ρ j < 256) → ∀ xa xb : Nat, xa ≤ xb →
      ∃ out, func (rowSeg ρ (xa * bits / 8) (xb * bits / 8)) = .ok out ∧ out.length = xb * bits / 8 - xa * bits / 8 ∧
        ∀ v ∈ out, v < 256 := by
    intro ρ hρ xa xb hx
    obtain ⟨out, e, hl, hb⟩ := hrun (rowSeg ρ (xa * bits / 8) (xb * bits / 8))
      (by intro v hv; obtain ⟨i, _, rfl⟩ := List.mem_map.mp hv; exact hρ _)
      (by intro h24; subst h24; simp [rowSeg]; omega)
    exact ⟨out, e, by rw [hl]; simp [rowSeg], hb⟩
  refine ⟨?_, ?_, ?_, ?_, ?_⟩
  · intro b h y xa xb hy hx hW
    have hle : xa * bits / 8 ≤ xb * bits / 8 := Nat.div_le_div_right (Nat.mul_le_mul_right _ hx)
    rw [slice_row h hy hle (col_le_row h.depth hW).1]
    obtain ⟨out, e, _⟩ := hseg (fun j => byte b (cell W H bits y j)) (fun j => byte_lt_of_mem h.bytes _) xa xb hx
    have e' : func (seg b W H bits y (xa * bits / 8) (xb * bits / 8 - xa * bits / 8)) = .ok out := e
    rw [e', e]; rfl
  · intro ρ hρ xa xb hx _
    obtain ⟨out, e, hl, _⟩ := hseg ρ hρ xa xb hx
    rw [e]; exact hl
  · intro ρ hρ xa xb hx _
    obtain ⟨out, e, _, hb⟩ := hseg ρ hρ xa xb hx
    rw [e]; exact hb
  · intro ρ ρ' hρ xa xb hx hW
    have e : rowSeg ρ (xa * bits / 8) (xb * bits / 8) = rowSeg ρ' (xa * bits / 8) (xb * bits / 8) := by
      apply List.map_congr_left
      intro i hi
      have hi' := List.mem_range.mp hi
      apply hρ
      have := (col_le_row hd hW).1
      omega
    rw [e]
  · intro b h s e h0 hle
    rw [slice_empty h0 hle]
    obtain ⟨out, e, hl, _⟩ := hrun [] (by simp) (by simp)
    rw [e, List.length_eq_zero_iff.mp hl]


theorem circ_in_iff (hd : Depth bits) {x1 x2 : Int} {px t : Nat} (ht : t < bpp bits) :
    (max x1 0 ≤ min x2 ((W : Int) - 1) ∧ (max x1 0).toNat * bits / 8 ≤ px * bits / 8 + t ∧
      px * bits / 8 + t < (min x2 ((W : Int) - 1)).toNat * bits / 8) ↔
    (max x1 0 * bits / 8 ≤ (px : Int) * bits / 8 ∧ (px : Int) * bits / 8 < min x2 ((W : Int) - 1) * bits / 8) := by
  have h0 : 0 ≤ max x1 0 := by omega
  generalize max x1 0 = a at *
  generalize min x2 ((W : Int) - 1) = c at *
  unfold bpp at ht
  rcases hd with rfl | rfl | rfl | rfl <;> simp at ht <;> omega

/-- The right neighbour test: inside the image and with one or more bytes for each pixel, the row operations reach the
pixels of the disc whose right neighbour is in the disc too. -/
theorem circCols_disc (hb : bits = 8 ∨ bits = 24) {x y r : Int} (hs : SquareInside W H x y r) (px py : Nat) :
    CircCols W bits x y r px py ↔ DiscSet x y r px py ∧ DiscSet x y r (px + 1) py := by
  have hsq := (square_iff W H x y r).mpr hs
  simp only [entirecircleisinboundary, isinrange, Bool.and_eq_true, decide_eq_true_eq] at hsq
  have key : ∀ q : Nat, DiscSet x y r q py ↔ ∃ hw, HalfWidth r hw |(py : Int) - y| ∧ x - hw ≤ q ∧ (q : Int) ≤ x + hw := by
    intro q
    unfold DiscSet
    constructor
    · rintro ⟨dx, h1, h2⟩
      have := C25_circle_accuracy r _ _ ((C25_circle_points _ _ _).mpr h1)
      obtain ⟨hw, hhw⟩ := halfWidth_exists (r := r) (abs_nonneg ((py : Int) - y)) this.2.2.2.1
      have h3 := hhw.2 _ h1
      have h4 := abs_le.mp h2
      exact ⟨hw, hhw, by omega, by omega⟩
    · rintro ⟨hw, h1, h2, h3⟩
      exact ⟨hw, h1.1, abs_le.mpr ⟨by omega, by omega⟩⟩
  rw [key, key]
  unfold CircCols
  constructor
  · rintro ⟨hw, h1, h2, h3⟩
    have := halfWidth_bounds h1
    refine ⟨⟨hw, h1, ?_, ?_⟩, ⟨hw, h1, ?_, ?_⟩⟩ <;> rcases hb with rfl | rfl <;> push_cast at * <;> omega
  · rintro ⟨⟨hw, h1, h2, h3⟩, ⟨hw', h1', h2', h3'⟩⟩
    have := halfWidth_bounds h1
    have e := halfWidth_unique h1 h1'
    subst e
    refine ⟨hw, h1, ?_, ?_⟩ <;> rcases hb with rfl | rfl <;> push_cast at * <;> omega

/-! ### Inversion -/

theorem invert_rowFn (hd : Depth bits) : RowFn (fun b s e => invertbitsinbuffer (slice b s e))
    (fun ρ lo hi => outOf (invertbitsinbuffer (rowSeg ρ lo hi))) W H bits := by
  apply rowFn_of hd
  intro buf hb _
  refine ⟨_, invertbuf_eq hb, by simp, ?_⟩
  intro v hv
  obtain ⟨w, _, rfl⟩ := List.mem_map.mp hv
  omega

theorem invert_newRow {x1 x2 : Int} {ρ : Nat → Nat} (hρ : ∀ j, ρ j < 256) (j : Nat) :
    newRow (fun ρ lo hi => outOf (invertbitsinbuffer (rowSeg ρ lo hi))) W bits x1 x2 ρ j =
      if max x1 0 ≤ min x2 ((W : Int) - 1) ∧ (max x1 0).toNat * bits / 8 ≤ j ∧
        j < (min x2 ((W : Int) - 1)).toNat * bits / 8 then 255 - ρ j else ρ j := by
  unfold newRow
  dsimp only
  split_ifs with c
  · have hb : ∀ v ∈ rowSeg ρ ((max x1 0).toNat * bits / 8) ((min x2 ((W : Int) - 1)).toNat * bits / 8), v < 256 := by
      intro v hv; obtain ⟨i, _, rfl⟩ := List.mem_map.mp hv; exact hρ _
    rw [invertbuf_eq hb]
    unfold outOf rowSeg
    dsimp only
    rw [List.map_map, byte_range_map _ (by omega)]
    simp only [Function.comp]
    congr 2
    omega
  · rfl

theorem rowOf_lt (h : Valid b W H bits) (y j : Nat) : rowOf b W H bits y j < 256 := byte_lt_of_mem h.bytes _

/-- C68, what `invertbitsincircregion` does: exactly the pixels of `CircCols` are complemented, and a second
call restores the file. The centre may be up to 18 pixels left of the image, and further for small depths. -/
theorem C68_invertcirc_exact (h : Valid b W H bits) {x y r : Int} (hx : 0 ≤ x * bits / 8 + dataOff bits) :
    ∃ b', invertbitsincircregion b x y r = .ok b' ∧
      Alters b b' W H bits (CircCols W bits x y r) (fun px py => 2 ^ bits - 1 - pix b W H bits px py) ∧
      invertbitsincircregion b' x y r = .ok b := by
  have run : ∀ b, Valid b W H bits → ∃ b', invertbitsincircregion b x y r = .ok b' ∧
      CircRows (fun ρ lo hi => outOf (invertbitsinbuffer (rowSeg ρ lo hi))) b b' W H bits x y r := fun b h =>
    circRegion_spec h (invert_rowFn h.depth) hx
  obtain ⟨b', e, c⟩ := run b h
  obtain ⟨b'', e2, c2⟩ := run b' c.valid
  refine ⟨b', e, ⟨c.valid, c.header, ?_, ?_⟩, ?_⟩
  · rintro px py hpx hpy ⟨hw, h1, h2⟩
    apply pix_compl h
    intro t ht
    have hj : px * bits / 8 + t < rowLen W bits := by have := xcell_lt h.depth hpx; omega
    have := c.inside py _ hpy hj hw h1
    rw [invert_newRow (rowOf_lt h py), if_pos ((circ_in_iff h.depth ht).mpr h2)] at this
    exact this
  · intro px py hpx hpy hn
    apply pix_congr rfl
    intro t ht
    have hj : px * bits / 8 + t < rowLen W bits := by have := xcell_lt h.depth hpx; omega
    by_cases hr : r < |(py : Int) - y|
    · exact c.outside py _ hpy hj hr
    · obtain ⟨hw, h1⟩ := halfWidth_exists (abs_nonneg ((py : Int) - y)) (le_of_not_gt hr)
      have := c.inside py _ hpy hj hw h1
      rw [invert_newRow (rowOf_lt h py), if_neg (fun g => hn ⟨hw, h1, (circ_in_iff h.depth ht).mp g⟩)] at this
      exact this
  · rw [e2]
    congr 1
    apply grid_ext h ⟨c2.header.1.trans c.header.1, fun i hi => (c2.header.2 i hi).trans (c.header.2 i hi)⟩
    intro py j hpy hj
    show rowOf b'' W H bits py j = rowOf b W H bits py j
    by_cases hr : r < |(py : Int) - y|
    · rw [c2.outside py j hpy hj hr, c.outside py j hpy hj hr]
    · obtain ⟨hw, h1⟩ := halfWidth_exists (abs_nonneg ((py : Int) - y)) (le_of_not_gt hr)
      have hlt := rowOf_lt h py j
      rw [c2.inside py j hpy hj hw h1, invert_newRow (rowOf_lt c.valid py), c.inside py j hpy hj hw h1,
        invert_newRow (rowOf_lt h py)]
      split_ifs <;> omega

/-- C68 with the disc in the place of the set of the code, for the pixels that are not the right end of their row.
Missing: the right end of every row of the disc, circles that leave the image, and 1- and 4-bit images. -/
theorem C68_invertcirc_partial (h : Valid b W H bits) (hb : bits = 8 ∨ bits = 24) {x y r : Int}
    (hs : SquareInside W H x y r) :
    ∃ b', invertbitsincircregion b x y r = .ok b' ∧ Valid b' W H bits ∧ SameHeader b b' bits ∧
      ∀ px py, px < W → py < H →
        (DiscSet x y r px py → DiscSet x y r (px + 1) py → pix b' W H bits px py = 2 ^ bits - 1 - pix b W H bits px py) ∧
        (¬ DiscSet x y r px py → pix b' W H bits px py = pix b W H bits px py) := by
  have h0 := hs x y (by simp) (by simp)
  obtain ⟨b', e, a, _⟩ := C68_invertcirc_exact h (x := x) (y := y) (r := r) (by
    rcases hb with rfl | rfl <;> omega)
  refine ⟨b', e, a.valid, a.header, ?_⟩
  intro px py hpx hpy
  constructor
  · intro d1 d2
    exact a.inside px py hpx hpy ((circCols_disc hb hs px py).mpr ⟨d1, d2⟩)
  · intro d
    exact a.outside px py hpx hpy (fun g => d ((circCols_disc hb hs px py).mp g).1)

theorem halfWidth_zero : HalfWidth 0 0 0 :=
  ⟨⟨le_refl _, le_refl _, Or.inl ⟨rfl, rfl, rfl⟩⟩, by rintro dx ⟨_, _, ⟨_, q, _⟩ | ⟨q, _⟩⟩ <;> omega⟩

/-- C68 is false: a circle of radius 0 is its centre, which stays as it is. -/
theorem C68_false : ¬ ∀ (b : Bytes) (W H bits : Nat), Valid b W H bits → ∀ x y r : Int, SquareInside W H x y r →
    ∃ b', invertbitsincircregion b x y r = .ok b' ∧
      Alters b b' W H bits (DiscSet x y r) (fun px py => 2 ^ bits - 1 - pix b W H bits px py) := by
  intro hall
  obtain ⟨b, _, v, -, -, -, -, hz, -⟩ := C01_newBMP_valid 1 1 24 (by simp [Depth]) (by norm_num) (by norm_num)
  have hs : SquareInside 1 1 0 0 0 := by rw [← square_iff]; decide
  obtain ⟨b1, e1, a1⟩ := hall b 1 1 24 v 0 0 0 hs
  obtain ⟨b2, e2, a2, _⟩ := C68_invertcirc_exact v (x := 0) (y := 0) (r := 0) (by omega)
  rw [e1] at e2
  obtain rfl := Except.ok.inj e2
  have h1 := a1.inside 0 0 (by omega) (by omega) ⟨0, by simpa using halfWidth_zero.1, by simp⟩
  have h2 := a2.outside 0 0 (by omega) (by omega) (by
    rw [circCols_disc (Or.inr rfl) hs]
    rintro ⟨_, dx, ⟨q1, q2, ⟨_, q3, _⟩ | ⟨q3, _⟩⟩, q4⟩
    · subst q3; simp at q4
    · omega)
  rw [h2, hz 0 0 (by omega) (by omega)] at h1
  norm_num at h1

/-- C68: a centre far to the left wraps around: a circle that does not touch the image complements bytes of it. -/
theorem C68_left_wraps : (do let b ← invertbitsincircregion sample8 (-1080) 3 0; pure (decide (b = sample8))) = .ok false := by
  decide +kernel

example : (do let b ← newBMP 5 5 24; let b ← invertbitsincircregion b 2 2 1
              pure (← getxybit b 1 2, ← getxybit b 2 2, ← getxybit b 3 2, ← getxybit b 2 1)) =
    .ok (0xffffff, 0xffffff, 0, 0) := by decide +kernel

/-! ### Filters of 24-bit images -/

theorem maps_zero {f : Bytes → Py Bytes} (hf : f [] = .ok []) (φ : Nat → Nat → Nat) : MapsPx f 0 φ := by
  intro buf _ hl
  have : buf = [] := List.length_eq_zero_iff.mp (by omega)
  subst this
  exact ⟨[], hf, rfl, by simp, by intro i hi; omega⟩

theorem maps_rowFn {f : Bytes → Py Bytes} {φ : Nat → Nat → Nat → Nat} (hf : ∀ n, MapsPx f n (φ n)) :
    RowFn (fun b s e => f (slice b s e)) (fun ρ lo hi => outOf (f (rowSeg ρ lo hi))) W H 24 := by
  apply rowFn_of (by simp [Depth])
  intro buf hb hd
  obtain ⟨n, hn⟩ := hd rfl
  obtain ⟨out, e, hl, ho, _⟩ := hf n buf hb hn
  exact ⟨out, e, by omega, ho⟩

/-- The number of pixels of a cut row, and the first one. -/
def cutLen (W : Nat) (x hw : Int) : Nat := (min (x + hw) ((W : Int) - 1) - max (x - hw) 0).toNat

/-- The pixels after a filter on a circle: pixel `i` of a cut row of `n` pixels becomes `φ n i` of its colour. -/
theorem circ24_pixels (h : Valid b W H 24) {f : Bytes → Py Bytes} {φ : Nat → Nat → Nat → Nat}
    (hf : ∀ n, MapsPx f n (φ n)) {x y r : Int}
    (c : CircRows (fun ρ lo hi => outOf (f (rowSeg ρ lo hi))) b b' W H 24 x y r) :
    (∀ px py, px < W → py < H → ∀ hw, HalfWidth r hw |(py : Int) - y| → max (x - hw) 0 ≤ (px : Int) →
      (px : Int) < min (x + hw) ((W : Int) - 1) →
      pix b' W H 24 px py = φ (cutLen W x hw) (px - (max (x - hw) 0).toNat) (pix b W H 24 px py)) ∧
    (∀ px py, px < W → py < H → ¬ CircCols W 24 x y r px py → pix b' W H 24 px py = pix b W H 24 px py) := by
  have hd : Depth 24 := by simp [Depth]
  constructor
  · intro px py hpx hpy hw h1 h2 h3
    obtain ⟨a, ha⟩ := Int.eq_ofNat_of_zero_le (show 0 ≤ max (x - hw) 0 by omega)
    obtain ⟨e, he⟩ := Int.eq_ofNat_of_zero_le (show 0 ≤ min (x + hw) ((W : Int) - 1) by omega)
    have hlen : cutLen W x hw = e - a := by unfold cutLen; omega
    have hrow : e ≤ W := by omega
    have hr : 3 * W ≤ rowLen W 24 := by unfold rowLen; omega
    have hb : ∀ v ∈ rowSeg (rowOf b W H 24 py) (a * 24 / 8) (e * 24 / 8), v < 256 := by
      intro v hv; obtain ⟨i, _, rfl⟩ := List.mem_map.mp hv; exact rowOf_lt h _ _
    obtain ⟨out, eo, hl, ho, hm⟩ := hf (e - a) _ hb (by simp [rowSeg]; omega)
    have key : ∀ t, t < 3 → byte b' (cell W H 24 py (3 * px + t)) = byte out (3 * (px - a) + t) := by
      intro t ht
      have := c.inside py (3 * px + t) hpy (by omega) hw h1
      unfold newRow at this
      dsimp only at this
      rw [ha, he, Int.toNat_natCast, Int.toNat_natCast, if_pos (by omega), eo] at this
      unfold outOf at this
      dsimp only at this
      rw [show 3 * px + t - a * 24 / 8 = 3 * (px - a) + t by omega] at this
      exact this
    have hpix : pix b' W H 24 px py = bufPx 24 out (px - a) := by
      rw [pix_cell, if_pos rfl]
      unfold bufPx
      rw [if_pos rfl, key 1 (by omega), key 2 (by omega)]
      have := key 0 (by omega)
      rw [Nat.add_zero, Nat.add_zero] at this
      rw [this]
    rw [hpix, hm _ (by omega), hlen, ha, Int.toNat_natCast]
    congr 1
    rw [pix_cell, if_pos rfl]
    unfold bufPx rowSeg rowOf
    rw [if_pos rfl, byte_range_map _ (by omega), byte_range_map _ (by omega), byte_range_map _ (by omega),
      show a * 24 / 8 + 3 * (px - a) = 3 * px by omega, show a * 24 / 8 + (3 * (px - a) + 1) = 3 * px + 1 by omega,
      show a * 24 / 8 + (3 * (px - a) + 2) = 3 * px + 2 by omega]
  · intro px py hpx hpy hn
    apply pix_congr rfl
    intro t ht
    have hj : px * 24 / 8 + t < rowLen W 24 := by have := xcell_lt hd hpx; omega
    by_cases hr : r < |(py : Int) - y|
    · exact c.outside py _ hpy hj hr
    · obtain ⟨hw, h1⟩ := halfWidth_exists (abs_nonneg ((py : Int) - y)) (le_of_not_gt hr)
      have := c.inside py _ hpy hj hw h1
      unfold newRow at this
      dsimp only at this
      rw [if_neg (fun g => hn ⟨hw, h1, (circ_in_iff hd ht).mp g⟩)] at this
      exact this

/-- A filter that treats every pixel alike. -/
theorem circ24_alters (h : Valid b W H 24) {f : Bytes → Py Bytes} {G : Nat → Nat}
    (hf : ∀ n, MapsPx f n (fun _ c => G c)) {x y r : Int}
    (c : CircRows (fun ρ lo hi => outOf (f (rowSeg ρ lo hi))) b b' W H 24 x y r) :
    Alters b b' W H 24 (CircCols W 24 x y r) (fun px py => G (pix b W H 24 px py)) := by
  obtain ⟨p1, p2⟩ := circ24_pixels h hf c
  refine ⟨c.valid, c.header, ?_, p2⟩
  rintro px py hpx hpy ⟨hw, h1, h2, h3⟩
  exact p1 px py hpx hpy hw h1 (by push_cast at *; omega) (by push_cast at *; omega)

theorem use24_run (h : Valid b W H 24) {f : Bytes → Py Bytes} {φ : Nat → Nat → Nat → Nat}
    (hf : ∀ n, MapsPx f n (φ n)) {x y r : Int} (hx : -18 ≤ x) :
    ∃ b', use24btfn2circreg f b x y r = .ok b' ∧
      CircRows (fun ρ lo hi => outOf (f (rowSeg ρ lo hi))) b b' W H 24 x y r := by
  obtain ⟨b', e, c⟩ := circRegion_spec h (maps_rowFn hf) (x := x) (y := y) (r := r) (by
    have := dataOff_ge 24
    push_cast; omega)
  refine ⟨b', ?_, c⟩
  unfold use24btfn2circreg
  rw [(C44_depth h _).1.1 rfl, e]
  rfl

/-- C69, what `brightnessadjcircregion` does: the pixels of `CircCols` are brightened, each channel limited to 0..255. -/
theorem C69_brightness_exact (h : Valid b W H 24) (f : Nat → Int) {x y r : Int} (hx : -18 ≤ x) :
    ∃ b', brightnessadjcircregion f b x y r = .ok b' ∧
      Alters b b' W H 24 (CircCols W 24 x y r) (fun px py => brightened f (pix b W H 24 px py)) := by
  obtain ⟨b', e, c⟩ := use24_run h (bright_maps f) (y := y) (r := r) hx
  exact ⟨b', e, circ24_alters h (bright_maps f) c⟩

/-- C69, what `colorfiltercircregion` does: one more column on the right of every row is left out. -/
theorem C69_colorfilter_exact (h : Valid b W H 24) {fr fg fb : Nat → Int} (hr : KeepsByte fr)
    (hg : KeepsByte fg) (hb : KeepsByte fb) {x y r : Int} (hx : -18 ≤ x) :
    ∃ b', colorfiltercircregion fr fg fb b x y r = .ok b' ∧
      Alters b b' W H 24 (fun px py => CircCols W 24 x y r px py ∧ CircCols W 24 x y r (px + 1) py)
        (fun px py => scaled fr fg fb (pix b W H 24 px py)) := by
  have hm : ∀ n, MapsPx (applycolorfiltertoBGRbuf fr fg fb) n (fun i c => if i < n - 1 then scaled fr fg fb c else c) := by
    intro n
    rcases Nat.eq_zero_or_pos n with rfl | hn
    · exact maps_zero (f := applycolorfiltertoBGRbuf fr fg fb) (by rfl) _
    · exact color_maps hr hg hb n hn
  obtain ⟨b', e, c⟩ := use24_run h hm (y := y) (r := r) hx
  obtain ⟨p1, p2⟩ := circ24_pixels h hm c
  refine ⟨b', e, c.valid, c.header, ?_, ?_⟩
  · rintro px py hpx hpy ⟨⟨hw, h1, h2, h3⟩, ⟨hw', h1', h2', h3'⟩⟩
    have := halfWidth_unique h1 h1'
    subst this
    rw [p1 px py hpx hpy hw h1 (by push_cast at *; omega) (by push_cast at *; omega), if_pos]
    unfold cutLen
    push_cast at *; omega
  · intro px py hpx hpy hn
    by_cases c1 : CircCols W 24 x y r px py
    · obtain ⟨hw, h1, h2, h3⟩ := c1
      rw [p1 px py hpx hpy hw h1 (by push_cast at *; omega) (by push_cast at *; omega), if_neg]
      intro g
      apply hn
      refine ⟨⟨hw, h1, h2, h3⟩, ⟨hw, h1, ?_, ?_⟩⟩ <;> unfold cutLen at g <;> push_cast at * <;> omega
    · exact p2 px py hpx hpy c1

/-- C69: the filters leave images of another depth alone. -/
theorem C69_rejected (h : Valid b W H bits) (hb : bits ≠ 24) (f : Bytes → Py Bytes) (x y r : Int) :
    use24btfn2circreg f b x y r = .ok b ∧ usenopar24btfn2circreg f b x y r = .ok b := by
  unfold use24btfn2circreg usenopar24btfn2circreg
  rw [(C44_depth h _).1.2 hb, (C44_depth h _).1.2 hb]
  exact ⟨rfl, rfl⟩

/-- C69 for the pixels of the disc that are not the right end of their row. Missing: the right end of every row, and
circles that leave the image. -/
theorem C69_brightness_partial (h : Valid b W H 24) (f : Nat → Int) {x y r : Int} (hs : SquareInside W H x y r) :
    ∃ b', brightnessadjcircregion f b x y r = .ok b' ∧ Valid b' W H 24 ∧ SameHeader b b' 24 ∧
      ∀ px py, px < W → py < H →
        (DiscSet x y r px py → DiscSet x y r (px + 1) py → pix b' W H 24 px py = brightened f (pix b W H 24 px py)) ∧
        (¬ DiscSet x y r px py → pix b' W H 24 px py = pix b W H 24 px py) := by
  have h0 := hs x y (by simp) (by simp)
  obtain ⟨b', e, a⟩ := C69_brightness_exact h f (x := x) (y := y) (r := r) (by omega)
  refine ⟨b', e, a.valid, a.header, ?_⟩
  intro px py hpx hpy
  constructor
  · intro d1 d2
    exact a.inside px py hpx hpy ((circCols_disc (Or.inr rfl) hs px py).mpr ⟨d1, d2⟩)
  · intro d
    exact a.outside px py hpx hpy (fun g => d ((circCols_disc (Or.inr rfl) hs px py).mp g).1)

/-- C69 is false: the centre of a circle of radius 0 keeps its colour when everything should become white. -/
theorem C69_false : ¬ ∀ (b : Bytes) (W H : Nat), Valid b W H 24 → ∀ (f : Nat → Int) (x y r : Int), SquareInside W H x y r →
    ∃ b', brightnessadjcircregion f b x y r = .ok b' ∧
      Alters b b' W H 24 (DiscSet x y r) (fun px py => brightened f (pix b W H 24 px py)) := by
  intro hall
  obtain ⟨b, _, v, -, -, -, -, hz, -⟩ := C01_newBMP_valid 1 1 24 (by simp [Depth]) (by norm_num) (by norm_num)
  have hs : SquareInside 1 1 0 0 0 := by rw [← square_iff]; decide
  obtain ⟨b1, e1, a1⟩ := hall b 1 1 v (fun _ => 255) 0 0 0 hs
  obtain ⟨b2, e2, a2⟩ := C69_brightness_exact v (fun _ => 255) (x := 0) (y := 0) (r := 0) (by omega)
  rw [e1] at e2
  obtain rfl := Except.ok.inj e2
  have h1 := a1.inside 0 0 (by omega) (by omega) ⟨0, by simpa using halfWidth_zero.1, by simp⟩
  have h2 := a2.outside 0 0 (by omega) (by omega) (by
    rw [circCols_disc (Or.inr rfl) hs]
    rintro ⟨_, dx, ⟨q1, q2, ⟨_, q3, _⟩ | ⟨q3, _⟩⟩, q4⟩
    · subst q3; simp at q4
    · omega)
  rw [h2, hz 0 0 (by omega) (by omega)] at h1
  revert h1
  decide

example : (do let b ← newBMP 5 5 24; let b ← plotxybit b 1 2 0x102030; let b ← plotxybit b 3 2 0x102030
              let b ← brightnessadjcircregion (fun v => 2 * v) b 2 2 1
              pure (← getxybit b 1 2, ← getxybit b 3 2)) = .ok (0x204060, 0x102030) := by decide +kernel

/-! ### The monochrome circle -/

theorem mono_maps' : ∀ n, MapsPx applymonochromefiltertoBGRbuf n (fun _ c => grey c) := by
  intro n
  rcases Nat.eq_zero_or_pos n with rfl | hn
  · exact maps_zero (f := applymonochromefiltertoBGRbuf) (by rfl) _
  · exact mono_maps n hn

/-- C70 for circles inside the image: the pixels of `CircCols` become grey. Missing: the right end of every row
(`C70_false`), and circles that leave the image (`C70_typeError`). -/
theorem C70_monocircle_partial (h : Valid b W H 24) {x y r : Int} (hs : SquareInside W H x y r) :
    ∃ b', monocircle b x y r = .ok b' ∧
      Alters b b' W H 24 (fun px py => DiscSet x y r px py ∧ DiscSet x y r (px + 1) py) (fun px py => grey (pix b W H 24 px py)) := by
  have h0 := hs x y (by simp) (by simp)
  have hsq := (square_iff W H x y r).mpr hs
  have hmx : getmaxx b = .ok (W : Int) := h.getmaxx_eq
  have hmy : getmaxy b = .ok (H : Int) := h.getmaxy_eq
  obtain ⟨b', e, c⟩ := circRegion_spec h (maps_rowFn mono_maps') (x := x) (y := y) (r := r) (by push_cast; omega)
  have a := circ24_alters h mono_maps' c
  refine ⟨b', ?_, a.valid, a.header, ?_, ?_⟩
  · unfold monocircle usenopar24btfn2circreg
    rw [(C44_depth h _).1.1 rfl]
    unfold circRegion at e ⊢
    rw [hmx, hmy] at e ⊢
    simp only [ok_bind, if_pos hsq] at e ⊢
    rw [e]
    rfl
  · intro px py hpx hpy hd
    exact a.inside px py hpx hpy ((circCols_disc (Or.inr rfl) hs px py).mpr hd)
  · intro px py hpx hpy hd
    exact a.outside px py hpx hpy (fun g => hd ((circCols_disc (Or.inr rfl) hs px py).mp g))

theorem foldl_typeError {x y : Int} (h : Valid b W H bits) {f : Bytes → Int → Int → Py Bytes}
    {F : (Nat → Nat) → Nat → Nat → Bytes} (hf : RowFn f F W H bits) (hx : 0 ≤ x * bits / 8 + dataOff bits)
    (l : List (Int × Int)) (hl : ∀ v ∈ l, 0 ≤ v.1) (hin : ∃ v ∈ l, 0 ≤ y + v.2 ∧ y + v.2 < H) :
    l.foldlM (fun bmp v => do
      let xm := mirror x v.1
      let ym := mirror y v.2
      let x1 := setmin xm.1 0
      let x2 := setmax xm.2 ((W : Int) - 1)
      let bmp ← (if isinrange ym.2 H (-1) = true then segUpdate (fun _ _ _ => .error .typeError) bmp x1 x2 ym.2
        else pure bmp : Py Bytes)
      if isinrange ym.1 H (-1) = true ∧ ym.2 ≠ ym.1 then segUpdate f bmp x1 x2 ym.1 else pure bmp) b =
    .error .typeError := by
  induction l generalizing b with
  | nil => obtain ⟨v, hv, _⟩ := hin; simp at hv
  | cons a l ih =>
    rw [List.foldlM_cons]
    by_cases c : 0 ≤ y + a.2 ∧ y + a.2 < H
    · obtain ⟨n, hn⟩ := Int.eq_ofNat_of_zero_le c.1
      have : (if isinrange (mirror y a.2).2 H (-1) = true then
          segUpdate (fun _ _ _ => .error .typeError) b (setmin (mirror x a.1).1 0) (setmax (mirror x a.1).2 ((W : Int) - 1)) (mirror y a.2).2
          else pure b : Py Bytes) = .error .typeError := by
        have hin2 : isinrange (y + a.2) H (-1) = true := by
          clear hin ih
          simp only [isinrange, Bool.and_eq_true, decide_eq_true_eq]; omega
        have hin3 : isinrange (mirror y a.2).2 H (-1) = true := hin2
        rw [if_pos hin3]
        simp only [mirror, hn]
        unfold segUpdate
        rw [BMoffsethd_col h _ (by omega), BMoffsethd_col h _ (by omega)]
        rfl
      dsimp only
      rw [this]
      rfl
    · have hoff : ¬ (isinrange (y + a.2) H (-1) = true) := by
        simp only [isinrange, Bool.and_eq_true, decide_eq_true_eq]; omega
      have smin : setmin (mirror x a.1).1 0 = max (x - a.1) 0 := by unfold setmin mirror; dsimp only; split_ifs <;> omega
      have smax : setmax (mirror x a.1).2 ((W : Int) - 1) = min (x + a.1) ((W : Int) - 1) := by
        unfold setmax mirror; dsimp only; split_ifs <;> omega
      obtain ⟨b1, e1, g1⟩ := Verif.two_rows h hf (x1 := x - a.1) (x2 := x + a.1) (ya := y + a.2) (yb := y - a.2)
        (min_col h.depth (hl a (by simp)) hx)
      rw [if_neg hoff, pure_bind] at e1
      have e2 : (if isinrange (mirror y a.2).1 H (-1) = true ∧ (mirror y a.2).2 ≠ (mirror y a.2).1 then
          segUpdate f b (setmin (mirror x a.1).1 0) (setmax (mirror x a.1).2 ((W : Int) - 1)) (mirror y a.2).1
          else pure b : Py Bytes) = .ok b1 := by
        rw [smin, smax]; exact e1
      have hoff' : ¬ (isinrange (mirror y a.2).2 H (-1) = true) := hoff
      dsimp only
      rw [if_neg hoff', pure_bind, e2, ok_bind]
      apply ih g1.valid (fun v hv => hl v (by simp [hv]))
      obtain ⟨v, hv, hin⟩ := hin
      rcases List.mem_cons.mp hv with rfl | hv
      · exact absurd hin c
      · exact ⟨v, hv, hin⟩

/-- C70 is false for a circle that leaves the image and has a row of its lower half in it: `TypeError`. -/
theorem C70_typeError (h : Valid b W H 24) {x y r : Int} (hx : -18 ≤ x) (hs : ¬ SquareInside W H x y r) (hr : 0 ≤ r)
    (hy : y < H) (hy' : 0 ≤ y + r) (hH : 0 < H) : monocircle b x y r = .error .typeError := by
  have hsq : ¬ _ := fun g => hs ((square_iff W H x y r).mp g)
  have hmx : getmaxx b = .ok (W : Int) := h.getmaxx_eq
  have hmy : getmaxy b = .ok (H : Int) := h.getmaxy_eq
  unfold monocircle usenopar24btfn2circreg
  rw [(C44_depth h _).1.1 rfl]
  unfold circRegion
  rw [hmx, hmy]
  simp only [ok_bind, if_neg hsq]
  unfold circRegionClip
  rw [hmx, hmy]
  simp only [ok_bind]
  have := foldl_typeError (x := x) (y := y) h (maps_rowFn mono_maps') (by
    have := dataOff_ge 24
    push_cast; omega) (itercirclepartlineedge r) (fun v hv => (halfWidth_bounds (mem_lineedge.mp hv)).1) (by
    obtain ⟨hw, h1⟩ := halfWidth_exists (r := r) (v := max 0 (-y)) (by omega) (by omega)
    exact ⟨(hw, max 0 (-y)), mem_lineedge.mpr h1, by dsimp only; omega, by dsimp only; omega⟩)
  rw [this]
  rfl

/-- C70 is false inside the image too: the right end of a row of the disc keeps its colour. -/
theorem C70_false : ¬ ∀ (b : Bytes) (W H : Nat), Valid b W H 24 → ∀ x y r : Int, SquareInside W H x y r →
    ∃ b', monocircle b x y r = .ok b' ∧
      Alters b b' W H 24 (DiscSet x y r) (fun px py => grey (pix b W H 24 px py)) := by
  intro hall
  obtain ⟨b0, _, v0, -, -, -, -, hz, -⟩ := C01_newBMP_valid 1 1 24 (by simp [Depth]) (by norm_num) (by norm_num)
  have v := v0.valid_plotP (x := 0) (y := 0) (n := 255) (by omega) (by omega) (by norm_num)
  have hs : SquareInside 1 1 0 0 0 := by rw [← square_iff]; decide
  obtain ⟨b1, e1, a1⟩ := hall _ 1 1 v 0 0 0 hs
  obtain ⟨b2, e2, a2⟩ := C70_monocircle_partial v hs
  rw [e1] at e2
  obtain rfl := Except.ok.inj e2
  have h1 := a1.inside 0 0 (by omega) (by omega) ⟨0, by simpa using halfWidth_zero.1, by simp⟩
  have h2 := a2.outside 0 0 (by omega) (by omega) (by
    rintro ⟨_, dx, ⟨q1, q2, ⟨_, q3, _⟩ | ⟨q3, _⟩⟩, q4⟩
    · subst q3; simp at q4
    · omega)
  rw [h2, v0.pix_plotP (by omega) (by omega) (by omega) (by omega) (by norm_num), if_pos ⟨rfl, rfl⟩] at h1
  revert h1
  decide

example : (do let b ← newBMP 5 5 24; let b ← plotxybit b 1 2 0x102033; let b ← plotxybit b 3 2 0x102033
              let b ← monocircle b 2 2 1
              pure (← getxybit b 1 2, ← getxybit b 3 2)) = .ok (0x212121, 0x102033) := by decide +kernel
example : (do let b ← newBMP 5 5 24; monocircle b 2 2 3) = .error .typeError := by decide +kernel

end
end Verif.Props
