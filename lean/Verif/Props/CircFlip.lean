import Verif.Props.CircRegion
/-! Properties C71 and C72: copying a circular region, and mirroring it top to bottom. -/

namespace Verif.Props
open Verif Spec Model

section
variable {b b' : Bytes} {W H bits : Nat}

/-- The row whose pixels row `py` gets. -/
def circRowSrc (t : CircV) (y : Int) (py : Nat) : Nat :=
  match t with
  | .T => (y - |(py : Int) - y|).toNat
  | .B => (y + |(py : Int) - y|).toNat
  | .F => (2 * y - py).toNat

/-- Row `y'` after a round of the loop. -/
def vNew (t : CircV) (bits : Nat) (x y : Int) (v : Int × Int) (y' : Nat) (ρ1 ρ2 : Nat → Nat) (j : Nat) : Nat :=
  if (x - v.1).toNat * bits / 8 ≤ j ∧ j < (x + v.1).toNat * bits / 8 then
    match t with
    | .T => ρ1 j
    | .B => ρ2 j
    | .F => if (y' : Int) = y - v.2 then ρ2 j else ρ1 j
  else if (y' : Int) = y - v.2 then ρ1 j else ρ2 j

/-- The columns of a scan line of a circle inside the image. -/
structure InCols (W H bits : Nat) (x y : Int) (v : Int × Int) (xa xb ya yb : Nat) : Prop where
  exa : x - v.1 = xa
  exb : x + v.1 = xb
  eya : y - v.2 = ya
  eyb : y + v.2 = yb
  hx : xa ≤ xb
  hxW : xb < W
  hya : ya < H
  hyb : yb < H
  col : xa * bits / 8 ≤ xb * bits / 8
  row : xb * bits / 8 ≤ rowLen W bits

theorem inCols (hd : Depth bits) {x y r : Int} (hs : SquareInside W H x y r) {v : Int × Int}
    (hv : v ∈ itercirclepartlineedge r) : ∃ xa xb ya yb, InCols W H bits x y v xa xb ya yb := by
  have hsq := (square_iff W H x y r).mpr hs
  simp only [entirecircleisinboundary, isinrange, Bool.and_eq_true, decide_eq_true_eq] at hsq
  have := halfWidth_bounds (mem_lineedge.mp hv)
  have hle : (x - v.1).toNat ≤ (x + v.1).toNat := by omega
  exact ⟨(x - v.1).toNat, (x + v.1).toNat, (y - v.2).toNat, (y + v.2).toNat, by omega, by omega, by omega, by omega,
    hle, by omega, by omega, by omega, Nat.div_le_div_right (Nat.mul_le_mul_right _ hle), (col_le_row hd (by omega)).1⟩

theorem seg_lt (h : Valid b W H bits) (y j n : Nat) : ∀ v ∈ seg b W H bits y j n, v < 256 := seg_bytes h y j n

theorem vtrans_step (t : CircV) (h : Valid b W H bits) {x y : Int} {v : Int × Int} {xa xb ya yb : Nat}
    (c : InCols W H bits x y v xa xb ya yb) :
    ∃ b', (do
      let xm := mirror x v.1
      let ym := mirror y v.2
      let s1 ← BMoffsethd b xm.1 ym.1
      let e1 ← BMoffsethd b xm.2 ym.1
      let s2 ← BMoffsethd b xm.1 ym.2
      let e2 ← BMoffsethd b xm.2 ym.2
      pure (vtransSeg t b s1 e1 s2 e2)) = .ok b' ∧
      Grid b b' W H bits (fun y' j => if (y' : Int) = y - v.2 ∨ (y' : Int) = y + v.2
        then vNew t bits x y v y' (rowOf b W H bits (y - v.2).toNat) (rowOf b W H bits (y + v.2).toNat) j
        else byte b (cell W H bits y' j)) := by
  obtain ⟨exa, exb, eya, eyb, hx, hxW, hya, hyb, col, row⟩ := c
  simp only [mirror, exa, exb, eya, eyb]
  rw [BMoffsethd_col h _ hya, BMoffsethd_col h _ hya, BMoffsethd_col h _ hyb, BMoffsethd_col h _ hyb]
  simp only [ok_bind, cell_col_int]
  refine ⟨_, rfl, ?_⟩
  unfold vNew
  simp only [exa, exb, eya, eyb, Int.toNat_natCast, Nat.cast_inj]
  have w : ∀ b0, Valid b0 W H bits → ∀ yd ys : Nat, yd < H →
      Grid b0 (setSlice b0 (cell W H bits yd (xa * bits / 8) : Int) (cell W H bits yd (xb * bits / 8) : Int)
        (seg b W H bits ys (xa * bits / 8) (xb * bits / 8 - xa * bits / 8))) W H bits (fun y' j' =>
        if y' = yd ∧ xa * bits / 8 ≤ j' ∧ j' < xb * bits / 8 then rowOf b W H bits ys j'
        else byte b0 (cell W H bits y' j')) := by
    intro b0 h0 yd ys hyd
    refine (setSlice_row h0 hyd col row (seg_bytes h _ _ _) (length_seg _ _ _ _ _ _ _)).congr ?_
    intro y' j' _ _
    split_ifs with c
    · rw [byte_seg _ _ _ _ _ _ (by omega)]
      unfold rowOf
      congr 2
      omega
    · rfl
  unfold vtransSeg
  cases t with
  | T =>
    dsimp only
    rw [slice_row h hya col row]
    refine (w b h yb ya hyb).congr ?_
    intro y' j' _ _
    clear * -
    rcases eq_or_ne y' ya with rfl | c1 <;> rcases eq_or_ne y' yb with rfl | c2 <;>
      by_cases c3 : xa * bits / 8 ≤ j' ∧ j' < xb * bits / 8 <;> simp_all [rowOf]
  | B =>
    dsimp only
    rw [slice_row h hyb col row]
    refine (w b h ya yb hya).congr ?_
    intro y' j' _ _
    clear * -
    rcases eq_or_ne y' ya with rfl | c1 <;> rcases eq_or_ne y' yb with rfl | c2 <;>
      by_cases c3 : xa * bits / 8 ≤ j' ∧ j' < xb * bits / 8 <;> simp_all [rowOf]
  | F =>
    dsimp only
    rw [slice_row h hya col row, slice_row h hyb col row]
    have g1 := w b h ya yb hya
    refine (g1.trans (w _ g1.valid yb ya hyb)).congr ?_
    intro y' j' hy' hj'
    rw [g1.cells y' j' hy' hj']
    clear * -
    rcases eq_or_ne y' ya with rfl | c1 <;> rcases eq_or_ne y' yb with rfl | c2 <;>
      by_cases c3 : xa * bits / 8 ≤ j' ∧ j' < xb * bits / 8 <;> simp_all [rowOf]

/-- The rows after a vertical transformation, byte by byte. -/
theorem vtrans_rows (t : CircV) (h : Valid b W H bits) {x y r : Int} (hs : SquareInside W H x y r)
    (hg : SquareInside W W x y r) :
    ∃ b', verttransformincircregion t b x y r = .ok b' ∧ Valid b' W H bits ∧ SameHeader b b' bits ∧
      ∀ y' j, y' < H → j < rowLen W bits →
        (∀ hw, HalfWidth r hw |(y' : Int) - y| → rowOf b' W H bits y' j =
          if (x - hw).toNat * bits / 8 ≤ j ∧ j < (x + hw).toNat * bits / 8
          then rowOf b W H bits (circRowSrc t y y') j else rowOf b W H bits y' j) ∧
        (r < |(y' : Int) - y| → rowOf b' W H bits y' j = rowOf b W H bits y' j) := by
  have hsq := (square_iff W H x y r).mpr hs
  simp only [entirecircleisinboundary, isinrange, Bool.and_eq_true, decide_eq_true_eq] at hsq
  obtain ⟨b', e, hv, hh, hc⟩ := scanline_fold (W := W) (H := H) (bits := bits) (x := x) (y := y) (r := r) _
    (vNew t bits x y)
    (by
      intro v hv y' ρ1 ρ1' ρ2 ρ2' h1 h2 _ _ j hj
      have := halfWidth_bounds (mem_lineedge.mp hv)
      have h1 := h1 (by omega) (by omega) j hj
      have h2 := h2 (by omega) (by omega) j hj
      unfold vNew
      rw [h1, h2])
    (fun b hb v hv => by
      obtain ⟨xa, xb, ya, yb, c⟩ := inCols h.depth hs hv
      exact vtrans_step t hb c) h
  refine ⟨b', ?_, hv, hh, ?_⟩
  · unfold verttransformincircregion
    rw [(C45_entirecircle_exact h _ x y r).1 hg]
    unfold vtransCore
    rw [e]
    rfl
  · intro y' j hy hj
    refine ⟨?_, (hc y' j hy hj).2⟩
    intro hw hhw
    rw [(hc y' j hy hj).1 hw hhw]
    have hb := halfWidth_bounds hhw
    unfold vNew
    dsimp only
    have hcase := abs_cases ((y' : Int) - y)
    by_cases c1 : (y' : Int) = y - |(y' : Int) - y|
    · have e1 : (y - |(y' : Int) - y|).toNat = y' := by omega
      rw [if_pos c1, if_pos c1, e1]
      cases t <;> unfold circRowSrc <;> dsimp only
      · rw [e1]
      · rw [show (2 * y - (y' : Int)).toNat = (y + |(y' : Int) - y|).toNat by omega]
    · have e1 : (y + |(y' : Int) - y|).toNat = y' := by omega
      rw [if_neg c1, if_neg c1, e1]
      cases t <;> unfold circRowSrc <;> dsimp only
      · rw [e1]
      · rw [show (2 * y - (y' : Int)).toNat = (y - |(y' : Int) - y|).toNat by omega]

theorem inside_bytes (hd : Depth bits) {x y r hw : Int} (hs : SquareInside W H x y r) {py : Nat}
    (hhw : HalfWidth r hw |(py : Int) - y|) {px t : Nat} (ht : t < bpp bits) :
    ((x - hw).toNat * bits / 8 ≤ px * bits / 8 + t ∧ px * bits / 8 + t < (x + hw).toNat * bits / 8) ↔
      CircCols W bits x y r px py := by
  have hsq := (square_iff W H x y r).mpr hs
  simp only [entirecircleisinboundary, isinrange, Bool.and_eq_true, decide_eq_true_eq] at hsq
  have hb := halfWidth_bounds hhw
  have key := circ_in_iff (W := W) hd (x1 := x - hw) (x2 := x + hw) (px := px) ht
  rw [max_eq_left (show 0 ≤ x - hw by omega), min_eq_left (show x + hw ≤ (W : Int) - 1 by omega)] at key
  constructor
  · intro g
    refine ⟨hw, hhw, ?_⟩
    rw [max_eq_left (show 0 ≤ x - hw by omega), min_eq_left (show x + hw ≤ (W : Int) - 1 by omega)]
    exact key.mp ⟨by omega, g⟩
  · rintro ⟨hw', h1, h2⟩
    obtain rfl := halfWidth_unique hhw h1
    rw [max_eq_left (show 0 ≤ x - hw by omega), min_eq_left (show x + hw ≤ (W : Int) - 1 by omega)] at h2
    exact (key.mpr h2).2

/-- C72, what the vertical transformations do when the circle is inside the image and inside the square of the width:
pixels of `CircCols` are taken from the mirrored row. -/
theorem C72_vert_exact (t : CircV) (h : Valid b W H bits) {x y r : Int} (hs : SquareInside W H x y r)
    (hg : SquareInside W W x y r) :
    ∃ b', verttransformincircregion t b x y r = .ok b' ∧
      Alters b b' W H bits (CircCols W bits x y r) (fun px py => pix b W H bits px (circRowSrc t y py)) := by
  obtain ⟨b', e, hv, hh, hc⟩ := vtrans_rows t h hs hg
  refine ⟨b', e, hv, hh, ?_, ?_⟩
  · intro px py hpx hpy hin
    obtain ⟨hw, hhw, _⟩ := id hin
    apply pix_congr rfl
    intro t' ht
    have hj : px * bits / 8 + t' < rowLen W bits := by have := xcell_lt h.depth hpx; omega
    have := (hc py _ hpy hj).1 hw hhw
    rw [if_pos ((inside_bytes h.depth hs hhw ht).mpr hin)] at this
    exact this
  · intro px py hpx hpy hn
    apply pix_congr rfl
    intro t' ht
    have hj : px * bits / 8 + t' < rowLen W bits := by have := xcell_lt h.depth hpx; omega
    by_cases hr : r < |(py : Int) - y|
    · exact (hc py _ hpy hj).2 hr
    · obtain ⟨hw, hhw⟩ := halfWidth_exists (abs_nonneg ((py : Int) - y)) (le_of_not_gt hr)
      have := (hc py _ hpy hj).1 hw hhw
      rw [if_neg (fun g => hn ((inside_bytes h.depth hs hhw ht).mp g))] at this
      exact this

/-- C72 with the disc: on a square image of one or three bytes for each pixel, `flipvertcircregion` turns the disc
upside down, except for the right end of every row. -/
theorem C72_vert_partial (t : CircV) (h : Valid b W W bits) (hb : bits = 8 ∨ bits = 24) {x y r : Int}
    (hs : SquareInside W W x y r) :
    ∃ b', verttransformincircregion t b x y r = .ok b' ∧
      Alters b b' W W bits (fun px py => DiscSet x y r px py ∧ DiscSet x y r (px + 1) py)
        (fun px py => pix b W W bits px (circRowSrc t y py)) := by
  obtain ⟨b', e, a⟩ := C72_vert_exact t h hs hs
  refine ⟨b', e, a.valid, a.header, ?_, ?_⟩
  · intro px py hpx hpy hd
    exact a.inside px py hpx hpy ((circCols_disc hb hs px py).mpr hd)
  · intro px py hpx hpy hd
    exact a.outside px py hpx hpy (fun g => hd ((circCols_disc hb hs px py).mp g))

/-- C72: flipping twice restores the file. -/
theorem C72_flip_twice (h : Valid b W H bits) {x y r : Int} (hs : SquareInside W H x y r)
    (hg : SquareInside W W x y r) :
    (do flipvertcircregion (← flipvertcircregion b x y r) x y r) = .ok b := by
  obtain ⟨b', e, hv, hh, hc⟩ := vtrans_rows .F h hs hg
  obtain ⟨b'', e2, hv2, hh2, hc2⟩ := vtrans_rows .F hv hs hg
  have hsq := (square_iff W H x y r).mpr hs
  simp only [entirecircleisinboundary, isinrange, Bool.and_eq_true, decide_eq_true_eq] at hsq
  unfold flipvertcircregion
  rw [e, ok_bind, e2]
  congr 1
  apply grid_ext h ⟨hh2.1.trans hh.1, fun i hi => (hh2.2 i hi).trans (hh.2 i hi)⟩
  intro py j hpy hj
  show rowOf b'' W H bits py j = rowOf b W H bits py j
  by_cases hr : r < |(py : Int) - y|
  · rw [(hc2 py j hpy hj).2 hr, (hc py j hpy hj).2 hr]
  · obtain ⟨hw, hhw⟩ := halfWidth_exists (abs_nonneg ((py : Int) - y)) (le_of_not_gt hr)
    have hcase := abs_cases ((py : Int) - y)
    have hpy2 : circRowSrc .F y py < H := by unfold circRowSrc; dsimp only; omega
    have habs : |((circRowSrc .F y py : Nat) : Int) - y| = |(py : Int) - y| := by
      have e1 : ((circRowSrc .F y py : Nat) : Int) = 2 * y - py := by unfold circRowSrc; dsimp only; omega
      rw [e1, ← abs_neg]; congr 1; omega
    have hback : circRowSrc .F y (circRowSrc .F y py) = py := by unfold circRowSrc; dsimp only; omega
    rw [(hc2 py j hpy hj).1 hw hhw, (hc _ j hpy2 hj).1 hw (by rw [habs]; exact hhw), (hc py j hpy hj).1 hw hhw, hback]
    split_ifs <;> rfl

/-- C72: a circle that does not fit the square of the width is ignored, also when it is inside a tall image. -/
theorem C72_rejected (t : CircV) (h : Valid b W H bits) {x y r : Int} (hg : ¬ SquareInside W W x y r) :
    verttransformincircregion t b x y r = .ok b := by
  unfold verttransformincircregion
  rw [(C45_entirecircle_exact h _ x y r).2 hg]
  rfl

/-- C72 is false: a circle below a wide image is let through and overwrites the header. -/
theorem C72_false : ¬ ∀ (b : Bytes) (W H bits : Nat), Valid b W H bits → ∀ x y r : Int,
    ∃ b', flipvertcircregion b x y r = .ok b' ∧ SameHeader b b' bits := by
  intro hall
  obtain ⟨b, e0, v, -⟩ := C01_newBMP_valid 8 4 24 (by simp [Depth]) (by norm_num) (by norm_num)
  obtain ⟨b', e, hh⟩ := hall b 8 4 24 v 2 4 2
  have key : (do let b ← newBMP 8 4 24
                 let b' ← flipvertcircregion b 2 4 2
                 pure (byte b 10, byte b' 10)) = .ok (54, 0) := by decide +kernel
  have e0' : newBMP 8 4 24 = .ok b := e0
  rw [e0', ok_bind, e, ok_bind] at key
  have h1 := hh.2 10 (by decide)
  have := Prod.ext_iff.mp (Except.ok.inj key)
  omega

example : (do let b ← newBMP 5 5 24; let b ← plotxybit b 1 1 0x102030; let b ← plotxybit b 2 3 0x405060
              let b ← flipvertcircregion b 2 2 2
              pure (← getxybit b 1 3, ← getxybit b 2 1, ← getxybit b 1 1)) = .ok (0x102030, 0x405060, 0) := by decide +kernel
example : (do let b ← newBMP 5 5 24; let b ← plotxybit b 1 1 0x102030; let b ← plotxybit b 2 3 0x405060
              let b ← mirrortopincircregion b 2 2 2
              pure (← getxybit b 1 3, ← getxybit b 2 3, ← getxybit b 1 1)) = .ok (0x102030, 0, 0x102030) := by decide +kernel

/-! ### Copying -/

/-- A pixel is determined by its bytes, also across images of different sizes. -/
theorem pix_congr2 {W' H' x y x' y' : Nat} (hs : shiftOf bits x = shiftOf bits x')
    (hc : ∀ t, t < bpp bits → byte b' (cell W' H' bits y' (x' * bits / 8 + t))
      = byte b (cell W H bits y (x * bits / 8 + t))) :
    pix b' W' H' bits x' y' = pix b W H bits x y := by
  rw [pix_cell, pix_cell]
  unfold bpp at hc
  by_cases c : bits = 24
  · subst c
    rw [if_pos rfl, if_pos rfl]
    have h0 := hc 0 (by norm_num)
    have h1 := hc 1 (by norm_num)
    have h2 := hc 2 (by norm_num)
    rw [show x' * 24 / 8 = 3 * x' by omega, show x * 24 / 8 = 3 * x by omega] at h0 h1 h2
    rw [Nat.add_zero, Nat.add_zero] at h0
    rw [h0, h1, h2]
  · rw [if_neg c, if_neg c]
    rw [if_neg c] at hc
    have h0 := hc 0 (by omega)
    rw [Nat.add_zero, Nat.add_zero] at h0
    rw [h0, hs]

theorem zip_map_self {α β : Type} (l : List α) (g : α → β) : l.zip (l.map g) = l.map (fun v => (v, g v)) := by
  induction l with
  | nil => rfl
  | cons a l ih => simp [ih]

/-- Row `y'` of the target after a round of `pastecircLoop`. -/
def cNew (b : Bytes) (W H bits : Nat) (x y nx ny : Int) (v : Int × Int) (y' : Nat) (ρ1 ρ2 : Nat → Nat) (j : Nat) : Nat :=
  if (nx - v.1).toNat * bits / 8 ≤ j ∧ j < (nx + v.1).toNat * bits / 8 then
    rowOf b W H bits (if (y' : Int) = ny - v.2 then (y - v.2).toNat else (y + v.2).toNat)
      (j - (nx - v.1).toNat * bits / 8 + (x - v.1).toNat * bits / 8)
  else if (y' : Int) = ny - v.2 then ρ1 j else ρ2 j

theorem paste_step (h : Valid b W H bits) {W' H' : Nat} {b0 : Bytes} (h0 : Valid b0 W' H' bits) {x y nx ny : Int}
    {v : Int × Int} {xa xb ya yb na nb ma mb : Nat} (c : InCols W H bits x y v xa xb ya yb)
    (c' : InCols W' H' bits nx ny v na nb ma mb) (hal : nb * bits / 8 - na * bits / 8 = xb * bits / 8 - xa * bits / 8) :
    ∃ b', (do
      let xm := mirror nx v.1
      let ym := mirror ny v.2
      let bmp ← segUpdate (fun _ _ _ => .ok (seg b W H bits ya (xa * bits / 8) (xb * bits / 8 - xa * bits / 8))) b0 xm.1 xm.2 ym.1
      segUpdate (fun _ _ _ => .ok (seg b W H bits yb (xa * bits / 8) (xb * bits / 8 - xa * bits / 8))) bmp xm.1 xm.2 ym.2) = .ok b' ∧
      Grid b0 b' W' H' bits (fun y' j => if (y' : Int) = ny - v.2 ∨ (y' : Int) = ny + v.2
        then cNew b W H bits x y nx ny v y' (rowOf b0 W' H' bits (ny - v.2).toNat) (rowOf b0 W' H' bits (ny + v.2).toNat) j
        else byte b0 (cell W' H' bits y' j)) := by
  have w : ∀ b1, Valid b1 W' H' bits → ∀ yd ys : Nat, yd < H' → ∃ b2,
      segUpdate (fun _ _ _ => .ok (seg b W H bits ys (xa * bits / 8) (xb * bits / 8 - xa * bits / 8))) b1 na nb yd = .ok b2 ∧
      Grid b1 b2 W' H' bits (fun y' j' =>
        if y' = yd ∧ na * bits / 8 ≤ j' ∧ j' < nb * bits / 8 then rowOf b W H bits ys (j' - na * bits / 8 + xa * bits / 8)
        else byte b1 (cell W' H' bits y' j')) := by
    intro b1 h1 yd ys hyd
    unfold segUpdate
    rw [BMoffsethd_col h1 _ hyd, BMoffsethd_col h1 _ hyd]
    simp only [ok_bind, cell_col_int]
    refine ⟨_, rfl, (setSlice_row h1 hyd c'.col c'.row (seg_bytes h _ _ _) (by rw [length_seg, hal])).congr ?_⟩
    intro y' j' _ _
    split_ifs with c
    · rw [byte_seg _ _ _ _ _ _ (by omega)]
      unfold rowOf
      congr 2
      omega
    · rfl
  obtain ⟨exa, exb, eya, eyb, hx, hxW, hya, hyb, col, row⟩ := c
  obtain ⟨exa', exb', eya', eyb', hx', hxW', hya', hyb', col', row'⟩ := c'
  simp only [mirror, exa', exb', eya', eyb']
  obtain ⟨b1, e1, g1⟩ := w b0 h0 ma ya hya'
  obtain ⟨b2, e2, g2⟩ := w b1 g1.valid mb yb hyb'
  rw [e1, ok_bind, e2]
  refine ⟨b2, rfl, (g1.trans g2).congr ?_⟩
  intro y' j' hy' hj'
  rw [g1.cells y' j' hy' hj']
  have hyeq : ma = mb → ya = yb := by omega
  unfold cNew
  simp only [exa, exa', exb', eya, eyb, eya', eyb', Int.toNat_natCast, Nat.cast_inj]
  clear * - hyeq
  rcases eq_or_ne y' ma with rfl | c1 <;> rcases eq_or_ne y' mb with rfl | c2 <;>
    by_cases c3 : na * bits / 8 ≤ j' ∧ j' < nb * bits / 8 <;> simp_all [rowOf]

/-- The two rows of a disc that `copycircregion2buf` keeps. -/
def circSegs (b : Bytes) (W H bits : Nat) (x y : Int) (v : Int × Int) : Bytes × Bytes :=
  (seg b W H bits (y - v.2).toNat ((x - v.1).toNat * bits / 8) ((x + v.1).toNat * bits / 8 - (x - v.1).toNat * bits / 8),
   seg b W H bits (y + v.2).toNat ((x - v.1).toNat * bits / 8) ((x + v.1).toNat * bits / 8 - (x - v.1).toNat * bits / 8))

/-- Writing the rows of a disc of one image to a disc of another. -/
theorem paste_fold (h : Valid b W H bits) {W' H' : Nat} {b0 : Bytes} (h0 : Valid b0 W' H' bits) {x y r nx ny : Int}
    (hs : SquareInside W H x y r) (hs' : SquareInside W' H' nx ny r) (hal : 8 ∣ (nx - x) * bits) :
    ∃ b', (itercirclepartlineedge r).foldlM (fun bmp v => do
      let xm := mirror nx v.1
      let ym := mirror ny v.2
      let bmp ← segUpdate (fun _ _ _ => .ok (circSegs b W H bits x y v).1) bmp xm.1 xm.2 ym.1
      segUpdate (fun _ _ _ => .ok (circSegs b W H bits x y v).2) bmp xm.1 xm.2 ym.2) b0 = .ok b' ∧
      Alters b0 b' W' H' bits (CircCols W' bits nx ny r)
        (fun px py => pix b W H bits (px + x - nx).toNat (py + y - ny).toNat) := by
  have hsq := (square_iff W H x y r).mpr hs
  have hsq' := (square_iff W' H' nx ny r).mpr hs'
  obtain ⟨b', e, hv, hh, hc⟩ := scanline_fold (W := W') (H := H') (bits := bits) (x := nx) (y := ny) (r := r)
    (fun bmp v => do
      let xm := mirror nx v.1
      let ym := mirror ny v.2
      let bmp ← segUpdate (fun _ _ _ => .ok (circSegs b W H bits x y v).1) bmp xm.1 xm.2 ym.1
      segUpdate (fun _ _ _ => .ok (circSegs b W H bits x y v).2) bmp xm.1 xm.2 ym.2)
    (cNew b W H bits x y nx ny)
    (by
      intro v hv y' ρ1 ρ1' ρ2 ρ2' h1 h2 _ _ j hj
      obtain ⟨xa, xb, ya, yb, c⟩ := inCols h0.depth hs' hv
      have h1 := h1 (by rw [c.eya]; omega) (by rw [c.eya]; have := c.hya; omega) j hj
      have h2 := h2 (by rw [c.eyb]; omega) (by rw [c.eyb]; have := c.hyb; omega) j hj
      unfold cNew
      rw [h1, h2])
    (fun b1 hb1 v hv => by
      obtain ⟨xa, xb, ya, yb, c⟩ := inCols h.depth hs hv
      obtain ⟨na, nb, ma, mb, c'⟩ := inCols h0.depth hs' hv
      have := paste_step h hb1 c c' (by
        have q1 := c.exa; have q2 := c.exb; have q3 := c'.exa; have q4 := c'.exb
        have q5 : nx - x = na - xa := by omega
        have q6 : (nb : Int) - na = xb - xa := by omega
        rw [q5] at hal
        rcases h.depth with rfl | rfl | rfl | rfl <;> push_cast at hal <;> omega)
      unfold circSegs
      simp only [c.exa, c.exb, c.eya, c.eyb, Int.toNat_natCast]
      exact this) h0
  have pixbyte : ∀ hw : Int, ∀ q : Nat, 0 ≤ x - hw → 0 ≤ nx - hw → (nx - hw).toNat * bits / 8 ≤ q * bits / 8 →
      q * bits / 8 - (nx - hw).toNat * bits / 8 + (x - hw).toNat * bits / 8 = (q + x - nx).toNat * bits / 8 ∧
      shiftOf bits (q + x - nx).toNat = shiftOf bits q := by
    intro hw q h1 h2 h3
    unfold shiftOf
    rcases h.depth with rfl | rfl | rfl | rfl <;> push_cast at hal <;> constructor <;> omega
  simp only [entirecircleisinboundary, isinrange, Bool.and_eq_true, decide_eq_true_eq] at hsq hsq'
  refine ⟨b', e, hv, hh, ?_, ?_⟩
  · intro px py hpx hpy hin
    obtain ⟨hw, hhw, _⟩ := id hin
    have hbd := halfWidth_bounds hhw
    have hlo : (nx - hw).toNat * bits / 8 ≤ px * bits / 8 := by
      have := (inside_bytes h.depth hs' hhw (px := px) (t := 0) (by unfold bpp; split_ifs <;> omega)).mpr hin
      omega
    obtain ⟨q1, q2⟩ := pixbyte hw px (by omega) (by omega) hlo
    apply pix_congr2 q2
    intro t' ht
    have hj : px * bits / 8 + t' < rowLen W' bits := by have := xcell_lt h.depth hpx; omega
    have := (hc py _ hpy hj).1 hw hhw
    unfold cNew at this
    rw [if_pos ((inside_bytes h.depth hs' hhw ht).mpr hin)] at this
    dsimp only at this
    rw [show px * bits / 8 + t' - (nx - hw).toNat * bits / 8 + (x - hw).toNat * bits / 8 =
      (px + x - nx).toNat * bits / 8 + t' by omega] at this
    have hcase := abs_cases ((py : Int) - ny)
    by_cases c1 : (py : Int) = ny - |(py : Int) - ny|
    · rw [if_pos c1, show (y - |(py : Int) - ny|).toNat = (py + y - ny).toNat by omega] at this
      exact this
    · rw [if_neg c1, show (y + |(py : Int) - ny|).toNat = (py + y - ny).toNat by omega] at this
      exact this
  · intro px py hpx hpy hn
    apply pix_congr rfl
    intro t' ht
    have hj : px * bits / 8 + t' < rowLen W' bits := by have := xcell_lt h.depth hpx; omega
    by_cases hr : r < |(py : Int) - ny|
    · exact (hc py _ hpy hj).2 hr
    · obtain ⟨hw, hhw⟩ := halfWidth_exists (abs_nonneg ((py : Int) - ny)) (le_of_not_gt hr)
      have := (hc py _ hpy hj).1 hw hhw
      unfold cNew at this
      rw [if_neg (fun g => hn ((inside_bytes h.depth hs' hhw ht).mp g))] at this
      have hcase := abs_cases ((py : Int) - ny)
      by_cases c1 : (py : Int) = ny - |(py : Int) - ny|
      · rw [if_pos c1, show (ny - |(py : Int) - ny|).toNat = py by omega] at this
        exact this
      · rw [if_neg c1, show (ny + |(py : Int) - ny|).toNat = py by omega] at this
        exact this

/-- C71: a disc copied from one image and pasted into another of the same depth. The columns of the two places
have to agree in their position inside the bytes, which holds for 8- and 24-bit images. -/
theorem C71_paste_exact (h : Valid b W H bits) {W' H' : Nat} {b0 : Bytes} (h0 : Valid b0 W' H' bits) {x y r nx ny : Int}
    (hs : SquareInside W H x y r) (hg : SquareInside W W x y r) (hs' : SquareInside W' H' nx ny r)
    (hal : 8 ∣ (nx - x) * bits) :
    ∃ b', (do pastecirularbuf b0 nx ny (← copycircregion2buf b x y r)) = .ok b' ∧
      Alters b0 b' W' H' bits (CircCols W' bits nx ny r)
        (fun px py => pix b W H bits (px + x - nx).toNat (py + y - ny).toNat) := by
  have hsq := (square_iff W H x y r).mpr hs
  have hsq' := (square_iff W' H' nx ny r).mpr hs'
  have hmx : getmaxx b0 = .ok (W' : Int) := h0.getmaxx_eq
  have hmy : getmaxy b0 = .ok (H' : Int) := h0.getmaxy_eq
  have hbits : getclrbits b = .ok (bits : Int) := by unfold getclrbits; rw [h.bits_eq]; rfl
  have hbits0 : getclrbits b0 = .ok (bits : Int) := by unfold getclrbits; rw [h0.bits_eq]; rfl
  have hcopy : copycircregion2buf b x y r = .ok (some ⟨bits, r, (itercirclepartlineedge r).map (circSegs b W H bits x y)⟩) := by
    unfold copycircregion2buf
    rw [(C45_entirecircle_exact h _ x y r).1 hg]
    unfold copycircCore
    rw [hbits, ok_bind, mapM_ok _ _ (circSegs b W H bits x y)]
    · rfl
    · intro v hv
      obtain ⟨xa, xb, ya, yb, c⟩ := inCols h.depth hs hv
      unfold circSegs
      simp only [mirror, c.exa, c.exb, c.eya, c.eyb, Int.toNat_natCast]
      rw [BMoffsethd_col h _ c.hya, BMoffsethd_col h _ c.hya, BMoffsethd_col h _ c.hyb, BMoffsethd_col h _ c.hyb]
      simp only [ok_bind, cell_col_int]
      rw [slice_row h c.hya c.col c.row, slice_row h c.hyb c.col c.row]
      rfl
  obtain ⟨b', e, ha⟩ := paste_fold h h0 hs hs' hal
  refine ⟨b', ?_, ha⟩
  rw [hcopy, ok_bind]
  unfold pastecirularbuf
  dsimp only
  rw [hmx, hmy, hbits0]
  simp only [ok_bind]
  rw [if_pos hsq', if_pos trivial]
  unfold pastecircLoop
  rw [zip_map_self, List.foldlM_map]
  exact e

/-- C71 for `copycircregion`, which copies inside one image; the two discs may overlap. -/
theorem C71_copy_exact (h : Valid b W H bits) {x y r nx ny : Int} (hs : SquareInside W H x y r)
    (hg : SquareInside W W x y r) (hs' : SquareInside W H nx ny r) (hal : 8 ∣ (nx - x) * bits) :
    ∃ b', copycircregion b x y r nx ny = .ok b' ∧
      Alters b b' W H bits (CircCols W bits nx ny r)
        (fun px py => pix b W H bits (px + x - nx).toNat (py + y - ny).toNat) :=
  C71_paste_exact h h hs hg hs' hal

/-- C71 with the disc, for square images of one or three bytes for each pixel. Missing: the right end of every row
of the disc, images that are not square, and 1- and 4-bit images. -/
theorem C71_copy_partial (h : Valid b W W bits) (hb : bits = 8 ∨ bits = 24) {x y r nx ny : Int}
    (hs : SquareInside W W x y r) (hs' : SquareInside W W nx ny r) :
    ∃ b', copycircregion b x y r nx ny = .ok b' ∧
      Alters b b' W W bits (fun px py => DiscSet nx ny r px py ∧ DiscSet nx ny r (px + 1) py)
        (fun px py => pix b W W bits (px + x - nx).toNat (py + y - ny).toNat) := by
  obtain ⟨b', e, a⟩ := C71_copy_exact h hs hs hs' (by rcases hb with rfl | rfl <;> push_cast <;> omega)
  refine ⟨b', e, a.valid, a.header, ?_, ?_⟩
  · intro px py hpx hpy hd
    exact a.inside px py hpx hpy ((circCols_disc hb hs' px py).mpr hd)
  · intro px py hpx hpy hd
    exact a.outside px py hpx hpy (fun g => hd ((circCols_disc hb hs' px py).mp g))

/-- C71: nothing is copied when the source does not fit the square of the width, or when the target leaves the image. -/
theorem C71_rejected (h : Valid b W H bits) {x y r nx ny : Int} :
    (¬ SquareInside W W x y r → copycircregion b x y r nx ny = .ok b) ∧
    (∀ cb : CircBuf, ¬ SquareInside W H nx ny cb.r → pastecirularbuf b nx ny (some cb) = .ok b) ∧
    (∀ cb : CircBuf, SquareInside W H nx ny cb.r → cb.bits ≠ bits → pastecirularbuf b nx ny (some cb) = .error .typeError) := by
  have hmx : getmaxx b = .ok (W : Int) := h.getmaxx_eq
  have hmy : getmaxy b = .ok (H : Int) := h.getmaxy_eq
  have hbits : getclrbits b = .ok (bits : Int) := by unfold getclrbits; rw [h.bits_eq]; rfl
  refine ⟨?_, ?_, ?_⟩
  · intro hg
    unfold copycircregion copycircregion2buf
    rw [(C45_entirecircle_exact h _ x y r).2 hg]
    rfl
  · intro cb hg
    unfold pastecirularbuf
    dsimp only
    rw [hmx, hmy]
    simp only [ok_bind]
    rw [if_neg (fun g => hg ((square_iff _ _ _ _ _).mp g))]
    rfl
  · intro cb hg hne
    unfold pastecirularbuf
    dsimp only
    rw [hmx, hmy, hbits]
    simp only [ok_bind]
    rw [if_pos ((square_iff _ _ _ _ _).mpr hg), if_neg (fun g => hne g.symm)]

/-- C71 is false for packed images: the two places hold a different number of whole bytes, and the file becomes
shorter. -/
theorem C71_false : ¬ ∀ (b : Bytes) (W H bits : Nat), Valid b W H bits → ∀ x y r nx ny : Int, SquareInside W H x y r →
    SquareInside W W x y r → SquareInside W H nx ny r →
    ∃ b', copycircregion b x y r nx ny = .ok b' ∧ b'.length = b.length := by
  intro hall
  obtain ⟨b, e0, v, -⟩ := C01_newBMP_valid 16 16 1 (by simp [Depth]) (by norm_num) (by norm_num)
  have hs : SquareInside 16 16 3 8 3 := by rw [← square_iff]; decide
  have hs' : SquareInside 16 16 5 8 3 := by rw [← square_iff]; decide
  obtain ⟨b', e, hh⟩ := hall b 16 16 1 v 3 8 3 5 8 hs hs hs'
  have key : (do let b ← newBMP 16 16 1
                 let b' ← copycircregion b 3 8 3 5 8
                 pure (decide (b'.length = b.length))) = .ok false := by decide +kernel
  have e0' : newBMP 16 16 1 = .ok b := e0
  rw [e0', ok_bind, e, ok_bind] at key
  have := Except.ok.inj key
  simp [hh] at this

example : (do let b ← newBMP 8 8 24; let b ← plotxybit b 2 2 0x102030; let b ← plotxybit b 1 3 0x405060
              let b ← copycircregion b 2 2 2 4 3
              pure (← getxybit b 4 3, ← getxybit b 3 4, ← getxybit b 2 2)) = .ok (0x102030, 0x405060, 0) := by decide +kernel

end
end Verif.Props
