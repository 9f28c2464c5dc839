import Std.Data.String.ToNat
import Verif.Model.Lens
import Verif.Props.CircFlip
import Verif.Props.Dots
import Verif.Props.Files
import Verif.Props.Float
import Verif.Props.Gradient
import Verif.Props.Smaller
/-! Properties C138 to C140: discs that show a resized copy, the remaining file programs, and directories of
images. -/

namespace Verif.Props.Lens
open Verif Spec Model Props

variable {b : Bytes} {W H bits : Nat}

/-- The pixels of a disc without the right end of each row. -/
def Inner (x y r : Int) (px py : Nat) : Prop := DiscSet x y r px py ∧ DiscSet x y r (px + 1) py

theorem foldlM_mem {α β : Type} {f g : β → α → Py β} : ∀ (l : List α) (s : β), (∀ s, ∀ a ∈ l, f s a = g s a) →
    l.foldlM f s = l.foldlM g s
  | [], _, _ => rfl
  | a :: l, s, h => by
    rw [List.foldlM_cons, List.foldlM_cons, h s a (by simp)]
    congr 1
    funext s'
    exact foldlM_mem l s' (fun s a ha => h s a (by simp [ha]))

/-- Rows of one image around a point, written to a second image around another. -/
theorem lens_run (h : Valid b W H 24) {W' H' : Nat} {b0 : Bytes} (h0 : Valid b0 W' H' 24) {x y r nx ny : Int}
    (hs : SquareInside W' H' x y r) (hs' : SquareInside W H nx ny r) :
    ∃ b', lensLoop b0 b x y nx ny r = .ok b' ∧
      Alters b0 b' W' H' 24 (Inner x y r) (fun px py => pix b W H 24 (px + nx - x).toNat (py + ny - y).toNat) := by
  obtain ⟨b', e, ha⟩ := paste_fold h h0 hs' hs (by omega)
  refine ⟨b', ?_, ?_⟩
  · rw [← e]
    unfold lensLoop
    apply foldlM_mem
    intro bmp v hv
    obtain ⟨xa, xb, ya, yb, c⟩ := inCols h.depth hs' hv
    unfold circSegs
    simp only [mirror, c.exa, c.exb, c.eya, c.eyb, Int.toNat_natCast]
    rw [BMoffsethd_col h _ c.hya, BMoffsethd_col h _ c.hya, BMoffsethd_col h _ c.hyb, BMoffsethd_col h _ c.hyb]
    simp only [ok_bind, cell_col_int]
    rw [slice_row h c.hya c.col c.row, slice_row h c.hyb c.col c.row]
  · have hk : ∀ px py, CircCols W' 24 x y r px py ↔ Inner x y r px py :=
      circCols_disc (Or.inr rfl) hs
    exact ⟨ha.valid, ha.header, fun px py h1 h2 h3 => ha.inside px py h1 h2 ((hk _ _).mpr h3),
      fun px py h1 h2 h3 => ha.outside px py h1 h2 (fun g => h3 ((hk _ _).mp g))⟩

theorem inner_bounds {x y r : Int} {px py : Nat} (hi : Inner x y r px py) :
    x - r ≤ px ∧ (px : Int) + 1 ≤ x + r ∧ y - r ≤ py ∧ (py : Int) ≤ y + r := by
  have h1 := Dots.disc_bounds hi.1
  have h2 := Dots.disc_bounds hi.2
  push_cast at h2
  omega

theorem square_scale {x y r : Int} (hs : SquareInside W H x y r) {n : Nat} (hn : 0 < n) :
    SquareInside (W * n) (H * n) (x * n) (y * n) r := by
  have h1 := hs (x - r.natAbs) (y - r.natAbs) (by omega) (by omega)
  have h2 := hs (x + r.natAbs) (y + r.natAbs) (by omega) (by omega)
  intro px py hx hy
  have hx : -(r.natAbs : Int) ≤ px - x * n ∧ px - x * n ≤ r.natAbs := by omega
  have hy : -(r.natAbs : Int) ≤ py - y * n ∧ py - y * n ≤ r.natAbs := by omega
  obtain ⟨m, rfl⟩ : ∃ m : Nat, n = m + 1 := ⟨n - 1, by omega⟩
  have e1 : 0 ≤ x * m := mul_nonneg (by omega) (by omega)
  have e2 : 0 ≤ y * m := mul_nonneg (by omega) (by omega)
  have e3 : x * m ≤ W * m := mul_le_mul_of_nonneg_right (by omega) (by omega)
  have e4 : y * m ≤ H * m := mul_le_mul_of_nonneg_right (by omega) (by omega)
  push_cast at *
  refine ⟨?_, ?_, ?_, ?_⟩ <;> linarith

/-- C138: `magnifyNtimescircregion` shows the image `n` times bigger, with the centre as the fixed point. Missing in
comparison with the full claim: the right end of each row of the disc (`C138_magnify_edge_false`). -/
theorem C138_magnify_partial (h : Valid b W H 24) {x y r : Int} (hs : SquareInside W H x y r) {n : Nat} (hn : 0 < n)
    (hnW : W * n < 2 ^ 24) (hnH : H * n < 2 ^ 24) :
    ∃ b', magnifyNtimescircregion b x y r n = .ok b' ∧ Alters b b' W H 24 (Inner x y r) (fun px py =>
      pix b W H 24 (x + (px - x) / n).toNat (y + (py - y) / n).toNat) := by
  have h1 := hs (x - r.natAbs) (y - r.natAbs) (by omega) (by omega)
  have h2 := hs (x + r.natAbs) (y + r.natAbs) (by omega) (by omega)
  obtain ⟨b1, e1, s1⟩ := C40_resize_exact h (by omega) (by omega) hn hnW hnH
  obtain ⟨b2, e2, a2⟩ := lens_run s1.valid h hs (square_scale hs hn)
  refine ⟨b2, ?_, a2.valid, a2.header, ?_, a2.outside⟩
  · unfold magnifyNtimescircregion
    rw [(C45_circle_guards h _ x y r).1.1 ⟨rfl, hs⟩]
    dsimp only
    rw [e1, ok_bind, e2]
    rfl
  · intro px py hx hy hi
    rw [a2.inside px py hx hy hi]
    have hb := inner_bounds hi
    have hn' : (0 : Int) < n := by omega
    have hsq := square_scale hs hn (px + x * n - x) (py + y * n - y) (by omega) (by omega)
    obtain ⟨X, hX⟩ := Int.eq_ofNat_of_zero_le hsq.1
    obtain ⟨Y, hY⟩ := Int.eq_ofNat_of_zero_le hsq.2.2.1
    have ex : (x + (px - x) / n) = ((X / n : Nat) : Int) := by
      rw [Int.natCast_div, ← hX, show (px : Int) + x * n - x = (px - x) + x * n by ring,
        Int.add_mul_ediv_right _ _ (by omega)]
      ring
    have ey : (y + (py - y) / n) = ((Y / n : Nat) : Int) := by
      rw [Int.natCast_div, ← hY, show (py : Int) + y * n - y = (py - y) + y * n by ring,
        Int.add_mul_ediv_right _ _ (by omega)]
      ring
    rw [ex, ey, hX, hY, Int.toNat_natCast, Int.toNat_natCast, Int.toNat_natCast, Int.toNat_natCast]
    rw [s1.pixels X Y (by push_cast at hsq; zify; omega) (by push_cast at hsq; zify; omega), if_pos]
    · simp [rotCol]
    · have hk : (W : Int) - 1 ≤ keepCols W 24 := by unfold keepCols; simp; omega
      have hlt : (X : Int) < ((W : Int) - 1) * n := by
        have : ((x : Int) + r) * n ≤ ((W : Int) - 1) * n := mul_le_mul_of_nonneg_right (by omega) (by omega)
        have : r ≤ r * n := le_mul_of_one_le_right (by omega) (by omega)
        linarith
      have : ((W : Int) - 1) * n ≤ keepCols W 24 * n := mul_le_mul_of_nonneg_right hk (by omega)
      zify
      omega

/-- The centre of the disc stays as it is. -/
theorem C138_magnify_centre (h : Valid b W H 24) {x y r : Int} (hs : SquareInside W H x y r) {n : Nat} (hn : 0 < n)
    (hnW : W * n < 2 ^ 24) (hnH : H * n < 2 ^ 24) :
    ∃ b', magnifyNtimescircregion b x y r n = .ok b' ∧ pix b' W H 24 x.toNat y.toNat = pix b W H 24 x.toNat y.toNat := by
  have h0 := hs x y (by omega) (by omega)
  obtain ⟨b', e, a⟩ := C138_magnify_partial h hs hn hnW hnH
  refine ⟨b', e, ?_⟩
  by_cases hi : Inner x y r x.toNat y.toNat
  · rw [a.inside _ _ (by omega) (by omega) hi]
    rw [show ((x.toNat : Nat) : Int) - x = 0 by omega, show ((y.toNat : Nat) : Int) - y = 0 by omega]
    simp
  · rw [a.outside _ _ (by omega) (by omega) hi]

/-- With the factor one nothing is changed. -/
theorem C138_magnify_once (h : Valid b W H 24) {x y r : Int} (hs : SquareInside W H x y r)
    (hW : W < 2 ^ 24) (hH : H < 2 ^ 24) :
    ∃ b', magnifyNtimescircregion b x y r 1 = .ok b' ∧ SameHeader b b' 24 ∧
      ∀ px py, px < W → py < H → pix b' W H 24 px py = pix b W H 24 px py := by
  obtain ⟨b', e, a⟩ := C138_magnify_partial h hs (n := 1) (by omega) (by omega) (by omega)
  refine ⟨b', e, a.header, fun px py hx hy => ?_⟩
  by_cases hi : Inner x y r px py
  · rw [a.inside _ _ hx hy hi]
    simp
  · exact a.outside _ _ hx hy hi

/-- C138: other images, and discs that leave the image, are left alone. -/
theorem C138_rejected (h : Valid b W H bits) {x y r : Int} (hg : ¬ (bits = 24 ∧ SquareInside W H x y r)) (n : Int)
    (scale : Nat → Nat → Int) :
    magnifyNtimescircregion b x y r n = .ok b ∧ pixelizenxncircregion scale b x y r n = .ok b := by
  constructor
  · unfold magnifyNtimescircregion
    rw [(C45_circle_guards h _ x y r).1.2 hg]
    rfl
  · unfold pixelizenxncircregion
    rw [(C45_circle_guards h _ x y r).1.2 hg]
    rfl

/-- The image that `pixelizenxn` makes: it is `n` times the quotient of each side, its squares show the averages of
squares that are `H % n` rows further down, and with an odd number of squares in a row the last one is black. -/
theorem C138_pixelizenxn_exact {scale : Nat → Nat → Int} {sc : Nat → Nat} (h : Valid b W H 24) {n : Nat} (hn : 0 < n)
    (hnW : n ≤ W) (hnH : n ≤ H) (hW : W < 2 ^ 24) (hH : H < 2 ^ 24)
    (hsc : ∀ s, s ≤ n * (n * 255) → scale n s = sc s ∧ sc s < 256) :
    ∃ b', pixelizenxn scale b (n : Int) = .ok b' ∧ Shows b' (W / n * n) (H / n * n) 24 (palRGB b) (fun x y =>
      if x < W / n / 2 * 2 * n then areaColour n sc (pix b W H 24) (x / n * n) (H % n + y / n * n) else 0) := by
  have hWn := Nat.div_mul_le_self W n
  have hHn := Nat.div_mul_le_self H n
  obtain ⟨b1, e1, s1⟩ := C102_smaller_exact h (by omega) hn hnH hW hH hsc
  obtain ⟨b2, e2, s2⟩ := C40_resize_exact s1.valid (Nat.div_pos hnW hn) (Nat.div_pos hnH hn) hn (by omega) (by omega)
  refine ⟨b2, ?_, s2.valid, fun h24 => absurd rfl h24, ?_⟩
  · unfold pixelizenxn
    rw [e1]; exact e2
  · intro x y hx hy
    rw [s2.pixels x y hx hy]
    have hk : keepCols (W / n) 24 = W / n / 2 * 2 := by simp [keepCols]
    have hr : rotCol 24 x = x := by simp [rotCol]
    rw [hk, hr]
    split_ifs with c
    · have hx' : x / n < W / n / 2 * 2 := Nat.div_lt_of_lt_mul (by rw [Nat.mul_comm]; exact c)
      have hle : W / n / 2 * 2 ≤ W / 2 * 2 / n := by
        rw [Nat.le_div_iff_mul_le hn]
        have h1 : W / n / 2 * 2 * n ≤ W := le_trans (Nat.mul_le_mul_right _ (by omega)) hWn
        rw [show W / n / 2 * 2 * n = W / n / 2 * n * 2 by ring] at h1 ⊢
        omega
      rw [s1.pixels _ _ (by omega) (Nat.div_lt_of_lt_mul (by rw [Nat.mul_comm]; exact hy)), if_pos (by omega)]
    · rfl

/-- C138, what `pixelizenxncircregion` does as long as the disc lies inside the image that `pixelizenxn` makes. -/
theorem C138_pixelize_exact {scale : Nat → Nat → Int} {sc : Nat → Nat} (h : Valid b W H 24) {x y r : Int} {n : Nat}
    (hn : 0 < n) (hs : SquareInside (W / n * n) (H / n * n) x y r) (hW : W < 2 ^ 24) (hH : H < 2 ^ 24)
    (hsc : ∀ s, s ≤ n * (n * 255) → scale n s = sc s ∧ sc s < 256) :
    ∃ b', pixelizenxncircregion scale b x y r n = .ok b' ∧ Alters b b' W H 24 (Inner x y r) (fun px py =>
      if px < W / n / 2 * 2 * n then areaColour n sc (pix b W H 24) (px / n * n) (H % n + py / n * n) else 0) := by
  have hWn := Nat.div_mul_le_self W n
  have hHn := Nat.div_mul_le_self H n
  have hs' : SquareInside W H x y r := by
    intro px py h1 h2
    have := hs px py h1 h2
    push_cast at this
    zify at hWn hHn
    omega
  have h0 := hs x y (by omega) (by omega)
  have hnW : n ≤ W := by
    by_contra c
    rw [Nat.div_eq_of_lt (by omega)] at h0
    omega
  have hnH : n ≤ H := by
    by_contra c
    rw [Nat.div_eq_of_lt (show H < n by omega)] at h0
    omega
  obtain ⟨b1, e1, s1⟩ := C138_pixelizenxn_exact h hn hnW hnH hW hH hsc
  obtain ⟨b2, e2, a2⟩ := lens_run s1.valid h hs' hs
  refine ⟨b2, ?_, a2.valid, a2.header, ?_, a2.outside⟩
  · unfold pixelizenxncircregion
    rw [(C45_circle_guards h _ x y r).1.1 ⟨rfl, hs'⟩, e1, ok_bind, e2]
    rfl
  · intro px py hx hy hi
    rw [a2.inside px py hx hy hi]
    have hb := inner_bounds hi
    have hsq := hs px py (by omega) (by omega)
    rw [show ((px : Int) + x - x).toNat = px by omega, show ((py : Int) + y - y).toNat = py by omega]
    exact s1.pixels px py (by exact_mod_cast hsq.2.1) (by exact_mod_cast hsq.2.2.2)

/-- C138: `pixelizenxncircregion` shows in the disc the average colour of the square that a pixel belongs to, if the
sides of the image are `n` times `p` and `q` with `p` even. Missing in comparison with the full claim: other images
(`C138_pixelize_shift_false`, `C138_pixelize_strip_false`, `C138_pixelize_length_false`) and the right end of each row. -/
theorem C138_pixelize_partial {scale : Nat → Nat → Int} {sc : Nat → Nat} {p q n : Nat} (h : Valid b (p * n) (q * n) 24)
    {x y r : Int} (hn : 0 < n) (heven : p % 2 = 0) (hs : SquareInside (p * n) (q * n) x y r)
    (hW : p * n < 2 ^ 24) (hH : q * n < 2 ^ 24)
    (hsc : ∀ s, s ≤ n * (n * 255) → scale n s = sc s ∧ sc s < 256) :
    ∃ b', pixelizenxncircregion scale b x y r n = .ok b' ∧ Alters b b' (p * n) (q * n) 24 (Inner x y r) (fun px py =>
      areaColour n sc (pix b (p * n) (q * n) 24) (px / n * n) (py / n * n)) := by
  have e1 : p * n / n = p := Nat.mul_div_cancel _ hn
  have e2 : q * n / n = q := Nat.mul_div_cancel _ hn
  obtain ⟨b', e, a⟩ := C138_pixelize_exact h hn (by rw [e1, e2]; exact hs) hW hH hsc
  refine ⟨b', e, a.valid, a.header, ?_, a.outside⟩
  intro px py hx hy hi
  rw [a.inside px py hx hy hi, e1, if_pos (by rw [show p / 2 * 2 = p by omega]; exact hx), Nat.mul_mod_left, Nat.zero_add]

/-! Faults: the right end of a row is not changed; the squares are taken `H % n` rows too low; a last odd square is
black; and a disc that reaches beyond the shrunken copy shortens the file. -/

/-- The neighbour of the centre should show the centre pixel, 7. -/
theorem C138_magnify_edge_false : (do
    let b ← newBMP 5 5 24
    let b ← plotxybit b 2 2 7
    let b ← magnifyNtimescircregion b 2 2 1 2
    pure (pix b 5 5 24 2 2, pix b 5 5 24 (2 + (3 - 2) / 2) 2, pix b 5 5 24 3 2) : Py (Nat × Nat × Nat)) = .ok (7, 7, 0) := by
  decide +kernel

/-- All four pixels of the square are black, but the square is painted with 25. -/
theorem C138_pixelize_shift_false : (do
    let b ← newBMP 4 5 24
    let b ← plotxybit b 0 2 100
    let b' ← pixelizenxncircregion areaScale b 1 1 1 2
    pure ([pix b 4 5 24 0 0, pix b 4 5 24 1 0, pix b 4 5 24 0 1, pix b 4 5 24 1 1], pix b' 4 5 24 0 1) : Py (List Nat × Nat)) =
      .ok ([0, 0, 0, 0], 25) := by
  decide +kernel

/-- All four pixels of the square have the colour 100, but it becomes black. -/
theorem C138_pixelize_strip_false : (do
    let b ← newBMP 6 4 24
    let b ← plotxybit b 4 0 100
    let b ← plotxybit b 5 0 100
    let b ← plotxybit b 4 1 100
    let b ← plotxybit b 5 1 100
    let b' ← pixelizenxncircregion areaScale b 4 1 1 2
    pure ([pix b 6 4 24 4 0, pix b 6 4 24 5 0, pix b 6 4 24 4 1, pix b 6 4 24 5 1], pix b' 6 4 24 4 1) : Py (List Nat × Nat)) =
      .ok ([100, 100, 100, 100], 0) := by
  decide +kernel

theorem C138_pixelize_length_false : (do
    let b ← newBMP 8 5 24
    let b' ← pixelizenxncircregion areaScale b 5 2 2 5
    pure (b.length, b'.length) : Py (Nat × Nat)) = .ok (174, 172) := by
  decide +kernel

example : SquareInside 8 5 5 2 2 ∧ Inner 2 2 1 1 2 ∧ ¬ Inner 2 2 1 3 2 := by
  refine ⟨(square_iff 8 5 5 2 2).mp (by decide), ?_, ?_⟩
  · have h1 : OnCircle 1 1 0 := (C25_circle_points 1 1 0).mp (by decide)
    exact ⟨⟨1, h1, by decide⟩, ⟨1, h1, by decide⟩⟩
  · intro h
    have := inner_bounds h
    omega

/-! ### File programs -/

section
variable {fs : Files} {ex nw : String}

/-- C139: the remaining file programs leave everything alone if the source is missing, reject what is no bitmap, and
change at most the new file. -/
theorem C139_careful (scale : Nat → Nat → Int) (f : ℚ × ℚ × ℚ) (x y r n x2 y2 color : Int) :
    Careful (fun fs ex nw => magnifyNtimescircregion2file fs ex nw x y r n) ∧
    Careful (fun fs ex nw => pixelizenxncircregion2file scale fs ex nw x y r n) ∧
    Careful (fun fs ex nw => thickencirclearea2file f fs ex nw x y r) ∧
    Careful (fun fs ex nw => pixelizenxntofile scale fs ex nw n) ∧
    Careful (fun fs ex nw => resizeNtimessmaller2file scale fs ex nw n) ∧
    Careful (fun fs ex nw => rectangle2file fs ex nw x y x2 y2 color) :=
  ⟨careful (e := .indexError) rfl, careful (e := .indexError) rfl, careful24 _, careful24 _, careful24 _,
    careful (e := .indexError) rfl⟩

/-- C139: three of them treat true-colour images only. -/
theorem C139_truecolour (scale : Nat → Nat → Int) (f : ℚ × ℚ × ℚ) (x y r n : Int) :
    TrueColourOnly (fun fs ex nw => thickencirclearea2file f fs ex nw x y r) ∧
    TrueColourOnly (fun fs ex nw => pixelizenxntofile scale fs ex nw n) ∧
    TrueColourOnly (fun fs ex nw => resizeNtimessmaller2file scale fs ex nw n) := by
  refine ⟨?_, ?_, ?_⟩ <;>
  · intro fs ex nw b W H bits h h24
    first | unfold thickencirclearea2file | unfold pixelizenxntofile | unfold resizeNtimessmaller2file
    dsimp only
    rw [applysave24_run h, if_pos h24]

theorem C139_magnify2file_partial (h : Stored fs ex b W H 24) {x y r : Int} (hs : SquareInside W H x y r) {n : Nat} (hn : 0 < n)
    (hnW : W * n < 2 ^ 24) (hnH : H * n < 2 ^ 24) :
    ∃ fs', magnifyNtimescircregion2file fs ex nw x y r n = .ok fs' ∧ Saved fs fs' nw (fun b' =>
      Alters b b' W H 24 (Inner x y r) (fun px py => pix b W H 24 (x + (px - x) / n).toNat (y + (py - y) / n).toNat)) :=
  applysave_saved h (C138_magnify_partial h.valid hs hn hnW hnH)

/-- C139: a rejected disc is saved as an unchanged copy. -/
theorem C139_rejected (h : Stored fs ex b W H bits) {x y r : Int} (hg : ¬ (bits = 24 ∧ SquareInside W H x y r)) (n : Int)
    (scale : Nat → Nat → Int) :
    (∃ fs', magnifyNtimescircregion2file fs ex nw x y r n = .ok fs' ∧ Saved fs fs' nw (· = b)) ∧
    (∃ fs', pixelizenxncircregion2file scale fs ex nw x y r n = .ok fs' ∧ Saved fs fs' nw (· = b)) :=
  ⟨applysave_saved h ⟨b, (C138_rejected h.valid hg n scale).1, rfl⟩,
    applysave_saved h ⟨b, (C138_rejected h.valid hg n scale).2, rfl⟩⟩

theorem C139_pixelizecirc2file_partial {p q n : Nat} (h : Stored fs ex b (p * n) (q * n) 24)
    {scale : Nat → Nat → Int} {sc : Nat → Nat}
    {x y r : Int} (hn : 0 < n) (heven : p % 2 = 0) (hs : SquareInside (p * n) (q * n) x y r)
    (hW : p * n < 2 ^ 24) (hH : q * n < 2 ^ 24)
    (hsc : ∀ s, s ≤ n * (n * 255) → scale n s = sc s ∧ sc s < 256) :
    ∃ fs', pixelizenxncircregion2file scale fs ex nw x y r n = .ok fs' ∧ Saved fs fs' nw (fun b' =>
      Alters b b' (p * n) (q * n) 24 (Inner x y r) (fun px py =>
        areaColour n sc (pix b (p * n) (q * n) 24) (px / n * n) (py / n * n))) :=
  applysave_saved h (C138_pixelize_partial h.valid hn heven hs hW hH hsc)

theorem C139_pixelize2file_exact (h : Stored fs ex b W H 24) {scale : Nat → Nat → Int} {sc : Nat → Nat} {n : Nat} (hn : 0 < n)
    (hnW : n ≤ W) (hnH : n ≤ H) (hW : W < 2 ^ 24) (hH : H < 2 ^ 24)
    (hsc : ∀ s, s ≤ n * (n * 255) → scale n s = sc s ∧ sc s < 256) :
    ∃ fs', pixelizenxntofile scale fs ex nw n = .ok fs' ∧ Saved fs fs' nw (fun b' =>
      Shows b' (W / n * n) (H / n * n) 24 (palRGB b) (fun x y =>
        if x < W / n / 2 * 2 * n then areaColour n sc (pix b W H 24) (x / n * n) (H % n + y / n * n) else 0)) :=
  applysave24_saved h (C138_pixelizenxn_exact h.valid hn hnW hnH hW hH hsc)

/-- C139: the shrunken copy holds in every pixel, except those of a last column, the rounded average of a square. -/
theorem C139_smaller2file_exact (h : Stored fs ex b W H 24) (hW0 : 0 < W) {n : Nat} (hn : 0 < n) (hn2 : n < 2 ^ 20)
    (hnH : n ≤ H) (hW : W < 2 ^ 24) (hH : H < 2 ^ 24) :
    ∃ fs', resizeNtimessmaller2file areaScale fs ex nw n = .ok fs' ∧ Saved fs fs' nw (fun b' =>
      Valid b' (W / n) (H / n) 24 ∧ ∀ x y, x < W / n → y < H / n → if x < W / 2 * 2 / n then
        ∀ k < 3, NearestInt (chan k (pix b' (W / n) (H / n) 24 x y))
          (areaSum n (fun x y => chan k (pix b W H 24 x y)) (x * n) (H % n + y * n)) (n * n)
      else pix b' (W / n) (H / n) 24 x y = 0) := by
  obtain ⟨b', e, hb⟩ := C102_mean_exact h.valid hW0 hn hn2 hnH hW hH
  exact applysave24_saved h ⟨b', by rw [e]; rfl, hb⟩

theorem C139_rectangle2file (h : Stored fs ex b W H bits) (hW : 0 < W) (hH : 0 < H)
    {color : Int} (hc : IsColour bits color) (x1 y1 x2 y2 : Int) :
    ∃ fs', rectangle2file fs ex nw x1 y1 x2 y2 color = .ok fs' ∧ Saved fs fs' nw (fun b' =>
      Paints b b' W H bits (Border (clampTo x1 W) (clampTo y1 H) (clampTo x2 W) (clampTo y2 H)) color.toNat) :=
  applysave_saved h (C94_rectangle h.valid hW hH hc x1 y1 x2 y2)

/-- C139: `thickencirclearea` draws the circle with pens of the radii 8 to 1, the widest in black
and the brightness rising to 7/8 of the brightest shade. -/
theorem C139_thickencirclearea (h : Valid b W H 24) {x y r : Int} (hx : PenOK W 24 (x - r)) {f : ℚ × ℚ × ℚ}
    (hf : Pals.Unit f) :
    ∃ b', thickencirclearea b x y r f = .ok b' ∧
      Gradient.Graded b b' W H 24 8 (fun i px py => ∃ u v, OnCircle r |u - x| |v - y| ∧ Mark W 24 u v i px py)
        (Gradient.Step b 24 (255, 0) f 8) :=
  Gradient.C132_gradthickcircle_partial h hx (by omega) 8 (by constructor <;> constructor <;> norm_num) hf

theorem C139_thickencirclearea2file (h : Stored fs ex b W H 24) {x y r : Int} (hx : PenOK W 24 (x - r)) {f : ℚ × ℚ × ℚ}
    (hf : Pals.Unit f) :
    ∃ fs', thickencirclearea2file f fs ex nw x y r = .ok fs' ∧ Saved fs fs' nw (fun b' =>
      Gradient.Graded b b' W H 24 8 (fun i px py => ∃ u v, OnCircle r |u - x| |v - y| ∧ Mark W 24 u v i px py)
        (Gradient.Step b 24 (255, 0) f 8)) :=
  applysave24_saved h (C139_thickencirclearea h.valid hx hf)

end

/-! ### Directories -/

/-- The path of frame `i` in a directory below the working directory. -/
def framePath (cwd dir : String) (i : Nat) : String := cwd ++ "/" ++ dir ++ "/" ++ toString i ++ ".bmp"

theorem frameName_inj {cwd dir : String} {i j : Nat} (h : frameName cwd dir i = frameName cwd dir j) : i = j := by
  unfold frameName at h
  have := congrArg String.toList h
  simp only [String.toList_append, List.append_assoc, List.append_cancel_left_eq, List.append_cancel_right_eq] at this
  exact Nat.repr_injective (String.toList_inj.mp this)

/-- Frames saved from number `i` on. -/
theorem saveFrames_spec (cwd dir : String) : ∀ (l : List Bytes) (i : Nat) (fs : Files),
    (∀ k, (hk : k < l.length) → saveFrames cwd dir i l fs (frameName cwd dir (i + k)) = some l[k]) ∧
    (∀ n, (∀ k < l.length, n ≠ frameName cwd dir (i + k)) → saveFrames cwd dir i l fs n = fs n)
  | [], i, fs => ⟨fun k hk => absurd hk (by simp), fun n _ => rfl⟩
  | b :: l, i, fs => by
    obtain ⟨h1, h2⟩ := saveFrames_spec cwd dir l (i + 1) (writeFile fs (frameName cwd dir i) b)
    unfold saveFrames
    refine ⟨fun k hk => ?_, fun n hn => ?_⟩
    · cases k with
      | zero =>
        rw [h2 _ (fun k _ hc => by have := frameName_inj hc; omega)]
        simp [writeFile, saveBMP]
      | succ k =>
        have := h1 k (by simpa using hk)
        rw [show i + 1 + k = i + (k + 1) by omega] at this
        rw [this]
        rfl
    · rw [h2 n (fun k hk => by
        rw [show i + 1 + k = i + (k + 1) by omega]
        exact hn (k + 1) (by simpa using hk))]
      have := hn 0 (by simp)
      rw [Nat.add_zero] at this
      simp [writeFile, this]

theorem cycle_spec (h : Valid b W H bits) (hb : bits = 4 ∨ bits = 8) : ∀ (n : Nat) (k : Nat) (b1 : Bytes), palshift b k = .ok b1 →
    ∃ l, itercolorcycleLoop n b1 = .ok l ∧ l.length = n ∧ ∀ i, (hi : i < l.length) → palshift b ((k + 1 + i : Nat) : Int) = .ok l[i]
  | 0, k, b1, _ => ⟨[], rfl, rfl, fun i hi => absurd hi (by simp)⟩
  | n + 1, k, b1, e => by
    have ha := C14_palshift_add h hb k 1
    rw [e, ok_bind, Int.natAbs_natCast] at ha
    obtain ⟨b2, e2, -⟩ := (C14_palshift h ((k + 1 : Nat) : Int)).1 hb
    have ha' : palshift b1 1 = .ok b2 := by rw [ha, ← e2]; rfl
    obtain ⟨l, el, hl, hp⟩ := cycle_spec h hb n (k + 1) b2 e2
    refine ⟨b2 :: l, ?_, by simp [hl], ?_⟩
    · unfold itercolorcycleLoop
      rw [ha', ok_bind, el]
      rfl
    · intro i hi
      cases i with
      | zero => exact e2
      | succ i =>
        have := hp i (by simpa using hi)
        rw [show k + 1 + 1 + i = k + 1 + (i + 1) by omega] at this
        exact this

theorem itercolorcycle_spec (h : Valid b W H bits) (hb : bits = 4 ∨ bits = 8) :
    ∃ l, itercolorcycle b = .ok l ∧ l.length = 2 ^ bits ∧ ∀ i, (hi : i < l.length) → palshift b (i : Int) = .ok l[i] := by
  have h0 : palshift b ((0 : Nat) : Int) = .ok b := C14_palshift_cycle h hb 0 (dvd_zero _)
  obtain ⟨l, el, hl, hp⟩ := cycle_spec h hb (2 ^ bits - 1) 0 b h0
  have hpos := Nat.two_pow_pos bits
  refine ⟨b :: l, ?_, by simp only [List.length_cons, hl]; omega, ?_⟩
  · unfold itercolorcycle
    rw [h.bits_eq, ok_bind, if_pos (by rcases hb with rfl | rfl <;> simp), h.getmaxcolors_eq, ok_bind]
    have : (((2 ^ bits : Nat) : Int) - 1).toNat = 2 ^ bits - 1 := by omega
    rw [this, el]
    rfl
  · intro i hi
    cases i with
    | zero => exact h0
    | succ i =>
      have := hp i (by simpa using hi)
      rw [show 0 + 1 + i = i + 1 by omega] at this
      exact this

section
variable {d : Disk} {ex dir cwd : String} {overwrite : Bool}

/-- C140: `colorcycle2dir` fills a new directory, or an old one if that is allowed, with one image for each colour of
the palette. Frame `i` has the same pixels, and its palette is turned by `i` places. All other files stay. -/
theorem C140_colorcycle (h : Stored d.files ex b W H bits) (hb : bits = 4 ∨ bits = 8) (hdir : dir ∉ d.dirs ∨ overwrite = true) :
    ∃ d', colorcycle2dir cwd d ex dir overwrite = .ok (.done d') ∧
      (∀ i < 2 ^ bits, ∃ c, d'.files (framePath cwd dir i) = some c ∧ Valid c W H bits ∧ SamePixels b c bits ∧
        ∀ k < 2 ^ bits, palRGB c k = palRGB b ((k + i) % 2 ^ bits)) ∧
      (∀ n, (∀ i < 2 ^ bits, n ≠ framePath cwd dir i) → d'.files n = d.files n) ∧
      (∀ n, n ∈ d'.dirs ↔ n = dir ∨ n ∈ d.dirs) := by
  obtain ⟨l, el, hl, hp⟩ := itercolorcycle_spec h.valid hb
  have hspec := saveFrames_spec cwd dir l 0 d.files
  refine ⟨⟨saveFrames cwd dir 0 l d.files, if dir ∈ d.dirs then d.dirs else dir :: d.dirs⟩, ?_, ?_, ?_, ?_⟩
  · unfold colorcycle2dir usefndirsv
    rw [h.content]
    dsimp only
    rw [show loadBMP b = .ok b from C15_save_load h.valid h.long, ok_bind, if_neg (by
      rintro ⟨h1, h2⟩
      rcases hdir with h3 | h3
      · exact h3 h1
      · rw [h3] at h2; cases h2), h.valid.bits_eq]
    simp only [ok_bind]
    rw [if_pos (by rcases hb with rfl | rfl <;> simp), el]
    rfl
  · intro i hi
    have hi' : i < l.length := by omega
    have h1 := hspec.1 i hi'
    rw [Nat.zero_add] at h1
    obtain ⟨c, ec, hc⟩ := (C14_palshift h.valid (i : Int)).1 hb
    have hc' : c = l[i] := by
      have := hp i hi'
      rw [ec] at this
      exact Except.ok.inj this
    subst hc'
    rw [Int.natAbs_natCast] at hc
    exact ⟨_, h1, hc⟩
  · intro n hn
    exact hspec.2 n (fun k hk => by rw [Nat.zero_add]; exact hn k (by omega))
  · intro n
    dsimp only
    split_ifs with c
    · constructor
      · exact Or.inr
      · rintro (rfl | hn)
        · exact c
        · exact hn
    · simp

/-- C140: an existing directory is not touched without permission; a missing source changes nothing; an image of
another depth is an error. -/
theorem C140_refused :
    (d.files ex = none → colorcycle2dir cwd d ex dir overwrite = .ok (.done d)) ∧
    (Stored d.files ex b W H bits → dir ∈ d.dirs → colorcycle2dir cwd d ex dir false = .ok .exists_) ∧
    (Stored d.files ex b W H bits → bits = 1 ∨ bits = 24 → dir ∉ d.dirs ∨ overwrite = true →
      colorcycle2dir cwd d ex dir overwrite = .error .typeError) := by
  refine ⟨?_, ?_, ?_⟩
  · intro hn
    unfold colorcycle2dir usefndirsv
    rw [hn]
    rfl
  · intro h hd
    unfold colorcycle2dir usefndirsv
    rw [h.content]
    dsimp only
    rw [show loadBMP b = .ok b from C15_save_load h.valid h.long, ok_bind, if_pos ⟨hd, rfl⟩]
    rfl
  · intro h hb hdir
    unfold colorcycle2dir usefndirsv
    rw [h.content]
    dsimp only
    rw [show loadBMP b = .ok b from C15_save_load h.valid h.long, ok_bind, if_neg (by
      rintro ⟨h1, h2⟩
      rcases hdir with h3 | h3
      · exact h3 h1
      · rw [h3] at h2; cases h2), h.valid.bits_eq]
    simp only [ok_bind]
    rw [if_neg (by rcases hb with rfl | rfl <;> simp)]
    rfl

/-- A round trip: after as many steps as there are colours the palette would be the first again. -/
theorem C140_period (h : Valid b W H bits) (hb : bits = 4 ∨ bits = 8) :
    palshift b ((2 ^ bits : Nat) : Int) = .ok b := C14_palshift_cycle h hb _ (dvd_refl _)

example : framePath "/home" "cycle" 12 = "/home/cycle/12.bmp" := by decide
end

end Verif.Props.Lens
