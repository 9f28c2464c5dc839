import Verif.Props.EllipseGen
import Verif.Props.Nibbles
/-! Property C98: drawing ellipses. The half axes are `b₀` (vertical) and `a₀` (horizontal). -/

namespace Verif.Props
open Verif Spec Model

/-- Pixels whose distances from the centre are a point of the quarter described in C97. -/
def EllipseSet (x y b₀ a₀ : Int) (px py : Nat) : Prop :=
  (|(px : Int) - x|, |(py : Int) - y|) ∈ iterellipsepart b₀ a₀

/-- Pixels horizontally between points of the ellipse, with the ends of C19 on 4-bit images. -/
def EllipseFill (W bits : Nat) (x y b₀ a₀ : Int) (px py : Nat) : Prop :=
  ∃ dx, (dx, |(py : Int) - y|) ∈ iterellipsepart b₀ a₀ ∧ RowSet W bits py (x - dx) (x + dx) px py

/-- On images of 1, 8 or 24 bits these are the pixels that are no farther from the vertical axis than a point of the ellipse
in the same row. -/
theorem ellipseFill_of_ne {W bits : Nat} (h4 : bits ≠ 4) {b₀ a₀ : Int} (hnn : ∀ v ∈ iterellipsepart b₀ a₀, 0 ≤ v.1 ∧ 0 ≤ v.2)
    (x y : Int) (px py : Nat) : EllipseFill W bits x y b₀ a₀ px py ↔
      ∃ dx, (dx, |(py : Int) - y|) ∈ iterellipsepart b₀ a₀ ∧ |(px : Int) - x| ≤ dx := by
  unfold EllipseFill
  refine exists_congr fun dx => and_congr_right fun hm => ?_
  have := (hnn _ hm).1
  rw [rowSet_of_ne h4, abs_le]
  unfold HSeg
  simp only at this
  omega

theorem mem_iterellipse {b₀ a₀ : Int} (hb0 : 1 ≤ b₀) (ha0 : a₀ ≠ 0) (x y : Int) (px py : Nat) :
    EllipseSet x y b₀ a₀ px py ↔ ((px : Int), (py : Int)) ∈ iterellipse x y b₀ a₀ := by
  unfold iterellipse EllipseSet
  rw [List.mem_flatMap]
  constructor
  · intro h
    exact ⟨_, h, (mem_quad x y _ (abs_nonneg _) (abs_nonneg _) _ _).mpr ⟨rfl, rfl⟩⟩
  · rintro ⟨v, hv, hm⟩
    obtain ⟨n1, n2, _⟩ := (C97_rows hb0 ha0).1 v hv
    obtain ⟨e1, e2⟩ := (mem_quad x y v n1 n2 _ _).mp hm
    rw [e1, e2]; exact hv

/-- C98: `ellipse` paints exactly the points of the ellipse that lie in the image. Missing: on 8 and 24
bits, ellipses that pass the test of the code (which exchanges the half axes) and still leave the
image, for which pixels elsewhere are painted (`C98_guard_wrong`). -/
theorem C98_ellipse_partial {b : Bytes} {W H bits : Nat} (h : Valid b W H bits) {x y b₀ a₀ : Int}
    (hb0 : 1 ≤ b₀) (ha0 : a₀ ≠ 0) {color : Int} (hc : IsColour bits color)
    (hok : bits = 1 ∨ bits = 4 ∨
      ¬ ((0 ≤ x - b₀ ∧ x - b₀ < W ∧ 0 ≤ x + b₀ ∧ x + b₀ < W) ∧
        (0 ≤ y - a₀ ∧ y - a₀ < H ∧ 0 ≤ y + a₀ ∧ y + a₀ < H)) ∨
      ∀ p ∈ iterellipsepart b₀ a₀, 0 ≤ x - p.1 ∧ x + p.1 < W ∧ 0 ≤ y - p.2 ∧ y + p.2 < H) :
    ∃ b', ellipse b x y b₀ a₀ color = .ok b' ∧ Paints b b' W H bits (EllipseSet x y b₀ a₀) color.toNat := by
  have hlt := colour_lt hc
  have fin := fun px py (_ : px < W) (_ : py < H) => mem_iterellipse hb0 ha0 x y px py
  have hin : (∀ p ∈ iterellipsepart b₀ a₀, 0 ≤ x - p.1 ∧ x + p.1 < W ∧ 0 ≤ y - p.2 ∧ y + p.2 < H) →
      ∀ q ∈ iterellipse x y b₀ a₀, 0 ≤ q.1 ∧ q.1 < W ∧ 0 ≤ q.2 ∧ q.2 < H := by
    intro g q hq
    unfold iterellipse at hq
    rw [List.mem_flatMap] at hq
    obtain ⟨v, hv, hm⟩ := hq
    obtain ⟨n1, n2, _⟩ := (C97_rows hb0 ha0).1 v hv
    have := g v hv
    unfold mirror1stquad mirror at hm
    simp only [List.mem_cons, List.not_mem_nil, or_false] at hm
    rcases hm with rfl | rfl | rfl | rfl <;> simp only <;> omega
  unfold ellipse
  rw [getmaxxy_eq h, h.bits_eq]
  simp only [ok_bind]
  have hgd : entireellipseisinboundary x y (-1) W (-1) H b₀ a₀ = true →
      ((0 ≤ x - b₀ ∧ x - b₀ < W ∧ 0 ≤ x + b₀ ∧ x + b₀ < W) ∧
        (0 ≤ y - a₀ ∧ y - a₀ < H ∧ 0 ≤ y + a₀ ∧ y + a₀ < H)) := by
    intro g
    unfold entireellipseisinboundary at g
    simp only [Bool.and_eq_true, isinrange_iff] at g
    omega
  rcases h.depth with rfl | rfl | rfl | rfl
  · rw [if_neg (by norm_num), if_neg (by norm_num)]
    obtain ⟨b', e, p⟩ := plots_paints h (iterellipse x y b₀ a₀) (c := color) (by intro g; omega)
    rw [reduce_of_colour h.depth hc] at p
    exact ⟨b', e, p.congr fin⟩
  · rw [if_neg (by norm_num), if_neg (by norm_num)]
    obtain ⟨b', e, p⟩ := plots_paints h (iterellipse x y b₀ a₀) (c := color) (by intro g; omega)
    rw [reduce_of_colour h.depth hc] at p
    exact ⟨b', e, p.congr fin⟩
  · have hc256 : color.toNat < 256 := by norm_num at hlt; omega
    have hcol : color = (color.toNat : Int) := by have := hc.1; omega
    rw [if_neg (by norm_num), if_pos rfl]
    by_cases hg : entireellipseisinboundary x y (-1) W (-1) H b₀ a₀ = true
    · have hall := ((hok.resolve_left (by omega)).resolve_left (by omega)).resolve_left (fun g => g (hgd hg))
      simp only [hg, Bool.not_true, Bool.false_eq_true, if_false]
      obtain ⟨b', e, p⟩ := loop_paints (W := W) (H := H) (bits := 8)
        (fun bmp p => do
          let s ← BMoffsethd bmp p.1 p.2
          setItem bmp s color) (iterellipse x y b₀ a₀) color.toNat hlt (hin hall)
        (fun b hb px py hx hy => put8 hb hx hy hc256 hcol) h
      exact ⟨b', e, p.congr fin⟩
    · have hg' : entireellipseisinboundary x y (-1) W (-1) H b₀ a₀ = false := by simpa using hg
      simp only [hg', Bool.not_false, if_true]
      obtain ⟨b', e, p⟩ := checked_paints (W := W) (H := H) (bits := 8)
        (fun bmp px py => do
          let s ← BMoffsethd bmp px py
          setItem bmp s color) (iterellipse x y b₀ a₀) color.toNat hlt
        (fun b hb px py hx hy => put8 hb hx hy hc256 hcol) h
      exact ⟨b', e, p.congr fin⟩
  · rw [if_pos rfl, int2BGRarr_eq hc]
    simp only [ok_bind]
    by_cases hg : entireellipseisinboundary x y (-1) W (-1) H b₀ a₀ = true
    · have hall := ((hok.resolve_left (by omega)).resolve_left (by omega)).resolve_left (fun g => g (hgd hg))
      simp only [hg, Bool.not_true, Bool.false_eq_true, if_false]
      obtain ⟨b', e, p⟩ := loop_paints (W := W) (H := H) (bits := 24)
        (fun bmp p => do
          let s ← BMoffsethd bmp p.1 p.2
          pure (setSlice bmp s (s + 3) [color.toNat % 256, color.toNat / 256 % 256, color.toNat / 65536]))
        (iterellipse x y b₀ a₀) color.toNat hlt (hin hall)
        (fun b hb px py hx hy => put24 hb hx hy rfl) h
      exact ⟨b', e, p.congr fin⟩
    · have hg' : entireellipseisinboundary x y (-1) W (-1) H b₀ a₀ = false := by simpa using hg
      simp only [hg', Bool.not_false, if_true]
      obtain ⟨b', e, p⟩ := checked_paints (W := W) (H := H) (bits := 24)
        (fun bmp px py => do
          let s ← BMoffsethd bmp px py
          pure (setSlice bmp s (s + 3) [color.toNat % 256, color.toNat / 256 % 256, color.toNat / 65536]))
        (iterellipse x y b₀ a₀) color.toNat hlt
        (fun b hb px py hx hy => put24 hb hx hy rfl) h
      exact ⟨b', e, p.congr fin⟩

/-- C98 is false when the exchanged test lets an ellipse pass: the flat ellipse with half axes 1 and 4
around (1, 5) in a 4 by 10 image paints pixel (3, 7), which has nothing to do with it: it is the
position of (-1, 6), a point that should be clipped. -/
theorem C98_guard_wrong :
    (do let b ← newBMP 4 10 24; let b ← ellipse b 1 5 1 4 9; getxybit b 3 7) = .ok 9 ∧
    ¬ EllipseSet 1 5 1 4 3 7 := by
  refine ⟨by decide +kernel, ?_⟩
  unfold EllipseSet; decide +kernel

/-- C98 is false even for circles that fit: with both half axes 4 in a 9 by 9 image, column 5 from the
centre is beyond the edges, and writing there spoils pixels of the ellipse in the next rows. -/
theorem C98_circle_wrong :
    (do let b ← newBMP 9 9 24; let b ← ellipse b 4 4 4 4 9
        pure (decide ((← getxybit b 0 3) = 9), decide ((← getxybit b 8 5) = 9))) = .ok (false, false) ∧
    EllipseSet 4 4 4 4 0 3 ∧ EllipseSet 4 4 4 4 8 5 := by
  refine ⟨by decide +kernel, ?_, ?_⟩ <;> · unfold EllipseSet; decide +kernel

theorem rowSet_row {W bits : Nat} {y x1 x2 : Int} {px py : Nat} :
    RowSet W bits y x1 x2 px py ↔ (py : Int) = y ∧ RowSet W bits py x1 x2 px py := by
  unfold RowSet Row4 HSeg
  split_ifs <;> omega

theorem ell_union {W bits : Nat} {b₀ a₀ : Int} (x y : Int) (hnn : ∀ v ∈ iterellipsepart b₀ a₀, 0 ≤ v.1 ∧ 0 ≤ v.2) (px py : Nat) :
    (EllipseFill W bits x y b₀ a₀ px py ↔ ∃ v ∈ iterellipsepart b₀ a₀,
      RowSet W bits (y - v.2) (x - v.1) (x + v.1) px py ∨ RowSet W bits (y + v.2) (x - v.1) (x + v.1) px py) := by
  unfold EllipseFill
  constructor
  · rintro ⟨dx, hm, hr⟩
    refine ⟨_, hm, ?_⟩
    simp only
    rcases abs_choice ((py : Int) - y) with e | e <;> rw [e]
    · right; rw [rowSet_row]; exact ⟨by omega, hr⟩
    · left; rw [rowSet_row]; exact ⟨by omega, hr⟩
  · rintro ⟨v, hv, hs⟩
    obtain ⟨h0, h1⟩ := hnn v hv
    rw [rowSet_row, rowSet_row (y := y + v.2)] at hs
    have e : |(py : Int) - y| = v.2 := by rw [abs_split _ _ h1]; omega
    refine ⟨v.1, by rw [e]; exact hv, ?_⟩
    rcases hs with hs | hs <;> exact hs.2

/-- A filled ellipse is made of the rows between its points, if those rows are painted. -/
theorem filledellipse_rows {b : Bytes} {W H bits : Nat} (h : Valid b W H bits) {x y b₀ a₀ : Int} {color : Int}
    (hnn : ∀ v ∈ iterellipsepart b₀ a₀, 0 ≤ v.1 ∧ 0 ≤ v.2) (hc : IsColour bits color)
    (row : ∀ b, Valid b W H bits → ∀ v ∈ iterellipsepart b₀ a₀, ∀ y', y' = y - v.2 ∨ y' = y + v.2 →
      ∃ b', horiline b y' (x - v.1) (x + v.1) color = .ok b' ∧
        Paints b b' W H bits (RowSet W bits y' (x - v.1) (x + v.1)) color.toNat) :
    ∃ b', filledellipse b x y b₀ a₀ color = .ok b' ∧ Paints b b' W H bits (EllipseFill W bits x y b₀ a₀) color.toNat := by
  unfold filledellipse
  rw [h.bits_eq]
  simp only [ok_bind]
  have hw : ∀ v ∈ iterellipsepart b₀ a₀, 0 ≤ v.1 := fun v hv => (hnn v hv).1
  by_cases hlow : bits < 8
  · rw [if_pos (by omega)]
    obtain ⟨b', e, p⟩ := foldl_paints (W := W) (H := H) (bits := bits) (c := color.toNat)
      (fun bmp (v : Int × Int) => do
        let bmp ← horiline bmp (mirror y v.2).1 (mirror x v.1).1 (mirror x v.1).2 color
        horiline bmp (mirror y v.2).2 (mirror x v.1).1 (mirror x v.1).2 color)
      (fun v px py => RowSet W bits (y - v.2) (x - v.1) (x + v.1) px py ∨ RowSet W bits (y + v.2) (x - v.1) (x + v.1) px py)
      (iterellipsepart b₀ a₀) (by
        intro b hb v hv
        obtain ⟨b1, e1, p1⟩ := row b hb v hv (y - v.2) (.inl rfl)
        obtain ⟨b2, e2, p2⟩ := row b1 p1.valid v hv (y + v.2) (.inr rfl)
        refine ⟨b2, ?_, p1.trans p2 fun _ _ _ _ => Iff.rfl⟩
        unfold mirror
        dsimp only
        rw [e1]
        exact e2) h
    exact ⟨b', e, p.congr fun px py _ _ => ell_union x y hnn px py⟩
  · have hb : bits = 8 ∨ bits = 24 := by rcases h.depth with g | g | g | g <;> omega
    rw [if_neg (by omega), getmaxxy_eq h]
    simp only [ok_bind]
    rcases hb with rfl | rfl
    · rw [if_neg (by norm_num), if_pos rfl]
      obtain ⟨b', e, p⟩ := foldl_paints (W := W) (H := H) (bits := 8) (c := color.toNat)
        (fun bmp (v : Int × Int) => do
          let colorbuf ← mkArray (pyRepeat [pyAnd color 0xff]
            (setmax (mirror x v.1).2 ((W : Int) - 1) - setmin (mirror x v.1).1 0 + 1))
          let bmp ← if isinrange (mirror y v.2).2 H (-1) = true then do
              let s ← bmofhd8 bmp (setmin (mirror x v.1).1 0) (mirror y v.2).2
              pure (setSlice bmp s (s + (setmax (mirror x v.1).2 ((W : Int) - 1) - setmin (mirror x v.1).1 0 + 1)) colorbuf)
            else pure bmp
          if isinrange (mirror y v.2).1 H (-1) = true then do
            let s ← bmofhd8 bmp (setmin (mirror x v.1).1 0) (mirror y v.2).1
            pure (setSlice bmp s (s + (setmax (mirror x v.1).2 ((W : Int) - 1) - setmin (mirror x v.1).1 0 + 1)) colorbuf)
          else pure bmp)
        (fun v px py => RowSet W 8 (y - v.2) (x - v.1) (x + v.1) px py ∨ RowSet W 8 (y + v.2) (x - v.1) (x + v.1) px py)
        (iterellipsepart b₀ a₀) (by
          intro b hb v hv
          have h0 := hw v hv
          obtain ⟨a, ha⟩ := span8_ok color (setmax (x + v.1) ((W : Int) - 1) - setmin (x - v.1) 0 + 1)
          obtain ⟨b1, e1, p1⟩ := row b hb v hv (y + v.2) (.inr rfl)
          obtain ⟨b2, e2, p2⟩ := row b1 p1.valid v hv (y - v.2) (.inl rfl)
          refine ⟨b2, ?_, p1.trans p2 ?_⟩
          · unfold mirror
            simp only [ha, ok_bind]
            rw [horiline_8 hb (y + v.2) (x - v.1) (x + v.1) color (by omega) ha] at e1
            rw [horiline_8 p1.valid (y - v.2) (x - v.1) (x + v.1) color (by omega) ha] at e2
            by_cases c1 : isinrange (y + v.2) H (-1) = true
            · rw [if_pos c1] at e1 ⊢
              cases hs : bmofhd8 b (setmin (x - v.1) 0) (y + v.2) with
              | error er => rw [hs] at e1; cases e1
              | ok s =>
                rw [hs] at e1
                simp only [ok_bind, pure_eq_ok, Except.ok.injEq] at e1 ⊢
                rw [e1]; exact e2
            · rw [if_neg c1] at e1 ⊢
              simp only [ok_bind, pure_eq_ok, Except.ok.injEq] at e1 ⊢
              rw [e1]; exact e2
          · intro px py _ _; exact or_comm) h
      exact ⟨b', e, p.congr fun px py _ _ => ell_union x y hnn px py⟩
    · rw [if_pos rfl]
      obtain ⟨b', e, p⟩ := foldl_paints (W := W) (H := H) (bits := 24) (c := color.toNat)
        (fun bmp (v : Int × Int) => do
          let colorbuf ← mkArray (pyRepeat [(int2RGB color).2.2, (int2RGB color).2.1, (int2RGB color).1]
            (setmax (mirror x v.1).2 ((W : Int) - 1) - setmin (mirror x v.1).1 0 + 1))
          let bmp ← if isinrange (mirror y v.2).2 H (-1) = true then do
              let s ← bmofhd24 bmp (setmin (mirror x v.1).1 0) (mirror y v.2).2
              pure (setSlice bmp s (s + (setmax (mirror x v.1).2 ((W : Int) - 1) - setmin (mirror x v.1).1 0 + 1) * 3) colorbuf)
            else pure bmp
          if isinrange (mirror y v.2).1 H (-1) = true then do
            let s ← bmofhd24 bmp (setmin (mirror x v.1).1 0) (mirror y v.2).1
            pure (setSlice bmp s (s + (setmax (mirror x v.1).2 ((W : Int) - 1) - setmin (mirror x v.1).1 0 + 1) * 3) colorbuf)
          else pure bmp)
        (fun v px py => RowSet W 24 (y - v.2) (x - v.1) (x + v.1) px py ∨ RowSet W 24 (y + v.2) (x - v.1) (x + v.1) px py)
        (iterellipsepart b₀ a₀) (by
          intro b hb v hv
          have h0 := hw v hv
          obtain ⟨a, ha⟩ := span24_ok hc (setmax (x + v.1) ((W : Int) - 1) - setmin (x - v.1) 0 + 1)
          obtain ⟨b1, e1, p1⟩ := row b hb v hv (y + v.2) (.inr rfl)
          obtain ⟨b2, e2, p2⟩ := row b1 p1.valid v hv (y - v.2) (.inl rfl)
          refine ⟨b2, ?_, p1.trans p2 ?_⟩
          · unfold mirror
            simp only [ha, ok_bind]
            rw [horiline_24 hb (y + v.2) (x - v.1) (x + v.1) color (by omega) ha] at e1
            rw [horiline_24 p1.valid (y - v.2) (x - v.1) (x + v.1) color (by omega) ha] at e2
            by_cases c1 : isinrange (y + v.2) H (-1) = true
            · rw [if_pos c1] at e1 ⊢
              cases hs : bmofhd24 b (setmin (x - v.1) 0) (y + v.2) with
              | error er => rw [hs] at e1; cases e1
              | ok s =>
                rw [hs] at e1
                simp only [ok_bind, pure_eq_ok, Except.ok.injEq] at e1 ⊢
                rw [e1]; exact e2
            · rw [if_neg c1] at e1 ⊢
              simp only [ok_bind, pure_eq_ok, Except.ok.injEq] at e1 ⊢
              rw [e1]; exact e2
          · intro px py _ _; exact or_comm) h
      exact ⟨b', e, p.congr fun px py _ _ => ell_union x y hnn px py⟩

/-- As `C98_filledellipse_partial`, also for the degenerate ellipses that `iterellipsepart` gives no negative point of. -/
theorem filledellipse_nonneg {b : Bytes} {W H bits : Nat} (h : Valid b W H bits) {x y b₀ a₀ : Int} {color : Int}
    (hnn : ∀ v ∈ iterellipsepart b₀ a₀, 0 ≤ v.1 ∧ 0 ≤ v.2)
    (hc : IsColour bits color) (hok : PenOK W bits x) :
    ∃ b', filledellipse b x y b₀ a₀ color = .ok b' ∧ Paints b b' W H bits (EllipseFill W bits x y b₀ a₀) color.toNat := by
  refine filledellipse_rows h hnn hc fun b hb v hv y' _ => ?_
  have := (hnn v hv).1
  apply C19_horiline_depths hb hc
  unfold PenOK at hok
  unfold RowOK
  omega

/-- C98, filled: `filledellipse` paints exactly the pixels horizontally between points of the ellipse.
Missing: centres more than 19 pixels left of the image, and on 4-bit images beyond the padding on the right, as in C27. -/
theorem C98_filledellipse_partial {b : Bytes} {W H bits : Nat} (h : Valid b W H bits) {x y b₀ a₀ : Int} {color : Int}
    (hb0 : 1 ≤ b₀) (ha0 : a₀ ≠ 0)
    (hc : IsColour bits color) (hok : PenOK W bits x) :
    ∃ b', filledellipse b x y b₀ a₀ color = .ok b' ∧ Paints b b' W H bits (EllipseFill W bits x y b₀ a₀) color.toNat :=
  filledellipse_nonneg h (fun v hv => ⟨((C97_rows hb0 ha0).1 v hv).1, ((C97_rows hb0 ha0).1 v hv).2.1⟩) hc hok

example : (do let b ← newBMP 9 9 24; let b ← filledellipse b 4 4 2 3 9
              pure (← getxybit b 4 2, ← getxybit b 4 4, ← getxybit b 4 1)) = .ok (9, 9, 0) := by decide +kernel
example : (do let b ← newBMP 9 9 24; let b ← ellipse b 4 4 2 3 9
              pure (← getxybit b 4 2, ← getxybit b 4 4, ← getxybit b 4 6)) = .ok (9, 0, 9) := by decide +kernel

end Verif.Props
