import Verif.Props.Overlay
import Verif.Props.SolidsExact

/-! Property C196: colour numbers that do not exist in the image. -/

namespace Verif.Props.Beyond
open Verif Spec Model Verif.Props Verif.Props.Far Verif.Props.Plane Verif.Props.Overlay

variable {b : Bytes} {W H bits : Nat}

theorem foldlM_congr {α : Type} {f g : Bytes → α → Py Bytes} {P : Bytes → Prop} (l : List α) (hfg : ∀ b, P b → ∀ t ∈ l, f b t = g b t)
    (hP : ∀ b, P b → ∀ t ∈ l, ∀ b', g b t = .ok b' → P b') {b : Bytes} (hb : P b) : l.foldlM f b = l.foldlM g b := by
  induction l generalizing b with
  | nil => rfl
  | cons t l ih =>
    rw [List.foldlM_cons, List.foldlM_cons, hfg b hb t (by simp)]
    rcases e : g b t with e' | b'
    · rfl
    · exact ih (fun b hb s hs => hfg b hb s (by simp [hs])) (fun b hb s hs => hP b hb s (by simp [hs])) (hP b hb t (by simp) b' e)

theorem colour_reduce (hd : Depth bits) (c : Int) : IsColour bits (reduce bits c) := by
  unfold IsColour reduce
  rcases hd with rfl | rfl | rfl | rfl
  · simp only [if_true]
    split_ifs <;> norm_num
  all_goals
    norm_num
    omega

theorem and15 (c : Int) : pyAnd ((reduce 4 c : Nat) : Int) 15 = pyAnd c 15 := by
  rw [reduce_4, pyAnd_15, pyAnd_15]
  omega

theorem and255 (c : Int) : pyAnd ((reduce 8 c : Nat) : Int) 255 = pyAnd c 255 := by
  rw [reduce_8, pyAnd_255, pyAnd_255]
  omega

/-- A point on an image with a palette. -/
theorem plot_alike (h : Valid b W H bits) (h24 : bits ≠ 24) (x y c : Int) : plotxybit b x y c = plotxybit b x y (reduce bits c : Nat) := by
  unfold plotxybit
  rw [h.bits_eq]
  simp only [ok_bind]
  rcases h.depth with rfl | rfl | rfl | rfl
  · rw [reduce_1]
    by_cases hc : c > 0
    · simp [hc]
    · simp [hc]
  · simp only [Nat.reduceEqDiff, if_false, if_true, and15]
  · simp only [Nat.reduceEqDiff, if_false, if_true, and255]
  · exact absurd rfl h24

theorem plot_valid (h : Valid b W H bits) {x y : Int} {c : Nat} (hc : IsColour bits c) {b' : Bytes} (e : plotxybit b x y c = .ok b') : Valid b' W H bits := by
  obtain ⟨b1, e1, p⟩ := plot_paints h x y (c := (c : Int)) (by rintro rfl; exact hc)
  rw [e] at e1
  cases e1
  exact p.valid

theorem points_alike (h : Valid b W H bits) (h24 : bits ≠ 24) {α : Type} (l : List α) (f : α → Int × Int) (c : Int) :
    l.foldlM (fun b t => plotxybit b (f t).1 (f t).2 c) b = l.foldlM (fun b t => plotxybit b (f t).1 (f t).2 (reduce bits c : Nat)) b :=
  foldlM_congr (P := fun b => Valid b W H bits) l (fun _ hb _ _ => plot_alike hb h24 _ _ c)
    (fun _ hb _ _ _ e => plot_valid hb (colour_reduce h.depth c) e) h

theorem row_alike (h : Valid b W H bits) (h24 : bits ≠ 24) (y x1 x2 c : Int) : horiline b y x1 x2 c = horiline b y x1 x2 (reduce bits c : Nat) := by
  have e := fun x z => points_alike h h24 (pyRange x z) (fun x => (x, y)) c
  simp only at e
  unfold horiline
  rw [h.bits_eq, getmaxxy_eq h]
  simp only [ok_bind]
  rcases h.depth with rfl | rfl | rfl | rfl
  · simp only [Nat.reduceEqDiff, if_false, if_true, e]
  · simp only [Nat.reduceEqDiff, if_false, if_true, and15]
  · simp only [Nat.reduceEqDiff, if_false, if_true, and255]
  · exact absurd rfl h24

theorem column_alike (h : Valid b W H bits) (h24 : bits ≠ 24) (x y1 y2 c : Int) : vertline b x y1 y2 c = vertline b x y1 y2 (reduce bits c : Nat) := by
  have e := fun u v => points_alike h h24 (pyRange u v) (fun y => (x, y)) c
  simp only at e
  unfold vertline
  rw [h.bits_eq]
  simp only [ok_bind]
  rcases h.depth with rfl | rfl | rfl | rfl
  · simp only [Nat.reduceEqDiff, or_self, not_false_eq_true, if_true, e]
  · simp only [Nat.reduceEqDiff, or_self, not_false_eq_true, if_true, e]
  · have : ((reduce 8 c : Nat) : Int) % 256 = c % 256 := by
      rw [reduce_8]
      omega
    simp only [Nat.reduceEqDiff, if_false, or_true, not_true, this]
  · exact absurd rfl h24

theorem corner_eq (h : Valid b W H bits) : bottomrightcoord b = .ok ((W : Int) - 1, (H : Int) - 1) := by
  unfold bottomrightcoord
  rw [h.getmaxx_eq, h.getmaxy_eq]
  rfl

/-- The line from `p` to `q`, moved into the image, is neither level nor upright. -/
def Slanted (W H : Nat) (p q : Int × Int) : Prop := clampTo p.1 W ≠ clampTo q.1 W ∧ clampTo p.2 H ≠ clampTo q.2 H

theorem reduce_one_le (c : Int) : reduce 1 c ≤ 1 := by
  rw [reduce_1]
  split_ifs <;> omega

theorem segment_alike (h : Valid b W H bits) (h24 : bits ≠ 24) (p q : Int × Int) {c : Int}
    (hs : Slanted W H p q → (bits = 4 → 0 ≤ c) ∧ (bits = 1 → c ≤ 1)) : linevec b p q c = linevec b p q (reduce bits c : Nat) := by
  unfold linevec line
  rw [corner_eq h]
  simp only [ok_bind, setminmax_eq]
  by_cases g1 : clampTo p.1 W = clampTo q.1 W
  · rw [if_pos g1, if_pos g1]
    exact column_alike h h24 _ _ _ c
  rw [if_neg g1, if_neg g1]
  by_cases g2 : clampTo p.2 H = clampTo q.2 H
  · rw [if_pos g2, if_pos g2]
    exact row_alike h h24 _ _ _ c
  · rw [if_neg g2, if_neg g2, h.bits_eq]
    simp only [ok_bind]
    obtain ⟨h4, h1⟩ := hs ⟨g1, g2⟩
    have e := points_alike h h24 (iterline (clampTo p.1 W, clampTo p.2 H) (clampTo q.1 W, clampTo q.2 H)) id c
    simp only [id] at e
    rcases h.depth with rfl | rfl | rfl | rfl
    · have := reduce_one_le c
      have h1 := h1 rfl
      simp only [Nat.reduceEqDiff, if_false, if_true, if_neg (show ¬ c > 1 by omega), if_neg (show ¬ ((reduce 1 c : Nat) : Int) > 1 by omega), e]
    · have h4 := h4 rfl
      have e1 : (if c > 15 then pyAnd c 15 else c) = c % 16 := by
        rw [pyAnd_15]
        split_ifs <;> omega
      have e2 : (if ((reduce 4 c : Nat) : Int) > 15 then pyAnd ((reduce 4 c : Nat) : Int) 15 else ((reduce 4 c : Nat) : Int)) = c % 16 := by
        rw [pyAnd_15, reduce_4]
        split_ifs <;> omega
      simp only [Nat.reduceEqDiff, if_false, if_true, e1, e2]
    · simp only [Nat.reduceEqDiff, if_false, if_true, and255]
    · exact absurd rfl h24

theorem disc_alike (h : Valid b W H bits) (h24 : bits ≠ 24) {x y r : Int} (hs : DiscSafe W H bits r x y) (c : Int) :
    filledcircle b x y r c = filledcircle b x y r (reduce bits c : Nat) := by
  have hc := colour_reduce h.depth c
  have safe : ∀ v ∈ itercirclepartlineedge r, LineSafe W H bits (x - v.1) (x + v.1) (y - v.2) ∧ LineSafe W H bits (x - v.1) (x + v.1) (y + v.2) := by
    intro v hv
    have hh := mem_lineedge.mp hv
    have := halfWidth_bounds hh
    constructor
    · intro py hpy e
      refine hs v.1 py hpy ?_
      rw [e, show y - v.2 - y = -v.2 by ring, abs_neg, abs_of_nonneg this.2.2.1]
      exact hh
    · intro py hpy e
      refine hs v.1 py hpy ?_
      rw [e, show y + v.2 - y = v.2 by ring, abs_of_nonneg this.2.2.1]
      exact hh
  unfold filledcircle
  rw [h.bits_eq, getmaxxy_eq h]
  simp only [ok_bind]
  by_cases h8 : bits < 8
  · rw [if_pos h8, if_pos h8]
    refine foldlM_congr (P := fun b => Valid b W H bits) _ ?_ ?_ h
    · intro b hb v hv
      simp only [mirror]
      rw [row_alike hb h24]
      obtain ⟨b1, e1, p1⟩ := horiline_safe hb hc (safe v hv).1
      rw [e1]
      simp only [ok_bind]
      exact row_alike p1.valid h24 _ _ _ c
    · intro b hb v hv b' e
      simp only [mirror] at e
      obtain ⟨b1, e1, p1⟩ := horiline_safe hb hc (safe v hv).1
      rw [e1] at e
      simp only [ok_bind] at e
      obtain ⟨b2, e2, p2⟩ := horiline_safe p1.valid hc (safe v hv).2
      rw [e2] at e
      cases e
      exact p2.valid
  · obtain rfl : bits = 8 := by
      rcases h.depth with rfl | rfl | rfl | rfl <;> omega
    simp only [Nat.reduceEqDiff, Nat.lt_irrefl, if_false, if_true, and255]

theorem discs_alike (h : Valid b W H bits) (h24 : bits ≠ 24) {pen : Int} (l : List (Int × Int)) (hs : ∀ p ∈ l, DiscSafe W H bits pen p.1 p.2) (c : Int) :
    l.foldlM (fun b p => filledcircle b p.1 p.2 pen c) b = l.foldlM (fun b p => filledcircle b p.1 p.2 pen (reduce bits c : Nat)) b := by
  refine foldlM_congr (P := fun b => Valid b W H bits) l (fun b hb p hp => disc_alike hb h24 (hs p hp) c) ?_ h
  intro b hb p hp b' e
  obtain ⟨b1, e1, p1⟩ := disc_safe hb (colour_reduce h.depth c) (hs p hp)
  rw [e1] at e
  cases e
  exact p1.valid

/-- The figures whose colours are reduced alike: all but slanted segments with negative colours on 4-bit images,
slanted segments with colours over 1 on 1-bit images, and circles on 8-bit images. -/
def Reduced (W H bits : Nat) (c : Int) : Figure → Prop
  | .segment p q => Slanted W H p q → (bits = 4 → 0 ≤ c) ∧ (bits = 1 → c ≤ 1)
  | .ring _ _ _ => bits ≠ 8
  | _ => True

/-- **C196**: on images with a palette, a colour that the image does not have is drawn as its remainder by the number of colours
(on 1-bit images: positive colours are drawn as 1, the others as 0). -/
theorem C196_reduced (h : Valid b W H bits) (h24 : bits ≠ 24) {f : Figure} {c : Int} (hs : Safe W H bits f) (hr : Reduced W H bits c f) :
    draw f c b = draw f (reduce bits c : Nat) b := by
  cases f with
  | point x y => exact plot_alike h h24 x y c
  | row y x1 x2 => exact row_alike h h24 y x1 x2 c
  | column x y1 y2 => exact column_alike h h24 x y1 y2 c
  | segment p q => exact segment_alike h h24 p q hr
  | border x1 y1 x2 y2 =>
    have hc := colour_reduce h.depth c
    have row := fun (b : Bytes) (hb : Valid b W H bits) (u v w : Int) => segment_alike hb h24 (u, w) (v, w) (c := c) (fun g => absurd rfl g.2)
    have col := fun (b : Bytes) (hb : Valid b W H bits) (u v w : Int) => segment_alike hb h24 (u, v) (u, w) (c := c) (fun g => absurd rfl g.1)
    obtain ⟨b1, S1, e1, p1, -⟩ := hline_any h hs.1 hs.2 hc x1 x2 y1
    obtain ⟨b2, e2, p2⟩ := vline_any p1.valid hs.1 hs.2 hc x2 y1 y2
    obtain ⟨b3, S3, e3, p3, -⟩ := hline_any p2.valid hs.1 hs.2 hc x2 x1 y2
    show rectangle b x1 y1 x2 y2 c = rectangle b x1 y1 x2 y2 (reduce bits c : Nat)
    unfold rectangle plotpoly plotlines recvert
    rw [if_pos le_rfl, if_pos le_rfl]
    simp only [List.tail_cons, List.zip_cons_cons, List.zip_nil_right, List.foldlM_cons, List.foldlM_nil, row b h, e1,
      ok_bind, col b1 p1.valid, e2, row b2 p2.valid, e3, pure_eq_ok, List.head?_cons]
    exact col b3 p3.valid _ _ _
  | box x1 y1 x2 y2 =>
    have h8 : bits ≠ 8 := hs
    show filledrect b x1 y1 x2 y2 c = filledrect b x1 y1 x2 y2 (reduce bits c : Nat)
    unfold filledrect
    rw [rect_guard h, rect_guard h, h.bits_eq, sortrec_eq]
    simp only [ok_bind]
    split_ifs with hi hd
    · omega
    · refine foldlM_congr (P := fun b => Valid b W H bits) _ (fun b hb t _ => row_alike hb h24 _ _ _ c) ?_ h
      intro b hb t _ b' e
      have : LineSafe W H bits (min x1 x2) (max x1 x2) t := fun py hpy _ => rowSafe_of_rowOK h.depth (by
        unfold RowOK
        have h0 := h.depth
        unfold Depth at h0
        have : (W : Int) ≤ 2 * rowLen W 4 := by
          unfold rowLen
          omega
        omega) hpy
      obtain ⟨b1, e1, p1⟩ := horiline_safe hb (colour_reduce h.depth c) this
      rw [e1] at e
      cases e
      exact p1.valid
    · rfl
  | ring x y r =>
    have h8 : bits ≠ 8 := hr
    show circle b x y r c = circle b x y r (reduce bits c : Nat)
    unfold circle
    rw [h.bits_eq, getmaxxy_eq h]
    simp only [ok_bind]
    rw [if_neg h24, if_neg h24, if_neg h8, if_neg h8]
    exact points_alike h h24 _ id c
  | disc x y r => exact disc_alike h h24 hs c
  | stroke p q pen =>
    refine discs_alike h h24 _ ?_ c
    intro v hv
    rcases (Far.mem_iterline v).mp hv with ⟨k, k0, k1, rfl⟩ | rfl
    · exact hs.2 k k0 k1
    · exact hs.1
  | tyre x y r pen => exact discs_alike h h24 _ (fun v hv => hs _ _ ((Far.mem_itercircle x y r v.1 v.2).mp hv)) c

/-- C196: what then is painted. -/
theorem C196_painted (h : Valid b W H bits) (h24 : bits ≠ 24) {f : Figure} {c : Int} (hs : Safe W H bits f) (hr : Reduced W H bits c f) :
    ∃ b', draw f c b = .ok b' ∧ Paints b b' W H bits (area W H bits f) (reduce bits c) := by
  obtain ⟨b', e, p⟩ := drawn h hs (colour_reduce h.depth c)
  exact ⟨b', (C196_reduced h h24 hs hr).trans e, by simpa using p⟩

/-! ### Images without a palette -/

/-- The colour needs more than three bytes, or is negative. -/
def TooWide (c : Int) : Prop := c < 0 ∨ 2 ^ 24 ≤ c

theorem red_bad {c : Int} (hc : TooWide c) : (int2RGB c).1 < 0 ∨ 256 ≤ (int2RGB c).1 := by
  unfold TooWide at hc
  unfold int2RGB
  simp only [pyShr_16]
  omega

theorem mk_none (l : List Int) {n : Int} (hn : n ≤ 0) : mkArray (pyRepeat l n) = .ok [] := by
  rw [pyRepeat_neg l hn]
  rfl

theorem mk_bad {c : Int} (hc : TooWide c) {l : List Int} (hl : (int2RGB c).1 ∈ l) {n : Int} (hn : 0 < n) :
    mkArray (pyRepeat l n) = .error .overflowError := by
  refine mkArray_err (v := (int2RGB c).1) ?_ (red_bad hc)
  unfold pyRepeat
  obtain ⟨k, hk⟩ : ∃ k, n.toNat = k + 1 := ⟨n.toNat - 1, by omega⟩
  rw [hk]
  simp [List.replicate_succ, hl]

/-- The columns from `a` to `z` meet the image. -/
def Meets (W : Nat) (a z : Int) : Prop := ∃ px : Nat, px < W ∧ a ≤ px ∧ (px : Int) ≤ z

theorem meets_iff {a z : Int} : Meets W a z ↔ 0 < setmax z ((W : Int) - 1) - setmin a 0 + 1 := by
  rw [setmin_eq, setmax_eq]
  unfold Meets
  constructor
  · rintro ⟨px, h1, h2, h3⟩
    omega
  · intro g
    exact ⟨(max a 0).toNat, by omega, by omega, by omega⟩

theorem either {P : Prop} {_ : Decidable P} {α : Type} {a x y : α} (h : a = if P then x else y) : (P → a = x) ∧ (¬ P → a = y) :=
  ⟨fun g => h.trans (if_pos g), fun g => h.trans (if_neg g)⟩

open Classical in
theorem row_wide (h : Valid b W H 24) {c : Int} (hc : TooWide c) (y x1 x2 : Int) : horiline b y x1 x2 c =
    if (0 ≤ y ∧ y < H) ∧ Meets W (min x1 x2) (max x1 x2) then .error .overflowError else horiline b y x1 x2 0 := by
  unfold horiline
  rw [h.bits_eq, getmaxxy_eq h]
  simp only [ok_bind, swap_min, swap_max, if_true]
  by_cases hy : 0 ≤ y ∧ y < H
  swap
  · rw [if_neg (by rw [isinrange_iff]; exact hy), if_neg (fun g => hy g.1), if_neg (by rw [isinrange_iff]; exact hy)]
  have hin : isinrange y (H : Int) (-1) = true := by rw [isinrange_iff]; exact hy
  simp only [hin, if_true]
  obtain ⟨y0, rfl⟩ := Int.eq_ofNat_of_zero_le hy.1
  rw [BMoffsethd_col h _ (show y0 < H by omega)]
  simp only [ok_bind]
  by_cases hm : Meets W (min x1 x2) (max x1 x2)
  · rw [if_pos ⟨hy, hm⟩, mk_bad hc (by simp) (meets_iff.mp hm)]
    rfl
  · rw [if_neg (fun g => hm g.2), mk_none _ (by rw [meets_iff] at hm; omega), mk_none _ (by rw [meets_iff] at hm; omega)]

open Classical in
theorem column_wide (h : Valid b W H 24) {c : Int} (hc : TooWide c) (x y1 y2 : Int) (hs : min y1 y2 < H) : vertline b x y1 y2 c =
    if (0 ≤ x ∧ x < W) ∧ Meets H (min y1 y2) (max y1 y2) then .error .overflowError else vertline b x y1 y2 0 := by
  obtain ⟨b', e, -⟩ := C20_vertline_partial h (x := x) (y1 := y1) (y2 := y2) (color := c % 2 ^ 24) ⟨by omega, by omega⟩ (.inr (.inr hs))
  have e1 : (int2RGB (c % 2 ^ 24)).2.2 = (int2RGB c).2.2 := by
    unfold int2RGB
    simp only [pyAnd_255]
    omega
  have e2 : (int2RGB (c % 2 ^ 24)).2.1 = (int2RGB c).2.1 := by
    unfold int2RGB
    simp only [pyAnd_255, pyShr_8]
    omega
  unfold vertline at e ⊢
  rw [h.bits_eq, getmaxxy_eq h, h.xchrcnt_eq] at e ⊢
  simp only [ok_bind, swap_min, swap_max, Nat.reduceEqDiff, true_or, not_true, if_false, if_true] at e ⊢
  by_cases hx : 0 ≤ x ∧ x < W
  swap
  · rw [if_neg (by rw [isinrange_iff]; exact hx), if_neg (fun g => hx g.1), if_neg (by rw [isinrange_iff]; exact hx)]
  have hin : isinrange x (W : Int) (-1) = true := by rw [isinrange_iff]; exact hx
  simp only [hin, if_true] at e ⊢
  by_cases hm : Meets H (min y1 y2) (max y1 y2)
  · rw [if_pos ⟨hx, hm⟩, mk_bad hc (l := [(int2RGB c).1]) (by simp) (meets_iff.mp hm)]
    rw [e1, e2] at e
    generalize BMoffsethd b x (setmax (max y1 y2) ((H : Int) - 1)) = o1 at e ⊢
    generalize BMoffsethd b x (setmin (min y1 y2) 0) = o2 at e ⊢
    rcases o1 with o1 | o1
    · cases e
    rcases o2 with o2 | o2
    · cases e
    simp only [ok_bind] at e ⊢
    generalize mkArray (pyRepeat [(int2RGB c).2.2] _) = m1 at e ⊢
    generalize mkArray (pyRepeat [(int2RGB c).2.1] _) = m2 at e ⊢
    rcases m1 with m1 | m1
    · cases e
    simp only [ok_bind] at e ⊢
    generalize setSliceStep b _ _ _ m1 = s1 at e ⊢
    rcases s1 with s1 | s1
    · cases e
    rcases m2 with m2 | m2
    · cases e
    simp only [ok_bind] at e ⊢
    generalize setSliceStep s1 _ _ _ m2 = s2 at e ⊢
    rcases s2 with s2 | s2
    · cases e
    rfl
  · rw [if_neg (fun g => hm g.2)]
    have : setmax (max y1 y2) ((H : Int) - 1) - setmin (min y1 y2) 0 + 1 ≤ 0 := by
      rw [meets_iff] at hm
      omega
    simp only [mk_none _ this]

theorem segment_wide (h : Valid b W H 24) {c : Int} (hc : TooWide c) (hW : 0 < W) (hH : 0 < H) (p q : Int × Int) :
    linevec b p q c = .error .overflowError := by
  have hx : ∀ v : Int, 0 ≤ clampTo v W ∧ clampTo v W < W := fun v => by unfold clampTo; omega
  have hy : ∀ v : Int, 0 ≤ clampTo v H ∧ clampTo v H < H := fun v => by unfold clampTo; omega
  have := hx p.1
  have := hx q.1
  have := hy p.2
  have := hy q.2
  unfold linevec line
  rw [corner_eq h]
  simp only [ok_bind, setminmax_eq]
  by_cases g1 : clampTo p.1 W = clampTo q.1 W
  · rw [if_pos g1, column_wide h hc _ _ _ (by omega), if_pos ⟨hx _, (clampTo p.2 H).toNat, by omega, by omega, by omega⟩]
  rw [if_neg g1]
  by_cases g2 : clampTo p.2 H = clampTo q.2 H
  · rw [if_pos g2, row_wide h hc, if_pos ⟨hy _, (clampTo p.1 W).toNat, by omega, by omega, by omega⟩]
  · rw [if_neg g2, h.bits_eq]
    simp only [ok_bind, if_true]
    rw [((C41_arrays c).2 (by unfold TooWide at hc; omega)).2]
    rfl

theorem edge_head {r : Int} (hr : 0 ≤ r) : ∃ l, itercirclepartlineedge r = (r, 0) :: l := by
  unfold itercirclepartlineedge
  obtain ⟨k, hk⟩ : ∃ k, (r + 1).toNat = k + 1 := ⟨r.toNat, by omega⟩
  rw [hk, circEdgeLoop, if_pos (by omega)]
  simp

open Classical in
theorem disc_wide (h : Valid b W H 24) {c : Int} (hc : TooWide c) (x y r : Int) : filledcircle b x y r c =
    if 0 ≤ r ∧ Meets W (x - r) (x + r) then .error .overflowError else filledcircle b x y r 0 := by
  unfold filledcircle
  rw [h.bits_eq, getmaxxy_eq h]
  simp only [ok_bind, Nat.reduceLT, if_false, if_true]
  by_cases hr : 0 ≤ r
  swap
  · rw [if_neg (fun g => hr g.1), List.eq_nil_iff_forall_not_mem.mpr (fun v (hv : v ∈ itercirclepartlineedge r) => hr (by
      have := halfWidth_bounds (mem_lineedge.mp hv)
      omega))]
    rfl
  by_cases hm : Meets W (x - r) (x + r)
  · rw [if_pos ⟨hr, hm⟩]
    obtain ⟨l, hl⟩ := edge_head hr
    rw [hl, List.foldlM_cons]
    simp only [mirror]
    rw [mk_bad hc (by simp) (meets_iff.mp hm)]
    rfl
  · rw [if_neg (fun g => hm g.2)]
    refine foldlM_congr (P := fun _ => True) _ ?_ (fun _ _ _ _ _ _ => trivial) trivial
    intro b _ v hv
    have := halfWidth_bounds (mem_lineedge.mp hv)
    simp only [mirror]
    have : setmax (x + v.1) ((W : Int) - 1) - setmin (x - v.1) 0 + 1 ≤ 0 := by
      rw [meets_iff, setmin_eq, setmax_eq] at hm
      rw [setmin_eq, setmax_eq]
      omega
    rw [mk_none _ this, mk_none _ this]

theorem foldlM_fail {α : Type} {f g : Bytes → α → Py Bytes} {P : Bytes → Prop} {Q : α → Prop} {e : PyErr} (l : List α)
    (hfg : ∀ b, P b → ∀ t ∈ l, (Q t → f b t = .error e) ∧ (¬ Q t → f b t = g b t))
    (hP : ∀ b, P b → ∀ t ∈ l, ∃ b', g b t = .ok b' ∧ P b') {b : Bytes} (hb : P b) :
    ((∃ t ∈ l, Q t) → l.foldlM f b = .error e) ∧ ((¬ ∃ t ∈ l, Q t) → l.foldlM f b = l.foldlM g b) := by
  induction l generalizing b with
  | nil => simp
  | cons t l ih =>
    rw [List.foldlM_cons, List.foldlM_cons]
    by_cases hq : Q t
    · rw [(hfg b hb t (by simp)).1 hq]
      exact ⟨fun _ => rfl, fun g => absurd ⟨t, by simp, hq⟩ g⟩
    · rw [(hfg b hb t (by simp)).2 hq]
      obtain ⟨b', e1, h1⟩ := hP b hb t (by simp)
      rw [e1]
      simp only [ok_bind, List.exists_mem_cons_iff, hq, false_or]
      exact ih (fun b hb s hs => hfg b hb s (by simp [hs])) (fun b hb s hs => hP b hb s (by simp [hs])) h1

theorem discs_wide (h : Valid b W H 24) {c : Int} (hc : TooWide c) {pen : Int} (l : List (Int × Int)) (hs : ∀ p ∈ l, DiscSafe W H 24 pen p.1 p.2) :
    ((∃ v ∈ l, 0 ≤ pen ∧ Meets W (v.1 - pen) (v.1 + pen)) → l.foldlM (fun b p => filledcircle b p.1 p.2 pen c) b = .error .overflowError) ∧
    ((¬ ∃ v ∈ l, 0 ≤ pen ∧ Meets W (v.1 - pen) (v.1 + pen)) →
      l.foldlM (fun b p => filledcircle b p.1 p.2 pen c) b = l.foldlM (fun b p => filledcircle b p.1 p.2 pen 0) b) := by
  refine foldlM_fail (P := fun b => Valid b W H 24) l (fun b hb p _ => either (disc_wide hb hc p.1 p.2 pen)) ?_ h
  intro b hb p hp
  obtain ⟨b1, e1, p1⟩ := disc_safe hb (color := 0) ⟨le_rfl, by norm_num⟩ (hs p hp)
  exact ⟨b1, e1, p1.valid⟩

/-- The figures that cannot be drawn on a 24-bit image with a colour that needs more than three bytes. -/
def Fails (W H : Nat) : Figure → Prop
  | .point x y => 0 ≤ x ∧ x < W ∧ 0 ≤ y ∧ y < H
  | .row y x1 x2 => (0 ≤ y ∧ y < H) ∧ Meets W (min x1 x2) (max x1 x2)
  | .column x y1 y2 => (0 ≤ x ∧ x < W) ∧ Meets H (min y1 y2) (max y1 y2)
  | .segment _ _ => True
  | .border _ _ _ _ => True
  | .box x1 y1 x2 y2 => InImage W H x1 y1 x2 y2
  | .ring _ _ _ => True
  | .disc x _ r => 0 ≤ r ∧ Meets W (x - r) (x + r)
  | .stroke p q pen => ∃ v : Int × Int, ((∃ k, 0 ≤ k ∧ k ≤ max |q.1 - p.1| |q.2 - p.2| ∧ rasterPt p.1 p.2 q.1 q.2 k = v) ∨ v = q) ∧
      0 ≤ pen ∧ Meets W (v.1 - pen) (v.1 + pen)
  | .tyre x y r pen => ∃ u v, OnCircle r |u - x| |v - y| ∧ 0 ≤ pen ∧ Meets W (u - pen) (u + pen)

/-- **C196** on 24-bit images: a colour that needs more than three bytes, or is negative, raises an error if the figure `Fails`;
else the call does what it does with colour 0. -/
theorem C196_truecolour (h : Valid b W H 24) {f : Figure} {c : Int} (hc : TooWide c) (hs : Safe W H 24 f) :
    (Fails W H f → draw f c b = .error .overflowError) ∧ (¬ Fails W H f → draw f c b = draw f 0 b) := by
  classical
  cases f with
  | point x y =>
    apply either
    show plotxybit b x y c = if 0 ≤ x ∧ x < W ∧ 0 ≤ y ∧ y < H then .error .overflowError else plotxybit b x y 0
    unfold plotxybit
    rw [h.bits_eq, h.inb_eq]
    by_cases hi : 0 ≤ x ∧ x < W ∧ 0 ≤ y ∧ y < H
    · simp only [ok_bind, hi, and_self, decide_true, Bool.true_eq_false, if_false, if_true]
      have hr : rowoff b y 24 = _ := h.rowoff_eq y
      rw [hr, mkArray_err (v := (int2RGB c).1) (by simp [int2RGB]) (red_bad hc)]
      rfl
    · simp [hi, ok_bind]
  | row y x1 x2 => exact either (row_wide h hc y x1 x2)
  | column x y1 y2 => exact either (column_wide h hc x y1 y2 (by have : _ ∨ _ := hs; omega))
  | segment p q => exact ⟨fun _ => segment_wide h hc hs.1 hs.2.1 p q, fun g => absurd trivial g⟩
  | border x1 y1 x2 y2 =>
    refine ⟨fun _ => ?_, fun g => absurd trivial g⟩
    show rectangle b x1 y1 x2 y2 c = _
    unfold rectangle plotpoly plotlines recvert
    rw [if_pos le_rfl]
    simp only [List.tail_cons, List.zip_cons_cons, List.foldlM_cons, segment_wide h hc hs.1 hs.2]
    rfl
  | box x1 y1 x2 y2 =>
    apply either
    show filledrect b x1 y1 x2 y2 c = if (0 ≤ x1 ∧ x1 < W ∧ 0 ≤ y1 ∧ y1 < H) ∧ (0 ≤ x2 ∧ x2 < W ∧ 0 ≤ y2 ∧ y2 < H)
      then .error .overflowError else filledrect b x1 y1 x2 y2 0
    unfold filledrect
    rw [rect_guard h, rect_guard h, h.bits_eq, sortrec_eq, h.xchrcnt_eq]
    simp only [ok_bind, or_true, not_true, if_false, if_true]
    by_cases hi : (0 ≤ x1 ∧ x1 < W ∧ 0 ≤ y1 ∧ y1 < H) ∧ (0 ≤ x2 ∧ x2 < W ∧ 0 ≤ y2 ∧ y2 < H)
    · rw [if_pos hi, if_pos hi, mk_bad hc (l := [_, _, _]) (by simp) (by omega)]
      rfl
    · rw [if_neg hi, if_neg hi, if_neg hi]
  | ring x y r =>
    refine ⟨fun _ => ?_, fun g => absurd trivial g⟩
    show circle b x y r c = _
    unfold circle
    rw [h.bits_eq, getmaxxy_eq h]
    simp only [ok_bind, if_true]
    rw [((C41_arrays c).2 (by unfold TooWide at hc; omega)).2]
    rfl
  | disc x y r => exact either (disc_wide h hc x y r)
  | stroke p q pen =>
    have e := discs_wide h hc (pen := pen) (iterline p q) (by
      intro v hv
      rcases (Far.mem_iterline v).mp hv with ⟨k, k0, k1, rfl⟩ | rfl
      · exact hs.2 k k0 k1
      · exact hs.1)
    simp only [Far.mem_iterline (x1 := p.1) (y1 := p.2) (x2 := q.1) (y2 := q.2)] at e
    exact e
  | tyre x y r pen =>
    have e := discs_wide h hc (pen := pen) (itercircle x y r) (fun v hv => hs _ _ ((Far.mem_itercircle x y r v.1 v.2).mp hv))
    simp only [Prod.exists, Far.mem_itercircle] at e
    exact e

theorem mark_meets {x y r : Int} {px py : Nat} (hx : px < W) (g : Mark W 24 x y r px py) : 0 ≤ r ∧ Meets W (x - r) (x + r) := by
  rw [mark_of_ne (by norm_num)] at g
  obtain ⟨dx, g1, g2⟩ := g
  have := C25_circle_accuracy _ _ _ ((C25_circle_points _ _ _).mpr g1)
  exact ⟨by omega, px, hx, by have := abs_le.mp g2; omega, by have := abs_le.mp g2; omega⟩

/-- C196: a call that does not fail leaves the picture as it is. -/
theorem C196_untouched (h : Valid b W H 24) {f : Figure} {c : Int} (hc : TooWide c) (hs : Safe W H 24 f) (hf : ¬ Fails W H f) :
    ∃ b', draw f c b = .ok b' ∧ Valid b' W H 24 ∧ SamePicture W H 24 b b' := by
  obtain ⟨b', e, p⟩ := drawn h hs (color := 0) ⟨le_rfl, by norm_num⟩
  refine ⟨b', ((C196_truecolour h hc hs).2 hf).trans e, p.valid, p.header, fun px py hx hy => p.outside px py hx hy ?_⟩
  intro g
  apply hf
  cases f with
  | point x y =>
    obtain ⟨g1, g2⟩ := g
    exact ⟨by omega, by omega, by omega, by omega⟩
  | row y x1 x2 =>
    have g : HSeg y x1 x2 px py := g
    exact ⟨by unfold HSeg at g; omega, px, hx, g.2.1, g.2.2⟩
  | column x y1 y2 =>
    have g : VSeg x y1 y2 px py := g
    exact ⟨by unfold VSeg at g; omega, py, hy, g.2.1, g.2.2⟩
  | segment p q => trivial
  | border x1 y1 x2 y2 => trivial
  | box x1 y1 x2 y2 => exact g.1
  | ring x y r => trivial
  | disc x y r => exact mark_meets hx g
  | stroke p q pen =>
    rcases g with ⟨k, k0, k1, g⟩ | g
    · exact ⟨_, .inl ⟨k, k0, k1, rfl⟩, mark_meets hx g⟩
    · exact ⟨_, .inr rfl, mark_meets hx g⟩
  | tyre x y r pen =>
    obtain ⟨u, v, g1, g2⟩ := g
    exact ⟨u, v, g1, mark_meets hx g2⟩

/-! ### The figures that do otherwise -/

/-- C196: on 1-bit images slanted lines have the remainder by 2 as colour, so that even colours are drawn as 0. -/
theorem C196_slanted_one (h : Valid b W H 1) {p q : Int × Int} (hs : Slanted W H p q) {c : Int} (hc : 1 < c) :
    linevec b p q c = linevec b p q (c % 2) := by
  unfold linevec line
  rw [corner_eq h]
  simp only [ok_bind, setminmax_eq]
  rw [if_neg hs.1, if_neg hs.2, if_neg hs.1, if_neg hs.2, h.bits_eq]
  simp only [ok_bind, Nat.reduceEqDiff, if_false, if_true]
  rw [if_pos hc, if_neg (by omega), pyAnd_1]

/-- C196: on 8-bit images a circle with a colour that the image does not have raises an error if a point of it is in the image. -/
theorem C196_ring (h : Valid b W H 8) {x y r c : Int} (hc : c < 0 ∨ 256 ≤ c) :
    ((∃ px py, px < W ∧ py < H ∧ CircleSet x y r px py) → circle b x y r c = .error .overflowError) ∧
    ((¬ ∃ px py, px < W ∧ py < H ∧ CircleSet x y r px py) → circle b x y r c = .ok b) := by
  have bad : ∀ b, Valid b W H 8 → ∀ px py : Int, 0 ≤ px → px < W → 0 ≤ py → py < H → (do
      let s ← BMoffsethd b px py
      setItem b s c : Py Bytes) = .error .overflowError := by
    intro b hb px py h1 h2 h3 h4
    obtain ⟨x0, rfl⟩ := Int.eq_ofNat_of_zero_le h1
    obtain ⟨y0, rfl⟩ := Int.eq_ofNat_of_zero_le h3
    rw [hb.BMoffsethd_eq x0 y0 (by omega)]
    have ha := addr_lt hb (show x0 < W by omega) (show y0 < H by omega)
    simp only [ok_bind]
    unfold setItem
    rw [resolveIdx_ok rfl (by rw [if_neg (by norm_num)] at ha; omega)]
    simp only
    rw [if_neg (by omega)]
  have mem : (∃ px py, px < W ∧ py < H ∧ CircleSet x y r px py) ↔ ∃ t ∈ itercircle x y r, 0 ≤ t.1 ∧ t.1 < W ∧ 0 ≤ t.2 ∧ t.2 < H := by
    constructor
    · rintro ⟨px, py, h1, h2, g⟩
      exact ⟨_, (Props.mem_itercircle x y r px py).mpr g, by simp, by simpa using h1, by simp, by simpa using h2⟩
    · rintro ⟨⟨u, v⟩, g, h1, h2, h3, h4⟩
      simp only at h1 h2 h3 h4
      obtain ⟨x0, rfl⟩ := Int.eq_ofNat_of_zero_le h1
      obtain ⟨y0, rfl⟩ := Int.eq_ofNat_of_zero_le h3
      exact ⟨x0, y0, by omega, by omega, (Props.mem_itercircle x y r x0 y0).mp g⟩
  unfold circle
  rw [getmaxxy_eq h, h.bits_eq]
  simp only [ok_bind, Nat.reduceEqDiff, if_false, if_true]
  by_cases hin : entirecircleisinboundary x y (-1) W (-1) H r = true
  · rw [if_neg (by simp [hin])]
    rcases hl : itercirclepart r with - | ⟨p, l⟩
    · refine ⟨fun g => ?_, fun _ => rfl⟩
      obtain ⟨t, g, -⟩ := mem.mp g
      unfold itercircle at g
      rw [hl] at g
      simp at g
    · have hp : p ∈ itercirclepart r := by simp [hl]
      obtain ⟨n1, n2, n3, n4⟩ := part_nonneg hp
      unfold entirecircleisinboundary at hin
      simp only [Bool.and_eq_true, isinrange_iff] at hin
      refine ⟨fun _ => ?_, fun g => absurd (mem.mpr ⟨(x - p.1, y - p.2), ?_, ?_⟩) g⟩
      · rw [List.foldlM_cons]
        simp only [mirror]
        have := bad b h (x - p.1) (y - p.2) (by omega) (by omega) (by omega) (by omega)
        rcases e : BMoffsethd b (x - p.1) (y - p.2) with e1 | e1
        · rw [e] at this
          cases this
          rfl
        · rw [e] at this
          simp only [ok_bind] at this ⊢
          rw [this]
          rfl
      · unfold itercircle
        rw [List.mem_flatMap]
        refine ⟨p, hp, (mem_quad x y p n1 n2 _ _).mpr ⟨?_, ?_⟩⟩
        · rw [show x - p.1 - x = -p.1 by ring, abs_neg, abs_of_nonneg n1]
        · rw [show y - p.2 - y = -p.2 by ring, abs_neg, abs_of_nonneg n2]
      · simp only
        omega
  · rw [if_pos (by simp [hin]), mem]
    have := foldlM_fail (P := fun b => Valid b W H 8) (Q := fun t : Int × Int => 0 ≤ t.1 ∧ t.1 < W ∧ 0 ≤ t.2 ∧ t.2 < H) (e := .overflowError)
      (f := fun bmp p => do
        let inb ← isinBMPrectbnd bmp p.1 p.2
        if inb = true then do
          let s ← BMoffsethd bmp p.1 p.2
          setItem bmp s c
        else pure bmp) (g := fun b _ => .ok b) (itercircle x y r) (by
      intro b hb t _
      simp only [hb.inb_eq, ok_bind, decide_eq_true_eq]
      constructor
      · intro g
        rw [if_pos g]
        exact bad b hb _ _ g.1 g.2.1 g.2.2.1 g.2.2.2
      · intro g
        rw [if_neg g]
        rfl) (fun b hb _ _ => ⟨b, rfl, hb⟩) h
    refine ⟨this.1, fun g => (this.2 g).trans ?_⟩
    generalize itercircle x y r = l
    induction l with
    | nil => rfl
    | cons t l ih => exact ih

/-- C196: the figures do not agree. On a 1-bit image colour 2 is 1 for rows, 0 for slanted lines; on a 4-bit image colour -3 is 13 for
borders, an error for slanted lines; on an 8-bit image colour 257 is 1 for discs, an error for circles. -/
theorem C196_wrong :
    (do let b ← newBMP 8 3 1; let b ← draw (.row 2 0 7) 2 b; getxybit b 0 2) = .ok 1 ∧
    (do let b ← newBMP 8 3 1; let b ← draw (.segment (0, 2) (7, 0)) 2 b; getxybit b 0 2) = .ok 0 ∧
    (do let b ← newBMP 8 3 4; let b ← draw (.border 1 0 6 2) (-3) b; getxybit b 1 1) = .ok 13 ∧
    (do let b ← newBMP 8 3 4; let b ← draw (.segment (1, 2) (7, 0)) (-3) b; getxybit b 1 2) = .error .overflowError ∧
    (do let b ← draw (.disc 1 1 1) 257 sample8; getxybit b 1 0) = .ok 1 ∧
    (do let b ← draw (.ring 1 1 1) 257 sample8; getxybit b 1 0) = .error .overflowError := by
  refine ⟨?_, ?_, ?_, ?_, ?_, ?_⟩ <;> decide +kernel

/-- C196: on 24-bit images discs above the image and circles beside it raise an error though they have no pixel in the image; points
and discs beside the image do not. -/
theorem C196_outside_wrong :
    (do let b ← newBMP 3 2 24; let b ← draw (.disc 1 50 1) (-1) b; getxybit b 1 1) = .error .overflowError ∧
    (do let b ← newBMP 3 2 24; let b ← draw (.ring 100 50 1) (-1) b; getxybit b 1 1) = .error .overflowError ∧
    (do let b ← newBMP 3 2 24; let b ← draw (.disc 100 1 1) (-1) b; getxybit b 1 1) = .ok 0 ∧
    (do let b ← newBMP 3 2 24; let b ← draw (.point 1 50) (-1) b; getxybit b 1 1) = .ok 0 := by
  refine ⟨?_, ?_, ?_, ?_⟩ <;> decide +kernel

example : Reduced 8 3 4 20 (.segment (1, 2) (7, 0)) ∧ Safe 8 3 4 (.border 1 0 6 2) := ⟨fun _ => ⟨by norm_num, by norm_num⟩, by norm_num, by norm_num⟩

example : (do let b ← newBMP 8 3 4; let b ← draw (.segment (1, 2) (7, 0)) 20 b; pure (← getxybit b 1 2, ← getxybit b 7 0, ← getxybit b 0 0)) =
    .ok (4, 4, 0) := by decide +kernel

example : Fails 3 2 (.disc 1 50 1) ∧ ¬ Fails 3 2 (.disc 100 1 1) := by
  refine ⟨⟨by norm_num, 1, by norm_num⟩, ?_⟩
  rintro ⟨-, px, h1, h2, h3⟩
  omega

end Verif.Props.Beyond
