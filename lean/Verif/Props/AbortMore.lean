import Verif.Model.AbortMore
import Verif.Props.Abort
import Verif.Props.Ellipse
import Verif.Props.Thick
/-! Property C200 for ellipses, thick pens, grids and lists of lines. -/

namespace Verif.Props.Abort
open Verif Spec Model Model.Run Verif.Props Verif.Props.Beyond Verif.Props.Far Verif.Props.Overlay

variable {b b' : Bytes} {W H bits : Nat}

theorem C200_ellipse (x y b₀ a₀ c : Int) (b : Bytes) : outcome (ellipseR x y b₀ a₀ c) b = ellipse b x y b₀ a₀ c := by
  unfold ellipseR ellipse
  simp only [outcome_look, outcome_ite, outcome_assign, outcome_each, outcome_pure, C200_plotxybit]
  rfl

theorem C200_roundpen (p : Int × Int) (r c : Int) (b : Bytes) : outcome (roundpenR p r c) b = roundpen b p r c := by
  unfold roundpenR roundpen
  rw [outcome_ite, C200_plotxybit, C200_filledcircle]

theorem C200_plotxypointlist (l : List (Int × Int)) (r c : Int) (b : Bytes) :
    outcome (plotxypointlistR l r c) b = plotxypointlist b l r c := by
  unfold plotxypointlistR plotxypointlist
  rw [outcome_each]
  simp only [C200_roundpen]

theorem C200_thickroundline (p q : Int × Int) (r c : Int) (b : Bytes) :
    outcome (thickroundlineR p q r c) b = thickroundline b p q r c := by
  unfold thickroundlineR thickroundline
  rw [outcome_each]
  simp only [C200_filledcircle]

theorem C200_thickcircle (x y r pen c : Int) (b : Bytes) : outcome (thickcircleR x y r pen c) b = thickcircle b x y r pen c := by
  unfold thickcircleR thickcircle
  rw [outcome_each]
  simp only [C200_filledcircle]

theorem C200_xygrid (x1 y1 x2 y2 : Int) (st : Int × Int) (c : Int) (b : Bytes) :
    outcome (xygridR x1 y1 x2 y2 st c) b = xygrid b x1 y1 x2 y2 st c := by
  unfold xygridR xygrid entirerectinboundary
  simp only [outcome_look, outcome_ite, outcome_each, outcome_pure, outcome_seq, C200_vertline]
  refine bind_congr fun i => ?_
  have key : ∀ (P : Prop) [Decidable P] (u v : Py Bool) (f : Bool → Py Bytes),
      (if P then u >>= f else v >>= f) = (if P then u else v) >>= f := by intro P _ u v f; split_ifs <;> rfl
  rw [key]
  refine bind_congr fun j => ?_
  by_cases hj : ¬ (j = true)
  · rw [if_pos hj, if_pos hj]; rfl
  rw [if_neg hj, if_neg hj]
  refine bind_congr fun xs => bind_congr fun b' => ?_
  rw [outcome_look]
  refine bind_congr fun ys => ?_
  rw [outcome_each]
  simp only [C200_horiline]

theorem C200_vertlinevert (l : List (Int × Int)) (n adj c : Int) (b : Bytes) :
    outcome (vertlinevertR l n adj c) b = vertlinevert b l n adj c := by
  unfold vertlinevertR vertlinevert
  rw [outcome_each]
  simp only [C200_vertline]

theorem C200_horilinevert (l : List (Int × Int)) (n adj c : Int) (b : Bytes) :
    outcome (horilinevertR l n adj c) b = horilinevert b l n adj c := by
  unfold horilinevertR horilinevert
  rw [outcome_each]
  simp only [C200_horiline]

theorem C200_filledparallelogram (p q r : Int × Int) (c : Int) (b : Bytes) :
    outcome (filledparallelogramR p q r c) b = filledparallelogram b p q r c := by
  unfold filledparallelogramR filledparallelogram
  rw [outcome_each]
  simp only [C200_line]
  rfl

/-- C200: an ellipse that raises an exception leaves the image as it is: in every depth, for every number that is no colour of
the image, and for the colours of the image if the half axes are at least 1 and the ellipse is in the image, if the code takes it
to be there. -/
theorem C200_ellipse_safe (h : Valid b W H bits) {x y b₀ a₀ c : Int}
    (hok : (IsColour bits c ∨ bits = 1 ∨ bits = 4) → 1 ≤ b₀ ∧ a₀ ≠ 0 ∧ (bits = 1 ∨ bits = 4 ∨
      ¬ ((0 ≤ x - b₀ ∧ x - b₀ < W ∧ 0 ≤ x + b₀ ∧ x + b₀ < W) ∧ (0 ≤ y - a₀ ∧ y - a₀ < H ∧ 0 ≤ y + a₀ ∧ y + a₀ < H)) ∨
      ∀ p ∈ iterellipsepart b₀ a₀, 0 ≤ x - p.1 ∧ x + p.1 < W ∧ 0 ≤ y - p.2 ∧ y + p.2 < H)) :
    Unharmed (ellipseR x y b₀ a₀ c) b := by
  by_cases hc : IsColour bits c
  · obtain ⟨h1, h2, h3⟩ := hok (.inl hc)
    obtain ⟨b', e, -⟩ := C98_ellipse_partial h h1 h2 hc h3
    exact unharmed_ok (by rw [C200_ellipse, e])
  by_cases hb : bits = 1 ∨ bits = 4
  · obtain ⟨h1, h2, h3⟩ := hok (.inr hb)
    obtain ⟨b', e, -⟩ := C98_ellipse_partial h h1 h2 (colour_reduce h.depth c) h3
    refine unharmed_ok (b' := b') ?_
    rw [C200_ellipse, ← e]
    unfold ellipse
    rw [h.bits_eq, getmaxxy_eq h]
    simp only [ok_bind]
    rw [if_neg (by omega), if_neg (by omega), if_neg (by omega), if_neg (by omega)]
    exact points_alike h (by omega) _ id c
  unfold ellipseR
  refine unharmed_look fun m _ => unharmed_look fun n hn => ?_
  rw [h.bits_eq] at hn
  cases hn
  have hd := h.depth
  unfold Depth at hd
  by_cases h24 : bits = 24
  · rw [if_pos h24]
    refine unharmed_error (run_look_error (e := .overflowError) ?_)
    subst h24
    unfold int2BGRarr
    unfold IsColour at hc
    exact mkArray_err (v := (int2RGB c).1) (by simp [int2RGB]) (red_bad (by unfold TooWide; omega))
  rw [if_neg h24, if_pos (by omega)]
  have hbits : bits = 8 := by omega
  subst hbits
  have hc' : c < 0 ∨ 256 ≤ c := by unfold IsColour at hc; norm_num at hc; omega
  refine unharmed_each fun p _ => ?_
  have key : ∀ p : Int × Int, ∃ e, (do
      let s ← look fun bmp => BMoffsethd bmp p.1 p.2
      assign fun bmp => setItem bmp s c : Run Unit) b = (.error e, b) := by
    intro p
    rcases hs : BMoffsethd b p.1 p.2 with e | s
    · exact ⟨e, run_look_error hs⟩
    rw [run_look hs]
    obtain ⟨e, he⟩ := setItem_bad b s hc'
    exact ⟨e, run_assign_error he⟩
  by_cases hd : (!entireellipseisinboundary x y (-1) m.1 (-1) m.2 b₀ a₀) = true
  · rw [if_pos hd]
    rcases hi : isinBMPrectbnd b p.1 p.2 with e | i
    · exact .inr ⟨e, run_look_error hi⟩
    rw [run_look hi]
    rcases i
    · exact .inl rfl
    rw [if_pos rfl]
    exact .inr (key p)
  · rw [if_neg hd]
    exact .inr (key p)

/-! ### Pens -/

/-- If the program raises an exception then a picture like the one before is left. -/
def Unseen (W H bits : Nat) (r : Run Unit) (b : Bytes) : Prop :=
  ∀ e, (r b).1 = .error e → Valid (r b).2 W H bits ∧ SamePicture W H bits b (r b).2

theorem same_refl (b : Bytes) : SamePicture W H bits b b := ⟨⟨rfl, fun _ _ => rfl⟩, fun _ _ _ _ => rfl⟩

theorem same_trans {a b c : Bytes} (h : SamePicture W H bits a b) (g : SamePicture W H bits b c) : SamePicture W H bits a c :=
  ⟨⟨g.1.1.trans h.1.1, fun i hi => (g.1.2 i hi).trans (h.1.2 i hi)⟩, fun x y hx hy => (g.2 x y hx hy).trans (h.2 x y hx hy)⟩

theorem unseen_of_unharmed {r : Run Unit} (h : Valid b W H bits) (hr : Unharmed r b) : Unseen W H bits r b := by
  intro e he
  rw [hr e he]
  exact ⟨h, same_refl b⟩

theorem unseen_each {α : Type} {f : α → Run Unit} {l : List α} (h : Valid b W H bits)
    (hf : ∀ b, Valid b W H bits → ∀ a ∈ l, (∃ b', f a b = (.ok (), b') ∧ Valid b' W H bits ∧ SamePicture W H bits b b') ∨
      ∃ e, f a b = (.error e, b)) : Unseen W H bits (each f l) b := by
  induction l generalizing b with
  | nil => intro e he; cases he
  | cons a l ih =>
    intro e he
    rcases hf b h a (by simp) with ⟨b1, e1, v1, s1⟩ | ⟨e1, e1'⟩
    · have k : each f (a :: l) b = each f l b1 := run_seq e1
      rw [k] at he ⊢
      obtain ⟨v2, s2⟩ := ih v1 (fun b hb c hc => hf b hb c (by simp [hc])) e he
      exact ⟨v2, same_trans s1 s2⟩
    · have k : each f (a :: l) b = (.error e1, b) := run_seq_error e1'
      rw [k]
      exact ⟨h, same_refl b⟩

theorem disc_step (h : Valid b W H 24) (hW : 0 < W) {x y r c : Int} (hc : TooWide c) (hs : DiscSafe W H 24 r x y) :
    (∃ b', filledcircleR x y r c b = (.ok (), b') ∧ Valid b' W H 24 ∧ SamePicture W H 24 b b') ∨
      ∃ e, filledcircleR x y r c b = (.error e, b) := by
  rcases hr : filledcircleR x y r c b with ⟨e | u, b1⟩
  · have := C200_disc_wide h hW (x := x) (y := y) (r := r) hc e (by rw [hr])
    rw [hr] at this
    exact .inr ⟨e, by rw [show b1 = b from this]⟩
  · refine .inl ⟨b1, rfl, ?_⟩
    have e : filledcircle b x y r c = .ok b1 := by
      rw [← C200_filledcircle]
      unfold outcome
      rw [hr]
      rfl
    have hf : ¬ Fails W H (.disc x y r) := by
      intro g
      have := (C196_truecolour h (f := .disc x y r) hc hs).1 g
      rw [show draw (.disc x y r) c b = .ok b1 from e] at this
      cases this
    obtain ⟨b2, e2, v, s⟩ := C196_untouched h (f := .disc x y r) hc hs hf
    rw [show draw (.disc x y r) c b = .ok b1 from e] at e2
    cases e2
    exact ⟨v, s⟩

/-- C200: a thick line in a number that is no colour of a 24-bit image leaves the picture as it is if it raises an exception. -/
theorem C200_stroke_wide (h : Valid b W H 24) (hW : 0 < W) {p q : Int × Int} {pen c : Int} (hc : TooWide c)
    (hs : ∀ v ∈ iterline p q, DiscSafe W H 24 pen v.1 v.2) : Unseen W H 24 (thickroundlineR p q pen c) b :=
  unseen_each h fun _ hb v hv => disc_step hb hW hc (hs v hv)

/-- C200: a thick circle in a number that is no colour of a 24-bit image leaves the picture as it is if it raises an exception. -/
theorem C200_tyre_wide (h : Valid b W H 24) (hW : 0 < W) {x y r pen c : Int} (hc : TooWide c)
    (hs : ∀ v ∈ itercircle x y r, DiscSafe W H 24 pen v.1 v.2) : Unseen W H 24 (thickcircleR x y r pen c) b :=
  unseen_each h fun _ hb v hv => disc_step hb hW hc (hs v hv)

/-- C200: points drawn with a pen in a number that is no colour of a 24-bit image leave the picture as it is if they raise an
exception. -/
theorem C200_points_wide (h : Valid b W H 24) (hW : 0 < W) {l : List (Int × Int)} {pen c : Int} (hc : TooWide c)
    (hs : 1 < pen → ∀ v ∈ l, DiscSafe W H 24 pen v.1 v.2) : Unseen W H 24 (plotxypointlistR l pen c) b := by
  refine unseen_each h fun b hb v hv => ?_
  unfold roundpenR
  by_cases hp : pen ≤ 1
  swap
  · rw [if_neg hp]
    exact disc_step hb hW hc (hs (by omega) v hv)
  rw [if_pos hp]
  by_cases hf : Fails W H (.point v.1 v.2)
  · exact .inr ⟨_, run_assign_error ((C196_truecolour hb (f := .point v.1 v.2) hc trivial).1 hf)⟩
  · obtain ⟨b2, e2, g⟩ := C196_untouched hb (f := .point v.1 v.2) hc trivial hf
    exact .inl ⟨b2, run_assign e2, g⟩

/-! ### Lists of lines -/

/-- C200: the rows before the first row that raises an exception stay drawn. -/
theorem C200_horilinevert_left {v w : List (Int × Int)} {p : Int × Int} {n adj c : Int} {e : PyErr} {b1 : Bytes}
    (h : Valid b1 W H bits) (h1 : horilinevert b v n adj c = .ok b1) (h2 : horiline b1 p.2 p.1 (p.1 + n + adj) c = .error e) :
    horilinevertR (v ++ p :: w) n adj c b = (.error e, b1) := by
  refine run_each (b' := b1) (by rw [← h1, ← C200_horilinevert]; rfl) ?_
  have k := run_error (r := horilineR p.2 p.1 (p.1 + n + adj) c) (b := b1) (e := e) (by rw [C200_horiline, h2])
  exact Prod.ext k (C200_horiline_safe h _ _ _ _ e k)

/-- C200: vertical lines in a number that is no colour of a 24-bit image: the first one is half drawn. -/
theorem C200_vertlinevert_left (h : Valid b W H 24) {w : List (Int × Int)} {p : Int × Int} {n adj c : Int} (hc : TooWide c)
    (hx : 0 ≤ p.1 ∧ p.1 < W) (hm : Meets H (min p.2 (p.2 + n + adj)) (max p.2 (p.2 + n + adj))) :
    ∃ b', vertlinevertR (p :: w) n adj c b = (.error .overflowError, b') ∧ HalfColumn W H b p.1 p.2 (p.2 + n + adj) c b' := by
  obtain ⟨b', e, g⟩ := C200_vertline_left h hc hx hm
  exact ⟨b', run_seq_error e, g⟩

/-! ### Grids -/

theorem grid_guard (h : Valid b W H bits) {x1 y1 x2 y2 : Int} (hi : InImage W H x1 y1 x2 y2) (st : Int × Int) (c : Int) :
    xygridR x1 y1 x2 y2 st c b = (do
      let xs ← look fun _ => pyRange3 (min x1 x2) (max x1 x2) st.1
      each (fun x => vertlineR x (min y1 y2) (max y1 y2) c) xs
      let ys ← look fun _ => pyRange3 (min y1 y2) (max y1 y2) st.2
      each (fun y => horilineR y (min x1 x2) (max x1 x2) c) ys : Run Unit) b := by
  unfold InImage at hi
  unfold xygridR
  have g1 : isinBMPrectbnd b x1 y1 = .ok true := by
    rw [h.inb_eq, decide_eq_true (by omega)]
  have g2 : isinBMPrectbnd b x2 y2 = .ok true := by
    rw [h.inb_eq, decide_eq_true (by omega)]
  rw [run_look g1, run_look (a := true) (by rw [if_pos rfl]; exact g2), if_neg (by simp), sortrec_eq]

/-- C200: a horizontal step of 0 raises `ValueError` and leaves the image as it is. -/
theorem C200_grid_zero_x (h : Valid b W H bits) {x1 y1 x2 y2 : Int} (hi : InImage W H x1 y1 x2 y2) (sy c : Int) :
    xygridR x1 y1 x2 y2 (0, sy) c b = (.error .valueError, b) := by
  rw [grid_guard h hi]
  exact run_look_error (by simp [pyRange3])

/-- C200: a vertical step of 0 raises `ValueError` after all vertical lines of the grid were drawn. -/
theorem C200_grid_zero_y (h : Valid b W H bits) {x1 y1 x2 y2 sx c : Int} (hc : IsColour bits c) (hi : InImage W H x1 y1 x2 y2) (hx : 0 < sx) :
    ∃ b', xygridR x1 y1 x2 y2 (sx, 0) c b = (.error .valueError, b') ∧
      Paints b b' W H bits (fun px py => ∃ k, 0 ≤ k ∧ min x1 x2 + sx * k < max x1 x2 ∧
        VSeg (min x1 x2 + sx * k) (min y1 y2) (max y1 y2) px py) c.toNat := by
  obtain ⟨xs, ex, mx⟩ := pyRange3_pos (a := min x1 x2) (z := max x1 x2) hx
  obtain ⟨b1, e1, p1⟩ := foldl_paints (W := W) (H := H) (bits := bits) (c := c.toNat)
    (fun bmp x => vertline bmp x (min y1 y2) (max y1 y2) c)
    (fun x => VSeg x (min y1 y2) (max y1 y2)) xs
    (fun b hb v _ => C20_vertline_partial hb hc (Or.inr (Or.inr (by unfold InImage at hi; omega)))) h
  refine ⟨b1, ?_, p1.congr ?_⟩
  · rw [grid_guard h hi, run_look ex]
    refine (run_seq (b' := b1) (run_ok ?_)).trans (run_look_error (by simp [pyRange3]))
    rw [outcome_each]
    simp only [C200_vertline]
    exact e1
  · intro px py _ _
    constructor
    · rintro ⟨k, k0, k1, g⟩
      exact ⟨_, (mx _).mpr ⟨k1, k, k0, rfl⟩, g⟩
    · rintro ⟨v, hv, g⟩
      obtain ⟨g1, k, k0, rfl⟩ := (mx v).mp hv
      exact ⟨k, k0, g1, g⟩

/-- C200: a grid in a number that is no colour of a 24-bit image stops in its first vertical line, which is half drawn. -/
theorem C200_grid_left (h : Valid b W H 24) {x1 y1 x2 y2 sx sy c : Int} (hc : TooWide c) (hi : InImage W H x1 y1 x2 y2) (hx : 0 < sx)
    (hne : x1 ≠ x2) :
    ∃ b', xygridR x1 y1 x2 y2 (sx, sy) c b = (.error .overflowError, b') ∧
      HalfColumn W H b (min x1 x2) (min y1 y2) (max y1 y2) c b' := by
  have hi' := hi
  unfold InImage at hi'
  obtain ⟨b', e, g⟩ := C200_vertline_left h (x := min x1 x2) (y1 := min y1 y2) (y2 := max y1 y2) hc (by omega)
    ⟨(min y1 y2).toNat, by omega, by omega, by omega⟩
  refine ⟨b', ?_, g⟩
  obtain ⟨n, hn⟩ : ∃ n, ((max x1 x2 - min x1 x2 + sx - 1) / sx).toNat = n + 1 := by
    have : 0 < (max x1 x2 - min x1 x2 + sx - 1) / sx := by
      have := (Int.le_ediv_iff_mul_le hx (a := 1) (b := max x1 x2 - min x1 x2 + sx - 1)).mpr (by omega)
      omega
    exact ⟨((max x1 x2 - min x1 x2 + sx - 1) / sx).toNat - 1, by omega⟩
  have ex : pyRange3 (min x1 x2) (max x1 x2) sx = .ok (min x1 x2 :: (List.range n).map fun (k : Nat) => min x1 x2 + sx * ((k + 1 : Nat) : Int)) := by
    unfold pyRange3
    rw [if_neg (by omega), if_pos hx, hn, List.range_succ_eq_map]
    simp [Function.comp_def]
  rw [grid_guard h hi, run_look ex]
  exact run_seq_error (run_seq_error e)

/-- C200 is false: a grid with vertical step 0 raises `ValueError` after its columns; a grid in no colour half draws its first
column; a list of rows of a 4-bit image raises `IndexError` after its first row; a parallelogram whose lines are vertical half
draws the first one. -/
theorem C200_grid_false :
    (do let b ← newBMP 4 3 24; let r := xygridR 0 0 3 2 (2, 0) 7 b
        pure (r.1, ← [(0, 0), (0, 2), (1, 0), (2, 1), (3, 0)].mapM fun (p : Int × Int) => getxybit r.2 p.1 p.2)) =
      .ok (.error .valueError, [7, 7, 0, 7, 0]) ∧
    (do let b ← newBMP 4 3 24; let r := xygridR 0 0 3 2 (2, 1) 0x1000007 b
        pure (r.1, ← [(0, 0), (0, 2), (2, 1), (1, 0)].mapM fun (p : Int × Int) => getxybit r.2 p.1 p.2)) =
      .ok (.error .overflowError, [7, 7, 0, 0]) ∧
    (do let b ← newBMP 4 2 4; let r := horilinevertR [(0, 0), (91, 1), (0, 1)] 3 0 9 b
        pure (r.1, ← [(0, 0), (2, 0), (0, 1), (2, 1)].mapM fun (p : Int × Int) => getxybit r.2 p.1 p.2)) =
      .ok (.error .indexError, [9, 9, 0, 0]) ∧
    (do let b ← newBMP 3 3 24; let r := filledparallelogramR (0, 0) (0, 2) (2, 0) 0x1000007 b
        pure (r.1, ← [(0, 0), (0, 2), (1, 0), (2, 0)].mapM fun (p : Int × Int) => getxybit r.2 p.1 p.2)) =
      .ok (.error .overflowError, [7, 7, 0, 0]) := by
  decide +kernel

example : (do let b ← newBMP 5 5 24; let r := ellipseR 2 2 2 1 0x1000000 b; pure (r.1, decide (r.2 = b))) =
    .ok (.error .overflowError, true) := by decide +kernel
example : (fun r => (r.1, decide (r.2 = sample8))) (ellipseR 1 1 1 1 256 sample8) = (.error .overflowError, true) := by decide +kernel
example : (do let b ← newBMP 5 5 24; let r := thickroundlineR (1, 1) (3, 1) 1 (-1) b; pure (r.1, decide (r.2 = b))) =
    .ok (.error .overflowError, true) := by decide +kernel
example : (do let b ← newBMP 5 5 24; let r := thickcircleR 2 2 1 1 (-1) b; pure (r.1, decide (r.2 = b))) =
    .ok (.error .overflowError, true) := by decide +kernel
example : (do let b ← newBMP 5 5 24; let r := plotxypointlistR [(9, 9), (1, 1)] 1 (-1) b; pure (r.1, decide (r.2 = b))) =
    .ok (.error .overflowError, true) := by decide +kernel
example : (do let b ← newBMP 4 3 24; let r := xygridR 0 0 3 2 (0, 1) 7 b; pure (r.1, decide (r.2 = b))) =
    .ok (.error .valueError, true) := by decide +kernel
example : (do let b ← newBMP 3 3 24; let r := vertlinevertR [(1, 0), (2, 0)] 1 0 0x1000007 b
              pure (r.1, ← [(1, 0), (1, 1), (1, 2), (2, 0)].mapM fun (p : Int × Int) => getxybit r.2 p.1 p.2)) =
    .ok (.error .overflowError, [7, 7, 0, 0]) := by decide +kernel

end Verif.Props.Abort
