import Verif.Props.AbortMore
/-! Property C202: programs that catch the exceptions of drawing calls and go on. -/

namespace Verif.Props.Session
open Verif Spec Model Model.Run Verif.Props Verif.Props.Beyond Verif.Props.Far Verif.Props.Overlay Verif.Props.Abort

variable {b b' : Bytes} {W H bits : Nat}

/-- The same calls as in `draw`, with the array they leave behind. -/
def drawR (f : Figure) (color : Int) : Run Unit :=
  match f with
  | .point x y => plotxybitR x y color
  | .row y x1 x2 => horilineR y x1 x2 color
  | .column x y1 y2 => vertlineR x y1 y2 color
  | .segment p q => lineR p.1 p.2 q.1 q.2 color
  | .border x1 y1 x2 y2 => rectangleR x1 y1 x2 y2 color
  | .box x1 y1 x2 y2 => filledrectR x1 y1 x2 y2 color
  | .ring x y r => circleR x y r color
  | .disc x y r => filledcircleR x y r color
  | .stroke p q pen => thickroundlineR p q pen color
  | .tyre x y r pen => thickcircleR x y r pen color

theorem drawR_outcome (f : Figure) (c : Int) (b : Bytes) : outcome (drawR f c) b = draw f c b := by
  cases f with
  | point x y => exact C200_plotxybit ..
  | row y x1 x2 => exact C200_horiline ..
  | column x y1 y2 => exact C200_vertline ..
  | segment p q => exact C200_line ..
  | border x1 y1 x2 y2 => exact C200_rectangle ..
  | box x1 y1 x2 y2 => exact C200_filledrect ..
  | ring x y r => exact C200_circle ..
  | disc x y r => exact C200_filledcircle ..
  | stroke p q pen => exact C200_thickroundline ..
  | tyre x y r pen => exact C200_thickcircle ..

/-- A program that makes the calls one after the other, each in `try: … except: pass`. -/
def session (l : List (Figure × Int)) (b : Bytes) : Bytes := l.foldl (fun b t => (drawR t.1 t.2 b).2) b

/-- Specification: the pixels of a 24-bit image that are overwritten before a call in a number that is no colour raises its exception. -/
def stain (W H : Nat) (f : Figure) (px py : Nat) : Prop :=
  match f with
  | .column x y1 y2 => VSeg x y1 y2 px py
  | .segment p q => clampTo p.1 W = clampTo q.1 W ∧ VSeg (clampTo p.1 W) (clampTo p.2 H) (clampTo q.2 H) px py
  | .border x1 y1 x2 _ => clampTo x1 W = clampTo x2 W ∧ VSeg (clampTo x1 W) (clampTo y1 H) (clampTo y1 H) px py
  | _ => False

open Classical in
/-- Specification: the picture after a call in such a session. A colour colours the figure; another number leaves blue and green in the
stained pixels. -/
noncomputable def after (W H : Nat) (t : Figure × Int) (g : Nat → Nat → Nat) (px py : Nat) : Nat :=
  if IsColour 24 t.2 then (if area W H 24 t.1 px py then t.2.toNat else g px py)
  else if stain W H t.1 px py then g px py / 65536 * 65536 + (t.2 % 65536).toNat
  else g px py

theorem of_same (hv : Valid b' W H 24) (s : SamePicture W H 24 b b') {f : Figure} {c : Int} (hc : ¬ IsColour 24 c)
    (hn : ∀ px py, px < W → py < H → ¬ stain W H f px py) : Redraws b b' W H 24 (after W H (f, c) (pix b W H 24)) :=
  ⟨hv, s.1, fun x y hx hy => by
    unfold after
    rw [if_neg hc, if_neg (hn x y hx hy), s.2 x y hx hy]⟩

theorem of_half {x y1 y2 c : Int} {f : Figure} (hc : ¬ IsColour 24 c) (h : HalfColumn W H b x y1 y2 c b')
    (hs : ∀ px py, px < W → py < H → (stain W H f px py ↔ VSeg x y1 y2 px py)) : Redraws b b' W H 24 (after W H (f, c) (pix b W H 24)) :=
  ⟨h.1, h.2.1, fun x' y' hx hy => by
    unfold after
    rw [if_neg hc]
    by_cases g : VSeg x y1 y2 x' y'
    · rw [if_pos ((hs x' y' hx hy).mpr g), (h.2.2 x' y' hx hy).1 g]
    · rw [if_neg (fun q => g ((hs x' y' hx hy).mp q)), (h.2.2 x' y' hx hy).2 g]⟩

/-- One call. -/
theorem step (h : Valid b W H 24) (hW : 0 < W) (hH : 0 < H) {f : Figure} (hs : Safe W H 24 f) (c : Int) :
    Redraws b (drawR f c b).2 W H 24 (after W H (f, c) (pix b W H 24)) := by
  by_cases hc : IsColour 24 c
  · obtain ⟨b', e, p⟩ := drawn h hs hc
    rw [run_ok ((drawR_outcome f c b).trans e)]
    refine ⟨p.valid, p.header, fun x y hx hy => ?_⟩
    unfold after
    rw [if_pos hc]
    by_cases g : area W H 24 f x y
    · rw [if_pos g]; exact p.inside x y hx hy g
    · rw [if_neg g]; exact p.outside x y hx hy g
  have hw : TooWide c := by unfold IsColour at hc; unfold TooWide; omega
  by_cases hf : Fails W H f
  swap
  · obtain ⟨b', e, hv, s⟩ := C196_untouched h hw hs hf
    rw [run_ok ((drawR_outcome f c b).trans e)]
    refine of_same hv s hc fun px py hx hy g => hf ?_
    cases f <;> try exact absurd g id
    · unfold stain VSeg at g
      exact ⟨⟨by omega, by omega⟩, py, hy, g.2.1, g.2.2⟩
    · trivial
    · trivial
  have he := run_error ((drawR_outcome f c b).trans ((C196_truecolour h hw hs).1 hf))
  have calm : Unharmed (drawR f c) b → (∀ px py, ¬ stain W H f px py) → Redraws b (drawR f c b).2 W H 24 (after W H (f, c) (pix b W H 24)) := by
    intro u hn
    rw [u _ he]
    exact of_same h (same_refl b) hc fun px py _ _ => hn px py
  cases f with
  | point x y => exact calm (C200_plot_safe x y c b) fun _ _ => id
  | row y x1 x2 => exact calm (C200_horiline_safe h y x1 x2 c) fun _ _ => id
  | column x y1 y2 =>
    obtain ⟨b', e, g⟩ := C200_vertline_left h hw hf.1 hf.2
    show Redraws b (vertlineR x y1 y2 c b).2 W H 24 _
    rw [e]
    exact of_half hc g fun _ _ _ _ => Iff.rfl
  | segment p q =>
    by_cases hx : clampTo p.1 W = clampTo q.1 W
    · obtain ⟨b', e, g⟩ := C200_line_left (y1 := p.2) (y2 := q.2) h hW hH hw hx
      show Redraws b (lineR p.1 p.2 q.1 q.2 c b).2 W H 24 _
      rw [e]
      exact of_half hc g fun _ _ _ _ => ⟨fun k => k.2, fun k => ⟨hx, k⟩⟩
    · refine calm ?_ fun _ _ g => hx g.1
      intro e' _
      show (lineR p.1 p.2 q.1 q.2 c b).2 = b
      rw [C200_line_wide h hW hH hw hx]
  | border x1 y1 x2 y2 =>
    by_cases hx : clampTo x1 W = clampTo x2 W
    · obtain ⟨b', e, g⟩ := C200_line_left (y1 := y1) (y2 := y1) h hW hH hw hx
      show Redraws b (rectangleR x1 y1 x2 y2 c b).2 W H 24 _
      rw [show rectangleR x1 y1 x2 y2 c b = (.error .overflowError, b') from
        C200_plotpoly_left (v := []) (p := (x1, y1)) (q := (x2, y1)) (w := [(x2, y2), (x1, y2)]) (b1 := b) rfl e]
      exact of_half hc g fun _ _ _ _ => ⟨fun k => k.2, fun k => ⟨hx, k⟩⟩
    · refine calm ?_ fun _ _ g => hx g.1
      intro e' _
      show (rectangleR x1 y1 x2 y2 c b).2 = b
      rw [C200_rectangle_safe h hW hH hw hx]
  | box x1 y1 x2 y2 => exact calm (C200_filledrect_safe h x1 y1 x2 y2 c) fun _ _ => id
  | ring x y r => exact calm (C200_circle_safe h x y r c) fun _ _ => id
  | disc x y r => exact calm (C200_disc_wide h hW hw) fun _ _ => id
  | stroke p q pen =>
    have g := C200_stroke_wide h hW hw (p := p) (q := q) (pen := pen) (fun v hv => by
      rcases (Far.mem_iterline v).mp hv with ⟨k, k1, k2, rfl⟩ | rfl
      · exact hs.2 k k1 k2
      · exact hs.1) _ he
    exact of_same g.1 g.2 hc fun _ _ _ _ => id
  | tyre x y r pen =>
    have g := C200_tyre_wide h hW hw (x := x) (y := y) (r := r) (pen := pen) (fun v hv =>
      hs v.1 v.2 ((Far.mem_itercircle x y r v.1 v.2).mp hv)) _ he
    exact of_same g.1 g.2 hc fun _ _ _ _ => id

theorem after_congr {t : Figure × Int} {g g' : Nat → Nat → Nat} {x y : Nat} (h : g x y = g' x y) : after W H t g x y = after W H t g' x y := by
  unfold after
  rw [h]

theorem fold_congr (l : List (Figure × Int)) {g g' : Nat → Nat → Nat} {x y : Nat} (h : g x y = g' x y) :
    l.foldl (fun g t => after W H t g) g x y = l.foldl (fun g t => after W H t g) g' x y := by
  induction l generalizing g g' with
  | nil => exact h
  | cons t l ih => exact ih (after_congr h)

/-- **C202**: a session on a 24-bit image with any numbers as colours: the image stays valid, and each call has the effect of `after`. -/
theorem C202_session (h : Valid b W H 24) (hW : 0 < W) (hH : 0 < H) {l : List (Figure × Int)} (hl : ∀ t ∈ l, Safe W H 24 t.1) :
    Redraws b (session l b) W H 24 (l.foldl (fun g t => after W H t g) (pix b W H 24)) := by
  induction l generalizing b with
  | nil => exact ⟨h, ⟨rfl, fun _ _ => rfl⟩, fun _ _ _ _ => rfl⟩
  | cons t l ih =>
    have r := step h hW hH (hl t (by simp)) t.2
    have r' := ih r.valid fun s hs => hl s (by simp [hs])
    refine ⟨r'.valid, ⟨r'.header.1.trans r.header.1, fun i hi => (r'.header.2 i hi).trans (r.header.2 i hi)⟩, fun x y hx hy => ?_⟩
    have := r'.pixels x y hx hy
    rw [fold_congr l (r.pixels x y hx hy)] at this
    exact this

open Classical in
/-- C202: without such columns, the session shows what the calls in proper colours alone show. -/
theorem C202_ignored (h : Valid b W H 24) (hW : 0 < W) (hH : 0 < H) {l : List (Figure × Int)} (hl : ∀ t ∈ l, Safe W H 24 t.1)
    (hn : ∀ t ∈ l, ¬ IsColour 24 t.2 → ∀ px py, px < W → py < H → ¬ stain W H t.1 px py) :
    ∃ n, drawAll (l.filter fun t => IsColour 24 t.2) b = .ok n ∧ SamePicture W H 24 n (session l b) := by
  have r := C202_session h hW hH hl
  have hl' : ∀ t ∈ l.filter fun t => IsColour 24 t.2, Safe W H 24 t.1 := fun t ht => hl t (List.mem_of_mem_filter ht)
  have r' := C202_session h hW hH hl'
  have e : drawAll (l.filter fun t => IsColour 24 t.2) b = .ok (session (l.filter fun t => IsColour 24 t.2) b) := by
    clear r r' hn
    induction l generalizing b with
    | nil => rfl
    | cons t l ih =>
      by_cases hc : IsColour 24 t.2
      · rw [List.filter_cons_of_pos (by simpa using hc)]
        obtain ⟨b', e, p⟩ := drawn h (hl t (by simp)) hc
        have e2 := run_ok ((drawR_outcome t.1 t.2 b).trans e)
        unfold drawAll session
        rw [List.foldlM_cons, List.foldl_cons, e, ok_bind, e2]
        exact ih p.valid (fun s hs => hl s (by simp [hs])) (fun s hs => hl s (by simp [List.mem_of_mem_filter hs]))
      · rw [List.filter_cons_of_neg (by simpa using hc)]
        exact ih h (fun s hs => hl s (by simp [hs])) (fun s hs => hl s (by simp [List.mem_of_mem_filter hs]))
  refine ⟨_, e, ⟨r.header.1.trans r'.header.1.symm, fun i hi => (r.header.2 i hi).trans (r'.header.2 i hi).symm⟩, fun x y hx hy => ?_⟩
  rw [r.pixels x y hx hy, r'.pixels x y hx hy]
  clear r r' e hl hl'
  generalize pix b W H 24 = g
  induction l generalizing g with
  | nil => rfl
  | cons t l ih =>
    by_cases hc : IsColour 24 t.2
    · rw [List.filter_cons_of_pos (by simpa using hc)]
      exact ih (fun s hs => hn s (by simp [hs])) _
    · rw [List.filter_cons_of_neg (by simpa using hc), List.foldl_cons, ih (fun s hs => hn s (by simp [hs]))]
      refine fold_congr _ ?_
      unfold after
      rw [if_neg hc, if_neg (hn t (by simp) hc x y hx hy)]

/-- Four calls, two of them in numbers that are no colours: the row leaves nothing, of the column blue and green remain. -/
example : (do let b ← newBMP 3 2 24
              let n := session [(.row 0 0 2, 0x010203), (.row 0 1 2, 0x1000000), (.column 1 0 1, 0x2000405), (.point 2 1, 6)] b
              pure ((← iterimagecolor n).map Prod.snd)) = .ok [0, 0x405, 6, 0x010203, 0x010405, 0x010203] := by decide +kernel

open Classical in
/-- C202 is false for columns: a call that raises leaves no trace, and the session shows what the other calls show. -/
theorem C202_false : ¬ ∀ (b : Bytes) (W H : Nat), Valid b W H 24 → ∀ l : List (Figure × Int), (∀ t ∈ l, Safe W H 24 t.1) →
    ∃ n, drawAll (l.filter fun t => IsColour 24 t.2) b = .ok n ∧ SamePicture W H 24 n (session l b) := by
  intro hall
  obtain ⟨b, e, h, -⟩ := C01_newBMP_valid 1 1 24 (by simp [Depth]) (by norm_num) (by norm_num)
  have e : newBMP 1 1 24 = .ok b := e
  obtain ⟨n, en, s⟩ := hall b 1 1 h [(.column 0 0 0, 0x1000007)] (by
    intro t ht
    rw [List.mem_singleton] at ht
    subst ht
    exact .inr (.inr (by norm_num)))
  have hc : ¬ IsColour 24 0x1000007 := by unfold IsColour; norm_num
  rw [List.filter_cons_of_neg (by simpa using hc)] at en
  cases en
  have k : (do let b ← newBMP 1 1 24; pure (pix b 1 1 24 0 0, pix (session [(.column 0 0 0, 0x1000007)] b) 1 1 24 0 0)) = .ok (0, 7) := by
    decide +kernel
  rw [e, ok_bind] at k
  have k := Except.ok.inj k
  have := s.2 0 0 (by norm_num) (by norm_num)
  rw [(Prod.mk.inj k).1, (Prod.mk.inj k).2] at this
  omega

/-! ### Images with a palette -/

open Classical in
/-- Specification: the colour of a figure on an image with a palette, none if nothing is drawn. -/
noncomputable def shade (W H bits : Nat) (f : Figure) (c : Int) : Option Nat :=
  match f with
  | .ring _ _ _ => if bits = 8 ∧ ¬ IsColour 8 c then none else some (reduce bits c)
  | .segment p q => if bits = 1 ∧ Slanted W H p q ∧ 1 < c then some (c % 2).toNat else some (reduce bits c)
  | _ => some (reduce bits c)

open Classical in
/-- Specification: the picture after a call on an image with a palette. -/
noncomputable def coloured (W H bits : Nat) (t : Figure × Int) (g : Nat → Nat → Nat) (px py : Nat) : Nat :=
  match shade W H bits t.1 t.2 with
  | some c => if area W H bits t.1 px py then c else g px py
  | none => g px py

theorem coloured_congr {t : Figure × Int} {g g' : Nat → Nat → Nat} {x y : Nat} (h : g x y = g' x y) :
    coloured W H bits t g x y = coloured W H bits t g' x y := by
  unfold coloured
  rw [h]

theorem of_shade (h : Valid b W H bits) {f : Figure} {c : Int} {k : Nat} (hs : Safe W H bits f) (hk : IsColour bits (k : Int))
    (e : draw f c b = draw f (k : Int) b) (hc : shade W H bits f c = some k) :
    Redraws b (drawR f c b).2 W H bits (coloured W H bits (f, c) (pix b W H bits)) := by
  obtain ⟨b', e', p⟩ := drawn h hs hk
  rw [run_ok ((drawR_outcome f c b).trans (e.trans e'))]
  refine ⟨p.valid, p.header, fun x y hx hy => ?_⟩
  unfold coloured
  rw [hc]
  dsimp only
  by_cases g : area W H bits f x y
  · rw [if_pos g]; exact p.inside x y hx hy g
  · rw [if_neg g]; exact p.outside x y hx hy g

theorem shade_step (h : Valid b W H bits) (h24 : bits ≠ 24) {f : Figure} (hs : Safe W H bits f) {c : Int}
    (h4 : bits = 4 → ∀ p q, f = .segment p q → Slanted W H p q → 0 ≤ c) :
    Redraws b (drawR f c b).2 W H bits (coloured W H bits (f, c) (pix b W H bits)) := by
  by_cases hr : Reduced W H bits c f
  · refine of_shade h hs (colour_reduce h.depth c) (C196_reduced h h24 hs hr) ?_
    cases f with
    | ring x y r => exact if_neg fun g => hr g.1
    | segment p q => exact if_neg fun g => absurd g.2.2 (by have := (hr g.2.1).2 g.1; omega)
    | _ => rfl
  · cases f with
    | ring x y r =>
      have h8 : bits = 8 := by
        by_contra g
        exact hr g
      subst h8
      by_cases hc : IsColour 8 c
      · refine of_shade h hs (colour_reduce h.depth c) ?_ (if_neg fun g => g.2 hc)
        rw [reduce_colour h.depth hc, Int.toNat_of_nonneg (by unfold IsColour at hc; omega)]
      · have hw : c < 0 ∨ 256 ≤ c := by unfold IsColour at hc; omega
        have key : (circleR x y r c b).2 = b := by
          by_cases g : ∃ px py, px < W ∧ py < H ∧ CircleSet x y r px py
          · exact C200_circle_safe h x y r c _ (run_error ((C200_circle x y r c b).trans ((C196_ring h hw).1 g)))
          · rw [run_ok ((C200_circle x y r c b).trans ((C196_ring h hw).2 g))]
        show Redraws b (circleR x y r c b).2 W H 8 _
        rw [key]
        refine ⟨h, ⟨rfl, fun _ _ => rfl⟩, fun px py _ _ => ?_⟩
        unfold coloured shade
        dsimp only
        rw [if_pos ⟨rfl, hc⟩]
    | segment p q =>
      have hr' : ∃ _ : Slanted W H p q, ¬ ((bits = 4 → 0 ≤ c) ∧ (bits = 1 → c ≤ 1)) := by
        by_contra g
        exact hr fun k => by
          by_contra k'
          exact g ⟨k, k'⟩
      obtain ⟨sl, hr'⟩ := hr'
      have h1 : bits = 1 ∧ 1 < c := by
        by_contra g
        refine hr' ⟨fun e => h4 e p q rfl sl, fun e => ?_⟩
        by_contra k
        exact g ⟨e, by omega⟩
      obtain ⟨rfl, hc⟩ := h1
      have e : ((c % 2).toNat : Int) = c % 2 := Int.toNat_of_nonneg (by omega)
      refine of_shade (k := (c % 2).toNat) h hs (by unfold IsColour; omega) ?_ (if_pos ⟨rfl, sl, hc⟩)
      rw [e]
      exact C196_slanted_one h sl hc
    | _ => exact absurd trivial hr

/-- On an 8-bit image the ring in no colour leaves nothing, and the row gets the remainder; on a 1-bit image a slanted line in an
even number is black, but a row in it is white. -/
example : (do let n := session [(.ring 1 1 1, 300), (.row 0 0 0, 257)] sample8
              pure ((← iterimagecolor n).map Prod.snd)) = .ok [0, 0, 0, 0, 0, 0, 0, 0, 0, 1, 0, 0] := by decide +kernel
example : (do let b ← newBMP 8 3 1
              let n := session [(.row 2 0 7, 2), (.segment (0, 2) (7, 0), 2)] b
              pure (((← iterimagecolor n).map Prod.snd).take 8)) = .ok [0, 0, 0, 1, 1, 1, 1, 1] := by decide +kernel

/-- The slanted line starts at (1, 0): that pixel and the one left of it change, and the point is drawn over one of them. -/
example : (do let b ← newBMP 4 3 4
              let n := session [(.point 0 0, 9), (.segment (1, 0) (3, 1), -3), (.point 0 0, 5), (.row 2 0 1, 7)] b
              let m := session [(.point 0 0, 9), (.segment (1, 0) (3, 1), -3)] b
              pure (← [(0, 0), (1, 0), (2, 1), (0, 2)].mapM fun (p : Int × Int) => getxybit n p.1 p.2,
                    ← [(0, 0), (1, 0), (2, 1), (0, 2)].mapM fun (p : Int × Int) => getxybit m p.1 p.2)) =
    .ok ([5, 13, 0, 7], [8, 13, 0, 0]) := by decide +kernel

end Verif.Props.Session
