import Verif.Props.Laws
import Verif.Props.Overlay
import Verif.Props.HoriExact
import Verif.Props.Region
import Verif.Props.Filters
import Verif.Props.Compare
import Verif.Props.Histogram
import Verif.Props.Text
/-! Property C201: only the size, the depth, the palette and the pixels of an image matter. -/

namespace Verif.Props.Padding
open Verif Spec Model Verif.Props Verif.Props.Laws Verif.Props.Overlay

variable {u v u' v' : Bytes} {W H bits : Nat}

/-! ### From descriptions to equal results -/

theorem of_shows (s : SameImage u v W H bits) {W' H' : Nat} {f g : Nat → Nat → Nat} (hu : Spec.Shows u' W' H' bits (palRGB u) f)
    (hv : Spec.Shows v' W' H' bits (palRGB v) g) (h : ∀ x y, x < W' → y < H' → f x y = g x y) : SameImage u' v' W' H' bits :=
  ⟨hu.valid, hv.valid, fun h24 c hc => (hu.palette h24 c hc).trans ((s.palette h24 c hc).trans (hv.palette h24 c hc).symm),
    fun x y hx hy => (hu.pixels x y hx hy).trans ((h x y hx hy).trans (hv.pixels x y hx hy).symm)⟩

theorem of_redraws (s : SameImage u v W H bits) {f g : Nat → Nat → Nat} (hu : Redraws u u' W H bits f) (hv : Redraws v v' W H bits g)
    (h : ∀ x y, x < W → y < H → f x y = g x y) : SameImage u' v' W H bits :=
  of_shows s (shows_of_redraws hu) (shows_of_redraws hv) h

open Classical in
theorem redraws_of_paints {b b' : Bytes} {S : Nat → Nat → Prop} {c : Nat} (p : Paints b b' W H bits S c) :
    Redraws b b' W H bits (fun x y => if S x y then c else pix b W H bits x y) :=
  ⟨p.valid, p.header, fun x y hx hy => by
    split_ifs with g
    · exact p.inside x y hx hy g
    · exact p.outside x y hx hy g⟩

theorem of_paints (s : SameImage u v W H bits) {S : Nat → Nat → Prop} {c : Nat} (hu : Paints u u' W H bits S c)
    (hv : Paints v v' W H bits S c) : SameImage u' v' W H bits :=
  of_redraws s (redraws_of_paints hu) (redraws_of_paints hv) fun x y hx hy => by
    split_ifs
    · rfl
    · exact s.pixels x y hx hy

/-! ### Drawing -/

/-- C201: figures of all kinds, in any number. -/
theorem C201_figures (s : SameImage u v W H bits) {l : List (Figure × Int)} (hl : AllSafe W H bits l) :
    Agree (drawAll l u) (drawAll l v) W H bits := by
  induction l generalizing u v with
  | nil => exact ⟨u, v, rfl, rfl, s⟩
  | cons t l ih =>
    obtain ⟨u1, eu, pu⟩ := drawn s.left (hl t (by simp)).1 (hl t (by simp)).2
    obtain ⟨v1, ev, pv⟩ := drawn s.right (hl t (by simp)).1 (hl t (by simp)).2
    obtain ⟨u2, v2, eu2, ev2, s2⟩ := ih (of_paints s pu pv) (fun t ht => hl t (by simp [ht]))
    refine ⟨u2, v2, ?_, ?_, s2⟩
    · unfold drawAll at eu2 ⊢
      rw [List.foldlM_cons, eu, ok_bind, eu2]
    · unfold drawAll at ev2 ⊢
      rw [List.foldlM_cons, ev, ok_bind, ev2]

/-- C201: text. -/
theorem C201_text (s : SameImage u v W H bits) (x y : Int) {str : List Nat} {font : Bytes} (hf : font ≠ []) (hs : InFont font str)
    {scale pixspace c : Int} (space : Int) (hd : DotOK bits scale pixspace c) :
    Agree (plotstring u x y str scale pixspace space (.one c) font) (plotstring v x y str scale pixspace space (.one c) font) W H bits := by
  obtain ⟨u', eu, pu⟩ := C66_plotstring_partial s.left x y hf hs space hd
  obtain ⟨v', ev, pv⟩ := C66_plotstring_partial s.right x y hf hs space hd
  exact ⟨u', v', eu, ev, of_paints s pu pv⟩

/-! ### Transformations -/

/-- C201: upside down, and the upper or lower half twice. -/
theorem C201_vertical (s : SameImage u v W H bits) : Agree (flipvertical u) (flipvertical v) W H bits ∧
    Agree (mirrortop u) (mirrortop v) W H bits ∧ Agree (mirrorbottom u) (mirrorbottom v) W H bits := by
  refine ⟨?_, ?_, ?_⟩
  · obtain ⟨u', eu, pu, -⟩ := C28_flipvertical s.left
    obtain ⟨v', ev, pv, -⟩ := C28_flipvertical s.right
    exact ⟨u', v', eu, ev, of_redraws s pu pv fun x y hx hy => s.pixels _ _ hx (by omega)⟩
  · obtain ⟨u', eu, pu, -⟩ := C29_mirrortop s.left
    obtain ⟨v', ev, pv, -⟩ := C29_mirrortop s.right
    exact ⟨u', v', eu, ev, of_redraws s pu pv fun x y hx hy => s.pixels _ _ hx (by omega)⟩
  · obtain ⟨u', eu, pu, -⟩ := C29_mirrorbottom s.left
    obtain ⟨v', ev, pv, -⟩ := C29_mirrorbottom s.right
    exact ⟨u', v', eu, ev, of_redraws s pu pv fun x y hx hy => s.pixels _ _ hx (by omega)⟩

/-- The rows of the image end at the end of a byte. -/
theorem mirror_in (hd : Depth bits) (hw : FullBytes W bits) {x : Nat} (hx : x < W) : dxOf bits * ((W - 1) / dxOf bits + 1) - 1 - x < W := by
  unfold FullBytes at hw
  unfold dxOf
  rcases hd with rfl | rfl | rfl | rfl <;> norm_num at hw ⊢ <;> omega

/-- C201: left and right exchanged, and the left or right half twice, if the rows end at the end of a byte. -/
theorem C201_horizontal_partial (s : SameImage u v W H bits) (hw : FullBytes W bits) :
    Agree (fliphorizontal u) (fliphorizontal v) W H bits ∧ Agree (mirrorleft u) (mirrorleft v) W H bits ∧
      Agree (mirrorright u) (mirrorright v) W H bits := by
  have hm := fun {x : Nat} (hx : x < W) => mirror_in s.left.depth hw hx
  refine ⟨?_, ?_, ?_⟩
  · obtain ⟨u', eu, pu⟩ := C30_exact s.left
    obtain ⟨v', ev, pv⟩ := C30_exact s.right
    refine ⟨u', v', eu, ev, of_redraws s pu pv fun x y hx hy => ?_⟩
    rw [s.pixels x y hx hy, s.pixels _ y (hm hx) hy]
  · obtain ⟨u', eu, pu⟩ := C31_left_exact s.left
    obtain ⟨v', ev, pv⟩ := C31_left_exact s.right
    refine ⟨u', v', eu, ev, of_redraws s pu pv fun x y hx hy => ?_⟩
    rw [s.pixels x y hx hy, s.pixels _ y (hm hx) hy]
  · obtain ⟨u', eu, pu⟩ := C31_right_exact s.left
    obtain ⟨v', ev, pv⟩ := C31_right_exact s.right
    refine ⟨u', v', eu, ev, of_redraws s pu pv fun x y hx hy => ?_⟩
    rw [s.pixels x y hx hy, s.pixels _ y (hm hx) hy]

/-- C201: the axes exchanged. -/
theorem C201_flipXY (s : SameImage u v W H bits) (hH : 0 < H) : Agree (flipXY u) (flipXY v) H W bits := by
  have hd := s.left.depth
  unfold Depth at hd
  by_cases hb : bits = 1 ∨ bits = 4
  · obtain ⟨u', eu, pu⟩ := C34_flipXY_packed_partial s.left hb
    obtain ⟨v', ev, pv⟩ := C34_flipXY_packed_partial s.right hb
    exact ⟨u', v', eu, ev, of_shows s pu pv fun x y hx hy => s.pixels _ _ hy hx⟩
  · obtain ⟨u', eu, pu⟩ := C34_flipXY_bytes s.left (by omega) hH
    obtain ⟨v', ev, pv⟩ := C34_flipXY_bytes s.right (by omega) hH
    exact ⟨u', v', eu, ev, of_shows s pu pv fun x y hx hy => s.pixels _ _ (by omega) (by omega)⟩

/-- C201: all colours complemented, in the image or in a rectangle. -/
theorem C201_invert (s : SameImage u v W H bits) : Agree (invertimagebits u) (invertimagebits v) W H bits ∧
    ∀ x1 y1 x2 y2 : Int, Agree (invertregion u x1 y1 x2 y2) (invertregion v x1 y1 x2 y2) W H bits := by
  constructor
  · obtain ⟨u', eu, pu, -⟩ := C32_invertimagebits s.left
    obtain ⟨v', ev, pv, -⟩ := C32_invertimagebits s.right
    exact ⟨u', v', eu, ev, of_redraws s pu pv fun x y hx hy => by rw [s.pixels x y hx hy]⟩
  · intro x1 y1 x2 y2
    by_cases hi : InImage W H x1 y1 x2 y2
    · obtain ⟨u', eu, pu⟩ := C33_invertregion s.left hi
      obtain ⟨v', ev, pv⟩ := C33_invertregion s.right hi
      exact ⟨u', v', eu, ev, of_redraws s pu pv fun x y hx hy => by rw [s.pixels x y hx hy]⟩
    · exact ⟨u, v, C33_rejected s.left hi, C33_rejected s.right hi, s⟩

/-- C201: rectangles upside down, or with one half twice. -/
theorem C201_regions (s : SameImage u v W H bits) (x1 y1 x2 y2 : Int) :
    Agree (flipverticalregion u x1 y1 x2 y2) (flipverticalregion v x1 y1 x2 y2) W H bits ∧
    Agree (mirrortopinregion u x1 y1 x2 y2) (mirrortopinregion v x1 y1 x2 y2) W H bits ∧
    Agree (mirrorbottominregion u x1 y1 x2 y2) (mirrorbottominregion v x1 y1 x2 y2) W H bits := by
  by_cases hi : InImage W H x1 y1 x2 y2
  swap
  · obtain ⟨a1, a2, a3⟩ := C55_rejected s.left hi
    obtain ⟨b1, b2, b3⟩ := C55_rejected s.right hi
    exact ⟨⟨u, v, a1, b1, s⟩, ⟨u, v, a2, b2, s⟩, ⟨u, v, a3, b3, s⟩⟩
  have hy : ∀ {x y : Nat}, byteRect bits x1 y1 x2 y2 x y = true → (min (y : Int) (y1 + y2 - y)).toNat < H ∧
      (max (y : Int) (y1 + y2 - y)).toNat < H ∧ (y1 + y2 - y).toNat < H := by
    intro x y g
    unfold byteRect at g
    unfold InImage at hi
    simp only [decide_eq_true_eq] at g
    omega
  refine ⟨?_, ?_, ?_⟩
  · obtain ⟨u', eu, pu, -⟩ := C55_flipverticalregion_exact s.left hi
    obtain ⟨v', ev, pv, -⟩ := C55_flipverticalregion_exact s.right hi
    refine ⟨u', v', eu, ev, of_redraws s pu pv fun x y hx hy' => ?_⟩
    split_ifs with g
    · exact s.pixels _ _ hx (hy g).2.2
    · exact s.pixels _ _ hx hy'
  · obtain ⟨u', eu, pu, -⟩ := C55_mirrortopinregion_exact s.left hi
    obtain ⟨v', ev, pv, -⟩ := C55_mirrortopinregion_exact s.right hi
    refine ⟨u', v', eu, ev, of_redraws s pu pv fun x y hx hy' => ?_⟩
    split_ifs with g
    · exact s.pixels _ _ hx (hy g).1
    · exact s.pixels _ _ hx hy'
  · obtain ⟨u', eu, pu, -⟩ := C55_mirrorbottominregion_exact s.left hi
    obtain ⟨v', ev, pv, -⟩ := C55_mirrorbottominregion_exact s.right hi
    refine ⟨u', v', eu, ev, of_redraws s pu pv fun x y hx hy' => ?_⟩
    split_ifs with g
    · exact s.pixels _ _ hx (hy g).2.1
    · exact s.pixels _ _ hx hy'

/-- C201: a cropped rectangle. -/
theorem C201_crop (s : SameImage u v W H bits) (x1 y1 x2 y2 : Int) :
    (crop u x1 y1 x2 y2 = .ok none ∧ crop v x1 y1 x2 y2 = .ok none) ∨
    ∃ u' v' W' H', crop u x1 y1 x2 y2 = .ok (some u') ∧ crop v x1 y1 x2 y2 = .ok (some v') ∧ SameImage u' v' W' H' bits := by
  by_cases hi : InImage W H x1 y1 x2 y2
  swap
  · exact .inl ⟨C35_outside s.left hi, C35_outside s.right hi⟩
  obtain ⟨u', eu, pu⟩ := C35_crop_partial s.left hi
  obtain ⟨v', ev, pv⟩ := C35_crop_partial s.right hi
  refine .inr ⟨u', v', _, _, eu, ev, pu.valid, pv.valid, fun h24 c hc => ?_, fun x y hx hy => ?_⟩
  · rw [pu.palette h24 c hc, pv.palette h24 c hc]
    split_ifs
    · exact s.palette h24 c hc
    · rfl
  · rw [pu.pixels x y hx hy, pv.pixels x y hx hy]
    unfold InImage at hi
    exact s.pixels _ _ (by omega) (by omega)

/-- C201: an image enlarged by a factor. -/
theorem C201_bigger (s : SameImage u v W H bits) (hW : 0 < W) (hH : 0 < H) {n : Nat} (hn : 0 < n) (hnW : W * n < 2 ^ 24)
    (hnH : H * n < 2 ^ 24) : Agree (resizeNtimesbigger u (n : Int)) (resizeNtimesbigger v (n : Int)) (W * n) (H * n) bits := by
  obtain ⟨u', eu, pu⟩ := C40_resize_exact s.left hW hH hn hnW hnH
  obtain ⟨v', ev, pv⟩ := C40_resize_exact s.right hW hH hn hnW hnH
  refine ⟨u', v', eu, ev, of_shows s pu pv fun x y hx hy => ?_⟩
  split_ifs with g
  · have g' := (rotCol_lt (bits := bits) (keepCols W bits) n (by intro e; subst e; unfold keepCols; simp)).mpr g
    refine s.pixels _ _ (lt_of_lt_of_le ((Nat.div_lt_iff_lt_mul hn).mpr g') (keep_le W bits)) ((Nat.div_lt_iff_lt_mul hn).mpr hy)
  · rfl

/-- C201: the conversion to true colour. -/
theorem C201_upgrade (s : SameImage u v W H bits) (hW : 0 < W) (hH : 0 < H) :
    ∃ u' v', upgradeto24bitimage u = .ok u' ∧ upgradeto24bitimage v = .ok v' ∧ Valid u' W H 24 ∧ Valid v' W H 24 ∧
      ∀ x y, x < W → y < H → pixRGB u' W H 24 x y = pixRGB v' W H 24 x y := by
  obtain ⟨u', eu, hu, pu⟩ := C37_upgrade_exact s.left hW hH
  obtain ⟨v', ev, hv, pv⟩ := C37_upgrade_exact s.right hW hH
  refine ⟨u', v', eu, ev, hu, hv, fun x y hx hy => ?_⟩
  rw [pu x y hx hy, pv x y hx hy]
  have : pixRGB u W H bits x y = pixRGB v W H bits x y := by
    unfold pixRGB
    simp only [s.pixels x y hx hy]
    by_cases h24 : bits = 24
    · rw [if_pos h24, if_pos h24]
    · rw [if_neg h24, if_neg h24, s.palette h24 _ (s.right.pix_lt x y)]
  rw [this]

/-- C201: grey and brighter or darker colours in a rectangle of a 24-bit image. -/
theorem C201_filters (s : SameImage u v W H bits) (f : Nat → Int) (x1 y1 x2 y2 : Int) :
    Agree (monofilterto24bitregion u x1 y1 x2 y2) (monofilterto24bitregion v x1 y1 x2 y2) W H bits ∧
    Agree (brightnesseadjto24bitregion f u x1 y1 x2 y2) (brightnesseadjto24bitregion f v x1 y1 x2 y2) W H bits := by
  by_cases hi : bits = 24 ∧ InImage W H x1 y1 x2 y2
  swap
  · exact ⟨⟨u, v, C50_rejected s.left hi, C50_rejected s.right hi, s⟩, ⟨u, v, C59_rejected s.left f hi, C59_rejected s.right f hi, s⟩⟩
  obtain ⟨rfl, hi⟩ := hi
  constructor
  · obtain ⟨u', eu, pu⟩ := C50_monofilter s.left hi
    obtain ⟨v', ev, pv⟩ := C50_monofilter s.right hi
    exact ⟨u', v', eu, ev, of_redraws s pu pv fun x y hx hy => by rw [s.pixels x y hx hy]⟩
  · obtain ⟨u', eu, pu⟩ := C59_brightness s.left f hi
    obtain ⟨v', ev, pv⟩ := C59_brightness s.right f hi
    exact ⟨u', v', eu, ev, of_redraws s pu pv fun x y hx hy => by rw [s.pixels x y hx hy]⟩

/-! ### Comparison and statistics -/

/-- C201: the comparison of two images. -/
theorem C201_compare {a b : Bytes} (s : SameImage u v W H bits) (t : SameImage a b W H bits) :
    ∃ n m, imagediff u a = .ok (some n) ∧ imagediff v b = .ok (some m) ∧ SameImage n m W H bits := by
  obtain ⟨n, en, pn⟩ := C49_imagediff s.left t.left
  obtain ⟨m, em, pm⟩ := C49_imagediff s.right t.right
  exact ⟨n, m, en, em, of_shows s pn pm fun x y hx hy => by rw [s.pixels x y hx hy, t.pixels x y hx hy]⟩

/-- C201: the list of all pixels and the histogram of colours. -/
theorem C201_statistics (s : SameImage u v W H bits) : iterimagecolor u = iterimagecolor v ∧ colorhistogram u = colorhistogram v := by
  have e : iterimagecolor u = iterimagecolor v := by
    rw [C38_iterimagecolor s.left, C38_iterimagecolor s.right]
    congr 1
    unfold scan
    refine List.flatMap_congr fun y hy => ?_
    unfold scanRow
    refine List.map_congr_left fun x hx => ?_
    simp only [List.mem_reverse, List.mem_range] at hx hy
    simp only [s.pixels x y hx hy]
  refine ⟨e, ?_⟩
  unfold colorhistogram
  rw [e]

/-- Two different files with the same six pixels; upside down they differ as well, but show the same pixels. -/
example : (do let u ← newBMP 3 2 4; let v ← fliphorizontal (← plotxybit u 0 0 9); let u' ← flipvertical u; let v' ← flipvertical v
              pure (decide (u = v), decide (u' = v'), (← iterimagecolor u').map Prod.snd, (← iterimagecolor v').map Prod.snd)) =
    .ok (false, false, [0, 0, 0, 0, 0, 0], [0, 0, 0, 0, 0, 0]) := by decide +kernel

/-! ### Where the other bytes are seen -/

/-- C201 is false for images whose rows end inside a byte: two images with three equal pixels, and what `fliphorizontal` makes of
them; the half byte after the row is the first pixel then. -/
theorem C201_false : ∃ u v, SameImage u v 3 1 4 ∧ ¬ Agree (fliphorizontal u) (fliphorizontal v) 3 1 4 := by
  obtain ⟨u, e0, hu, -⟩ := C01_newBMP_valid 3 1 4 (by simp [Depth]) (by norm_num) (by norm_num)
  obtain ⟨p, e1, hp⟩ := plot_paints hu 0 0 (c := 9) (by norm_num)
  obtain ⟨v, e2, hv⟩ := C30_exact hp.valid
  have e0 : newBMP 3 1 4 = .ok u := e0
  have k : (do let u ← newBMP 3 1 4; let v ← fliphorizontal (← plotxybit u 0 0 9)
               pure ((List.range 3).map fun x => (pix u 3 1 4 x 0, pix v 3 1 4 x 0), pix (← fliphorizontal u) 3 1 4 0 0,
                 pix (← fliphorizontal v) 3 1 4 0 0)) = .ok ([(0, 0), (0, 0), (0, 0)], 0, 9) := by decide +kernel
  obtain ⟨u1, e3, -⟩ := C30_exact hu
  obtain ⟨v1, e4, -⟩ := C30_exact hv.valid
  rw [e0, ok_bind, e1, ok_bind, e2, ok_bind, e3, ok_bind, e4, ok_bind] at k
  have k := Except.ok.inj k
  simp only [List.range_succ, List.range_zero, List.nil_append, List.map_cons, List.map_nil, List.cons_append,
    Prod.mk.injEq, List.cons.injEq, and_true] at k
  obtain ⟨⟨k0, k1, k2⟩, k3, k4⟩ := k
  refine ⟨u, v, ⟨hu, hv.valid, fun h24 c hc => ?_, fun x y hx hy => ?_⟩, ?_⟩
  · rw [palRGB_same hv.header hu.depth h24 hc, palRGB_same hp.header hu.depth h24 hc]
  · obtain rfl : y = 0 := by omega
    obtain rfl | rfl | rfl : x = 0 ∨ x = 1 ∨ x = 2 := by omega
    · rw [k0.1, k0.2]
    · rw [k1.1, k1.2]
    · rw [k2.1, k2.2]
  · rintro ⟨a, b, ea, eb, s⟩
    rw [e3] at ea
    rw [e4] at eb
    cases ea
    cases eb
    have := s.pixels 0 0 (by omega) (by omega)
    rw [k3, k4] at this
    omega

end Verif.Props.Padding
