import Verif.Props.Padding
import Verif.Props.Erase
import Verif.Props.CircHori
import Verif.Props.CircGrad
import Verif.Props.EdgesExact
import Verif.Props.Chains
/-! Property C201 for erased lines, discs, rectangles and the edges of an image. -/

namespace Verif.Props.Padding
open Verif Spec Model Verif.Props Verif.Props.Laws

variable {u v u' v' : Bytes} {W H bits : Nat}

open Classical in
theorem of_alters (s : SameImage u v W H bits) {S : Nat → Nat → Prop} {f g : Nat → Nat → Nat} (hu : Alters u u' W H bits S f)
    (hv : Alters v v' W H bits S g) (h : ∀ x y, x < W → y < H → S x y → f x y = g x y) : SameImage u' v' W H bits := by
  refine ⟨hu.valid, hv.valid, fun h24 c hc => ?_, fun x y hx hy => ?_⟩
  · rw [palRGB_same hu.header s.left.depth h24 hc, palRGB_same hv.header s.left.depth h24 hc, s.palette h24 c hc]
  · by_cases g' : S x y
    · rw [hu.inside x y hx hy g', hv.inside x y hx hy g', h x y hx hy g']
    · rw [hu.outside x y hx hy g', hv.outside x y hx hy g', s.pixels x y hx hy]

/-! ### Erased lines -/

/-- C201: every `n`-th line erased, in the image, a rectangle or a disc. -/
theorem C201_erase (s : SameImage u v W H bits) {n : Int} (hn : n ≠ 0) (k p : Int) :
    Agree (erasealternatehorizontallines u n k p) (erasealternatehorizontallines v n k p) W H bits ∧
    (∀ x1 y1 x2 y2 : Int, Agree (erasealternatehorizontallinesinregion u x1 y1 x2 y2 n k p)
      (erasealternatehorizontallinesinregion v x1 y1 x2 y2 n k p) W H bits) ∧
    ∀ x y r : Int, SquareInside W H x y r → SquareInside W W x y r →
      Agree (erasealternatehorizontallinesincircregion u x y r n k p) (erasealternatehorizontallinesincircregion v x y r n k p) W H bits := by
  refine ⟨?_, fun x1 y1 x2 y2 => ?_, fun x y r hs hg => ?_⟩
  · obtain ⟨u', eu, pu⟩ := C78_erase_exact s.left hn k p
    obtain ⟨v', ev, pv⟩ := C78_erase_exact s.right hn k p
    exact ⟨u', v', eu, ev, of_alters s pu pv fun _ _ _ _ _ => rfl⟩
  · by_cases hi : InImage W H x1 y1 x2 y2
    · obtain ⟨u', eu, pu⟩ := C79_region_all s.left hi hn k p
      obtain ⟨v', ev, pv⟩ := C79_region_all s.right hi hn k p
      exact ⟨u', v', eu, ev, of_alters s pu pv fun _ _ _ _ _ => rfl⟩
    · exact ⟨u, v, C79_rejected s.left hi n k p, C79_rejected s.right hi n k p, s⟩
  · obtain ⟨u', eu, pu⟩ := C80_circ_exact s.left hs hg hn k p
    obtain ⟨v', ev, pv⟩ := C80_circ_exact s.right hs hg hn k p
    exact ⟨u', v', eu, ev, of_alters s pu pv fun _ _ _ _ _ => rfl⟩

/-! ### Discs -/

/-- The mirrored row is a row of the image. -/
theorem row_in {x y r : Int} (hs : SquareInside W H x y r) (t : CircV) {px py : Nat} (h : CircCols W bits x y r px py) :
    circRowSrc t y py < H := by
  obtain ⟨hw, h1, -⟩ := h
  obtain ⟨-, -, h2, h3⟩ := halfWidth_bounds h1
  have h4 := hs x (y + r) (by omega) (by omega)
  have h5 := hs x (y - r) (by omega) (by omega)
  have h6 := abs_le.mp h3
  unfold circRowSrc
  cases t <;> dsimp only <;> omega

/-- The mirrored column is a column of the image. -/
theorem col_in {x y r : Int} (hs : SquareInside W H x y r) (t : CircH) {px py : Nat} (h : ColSet x y r px py) :
    circColSrc t x px < W := by
  obtain ⟨lh, h1, -⟩ := h
  have h3 := lowHeight_bounds h1
  have h3 : |(px : Int) - x| ≤ r := by omega
  have h2 := abs_nonneg ((px : Int) - x)
  have h4 := hs (x + r) y (by omega) (by omega)
  have h5 := hs (x - r) y (by omega) (by omega)
  have h6 := abs_le.mp h3
  unfold circColSrc
  cases t <;> dsimp only <;> omega

/-- C201: the upper or lower half of a disc twice, and the disc upside down. -/
theorem C201_disc_vertical (s : SameImage u v W H bits) (t : CircV) {x y r : Int} (hs : SquareInside W H x y r) :
    Agree (verttransformincircregion t u x y r) (verttransformincircregion t v x y r) W H bits := by
  by_cases hg : SquareInside W W x y r
  · obtain ⟨u', eu, pu⟩ := C72_vert_exact t s.left hs hg
    obtain ⟨v', ev, pv⟩ := C72_vert_exact t s.right hs hg
    exact ⟨u', v', eu, ev, of_alters s pu pv fun px py hx _ h => s.pixels _ _ hx (row_in hs t h)⟩
  · exact ⟨u, v, C72_rejected t s.left hg, C72_rejected t s.right hg, s⟩

/-- C201: the left or right half of a disc twice, and the disc with left and right exchanged. -/
theorem C201_disc_horizontal (s : SameImage u v W H bits) (t : CircH) (x y r : Int) :
    Agree (horitransformincircregion t u x y r) (horitransformincircregion t v x y r) W H bits := by
  by_cases hg : (bits = 8 ∨ bits = 24) ∧ SquareInside W H x y r
  · obtain ⟨u', eu, pu⟩ := C73_hori_exact t s.left hg.1 hg.2
    obtain ⟨v', ev, pv⟩ := C73_hori_exact t s.right hg.1 hg.2
    exact ⟨u', v', eu, ev, of_alters s pu pv fun px py _ hy h => s.pixels _ _ (col_in hg.2 t h) hy⟩
  · exact ⟨u, v, C73_rejected t s.left hg, C73_rejected t s.right hg, s⟩

/-- C201: the colours of a disc complemented. -/
theorem C201_disc_invert (s : SameImage u v W H bits) {x y r : Int} (hx : 0 ≤ x * bits / 8 + dataOff bits) :
    Agree (invertbitsincircregion u x y r) (invertbitsincircregion v x y r) W H bits := by
  obtain ⟨u', eu, pu, -⟩ := C68_invertcirc_exact (r := r) (y := y) s.left hx
  obtain ⟨v', ev, pv, -⟩ := C68_invertcirc_exact (r := r) (y := y) s.right hx
  exact ⟨u', v', eu, ev, of_alters s pu pv fun px py hx hy _ => by rw [s.pixels px py hx hy]⟩

/-- C201: a disc of a 24-bit image made brighter or darker, all of it or by rows or columns. -/
theorem C201_disc_brightness (s : SameImage u v W H 24) {x y r : Int} :
    (-18 ≤ x → ∀ f : Nat → Int, Agree (brightnessadjcircregion f u x y r) (brightnessadjcircregion f v x y r) W H 24) ∧
    (SquareInside W H x y r → r ≠ 0 → ∀ f : Int → Nat → Int,
      Agree (vertbrightnessgrad2circregion f u x y r) (vertbrightnessgrad2circregion f v x y r) W H 24 ∧
      Agree (horibrightnessgrad2circregion f u x y r) (horibrightnessgrad2circregion f v x y r) W H 24) := by
  refine ⟨fun hx f => ?_, fun hs hr f => ⟨?_, ?_⟩⟩
  · obtain ⟨u', eu, pu⟩ := C69_brightness_exact (r := r) (y := y) s.left f hx
    obtain ⟨v', ev, pv⟩ := C69_brightness_exact (r := r) (y := y) s.right f hx
    exact ⟨u', v', eu, ev, of_alters s pu pv fun px py hx hy _ => by rw [s.pixels px py hx hy]⟩
  · obtain ⟨u', eu, pu⟩ := C76_vert_exact s.left f hs hr
    obtain ⟨v', ev, pv⟩ := C76_vert_exact s.right f hs hr
    exact ⟨u', v', eu, ev, of_alters s pu pv fun px py hx hy _ => by rw [s.pixels px py hx hy]⟩
  · obtain ⟨u', eu, pu⟩ := C76_hori_exact s.left f hs hr
    obtain ⟨v', ev, pv⟩ := C76_hori_exact s.right f hs hr
    exact ⟨u', v', eu, ev, of_alters s pu pv fun px py hx hy _ => by rw [s.pixels px py hx hy]⟩

/-- C201: a disc copied by a whole number of bytes. -/
theorem C201_disc_copy (s : SameImage u v W H bits) {x y r nx ny : Int} (hs : SquareInside W H x y r) (hs' : SquareInside W H nx ny r)
    (hal : 8 ∣ (nx - x) * bits) : Agree (copycircregion u x y r nx ny) (copycircregion v x y r nx ny) W H bits := by
  by_cases hg : SquareInside W W x y r
  swap
  · exact ⟨u, v, (C71_rejected s.left).1 hg, (C71_rejected s.right).1 hg, s⟩
  obtain ⟨u', eu, pu⟩ := C71_copy_exact s.left hs hg hs' hal
  obtain ⟨v', ev, pv⟩ := C71_copy_exact s.right hs hg hs' hal
  refine ⟨u', v', eu, ev, of_alters s pu pv fun px py hx hy ⟨hw, h1, h2, h3⟩ => ?_⟩
  obtain ⟨k1, k2, k3, k4⟩ := halfWidth_bounds h1
  have k5 := abs_le.mp k4
  have a1 := hs (x + r) (y + r) (by omega) (by omega)
  have a2 := hs (x - r) (y - r) (by omega) (by omega)
  have b1 := hs' (nx + r) (ny + r) (by omega) (by omega)
  have b2 := hs' (nx - r) (ny - r) (by omega) (by omega)
  refine s.pixels _ _ ?_ (by omega)
  rcases s.left.depth with rfl | rfl | rfl | rfl <;> push_cast at h2 h3 hal <;> omega

/-! ### Rectangles with left and right exchanged -/

/-- The column a pixel of the rectangle comes from is in the image. -/
theorem byteMirror_in (hd : Depth bits) (hw : FullBytes W bits) {x1 y1 x2 y2 : Int} (hi : InImage W H x1 y1 x2 y2) {x y : Nat}
    (h : ByteCols bits x1 y1 x2 y2 x y) : byteMirror bits x1 x2 x < W := by
  unfold FullBytes at hw
  unfold ByteCols at h
  unfold InImage at hi
  unfold byteMirror
  simp only [dxOf] at h ⊢
  rcases hd with rfl | rfl | rfl | rfl <;> norm_num at hw h ⊢ <;> omega

/-- C201: left and right of a rectangle exchanged, and its left or right half twice, if the rows end at the end of a byte. -/
theorem C201_horizontal_regions_partial (s : SameImage u v W H bits) (hw : FullBytes W bits) (x1 y1 x2 y2 : Int) :
    Agree (fliphorizontalregion u x1 y1 x2 y2) (fliphorizontalregion v x1 y1 x2 y2) W H bits ∧
    Agree (mirrorleftinregion u x1 y1 x2 y2) (mirrorleftinregion v x1 y1 x2 y2) W H bits ∧
    Agree (mirrorrightinregion u x1 y1 x2 y2) (mirrorrightinregion v x1 y1 x2 y2) W H bits := by
  by_cases hi : InImage W H x1 y1 x2 y2
  swap
  · obtain ⟨a1, a2, a3⟩ := C53_rejected s.left hi
    obtain ⟨b1, b2, b3⟩ := C53_rejected s.right hi
    exact ⟨⟨u, v, a1, b1, s⟩, ⟨u, v, a2, b2, s⟩, ⟨u, v, a3, b3, s⟩⟩
  have hm := fun {x y : Nat} (g : ByteCols bits x1 y1 x2 y2 x y) => byteMirror_in s.left.depth hw hi g
  refine ⟨?_, ?_, ?_⟩
  · obtain ⟨u', eu, pu⟩ := C53_exact s.left hi
    obtain ⟨v', ev, pv⟩ := C53_exact s.right hi
    refine ⟨u', v', eu, ev, of_redraws s pu pv fun x y hx hy => ?_⟩
    split_ifs with g g'
    · rfl
    · exact s.pixels _ _ (hm g) hy
    · exact s.pixels _ _ hx hy
  · obtain ⟨u', eu, pu⟩ := C54_left_exact s.left hi
    obtain ⟨v', ev, pv⟩ := C54_left_exact s.right hi
    refine ⟨u', v', eu, ev, of_redraws s pu pv fun x y hx hy => ?_⟩
    split_ifs with g g'
    · rfl
    · exact s.pixels _ _ (hm g.1) hy
    · exact s.pixels _ _ hx hy
  · obtain ⟨u', eu, pu⟩ := C54_right_exact s.left hi
    obtain ⟨v', ev, pv⟩ := C54_right_exact s.right hi
    refine ⟨u', v', eu, ev, of_redraws s pu pv fun x y hx hy => ?_⟩
    split_ifs with g g'
    · rfl
    · exact s.pixels _ _ (hm g.1) hy
    · exact s.pixels _ _ hx hy

/-! ### Colours and edges -/

theorem rgb_eq (s : SameImage u v W H bits) {x y : Nat} (hx : x < W) (hy : y < H) : pixRGB u W H bits x y = pixRGB v W H bits x y := by
  unfold pixRGB
  simp only [s.pixels x y hx hy]
  by_cases h24 : bits = 24
  · rw [if_pos h24, if_pos h24]
  · rw [if_neg h24, if_neg h24, s.palette h24 _ (s.right.pix_lt x y)]

/-- C201: the list of the colours of all pixels, and the pixels near a colour. -/
theorem C201_rgb (s : SameImage u v W H bits) (hH : 0 < H) (rgb : Int × Int × Int) (t : Int) :
    iterimageRGB u = iterimageRGB v ∧ getimageregionbyRGB u rgb t = getimageregionbyRGB v rgb t := by
  have row : ∀ y < H, scanRow W (fun x y => rgbI (pixRGB u W H bits x y)) y = scanRow W (fun x y => rgbI (pixRGB v W H bits x y)) y := by
    intro y hy
    unfold scanRow
    refine List.map_congr_left fun x hx => ?_
    simp only [List.mem_range] at hx
    simp only [rgb_eq s hx hy]
  have e : iterimageRGB u = iterimageRGB v := by
    by_cases hw : FullBytes W bits
    · rw [C39_iterimageRGB_partial s.left hw, C39_iterimageRGB_partial s.right hw]
      congr 1
      unfold scan
      exact List.flatMap_congr fun y hy => row y (by simpa using hy)
    · rw [C39_only_bottom_row s.left hw hH, C39_only_bottom_row s.right hw hH, row _ (by omega)]
  refine ⟨e, ?_⟩
  unfold getimageregionbyRGB
  rw [e]

theorem getRGB_eq (s : SameImage u v W H bits) (x y : Int) : getRGBxybit u x y = getRGBxybit v x y := by
  by_cases g : 0 ≤ x ∧ x < W ∧ 0 ≤ y ∧ y < H
  · obtain ⟨x, rfl⟩ := Int.eq_ofNat_of_zero_le g.1
    obtain ⟨y, rfl⟩ := Int.eq_ofNat_of_zero_le g.2.2.1
    rw [getRGB_spec s.left (by omega) (by omega), getRGB_spec s.right (by omega) (by omega), rgb_eq s (by omega) (by omega)]
  · rw [(C07_out_of_bounds s.left (by omega) 0).2.2, (C07_out_of_bounds s.right (by omega) 0).2.2]

theorem first_eq (s : SameImage u v W H bits) (q : RGB) (t : Int) (us : List (Int × Int)) :
    firstdifferent u q t us = firstdifferent v q t us := by
  induction us with
  | nil => rfl
  | cons a us ih =>
    unfold firstdifferent getRGBxybitvec
    rw [getRGB_eq s, ih]

/-- C201: the list of the edges, for any threshold. -/
theorem C201_edges (s : SameImage u v W H bits) (hH : 0 < H) (t : Int) : getimagedgevert u t = getimagedgevert v t := by
  unfold getimagedgevert
  rw [getmaxxy_eq s.left, getmaxxy_eq s.right, (C201_rgb s hH (0, 0, 0) 0).1]
  simp only [first_eq s]

/-- C201: the image with its edges marked. -/
theorem C201_plotimgedges (s : SameImage u v W H bits) (hH : 0 < H) (t : Int) {pen color : Int} (hc : IsColour bits color) :
    Agree (plotimgedges u t pen color) (plotimgedges v t pen color) W H bits := by
  obtain ⟨l, u', el, eu, pu⟩ := Edges.C124_plot_exact s.left hH t (pen := pen) hc
  obtain ⟨l', v', el', ev, pv⟩ := Edges.C124_plot_exact s.right hH t (pen := pen) hc
  rw [C201_edges s hH t, el'] at el
  cases el
  exact ⟨u', v', eu, ev, of_paints s pu pv⟩

/-! ### Files -/

/-- C201: one file program, and what is needed of the function it calls. -/
theorem C201_applysave {fs gs : Files} {ex : String} (hu : Stored fs ex u W H bits)
    (hv : Stored gs ex v W H bits) (nw : String) {W' H' : Nat} {f : Bytes → Py Bytes} (hf : Agree (f u) (f v) W' H' bits) :
    ∃ fs' gs' u' v', applysave f fs ex nw = .ok fs' ∧ applysave f gs ex nw = .ok gs' ∧ fs' nw = some u' ∧ gs' nw = some v' ∧
      SameImage u' v' W' H' bits := by
  obtain ⟨u', v', eu, ev, s'⟩ := hf
  refine ⟨writeFile fs nw u', writeFile gs nw v', u', v', ?_, ?_, by simp [writeFile, saveBMP], by simp [writeFile, saveBMP], s'⟩
  · rw [applysave_run hu, eu]; rfl
  · rw [applysave_run hv, ev]; rfl

/-- C201: chains of file programs that start with two files with the same image end with two such files. -/
theorem C201_chain (s : SameImage u v W H bits) {fs gs : Files} {src : String} (hu : Stored fs src u W H bits)
    (hv : Stored gs src v W H bits) {l : List (Chains.Program × String)} (hl : ∀ t ∈ l, Chains.Fitting W H bits t.1) :
    ∃ fs' gs' u' v', Chains.runAll fs src l = .ok fs' ∧ Chains.runAll gs src l = .ok gs' ∧
      fs' (Chains.lastFile src l) = some u' ∧ gs' (Chains.lastFile src l) = some v' ∧ SameImage u' v' W H bits := by
  obtain ⟨fs', u', e1, h1, r1, -⟩ := Chains.C194_chain hu hl
  obtain ⟨gs', v', e2, h2, r2, -⟩ := Chains.C194_chain hv hl
  exact ⟨fs', gs', u', v', e1, e2, h1.content, h2.content, of_redraws s r1 r2 fun x y hx hy =>
    Chains.shown_congr hl s.pixels hx hy⟩

/-- A 1-bit image with a white pixel in the lower row, and the same image with other bits behind the rows: the same lines are
erased, and the same edges found. -/
example : (do let u ← plotxybit (← newBMP 3 3 1) 1 2 1; let v := u.set 62 (u.getD 62 0 + 7)
              let u' ← erasealternatehorizontallines u 2 1 0xff; let v' ← erasealternatehorizontallines v 2 1 0xff
              pure (decide (u = v), (← iterimagecolor u').map Prod.snd, decide (u' = v'), (← iterimagecolor v').map Prod.snd,
                decide ((← getimagedgevert u 5) = (← getimagedgevert v 5)), (← getimagedgevert v 5).length)) =
    .ok (false, [0, 1, 0, 0, 0, 0, 1, 1, 1], false, [0, 1, 0, 0, 0, 0, 1, 1, 1], true, 3) := by decide +kernel

end Verif.Props.Padding
