import Verif.Props.PensFar
/-! Axes anywhere, also partly outside of the image (C143): arrows and marks are those of the lines with their ends moved to
the edge (C24), and the grid is left out as soon as one of its corners is outside. -/

namespace Verif.Props.Far
open Verif Spec Model Verif.Props Verif.Props.Plane

variable {W H bits : Nat}

/-- C96: rows of equal length from every point of a list, wherever none of them deletes bytes or fails. -/
theorem horilinevert_safe {b : Bytes} (h : Valid b W H bits) {len adj color : Int}
    (hc : IsColour bits color) {v : List (Int × Int)} (hok : ∀ p ∈ v, LineSafe W H bits p.1 (p.1 + len + adj) p.2) :
    ∃ b', horilinevert b v len adj color = .ok b' ∧
      Paints b b' W H bits (fun px py => ∃ p ∈ v, RowSet W bits p.2 p.1 (p.1 + len + adj) px py) color.toNat :=
  foldl_paints (fun bmp (p : Int × Int) => horiline bmp p.2 p.1 (p.1 + len + adj) color)
    (fun p => RowSet W bits p.2 p.1 (p.1 + len + adj)) v
    (fun _ hb p hp => horiline_safe hb hc (hok p hp)) h

/-- C143: all axes that go right and up, also those that leave the image, if the lines of the arrows are none of the diagonals
of C24, the columns do not start below the image (C20) and the marks of the rows do no harm (C19). The grid is drawn only if it is in
the image as a whole. -/
theorem C143_axes_safe {b : Bytes} (h : Valid b W H bits) {ox oy sx sy xl yl : Int} (hsx : 0 < sx) (hsy : 0 < sy)
    (hox : ox < xl) (hoy : yl < oy) (hW : 0 < W) (hH : 0 < H)
    (hup : ∀ s ∈ [((ox, oy), (ox, yl)), ((ox, yl), (ox + 4, yl + 9)), ((ox, yl), (ox - 4, yl + 9))], LineOK W H bits s.1 s.2)
    (hri : ∀ s ∈ [((ox, oy), (xl, oy)), ((xl, oy), (xl - 9, oy + 4)), ((xl, oy), (xl - 9, oy - 4))], LineOK W H bits s.1 s.2)
    (hcol : bits = 1 ∨ bits = 4 ∨ oy < H) (hrow : ∀ k : Nat, yl < oy - sy * k → LineSafe W H bits ox (ox - 3) (oy - sy * k))
    (vx vy dx dy : Int) {color textcolor gridcolor : Int} (hc : IsColour bits color) (hg : IsColour bits gridcolor)
    (ht : IsColour bits textcolor) {font : Bytes} (hf : font ≠ []) (h58 : 58 * byte font 0 < font.length) (showgrid : Bool) :
    ∃ b' vmax, XYaxis font b (ox, oy) (sx, sy) (xl, yl) (vx, vy) (dx, dy) color textcolor showgrid gridcolor =
        .ok (b', ⟨(ox, oy), (sx, sy), (xl, yl), ((vx : ℚ), (vy : ℚ)), ((dx : ℚ), (dy : ℚ)), vmax⟩) ∧
      (∀ k : Nat, ox + sx * k < xl → xl ≤ ox + sx * (k + 1) → vmax.1 = ((vx + k * dx : Int) : ℚ)) ∧
      (∀ k : Nat, yl < oy - sy * k → oy - sy * (k + 1) ≤ yl → vmax.2 = ((vy + k * dy : Int) : ℚ)) ∧
      Layered b b' W H bits ((if showgrid = true ∧ 0 ≤ ox ∧ xl < W ∧ 0 ≤ yl ∧ oy < H then [(GridSet W bits ox yl xl oy sx sy, gridcolor.toNat)] else []) ++ [
        (ArrowSet W H bits [((ox, oy), (ox, yl)), ((ox, yl), (ox + 4, yl + 9)), ((ox, yl), (ox - 4, yl + 9))], color.toNat),
        (ArrowSet W H bits [((ox, oy), (xl, oy)), ((xl, oy), (xl - 9, oy + 4)), ((xl, oy), (xl - 9, oy - 4))], color.toNat),
        (fun px py => ∃ k : Nat, ox + sx * k < xl ∧ VSeg (ox + sx * k) oy (oy + 3) px py, color.toNat),
        (fun px py => ∃ k : Nat, yl < oy - sy * k ∧ RowSet W bits (oy - sy * k) ox (ox - 3) px py, color.toNat),
        (fun px py => ∃ k : Nat, yl < oy - sy * k ∧ TextSet W H font (pyStr (vy + k * dy)) 1 0 0
          (ox - 15 - 8 * (((pyStr (vy + k * dy)).length : Int) - 1)) (oy - sy * k - 4) px py, textcolor.toNat),
        (fun px py => ∃ k : Nat, ox + sx * k < xl ∧ TextSet W H font (pyStr (vx + k * dx)) 1 0 0
          (ox + sx * k - 4) (oy + 7) px py, textcolor.toNat)]) := by
  have hd : DotOK bits 1 0 textcolor := ⟨fun e => by subst e; exact ⟨ht.1, by exact_mod_cast ht.2⟩, Or.inl (by unfold dotSide; simp)⟩
  obtain ⟨m, em, hm⟩ := range_up (a := ox) (z := xl) hsx
  obtain ⟨n, en, hn⟩ := range_down (a := oy) (z := yl) hsy
  set hv : List (Int × Int) := ((List.range m).map fun (k : Nat) => ox + sx * (k : Int)).map fun x => (x, oy) with hhv
  set vv : List (Int × Int) := ((List.range n).map fun (k : Nat) => oy + -sy * (k : Int)).map fun y => (ox, y) with hvv
  have mh : ∀ p : Int × Int, p ∈ hv ↔ ∃ k : Nat, ox + sx * k < xl ∧ p = (ox + sx * k, oy) := by
    intro p
    simp only [hhv, List.map_map, List.mem_map, List.mem_range, Function.comp]
    constructor
    · rintro ⟨k, hk, rfl⟩; exact ⟨k, (hm k).mp hk, rfl⟩
    · rintro ⟨k, hk, rfl⟩; exact ⟨k, (hm k).mpr hk, rfl⟩
  have mv : ∀ p : Int × Int, p ∈ vv ↔ ∃ k : Nat, yl < oy - sy * k ∧ p = (ox, oy - sy * k) := by
    intro p
    simp only [hvv, List.map_map, List.mem_map, List.mem_range, Function.comp]
    constructor
    · rintro ⟨k, hk, rfl⟩; exact ⟨k, (hn k).mp hk, by rw [Prod.mk.injEq]; exact ⟨rfl, by ring⟩⟩
    · rintro ⟨k, hk, rfl⟩; exact ⟨k, (hn k).mpr hk, by rw [Prod.mk.injEq]; exact ⟨rfl, by ring⟩⟩
  have gh : ∀ (k : Nat) (p : Int × Int), hv[k]? = some p ↔ ox + sx * k < xl ∧ p = (ox + sx * k, oy) := by
    intro k p
    rw [← hm k, hhv, List.map_map, List.getElem?_map]
    by_cases hk : k < m
    · rw [List.getElem?_range hk]; simp [hk, eq_comm]
    · rw [List.getElem?_eq_none (by simpa using hk)]; simp [hk]
  have gv : ∀ (k : Nat) (p : Int × Int), vv[k]? = some p ↔ yl < oy - sy * k ∧ p = (ox, oy - sy * k) := by
    intro k p
    rw [← hn k, hvv, List.map_map, List.getElem?_map, show oy - sy * (k : Int) = oy + -sy * k by ring]
    by_cases hk : k < n
    · rw [List.getElem?_range hk]; simp [hk, eq_comm]
    · rw [List.getElem?_eq_none (by simpa using hk)]; simp [hk]
  have nh : hv.Nodup := by
    rw [hhv, List.map_map]
    refine List.Nodup.map (fun i j e => ?_) List.nodup_range
    have e1 : ox + sx * (i : Int) = ox + sx * (j : Int) := congrArg Prod.fst e
    have := mul_left_cancel₀ (ne_of_gt hsx) (add_left_cancel e1)
    exact_mod_cast this
  have nv : vv.Nodup := by
    rw [hvv, List.map_map]
    refine List.Nodup.map (fun i j e => ?_) List.nodup_range
    have e1 : oy + -sy * (i : Int) = oy + -sy * (j : Int) := congrArg Prod.snd e
    have := mul_left_cancel₀ (ne_of_lt (by omega : -sy < 0)) (add_left_cancel e1)
    exact_mod_cast this
  have grid : ∃ b', (showgrid = true → xygridvec b (ox, oy) (xl, yl) (sx, sy) gridcolor = .ok b') ∧ (showgrid = false → b' = b) ∧
      Layered b b' W H bits (if showgrid = true ∧ 0 ≤ ox ∧ xl < W ∧ 0 ≤ yl ∧ oy < H then [(GridSet W bits ox yl xl oy sx sy, gridcolor.toNat)] else []) := by
    cases showgrid
    · exact ⟨b, fun g => absurd g (by simp), fun _ => rfl, by rw [if_neg (by simp)]; exact Layered.nil h⟩
    · by_cases g : 0 ≤ ox ∧ xl < W ∧ 0 ≤ yl ∧ oy < H
      · obtain ⟨b', e, p⟩ := C96_xygrid_partial h (x1 := ox) (y1 := oy) (x2 := xl) (y2 := yl) hg
          (by unfold InImage; omega) hsx hsy
        rw [show min ox xl = ox by omega, show min oy yl = yl by omega, show max ox xl = xl by omega,
          show max oy yl = oy by omega] at p
        exact ⟨b', fun _ => e, fun g => absurd g (by simp), by rw [if_pos ⟨rfl, g⟩]; exact Layered.one p⟩
      · refine ⟨b, fun _ => ?_, fun _ => rfl, by rw [if_neg (fun q => g q.2)]; exact Layered.nil h⟩
        unfold xygridvec xygrid
        rw [rect_guard h, if_neg (by omega)]
  obtain ⟨b1, e1, e1', p1⟩ := grid
  obtain ⟨b2, e2, p2⟩ := C141_drawvec_partial p1.valid hW hH hc (u := (ox, oy)) (v := (ox, yl)) (headsize := 10) (by
    rw [C141_up ox oy yl hoy]; exact hup)
  rw [C141_up ox oy yl hoy] at p2
  obtain ⟨b3, e3, p3⟩ := C141_drawvec_partial p2.valid hW hH hc (u := (ox, oy)) (v := (xl, oy)) (headsize := 10) (by
    rw [C141_right ox xl oy hox]; exact hri)
  rw [C141_right ox xl oy hox] at p3
  obtain ⟨b4, e4, p4⟩ := C96_vertlinevert_partial p3.valid (v := hv) (len := 5) (adj := -2) hc (hcol.imp id fun g => g.imp id fun g => by
    intro p hp
    obtain ⟨k, -, rfl⟩ := (mh p).mp hp
    dsimp only; omega)
  obtain ⟨b5, e5, p5⟩ := horilinevert_safe p4.valid (v := vv) (len := -3) (adj := 0) hc (by
    intro p hp
    obtain ⟨k, hk, rfl⟩ := (mv p).mp hp
    dsimp only
    rw [show ox + -3 + 0 = ox - 3 by ring]
    exact hrow k hk)
  obtain ⟨b6, e6, p6⟩ := C143_numbers_partial p5.valid nv hf h58 hd (-15) (-4) vy dy 0 false false true
  obtain ⟨b7, e7, p7⟩ := C143_numbers_partial p6.valid nh hf h58 hd (-4) 7 vx dx 0 false false false
  rw [reduce_of_colour h.depth ht] at p6 p7
  refine ⟨b7, (((vx + ((hv.length : Int) - 1) * dx : Int) : ℚ), ((vy + ((vv.length : Int) - 1) * dy : Int) : ℚ)), ?_, ?_, ?_, ?_⟩
  · unfold XYaxis horizontalvert verticalvert
    dsimp only
    rw [em, en]
    simp only [ok_bind, pure_eq_ok]
    cases showgrid
    · rw [if_neg (by simp), ← e1' rfl, e2, ok_bind, e3, ok_bind, e4, ok_bind, e5, ok_bind, e6, ok_bind, e7, ok_bind]
    · rw [if_pos rfl, e1 rfl, ok_bind, e2, ok_bind, e3, ok_bind, e4, ok_bind, e5, ok_bind, e6, ok_bind, e7, ok_bind]
  · intro k k1 k2
    have l : hv.length = m := by simp [hhv]
    have : k < m := (hm k).mpr k1
    have : ¬ (k + 1 < m) := fun g => by have := (hm (k + 1)).mp g; push_cast at this; omega
    dsimp only
    rw [l, show (m : Int) - 1 = k by omega]
  · intro k k1 k2
    have l : vv.length = n := by simp [hvv]
    have : k < n := (hn k).mpr k1
    have : ¬ (k + 1 < n) := fun g => by have := (hn (k + 1)).mp g; push_cast at this; omega
    dsimp only
    rw [l, show (n : Int) - 1 = k by omega]
  · refine p1.append ((Layered.one p2).append ((Layered.one p3).append ((Layered.one (p4.congr ?_)).append
      ((Layered.one (p5.congr ?_)).append ((Layered.one (p6.congr ?_)).append (Layered.one (p7.congr ?_)))))))
    · intro px py _ _
      constructor
      · rintro ⟨k, hk, g⟩
        exact ⟨_, (mh _).mpr ⟨k, hk, rfl⟩, by dsimp only; rwa [show oy + 5 + -2 = oy + 3 by ring]⟩
      · rintro ⟨p, hp, g⟩
        obtain ⟨k, hk, rfl⟩ := (mh p).mp hp
        dsimp only at g
        exact ⟨k, hk, by rwa [show oy + 5 + -2 = oy + 3 by ring] at g⟩
    · intro px py _ _
      constructor
      · rintro ⟨k, hk, g⟩
        exact ⟨_, (mv _).mpr ⟨k, hk, rfl⟩, by dsimp only; rwa [show ox + -3 + 0 = ox - 3 by ring]⟩
      · rintro ⟨p, hp, g⟩
        obtain ⟨k, hk, rfl⟩ := (mv p).mp hp
        dsimp only at g
        exact ⟨k, hk, by rwa [show ox + -3 + 0 = ox - 3 by ring] at g⟩
    · intro px py _ _
      constructor
      · rintro ⟨k, hk, g⟩
        refine ⟨k, _, (gv k _).mpr ⟨hk, rfl⟩, by simp, by simp, ?_⟩
        dsimp only
        rw [show ox + -15 - labelShift true (pyStr (vy + k * dy)) = ox - 15 - 8 * (((pyStr (vy + k * dy)).length : Int) - 1) by
          unfold labelShift; rw [if_pos rfl]; ring, show oy - sy * k + -4 = oy - sy * k - 4 by ring]
        exact g
      · rintro ⟨k, p, hp, -, -, g⟩
        obtain ⟨hk, rfl⟩ := (gv k p).mp hp
        refine ⟨k, hk, ?_⟩
        dsimp only at g
        rw [show ox + -15 - labelShift true (pyStr (vy + k * dy)) = ox - 15 - 8 * (((pyStr (vy + k * dy)).length : Int) - 1) by
          unfold labelShift; rw [if_pos rfl]; ring, show oy - sy * k + -4 = oy - sy * k - 4 by ring] at g
        exact g
    · intro px py _ _
      constructor
      · rintro ⟨k, hk, g⟩
        refine ⟨k, _, (gh k _).mpr ⟨hk, rfl⟩, by simp, by simp, ?_⟩
        dsimp only
        rw [show ox + sx * k + -4 - labelShift false (pyStr (vx + k * dx)) = ox + sx * k - 4 by
          unfold labelShift; rw [if_neg (by simp)]; ring]
        exact g
      · rintro ⟨k, p, hp, -, -, g⟩
        obtain ⟨hk, rfl⟩ := (gh k p).mp hp
        refine ⟨k, hk, ?_⟩
        dsimp only at g
        rw [show ox + sx * k + -4 - labelShift false (pyStr (vx + k * dx)) = ox + sx * k - 4 by
          unfold labelShift; rw [if_neg (by simp)]; ring] at g
        exact g

/-- A line is none of the diagonals of C24 if its ends in the image are not equally far apart in both directions. -/
theorem lineOK_of_ne {p q : Int × Int}
    (hd : (clampTo q.1 W - clampTo p.1 W).natAbs ≠ (clampTo q.2 H - clampTo p.2 H).natAbs ∨ clampTo p.1 W = clampTo q.1 W) :
    LineOK W H bits p q := by
  intro g g'
  rw [Int.abs_eq_natAbs, Int.abs_eq_natAbs] at g
  rcases hd with hd | hd
  · exact absurd (by exact_mod_cast g) hd
  · exact absurd hd g'

/-- C143: the conditions of `C143_axes_safe` are met whenever the origin and the ends of the axes are in the image and the ends
are not within five pixels of the left and the lower edge; the heads of the arrows and the marks may leave the image. -/
theorem C143_places (hb : Depth bits) {ox oy sy xl yl : Int} (h1 : 0 ≤ ox ∧ ox < xl ∧ xl < W ∧ 5 ≤ xl)
    (h2 : 0 ≤ yl ∧ yl < oy ∧ oy < H ∧ yl + 5 < H) :
    (∀ s ∈ [((ox, oy), (ox, yl)), ((ox, yl), (ox + 4, yl + 9)), ((ox, yl), (ox - 4, yl + 9))], LineOK W H bits s.1 s.2) ∧
    (∀ s ∈ [((ox, oy), (xl, oy)), ((xl, oy), (xl - 9, oy + 4)), ((xl, oy), (xl - 9, oy - 4))], LineOK W H bits s.1 s.2) ∧
    (bits = 1 ∨ bits = 4 ∨ oy < H) ∧ ∀ k : Nat, yl < oy - sy * k → LineSafe W H bits ox (ox - 3) (oy - sy * k) := by
  refine ⟨fun s hs => ?_, fun s hs => ?_, Or.inr (Or.inr h2.2.2.1), fun k _ py hy _ => ?_⟩
  · simp only [List.mem_cons, List.not_mem_nil, or_false] at hs
    rcases hs with rfl | rfl | rfl <;> refine lineOK_of_ne ?_ <;> unfold clampTo <;> dsimp only <;> omega
  · simp only [List.mem_cons, List.not_mem_nil, or_false] at hs
    rcases hs with rfl | rfl | rfl <;> refine lineOK_of_ne ?_ <;> unfold clampTo <;> dsimp only <;> omega
  · exact rowSafe_of_rowOK hb (rowOK_of_meets hb (by omega) (by omega)) hy

/-- C143 for axes that start in the lower left corner of the image. -/
example {b : Bytes} (h : Valid b 60 60 8) {font : Bytes} (hf : font ≠ []) (h58 : 58 * byte font 0 < font.length) :
    ∃ b', XYaxis font b (0, 59) (10, 10) (50, 20) (0, 0) (5, 5) 7 8 true 9 =
      .ok (b', ⟨(0, 59), (10, 10), (50, 20), (0, 0), (5, 5), (20, 15)⟩) := by
  obtain ⟨g1, g2, g3, g4⟩ := C143_places (W := 60) (H := 60) (ox := 0) (oy := 59) (sy := 10) (xl := 50) (yl := 20) h.depth
    (by norm_num) (by norm_num)
  obtain ⟨b', vmax, e, h1, h2, -⟩ := C143_axes_safe h (ox := 0) (oy := 59) (sx := 10) (sy := 10) (xl := 50) (yl := 20)
    (by norm_num) (by norm_num) (by norm_num) (by norm_num) (by norm_num) (by norm_num) g1 g2 g3 g4 0 0 5 5 (color := 7) (textcolor := 8)
    (gridcolor := 9) ⟨by norm_num, by norm_num⟩ ⟨by norm_num, by norm_num⟩ ⟨by norm_num, by norm_num⟩ hf h58 true
  refine ⟨b', ?_⟩
  rw [e]
  have a1 := h1 4 (by norm_num) (by norm_num)
  have a2 := h2 3 (by norm_num) (by norm_num)
  norm_num at a1 a2
  norm_num
  exact Prod.ext a1 a2

/-- C143: a grid that is not in the image as a whole is not drawn at all. -/
theorem C143_grid_left_out {b : Bytes} (h : Valid b W H bits) {u v : Int × Int} (st : Int × Int) (color : Int)
    (ho : ¬ (0 ≤ u.1 ∧ u.1 < W ∧ 0 ≤ u.2 ∧ u.2 < H) ∨ ¬ (0 ≤ v.1 ∧ v.1 < W ∧ 0 ≤ v.2 ∧ v.2 < H)) :
    xygridvec b u v st color = .ok b := by
  unfold xygridvec xygrid
  rw [rect_guard h, if_neg (by tauto)]

example : xygridvec sample8 (0, 3) (3, 0) (1, 1) 5 = .ok sample8 :=
  C143_grid_left_out (W := 3) (H := 4) (bits := 8) sample8_valid (1, 1) 5 (Or.inr (by norm_num))

end Verif.Props.Far
