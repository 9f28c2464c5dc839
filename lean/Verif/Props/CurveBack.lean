import Verif.Props.FlakeRows
import Verif.Props.Marks
/-! Files with Hilbert curves and snowflakes of all depths and with all backgrounds (C162, C163). On 4-bit images of odd width the last
column of the background stays 0, and on 8-bit images the background has the nearest colour of the palette to blue of the
given strength (C22). -/

namespace Verif.Props.CurveFiles
open Verif Spec Model Verif.Props Verif.Props.Edge Verif.Props.Dots

/-- The pixels of a line with a pen of the given width. -/
def PenLine (W H bits : Nat) (pen : Int) (p q : Int × Int) (x y : Nat) : Prop :=
  if pen ≤ 1 then LineSet W H bits p q x y else StrokeSet W bits pen p q x y

/-- C162 for all depths, backgrounds and pens. -/
theorem C162_hilbert_depths (fs : Files) (file : String) {W H bits n : Nat} (hd : Depth bits) (hW : 0 < W ∧ W < 2 ^ 24) (hH : 0 < H ∧ H < 2 ^ 24)
    (hm : max W H * 2 ^ (n + 2) ≤ 2 ^ 53) {color bg orientation : Int} (pen : Int) (hc : IsColour bits color) (hbg : bg ≤ 0 ∨ IsColour bits bg)
    (ho : orientation ≠ 1) :
    ∃ fs' cells, Tour (2 ^ n) cells ∧ savehilbertcurve2file fs file W H n bits color bg pen orientation = .ok fs' ∧
      Saved fs fs' file (fun b => Valid b W H bits ∧ ∃ g, GroundValue b bits bg g ∧ ∀ x y, x < W → y < H →
        ((∃ c c', Consec cells c c' ∧ PenLine W H bits pen (centre W n c.1, centre H n c.2) (centre W n c'.1, centre H n c'.2) x y) →
          pix b W H bits x y = color.toNat) ∧
        ((¬ ∃ c c', Consec cells c c' ∧ PenLine W H bits pen (centre W n c.1, centre H n c.2) (centre W n c'.1, centre H n c'.2) x y) →
          pix b W H bits x y = if bits = 4 ∧ W % 2 = 1 ∧ x + 1 = W then 0 else g)) := by
  obtain ⟨b, g, e, hv, hg, hb⟩ := new_ground_depths hd hW hH hbg
  obtain ⟨cells, t, ep⟩ := hilbert_points hW.1 hH.1 hm
  have hin : ∀ c ∈ cells, (0 ≤ centre W n c.1 ∧ centre W n c.1 < W) ∧ (0 ≤ centre H n c.2 ∧ centre H n c.2 < H) := by
    intro c hc
    have := (t.all c.1 c.2).mp hc
    exact ⟨centre_in hW.1 this.1, centre_in hH.1 this.2⟩
  have hmem : ∀ {c c'}, Consec cells c c' → c ∈ cells ∧ c' ∈ cells := by
    rintro c c' ⟨s, u, rfl⟩
    simp
  have hax : ∀ {c c'}, Consec cells c c' → (centre W n c.1 = centre W n c'.1 ∨ centre H n c.2 = centre H n c'.2) := by
    rintro c c' ⟨s, u, e⟩
    have hb : Beside c c' := by
      have := t.steps
      rw [e, List.isChain_append] at this
      exact (List.isChain_cons_cons.mp this.2.1).1
    unfold Beside at hb
    by_cases h : c.1 = c'.1
    · left; rw [h]
    · right
      have h1 : 0 < |c.1 - c'.1| := abs_pos.mpr (sub_ne_zero.mpr h)
      have h2 := abs_nonneg (c.2 - c'.2)
      have : |c.2 - c'.2| = 0 := by omega
      rw [abs_eq_zero] at this
      rw [show c.2 = c'.2 by omega]
  obtain ⟨b', e', p⟩ : ∃ b', plotlines b (cells.map fun c => (centre W n c.1, centre H n c.2)) color pen = .ok b' ∧
      Paints b b' W H bits (fun x y => ∃ c c', Consec cells c c' ∧
        PenLine W H bits pen (centre W n c.1, centre H n c.2) (centre W n c'.1, centre H n c'.2) x y) color.toNat := by
    by_cases hpen : pen ≤ 1
    · obtain ⟨b', e', p⟩ := C93_plotlines_partial hv hW.1 hH.1 hc hpen (v := cells.map fun c => (centre W n c.1, centre H n c.2)) (by
        intro p q hcons
        obtain ⟨c, c', hcc, rfl, rfl⟩ := (consec_map _ _ _ _).mp hcons
        have m := hmem hcc
        have i1 := hin c m.1
        have i2 := hin c' m.2
        intro hd hne
        dsimp only at hd hne
        rw [clamp_id i1.1, clamp_id i1.2, clamp_id i2.1, clamp_id i2.2] at hd
        rw [clamp_id i1.1, clamp_id i2.1] at hne
        exfalso
        rcases hax hcc with h | h
        · exact hne h
        · rw [h, sub_self, abs_zero, abs_eq_zero] at hd
          omega)
      refine ⟨b', e', p.congr fun x y _ _ => ?_⟩
      simp only [PenLine, if_pos hpen]
      constructor
      · rintro ⟨c, c', hcc, hbt⟩
        exact ⟨_, _, (consec_map _ _ _ _).mpr ⟨c, c', hcc, rfl, rfl⟩, hbt⟩
      · rintro ⟨p, q, hcons, hl⟩
        obtain ⟨c, c', hcc, rfl, rfl⟩ := (consec_map _ _ _ _).mp hcons
        exact ⟨c, c', hcc, hl⟩
    · obtain ⟨b', e', p⟩ := C95_plotlines_partial hv (pen := pen) hc (by omega) (v := cells.map fun c => (centre W n c.1, centre H n c.2)) (by
        intro p hp
        obtain ⟨c, hcm, rfl⟩ := List.mem_map.mp hp
        have := centre_in (n := n) hW.1 ((t.all c.1 c.2).mp hcm).1
        exact penOK_in hd this.1 this.2)
      refine ⟨b', e', p.congr fun x y _ _ => ?_⟩
      simp only [PenLine, if_neg hpen]
      constructor
      · rintro ⟨c, c', hcc, hbt⟩
        exact ⟨_, _, (consec_map _ _ _ _).mpr ⟨c, c', hcc, rfl, rfl⟩, hbt⟩
      · rintro ⟨p, q, hcons, hl⟩
        obtain ⟨c, c', hcc, rfl, rfl⟩ := (consec_map _ _ _ _).mp hcons
        exact ⟨c, c', hcc, hl⟩
  refine ⟨writeFile fs file b', cells, t, ?_, Escape.write_saved fs file ⟨p.valid, g, (groundValue_same p.header g).mpr hg, ?_⟩⟩
  · unfold savehilbertcurve2file newWithBackground
    rw [e, ok_bind]
    dsimp only
    rw [if_neg ho, ep, e', ok_bind, pure_eq_ok]
  · intro x y hx hy
    refine ⟨fun hs => p.inside x y hx hy hs, fun hs => ?_⟩
    rw [p.outside x y hx hy hs]
    exact hb x y hx hy

/-- A thin curve on a 4-bit image with a background: the last pixel of a row with an even left end is missing. -/
example : ((savehilbertcurve2file (fun _ => none) "h" 5 5 1 4 7 2 1 0).map fun fs => (fs "h").map fun b =>
    ((List.range 5).map fun y => (List.range 5).map fun x => pix b 5 5 4 x y)) =
    .ok (some [[2, 2, 2, 2, 0], [2, 7, 7, 7, 0], [2, 2, 2, 7, 0], [2, 7, 7, 7, 0], [2, 2, 2, 2, 0]]) := by decide +kernel

/-- C163 for all depths, backgrounds and pens, unless the pen is one pixel wide and a line is a diagonal that ends in the first row. -/
theorem C163_snowflake_depths (fs : Files) (file : String) {r pen : Nat} (hpen : 1 ≤ pen) (n : Nat) (angle : ℝ) {bits : Nat} (hd : Depth bits)
    (hs : 2 * r + 2 * pen + 2 < 2 ^ 24) {color bg : Int} (hc : IsColour bits color) (hbg : bg ≤ 0 ∨ IsColour bits bg)
    (h1 : pen = 1 → bits = 1 ∨ ∀ p q, Consec (flake (r + pen : Nat) (r + pen : Nat) r angle n) p q →
      ¬ Tops (2 * r + 2 * pen + 2) (2 * r + 2 * pen + 2) p q) :
    let N := 2 * r + 2 * pen + 2
    let v := flake (r + pen : Nat) (r + pen : Nat) r angle n
    (∀ p ∈ v, (0 ≤ p.1 ∧ p.1 < N) ∧ (0 ≤ p.2 ∧ p.2 < N)) ∧
    ∃ fs', savekochsnowflake2file fs file r n angle bits color bg pen = .ok fs' ∧
      Saved fs fs' file (fun b => Valid b N N bits ∧ ∃ g, GroundValue b bits bg g ∧ ∀ x y, x < N → y < N →
        let drawn := ∃ p q, (Consec v p q ∨ (v.head? = some p ∧ v.getLast? = some q)) ∧
          if pen = 1 then LineSet N N bits p q x y else StrokeSet N bits pen p q x y
        (drawn → pix b N N bits x y = color.toNat) ∧ (¬ drawn → pix b N N bits x y = g)) := by
  intro N v
  have hN : N = 2 * r + 2 * pen + 2 := rfl
  have hin : ∀ p ∈ v, (0 ≤ p.1 ∧ p.1 < N) ∧ (0 ≤ p.2 ∧ p.2 < N) := by
    intro p hp
    have := C163_inside (by omega) angle n p hp
    rw [abs_le, abs_le] at this
    push_cast at this
    omega
  refine ⟨hin, ?_⟩
  obtain ⟨b, g, e, hv, hg, hb⟩ := new_ground_depths (W := N) (H := N) hd ⟨by omega, hs⟩ ⟨by omega, hs⟩ hbg
  obtain ⟨pts, ek, -, hhead, hlast, epts⟩ := C107_snowflake (koch (Real.sqrt 3 / 6)) 0 (pixelC (r + pen : Nat) (r + pen : Nat) r angle 0)
    (pixelC (r + pen : Nat) (r + pen : Nat) r angle 1) (pixelC (r + pen : Nat) (r + pen : Nat) r angle 2) n
  have ev : pts.map (fun p => (rndR p.re, rndR p.im)) = v := by rw [epts]; rfl
  obtain ⟨u, hu⟩ : ∃ u, v.head? = some u := ⟨_, by rw [← ev, List.head?_map, hhead]; rfl⟩
  have hw : v.getLast? = some u := by
    have h1 : v.head? = v.getLast? := by rw [← ev, List.head?_map, List.getLast?_map, hhead, hlast]
    rw [← h1]; exact hu
  have hdraw : ∃ b', (if (pen : Int) > 1 then thickplotpoly b v pen color else plotpoly b v color) = .ok b' ∧
      Paints b b' N N bits (fun x y => ∃ p q, (Consec v p q ∨ (p = u ∧ q = u)) ∧
        if pen = 1 then LineSet N N bits p q x y else StrokeSet N bits pen p q x y) color.toNat := by
    by_cases hp1 : pen = 1
    · rw [if_neg (by omega)]
      obtain ⟨b', e', p⟩ := C93_plotpoly_partial hv (by omega) (by omega) hc hu hw (by
        intro p q hpq
        rcases hpq with hpq | ⟨rfl, rfl⟩
        · subst hp1
          exact flake_lineOK hpq ((h1 rfl).imp id fun h => h p q hpq)
        · intro _ hne; exact absurd rfl hne)
      exact ⟨b', e', p.congr fun x y _ _ => by simp only [if_pos hp1]⟩
    · rw [if_pos (by omega)]
      obtain ⟨b', e', p⟩ := C95_thickplotpoly_partial hv (pen := pen) hc hu hw (by
        intro p hp
        have := hin p hp
        exact penOK_in hd this.1.1 this.1.2)
      exact ⟨b', e', p.congr fun x y _ _ => by simp only [if_neg hp1]⟩
  obtain ⟨b', e', p⟩ := hdraw
  have hset : ∀ x y, (∃ p q, (Consec v p q ∨ (v.head? = some p ∧ v.getLast? = some q)) ∧
        if pen = 1 then LineSet N N bits p q x y else StrokeSet N bits pen p q x y) ↔ (∃ p q, (Consec v p q ∨ (p = u ∧ q = u)) ∧
        if pen = 1 then LineSet N N bits p q x y else StrokeSet N bits pen p q x y) := by
    intro x y
    rw [hu, hw]
    simp only [Option.some.injEq]
    constructor
    · rintro ⟨p, q, h | ⟨h1, h2⟩, hl⟩
      · exact ⟨p, q, .inl h, hl⟩
      · exact ⟨p, q, .inr ⟨h1.symm, h2.symm⟩, hl⟩
    · rintro ⟨p, q, h | ⟨h1, h2⟩, hl⟩
      · exact ⟨p, q, .inl h, hl⟩
      · exact ⟨p, q, .inr ⟨h1.symm, h2.symm⟩, hl⟩
  refine ⟨writeFile fs file b', ?_, Escape.write_saved fs file ⟨p.valid, g, (groundValue_same p.header g).mpr hg, ?_⟩⟩
  · have hx : pyShl (r : Int) 1 + pyShl (pen : Int) 1 + 2 = ((N : Nat) : Int) := by
      rw [hN]; unfold pyShl; push_cast; simp; ring
    have hcx : pyShr ((N : Int) - 1) 1 = ((r + pen : Nat) : Int) := by
      unfold pyShr; rw [hN]; push_cast; omega
    unfold savekochsnowflake2file newWithBackground
    dsimp only
    rw [hx, e, ok_bind, hcx]
    have ereg : regpolygonvert (r + pen : Nat) (r + pen : Nat) r 3 angle = .ok ((List.range 3).map fun k =>
        (rndR (cornerC (r + pen : Nat) (r + pen : Nat) r angle k).re, rndR (cornerC (r + pen : Nat) (r + pen : Nat) r angle k).im)) := by
      unfold regpolygonvert
      have := RegPoly.C121_regular ((r + pen : Nat) : Int) ((r + pen : Nat) : Int) (r : Int) (n := 3) (by decide) angle
      rw [show ((3 : Nat) : Int) = 3 from rfl] at this
      rw [this, ok_bind, pure_eq_ok, List.map_map]
      rfl
    rw [ereg, ok_bind]
    show (do
      let l : List ℂ ← kochsnowflakevert (koch (Real.sqrt 3 / 6)) 0 (pixelC (r + pen : Nat) (r + pen : Nat) r angle 0)
        (pixelC (r + pen : Nat) (r + pen : Nat) r angle 1) (pixelC (r + pen : Nat) (r + pen : Nat) r angle 2) n
      let l := l.map fun (p : ℂ) => (rndR p.re, rndR p.im)
      let bmp ← if (pen : Int) > 1 then thickplotpoly b l pen color else plotpoly b l color
      pure (writeFile fs file bmp)) = _
    rw [ek, ok_bind]
    dsimp only
    rw [ev]
    split_ifs at e' ⊢ <;> rw [e', ok_bind, pure_eq_ok]
  · intro x y hx hy
    dsimp only
    rw [hset x y]
    refine ⟨fun hs => p.inside x y hx hy hs, fun hs => ?_⟩
    rw [p.outside x y hx hy hs]
    rw [hb x y hx hy, if_neg (by omega)]

/-- C163 on images of 4 and 8 bits: a thin snowflake with a diagonal that ends in the first row raises `IndexError`, and
no file is written. -/
theorem C163_top_fails (fs : Files) (file : String) {r : Nat} (n : Nat) (angle : ℝ) {bits : Nat} (h48 : bits = 4 ∨ bits = 8)
    (hs : 2 * r + 4 < 2 ^ 24) {color bg : Int} (hc : IsColour bits color) (hbg : bg ≤ 0 ∨ IsColour bits bg)
    (ht : ∃ p q, Consec (flake (r + 1 : Nat) (r + 1 : Nat) r angle n) p q ∧ Tops (2 * r + 4) (2 * r + 4) p q) :
    savekochsnowflake2file fs file r n angle bits color bg 1 = .error .indexError := by
  have hd : Depth bits := by unfold Depth; omega
  let N := 2 * r + 2 * 1 + 2
  let v := flake (r + 1 : Nat) (r + 1 : Nat) r angle n
  have hN : N = 2 * r + 2 * 1 + 2 := rfl
  obtain ⟨b, g, e, hv, hg, hb⟩ := new_ground_depths (W := N) (H := N) hd ⟨by omega, hs⟩ ⟨by omega, hs⟩ hbg
  obtain ⟨pts, ek, -, hhead, hlast, epts⟩ := C107_snowflake (koch (Real.sqrt 3 / 6)) 0 (pixelC (r + 1 : Nat) (r + 1 : Nat) r angle 0)
    (pixelC (r + 1 : Nat) (r + 1 : Nat) r angle 1) (pixelC (r + 1 : Nat) (r + 1 : Nat) r angle 2) n
  have ev : pts.map (fun p => (rndR p.re, rndR p.im)) = v := by rw [epts]; rfl
  obtain ⟨u, hu⟩ : ∃ u, v.head? = some u := ⟨_, by rw [← ev, List.head?_map, hhead]; rfl⟩
  have hw : v.getLast? = some u := by
    have h1 : v.head? = v.getLast? := by rw [← ev, List.head?_map, List.getLast?_map, hhead, hlast]
    rw [← h1]; exact hu
  have hdraw : plotpoly b v color = .error .indexError := by
    obtain ⟨l, hl, el⟩ := poly_eq b v color (fun k => by rw [k] at hu; simp at hu)
    rw [el]
    obtain ⟨p, q, hpq, hT⟩ := ht
    refine lines_fail hv h48 (by omega) (by omega) hc l (fun s hs' => ?_) ⟨(p, q), (hl p q).mpr (Or.inl hpq), hT⟩
    by_cases k : Tops N N s.1 s.2
    · exact Or.inl k
    · refine Or.inr (Or.inl ?_)
      rcases (hl s.1 s.2).mp hs' with m | ⟨m1, m2⟩
      · exact flake_lineOK m (Or.inr k)
      · rw [hu] at m1
        rw [hw] at m2
        intro _ hne
        exact absurd (by rw [← Option.some.inj m1, ← Option.some.inj m2]) hne
  have hx : pyShl (r : Int) 1 + pyShl (1 : Int) 1 + 2 = ((N : Nat) : Int) := by
    rw [hN]; unfold pyShl; push_cast; simp; ring
  have hcx : pyShr ((N : Int) - 1) 1 = ((r + 1 : Nat) : Int) := by
    unfold pyShr; rw [hN]; push_cast; omega
  unfold savekochsnowflake2file newWithBackground
  dsimp only
  rw [hx, e, ok_bind, hcx]
  have ereg : regpolygonvert (r + 1 : Nat) (r + 1 : Nat) r 3 angle = .ok ((List.range 3).map fun k =>
      (rndR (cornerC (r + 1 : Nat) (r + 1 : Nat) r angle k).re, rndR (cornerC (r + 1 : Nat) (r + 1 : Nat) r angle k).im)) := by
    unfold regpolygonvert
    have := RegPoly.C121_regular ((r + 1 : Nat) : Int) ((r + 1 : Nat) : Int) (r : Int) (n := 3) (by decide) angle
    rw [show ((3 : Nat) : Int) = 3 from rfl] at this
    rw [this, ok_bind, pure_eq_ok, List.map_map]
    rfl
  rw [ereg, ok_bind]
  show (do
    let l : List ℂ ← kochsnowflakevert (koch (Real.sqrt 3 / 6)) 0 (pixelC (r + 1 : Nat) (r + 1 : Nat) r angle 0)
      (pixelC (r + 1 : Nat) (r + 1 : Nat) r angle 1) (pixelC (r + 1 : Nat) (r + 1 : Nat) r angle 2) n
    let l := l.map fun (p : ℂ) => (rndR p.re, rndR p.im)
    let bmp ← if (1 : Int) > 1 then thickplotpoly b l 1 color else plotpoly b l color
    pure (writeFile fs file bmp)) = _
  rw [ek, ok_bind]
  dsimp only
  rw [ev]
  rw [if_neg (by norm_num), hdraw]; rfl

/-- The last vertex before the end of a Koch curve. -/
theorem kochPath_last (h : ℝ) (n : Nat) (u v : ℂ) : ∃ l, kochPath (koch h) n u v = l ++ [v + (u - v) / 3 ^ n] := by
  induction n generalizing u v with
  | zero => exact ⟨[], by simp [kochPath]⟩
  | succ n ih =>
    obtain ⟨l, e⟩ := ih (v - (v - u) / 3) v
    unfold kochPath
    simp only [koch]
    rw [e, ← List.append_assoc]
    refine ⟨_, congrArg _ (congrArg (fun z => [z]) ?_)⟩
    rw [pow_succ]
    field_simp
    ring

theorem kochPath_first (h : ℝ) (n : Nat) (u v : ℂ) : ∃ l, kochPath (koch h) n u v = u :: l := by
  induction n generalizing u v with
  | zero => exact ⟨[], rfl⟩
  | succ n ih =>
    obtain ⟨l, e⟩ := ih u (u + (v - u) / 3)
    unfold kochPath
    simp only [koch]
    rw [e]
    exact ⟨_, rfl⟩

/-- The line that leads to the tip in the middle of a side. -/
theorem flake_tip (cx cy r : Int) (angle : ℝ) (n : Nat) :
    let u := pixelC cx cy r angle 2
    let v := pixelC cx cy r angle 0
    let t := tip u v
    let a := t + (u + (v - u) / 3 - t) / 3 ^ n
    Consec (flake cx cy r angle (n + 1)) (rndR a.re, rndR a.im) (rndR t.re, rndR t.im) := by
  intro u v t a
  obtain ⟨l1, e1⟩ := kochPath_last (Real.sqrt 3 / 6) n (u + (v - u) / 3) t
  obtain ⟨l2, e2⟩ := kochPath_first (Real.sqrt 3 / 6) n t (v - (v - u) / 3)
  have e : kochPath (koch (Real.sqrt 3 / 6)) (n + 1) u v = (kochPath (koch (Real.sqrt 3 / 6)) n u (u + (v - u) / 3) ++ l1) ++ a :: t ::
      (l2 ++ kochPath (koch (Real.sqrt 3 / 6)) n (v - (v - u) / 3) v) := by
    rw [show kochPath (koch (Real.sqrt 3 / 6)) (n + 1) u v = kochPath (koch (Real.sqrt 3 / 6)) n u (u + (v - u) / 3) ++
      kochPath (koch (Real.sqrt 3 / 6)) n (u + (v - u) / 3) t ++ kochPath (koch (Real.sqrt 3 / 6)) n t (v - (v - u) / 3) ++
      kochPath (koch (Real.sqrt 3 / 6)) n (v - (v - u) / 3) v from rfl, e1, e2]
    simp [a]
  unfold flake Consec
  dsimp only
  rw [show pixelC cx cy r angle 2 = u from rfl, show pixelC cx cy r angle 0 = v from rfl, e]
  generalize kochPath (koch (Real.sqrt 3 / 6)) (n + 1) v (pixelC cx cy r angle 1) ++ [pixelC cx cy r angle 1] ++
    (kochPath (koch (Real.sqrt 3 / 6)) (n + 1) (pixelC cx cy r angle 1) u ++ [u]) = A
  rw [List.append_assoc _ _ [v], ← List.append_assoc A, List.map_append]
  exact ⟨_, _, rfl⟩

/-- A line of the snowflake of radius 47 and level 4 that is turned by 60 degrees goes diagonally up to the first row. -/
theorem flake_top : Consec (flake 48 48 47 60 4) (49, 1) (48, 0) := by
  have hq0 : (1732 : ℝ) / 1000 < Real.sqrt 3 := by rw [Real.lt_sqrt (by norm_num)]; norm_num
  have hq : Real.sqrt 3 ≤ 1733 / 1000 := by rw [Real.sqrt_le_left (by norm_num)]; norm_num
  have hh : rndR (48 - 47 * (1 / 2) : ℝ) = 24 := by
    have f : ⌊(48 - 47 * (1 / 2) : ℝ)⌋ = 24 := by rw [Int.floor_eq_iff]; constructor <;> norm_num
    unfold rndR
    rw [f]
    norm_num
  have q0 : pixelC 48 48 47 60 0 = ⟨7, 24⟩ := by
    unfold pixelC cornerC RegPoly.corner
    have t : ((60 : ℝ) + 360 * ((0 : Nat) : ℝ) / (3 : Nat)) * Real.pi / 180 = Real.pi / 3 := by push_cast; ring
    dsimp only
    rw [t, Real.sin_pi_div_three, Real.cos_pi_div_three, Plane.rndR_eq (k := 7) (by
      rw [abs_lt]; push_cast; constructor <;> linarith)]
    push_cast
    rw [hh]
    norm_num
  have q2 : pixelC 48 48 47 60 2 = ⟨89, 24⟩ := by
    unfold pixelC cornerC RegPoly.corner
    have t : ((60 : ℝ) + 360 * ((2 : Nat) : ℝ) / (3 : Nat)) * Real.pi / 180 = 2 * Real.pi - Real.pi / 3 := by push_cast; ring
    dsimp only
    rw [t, Real.sin_two_pi_sub, Real.cos_two_pi_sub, Real.sin_pi_div_three, Real.cos_pi_div_three, Plane.rndR_eq (k := 89) (by
      rw [abs_lt]; push_cast; constructor <;> linarith)]
    push_cast
    rw [hh]
    norm_num
  have h := flake_tip 48 48 47 60 3
  dsimp only at h
  rw [q0, q2] at h
  obtain ⟨t1, t2⟩ := tip_parts (⟨89, 24⟩ : ℂ) ⟨7, 24⟩
  dsimp only at t1 t2
  have k : ((3 : ℂ) ^ 3) = 27 := by norm_num
  rw [k] at h
  have a1 : rndR (tip (⟨89, 24⟩ : ℂ) ⟨7, 24⟩ + ((⟨89, 24⟩ : ℂ) + (⟨7, 24⟩ - ⟨89, 24⟩) / 3 - tip (⟨89, 24⟩ : ℂ) ⟨7, 24⟩) / 27).re = 49 := by
    refine Plane.rndR_eq (k := 49) ?_
    simp only [Complex.add_re, Complex.sub_re, Complex.div_ofNat_re, t1]
    norm_num [abs_lt]
  have a2 : rndR (tip (⟨89, 24⟩ : ℂ) ⟨7, 24⟩ + ((⟨89, 24⟩ : ℂ) + (⟨7, 24⟩ - ⟨89, 24⟩) / 3 - tip (⟨89, 24⟩ : ℂ) ⟨7, 24⟩) / 27).im = 1 := by
    refine Plane.rndR_eq (k := 1) ?_
    simp only [Complex.add_im, Complex.sub_im, Complex.div_ofNat_im, t2]
    rw [abs_lt]
    push_cast
    constructor <;> linarith
  have b1 : rndR (tip (⟨89, 24⟩ : ℂ) ⟨7, 24⟩).re = 48 := by
    refine Plane.rndR_eq (k := 48) ?_
    rw [t1]
    norm_num
  have b2 : rndR (tip (⟨89, 24⟩ : ℂ) ⟨7, 24⟩).im = 0 := by
    refine Plane.rndR_eq (k := 0) ?_
    rw [t2, abs_lt]
    push_cast
    constructor <;> linarith
  rw [a1, a2, b1, b2] at h
  exact h

/-- So this snowflake is never stored in 256 colours, whatever the file, the colour and the background. -/
theorem C163_top_false (fs : Files) (file : String) {color bg : Int} (hc : IsColour 8 color) (hbg : bg ≤ 0 ∨ IsColour 8 bg) :
    savekochsnowflake2file fs file 47 4 60 8 color bg 1 = .error .indexError :=
  C163_top_fails fs file (r := 47) 4 60 (.inr rfl) (by norm_num) hc hbg ⟨(49, 1), (48, 0), flake_top, by unfold Tops Diagonal; decide⟩

end Verif.Props.CurveFiles
