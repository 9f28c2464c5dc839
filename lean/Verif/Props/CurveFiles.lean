import Mathlib.Analysis.Convex.Basic
import Verif.Model.CurveFiles
import Verif.Props.Hilbert
import Verif.Props.Koch
import Verif.Props.RegPoly
import Verif.Props.Thick
import Verif.Props.Line4
import Verif.Props.Plane
import Verif.Props.Escape
/-! Properties C162 and C163: files with Hilbert curves and Koch snowflakes. -/

namespace Verif.Props.CurveFiles
open Verif Spec Model Props

/-- The pixel lies on the straight way from `p` to `q`, for points in one row or one column. -/
def Between (p q : Int × Int) (px py : Nat) : Prop :=
  min p.1 q.1 ≤ px ∧ (px : Int) ≤ max p.1 q.1 ∧ min p.2 q.2 ≤ py ∧ (py : Int) ≤ max p.2 q.2

theorem clamp_id {x : Int} {n : Nat} (h : 0 ≤ x ∧ x < n) : clampTo x n = x := by
  unfold clampTo
  omega

theorem lineSet_axis {W H bits : Nat} (hb : bits ≠ 4) {p q : Int × Int} (hp : (0 ≤ p.1 ∧ p.1 < W) ∧ (0 ≤ p.2 ∧ p.2 < H))
    (hq : (0 ≤ q.1 ∧ q.1 < W) ∧ (0 ≤ q.2 ∧ q.2 < H)) (hax : p.1 = q.1 ∨ p.2 = q.2) (px py : Nat) :
    LineSet W H bits p q px py ↔ Between p q px py := by
  unfold LineSet
  rw [clamp_id hp.1, clamp_id hp.2, clamp_id hq.1, clamp_id hq.2]
  obtain ⟨a, c⟩ := p
  obtain ⟨d, e⟩ := q
  dsimp only at *
  rw [if_neg (by
    rintro ⟨h1, h2⟩
    rcases hax with h | h
    · exact h2 h
    · rw [h, sub_self, abs_zero, abs_eq_zero] at h1
      omega), if_neg (by tauto)]
  unfold Between
  rcases hax with h | h
  · subst h
    rw [raster_v]
    unfold VSeg
    dsimp only
    omega
  · subst h
    rw [raster_h]
    unfold HSeg
    dsimp only
    omega

/-- The background is everywhere the given colour, black if it is 0. -/
theorem background {W H bits : Nat} (hd : Depth bits) (hW : 0 < W ∧ W < 2 ^ 24) (hH : 0 < H ∧ H < 2 ^ 24) {bg : Int} (hbg : IsColour bits bg)
    (hok : bg = 0 ∨ bits = 1 ∨ bits = 24) :
    ∃ b, newWithBackground W H bits bg = .ok b ∧ Valid b W H bits ∧ ∀ x y, x < W → y < H → pix b W H bits x y = bg.toNat := by
  obtain ⟨b, e, hv, -, -, -, -, h0, -⟩ := C01_newBMP_valid W H bits hd hW.2 hH.2
  unfold newWithBackground
  rw [e, ok_bind]
  by_cases hpos : bg > 0
  · rw [if_pos hpos]
    obtain ⟨b', e', p⟩ := C21_filledrect_partial hv (x1 := 0) (y1 := 0) (x2 := (W : Int) - 1) (y2 := (H : Int) - 1) (by omega) (by omega) hbg
      (by rcases hok with h | h | h <;> omega)
    refine ⟨b', e', p.valid, ?_⟩
    intro x y hx hy
    exact p.inside x y hx hy (by unfold RectSet; omega)
  · rw [if_neg hpos]
    have : bg = 0 := by have := hbg.1; omega
    subst this
    exact ⟨b, rfl, hv, h0⟩

theorem consec_map (f : Int × Int → Int × Int) (l : List (Int × Int)) (p q : Int × Int) :
    Consec (l.map f) p q ↔ ∃ c c', Consec l c c' ∧ f c = p ∧ f c' = q := by
  constructor
  · rintro ⟨s, t, e⟩
    obtain ⟨l1, l2, rfl, -, e2⟩ := List.map_eq_append_iff.mp e
    obtain ⟨c, l3, rfl, h1, e3⟩ := List.map_eq_cons_iff.mp e2
    obtain ⟨c', l4, rfl, h2, -⟩ := List.map_eq_cons_iff.mp e3
    exact ⟨c, c', ⟨l1, l4, rfl⟩, h1, h2⟩
  · rintro ⟨c, c', ⟨s, t, rfl⟩, rfl, rfl⟩
    exact ⟨s.map f, t.map f, by simp⟩

/-- The pixel nearest to the middle of part `i` of `2 ^ n` equal parts of `L` pixels. -/
def centre (L n : Nat) (i : Int) : Int := rnd ((2 * i + 1) * ((L : ℚ) - 1) / 2 ^ (n + 1))

theorem centre_in {L n : Nat} (hL : 0 < L) {i : Int} (hi : 0 ≤ i ∧ i < (2 ^ n : Nat)) : 0 ≤ centre L n i ∧ centre L n i < L := by
  have h1 : (1 : ℚ) ≤ L := by exact_mod_cast hL
  have h2 : (0 : ℚ) ≤ i := by exact_mod_cast hi.1
  have h3 : (i : ℚ) + 1 ≤ 2 ^ n := by exact_mod_cast hi.2
  have hp : (0 : ℚ) < 2 ^ n := by positivity
  have a1 : (0 : ℚ) ≤ (2 * i + 1) * ((L : ℚ) - 1) / 2 ^ (n + 1) := by
    apply div_nonneg _ (by positivity)
    exact mul_nonneg (by linarith) (by linarith)
  have a2 : (2 * i + 1) * ((L : ℚ) - 1) / 2 ^ (n + 1) ≤ (L : ℚ) - 1 := by
    rw [div_le_iff₀ (by positivity), pow_succ]
    nlinarith
  have m1 := rnd_mono a1
  have m2 := rnd_mono a2
  unfold centre
  rw [show (0 : ℚ) = ((0 : Int) : ℚ) by simp, rnd_int] at m1
  rw [show (L : ℚ) - 1 = (((L : Int) - 1 : Int) : ℚ) by push_cast; ring, rnd_int] at m2
  push_cast at m2 ⊢
  constructor <;> omega

theorem hilbert_points {W H n : Nat} (hW : 0 < W) (hH : 0 < H) (hm : max W H * 2 ^ (n + 2) ≤ 2 ^ 53) : ∃ cells, Tour (2 ^ n) cells ∧
    hilbertvert [] (0, 0) ((W : Int) - 1, 0, 0, (H : Int) - 1) n = cells.map fun c => (centre W n c.1, centre H n c.2) := by
  obtain ⟨cells, t, e⟩ := C106_hilbert [] (u := (0, 0)) (v := ((W : Int) - 1, 0)) (w := (0, (H : Int) - 1)) (n := n) (m := max W H) hm
    (by
      have h1 : |(W : Int) - 1| ≤ ((max W H : Nat) : Int) := by rw [abs_le]; omega
      have h2 : (0 : Int) ≤ ((max W H : Nat) : Int) := by omega
      simp only [zero_add, add_zero, abs_zero]
      exact ⟨h2, h1, h2, h1⟩)
    (by
      have h1 : |(H : Int) - 1| ≤ ((max W H : Nat) : Int) := by rw [abs_le]; omega
      have h2 : (0 : Int) ≤ ((max W H : Nat) : Int) := by omega
      simp only [zero_add, add_zero, abs_zero]
      exact ⟨h2, h2, h1, h1⟩)
  refine ⟨cells, t, ?_⟩
  rw [e, List.nil_append]
  apply List.map_congr_left
  intro c _
  unfold middle centre
  push_cast
  congr 2 <;> ring_nf

/-- C162: the file of a Hilbert curve shows the way through all cells of the board, drawn with a pen of one pixel. -/
theorem C162_hilbert_partial (fs : Files) (file : String) {W H bits n : Nat} (hd : Depth bits) (h4 : bits ≠ 4) (hW : 0 < W ∧ W < 2 ^ 24) (hH : 0 < H ∧ H < 2 ^ 24)
    (hm : max W H * 2 ^ (n + 2) ≤ 2 ^ 53) {color bg pen orientation : Int} (hc : IsColour bits color) (hbg : IsColour bits bg)
    (hok : bg = 0 ∨ bits = 1 ∨ bits = 24) (hpen : pen ≤ 1) (ho : orientation ≠ 1) :
    ∃ fs' cells, Tour (2 ^ n) cells ∧ savehilbertcurve2file fs file W H n bits color bg pen orientation = .ok fs' ∧
      Saved fs fs' file (fun b => Valid b W H bits ∧ ∀ x y, x < W → y < H →
        ((∃ c c', Consec cells c c' ∧ Between (centre W n c.1, centre H n c.2) (centre W n c'.1, centre H n c'.2) x y) → pix b W H bits x y = color.toNat) ∧
        ((¬ ∃ c c', Consec cells c c' ∧ Between (centre W n c.1, centre H n c.2) (centre W n c'.1, centre H n c'.2) x y) → pix b W H bits x y = bg.toNat)) := by
  obtain ⟨b, e, hv, hb⟩ := background hd hW hH hbg hok
  obtain ⟨cells, t, ep⟩ := hilbert_points hW.1 hH.1 hm
  have hin : ∀ c ∈ cells, (0 ≤ centre W n c.1 ∧ centre W n c.1 < W) ∧ (0 ≤ centre H n c.2 ∧ centre H n c.2 < H) := by
    intro c hc
    have := (t.all c.1 c.2).mp hc
    exact ⟨centre_in hW.1 this.1, centre_in hH.1 this.2⟩
  have hmem : ∀ {c c'}, Consec cells c c' → c ∈ cells ∧ c' ∈ cells := by
    rintro c c' ⟨s, u, rfl⟩
    simp
  have hax : ∀ {c c'}, Consec cells c c' → (centre W n c.1 = centre W n c'.1 ∨ centre H n c.2 = centre H n c'.2) := by
    rintro c c' ⟨s, u, e⟩
    have hb : Beside c c' := by
      have := t.steps
      rw [e, List.isChain_append] at this
      exact (List.isChain_cons_cons.mp this.2.1).1
    unfold Beside at hb
    by_cases h : c.1 = c'.1
    · left; rw [h]
    · right
      have h1 : 0 < |c.1 - c'.1| := abs_pos.mpr (sub_ne_zero.mpr h)
      have h2 := abs_nonneg (c.2 - c'.2)
      have : |c.2 - c'.2| = 0 := by omega
      rw [abs_eq_zero] at this
      rw [show c.2 = c'.2 by omega]
  obtain ⟨b', e', p⟩ := C93_plotlines_partial hv hW.1 hH.1 hc hpen (v := cells.map fun c => (centre W n c.1, centre H n c.2)) (by
    intro p q hcons
    obtain ⟨c, c', hcc, rfl, rfl⟩ := (consec_map _ _ _ _).mp hcons
    have m := hmem hcc
    have i1 := hin c m.1
    have i2 := hin c' m.2
    intro hd hne
    dsimp only at hd hne
    rw [clamp_id i1.1, clamp_id i1.2, clamp_id i2.1, clamp_id i2.2] at hd
    rw [clamp_id i1.1, clamp_id i2.1] at hne
    exfalso
    rcases hax hcc with h | h
    · exact hne h
    · rw [h, sub_self, abs_zero, abs_eq_zero] at hd
      omega)
  have hset : ∀ x y, (∃ p q, Consec (cells.map fun c => (centre W n c.1, centre H n c.2)) p q ∧ LineSet W H bits p q x y) ↔
      (∃ c c', Consec cells c c' ∧ Between (centre W n c.1, centre H n c.2) (centre W n c'.1, centre H n c'.2) x y) := by
    intro x y
    constructor
    · rintro ⟨p, q, hcons, hl⟩
      obtain ⟨c, c', hcc, rfl, rfl⟩ := (consec_map _ _ _ _).mp hcons
      have m := hmem hcc
      exact ⟨c, c', hcc, (lineSet_axis h4 (hin c m.1) (hin c' m.2) (hax hcc) x y).mp hl⟩
    · rintro ⟨c, c', hcc, hbt⟩
      have m := hmem hcc
      exact ⟨_, _, (consec_map _ _ _ _).mpr ⟨c, c', hcc, rfl, rfl⟩, (lineSet_axis h4 (hin c m.1) (hin c' m.2) (hax hcc) x y).mpr hbt⟩
  refine ⟨writeFile fs file b', cells, t, ?_, Escape.write_saved fs file ⟨p.valid, ?_⟩⟩
  · unfold savehilbertcurve2file
    rw [e, ok_bind]
    dsimp only
    rw [if_neg ho, ep, e', ok_bind, pure_eq_ok]
  · intro x y hx hy
    refine ⟨fun hs => p.inside x y hx hy ((hset x y).mpr hs), fun hs => ?_⟩
    rw [p.outside x y hx hy (fun c => hs ((hset x y).mp c))]
    exact hb x y hx hy

/-- C162: with a thicker pen the way is drawn with discs. -/
theorem C162_thick_partial (fs : Files) (file : String) {W H bits n : Nat} (hd : Depth bits) (hW : 0 < W ∧ W < 2 ^ 24) (hH : 0 < H ∧ H < 2 ^ 24)
    (hm : max W H * 2 ^ (n + 2) ≤ 2 ^ 53) {color bg pen orientation : Int} (hc : IsColour bits color) (hbg : IsColour bits bg)
    (hok : bg = 0 ∨ bits = 1 ∨ bits = 24) (hpen : 1 < pen) (ho : orientation ≠ 1) :
    ∃ fs' cells, Tour (2 ^ n) cells ∧ savehilbertcurve2file fs file W H n bits color bg pen orientation = .ok fs' ∧
      Saved fs fs' file (fun b => Valid b W H bits ∧ ∀ x y, x < W → y < H →
        ((∃ c c', Consec cells c c' ∧ StrokeSet W bits pen (centre W n c.1, centre H n c.2) (centre W n c'.1, centre H n c'.2) x y) → pix b W H bits x y = color.toNat) ∧
        ((¬ ∃ c c', Consec cells c c' ∧ StrokeSet W bits pen (centre W n c.1, centre H n c.2) (centre W n c'.1, centre H n c'.2) x y) → pix b W H bits x y = bg.toNat)) := by
  obtain ⟨b, e, hv, hb⟩ := background hd hW hH hbg hok
  obtain ⟨cells, t, ep⟩ := hilbert_points hW.1 hH.1 hm
  obtain ⟨b', e', p⟩ := C95_plotlines_partial hv hc hpen (v := cells.map fun c => (centre W n c.1, centre H n c.2)) (by
    intro p hp
    obtain ⟨c, hcm, rfl⟩ := List.mem_map.mp hp
    have := centre_in (n := n) hW.1 ((t.all c.1 c.2).mp hcm).1
    exact penOK_in hd this.1 this.2)
  have hset : ∀ x y, (∃ p q, Consec (cells.map fun c => (centre W n c.1, centre H n c.2)) p q ∧ StrokeSet W bits pen p q x y) ↔
      (∃ c c', Consec cells c c' ∧ StrokeSet W bits pen (centre W n c.1, centre H n c.2) (centre W n c'.1, centre H n c'.2) x y) := by
    intro x y
    constructor
    · rintro ⟨p, q, hcons, hl⟩
      obtain ⟨c, c', hcc, rfl, rfl⟩ := (consec_map _ _ _ _).mp hcons
      exact ⟨c, c', hcc, hl⟩
    · rintro ⟨c, c', hcc, hbt⟩
      exact ⟨_, _, (consec_map _ _ _ _).mpr ⟨c, c', hcc, rfl, rfl⟩, hbt⟩
  refine ⟨writeFile fs file b', cells, t, ?_, Escape.write_saved fs file ⟨p.valid, ?_⟩⟩
  · unfold savehilbertcurve2file
    rw [e, ok_bind]
    dsimp only
    rw [if_neg ho, ep, e', ok_bind, pure_eq_ok]
  · intro x y hx hy
    refine ⟨fun hs => p.inside x y hx hy ((hset x y).mpr hs), fun hs => ?_⟩
    rw [p.outside x y hx hy (fun c => hs ((hset x y).mp c))]
    exact hb x y hx hy

/-- A curve of order one. -/
example : ((savehilbertcurve2file (fun _ => none) "h" 5 5 1 1 1 0 1 0).map fun fs => (fs "h").map fun b =>
    ((List.range 5).map fun y => (List.range 5).map fun x => pix b 5 5 1 x y)) =
    .ok (some [[0, 0, 0, 0, 0], [0, 1, 1, 1, 0], [0, 0, 0, 1, 0], [0, 1, 1, 1, 0], [0, 0, 0, 0, 0]]) := by decide +kernel

/-- C162 is false for the other orientation, which exchanges width and height: of an image with nine columns and three rows
only the first three columns are used, and what is below the third row is moved into it. -/
theorem C162_turned_wrong : ((savehilbertcurve2file (fun _ => none) "h" 9 3 1 1 1 0 1 1).map fun fs => (fs "h").map fun b =>
    ((List.range 3).map fun y => (List.range 9).map fun x => pix b 9 3 1 x y)) =
    .ok (some [[0, 0, 0, 0, 0, 0, 0, 0, 0], [0, 0, 0, 0, 0, 0, 0, 0, 0], [1, 1, 1, 0, 0, 0, 0, 0, 0]]) := by decide +kernel

/-- C162: the vertices of the other orientation, which are those of the exchanged board. -/
theorem C162_turned {W H n : Nat} (hW : 0 < W) (hH : 0 < H) (hm : max W H * 2 ^ (n + 2) ≤ 2 ^ 53) : ∃ cells, Tour (2 ^ n) cells ∧
    hilbertvert [] (0, 0) (0, (W : Int) - 1, (H : Int) - 1, 0) n = cells.map fun c => (centre H n c.2, centre W n c.1) := by
  obtain ⟨cells, t, e⟩ := C106_hilbert [] (u := (0, 0)) (v := (0, (W : Int) - 1)) (w := ((H : Int) - 1, 0)) (n := n) (m := max W H) hm
    (by
      have h1 : |(H : Int) - 1| ≤ ((max W H : Nat) : Int) := by rw [abs_le]; omega
      have h2 : (0 : Int) ≤ ((max W H : Nat) : Int) := by omega
      simp only [zero_add, add_zero, abs_zero]
      exact ⟨h2, h2, h1, h1⟩)
    (by
      have h1 : |(W : Int) - 1| ≤ ((max W H : Nat) : Int) := by rw [abs_le]; omega
      have h2 : (0 : Int) ≤ ((max W H : Nat) : Int) := by omega
      simp only [zero_add, add_zero, abs_zero]
      exact ⟨h2, h1, h2, h1⟩)
  refine ⟨cells, t, ?_⟩
  rw [e, List.nil_append]
  apply List.map_congr_left
  intro c _
  unfold middle centre
  push_cast
  congr 2 <;> ring_nf

/-! ### C163: the snowflake -/

/-- C163: a Koch curve lies in every convex set that contains its ends and its tip. -/
theorem C163_convex {h : ℝ} (hh : h ^ 2 = 1 / 12) {S : Set ℂ} (hS : Convex ℝ S) (n : Nat) : ∀ {u v : ℂ}, u ∈ S → v ∈ S →
    (u + v) / 2 + (v - u) * h * Complex.I ∈ S → ∀ p ∈ kochPath (koch h) n u v, p ∈ S := by
  have hc : ((h : ℂ)) ^ 2 = 1 / 12 := by rw [← Complex.ofReal_pow, hh]; norm_num
  have mix : ∀ {x y : ℂ}, x ∈ S → y ∈ S → (2 * x + y) / 3 ∈ S := by
    intro x y hx hy
    have := hS hx hy (a := 2 / 3) (b := 1 / 3) (by norm_num) (by norm_num) (by norm_num)
    convert this using 1
    simp only [Complex.real_smul]
    push_cast
    ring
  induction n with
  | zero =>
    intro u v hu hv _ p hp
    rw [kochPath, List.mem_singleton] at hp
    rw [hp]; exact hu
  | succ n ih =>
    intro u v hu hv hA p hp
    set A := (u + v) / 2 + (v - u) * h * Complex.I with hAdef
    have ha : (2 * u + v) / 3 ∈ S := mix hu hv
    have hb : (2 * v + u) / 3 ∈ S := mix hv hu
    have e : koch h u v = ((2 * u + v) / 3, A, (2 * v + u) / 3) := by
      unfold koch
      dsimp only
      refine Prod.ext ?_ (Prod.ext rfl ?_) <;> dsimp only <;> ring
    have hI := Complex.I_sq
    rw [kochPath, e] at hp
    dsimp only at hp
    simp only [List.mem_append] at hp
    rcases hp with ((hp | hp) | hp) | hp
    · refine ih hu ha ?_ p hp
      convert mix hu hA using 1
      rw [hAdef]
      ring
    · refine ih ha hA ?_ p hp
      convert mix hA hu using 1
      rw [hAdef]
      linear_combination (v - u) * (1 / 12 : ℂ) * hI + (v - u) * Complex.I ^ 2 * hc
    · refine ih hA hb ?_ p hp
      convert mix hA hv using 1
      rw [hAdef]
      linear_combination (u - v) * (1 / 12 : ℂ) * hI + (u - v) * Complex.I ^ 2 * hc
    · refine ih hb hv ?_ p hp
      convert mix hv hA using 1
      rw [hAdef]
      ring

/-- A corner of the triangle as a complex number. -/
noncomputable def cornerC (cx cy r : Int) (angle : ℝ) (k : Nat) : ℂ := ⟨(RegPoly.corner cx cy r 3 angle k).1, (RegPoly.corner cx cy r 3 angle k).2⟩

/-- The tip of the first step over a side. -/
noncomputable def tip (u v : ℂ) : ℂ := (u + v) / 2 + (v - u) * (Real.sqrt 3 / 6 : ℝ) * Complex.I

theorem tip_parts (u v : ℂ) : (tip u v).re = (u.re + v.re) / 2 - (v.im - u.im) * (Real.sqrt 3 / 6) ∧
    (tip u v).im = (u.im + v.im) / 2 + (v.re - u.re) * (Real.sqrt 3 / 6) := by
  unfold tip
  constructor <;>
    · simp only [Complex.add_re, Complex.add_im, Complex.mul_re, Complex.mul_im, Complex.sub_re, Complex.sub_im, Complex.ofReal_re, Complex.ofReal_im,
        Complex.I_re, Complex.I_im, Complex.div_ofNat_re, Complex.div_ofNat_im]
      ring

theorem le_of_circle {x y r : ℝ} (hr : 0 ≤ r) (h : x ^ 2 + y ^ 2 = r ^ 2) : |x| ≤ r ∧ |y| ≤ r :=
  ⟨abs_le_of_sq_le_sq (by nlinarith [sq_nonneg y]) hr, abs_le_of_sq_le_sq (by nlinarith [sq_nonneg x]) hr⟩

/-- C163: the tips over the sides of the triangle lie on its circle. -/
theorem C163_tips (cx cy r : Int) (angle : ℝ) (k : Nat) :
    ((tip (cornerC cx cy r angle k) (cornerC cx cy r angle (k + 1))).re - cx) ^ 2 +
    ((tip (cornerC cx cy r angle k) (cornerC cx cy r angle (k + 1))).im - cy) ^ 2 = (r : ℝ) ^ 2 := by
  obtain ⟨e1, e2⟩ := tip_parts (cornerC cx cy r angle k) (cornerC cx cy r angle (k + 1))
  rw [e1, e2]
  unfold cornerC RegPoly.corner
  dsimp only
  have et : (angle + 360 * ((k + 1 : Nat) : ℝ) / (3 : Nat)) * Real.pi / 180 = (angle + 360 * (k : ℝ) / (3 : Nat)) * Real.pi / 180 + (Real.pi - Real.pi / 3) := by
    push_cast
    ring
  rw [et, Real.sin_add, Real.cos_add, Real.sin_pi_sub, Real.cos_pi_sub, Real.sin_pi_div_three, Real.cos_pi_div_three]
  generalize (angle + 360 * (k : ℝ) / (3 : Nat)) * Real.pi / 180 = t
  have hs := Real.sin_sq_add_cos_sq t
  have hq : Real.sqrt 3 ^ 2 = 3 := Real.sq_sqrt (by norm_num)
  generalize Real.sqrt 3 = q at *
  have x : ((cx : ℝ) - r * Real.sin t + (cx - r * (Real.sin t * -(1 / 2) + Real.cos t * (q / 2)))) / 2 -
      (cy - r * (Real.cos t * -(1 / 2) - Real.sin t * (q / 2)) - (cy - r * Real.cos t)) * (q / 6) - cx = - r * (Real.sin t / 2 + q * Real.cos t / 2) := by
    linear_combination (-(r : ℝ) * Real.sin t / 12) * hq
  have y : ((cy : ℝ) - r * Real.cos t + (cy - r * (Real.cos t * -(1 / 2) - Real.sin t * (q / 2)))) / 2 +
      (cx - r * (Real.sin t * -(1 / 2) + Real.cos t * (q / 2)) - (cx - r * Real.sin t)) * (q / 6) - cy = - r * (Real.cos t / 2 - q * Real.sin t / 2) := by
    linear_combination (-(r : ℝ) * Real.cos t / 12) * hq
  rw [x, y]
  linear_combination ((r : ℝ) ^ 2 * (Real.sin t ^ 2 + Real.cos t ^ 2) / 4) * hq + (r : ℝ) ^ 2 * hs

/-- The corner of the triangle moved to the nearest pixel. -/
noncomputable def pixelC (cx cy r : Int) (angle : ℝ) (k : Nat) : ℂ := ⟨rndR (cornerC cx cy r angle k).re, rndR (cornerC cx cy r angle k).im⟩

/-- The pixels of the snowflake: the Koch curves of level `n` over the three sides, one after the other. -/
noncomputable def flake (cx cy r : Int) (angle : ℝ) (n : Nat) : List (Int × Int) :=
  let q := pixelC cx cy r angle
  let side := fun k l => kochPath (koch (Real.sqrt 3 / 6)) n (q k) (q l) ++ [q l]
  (side 0 1 ++ side 1 2 ++ side 2 0).map fun p => (rndR p.re, rndR p.im)

theorem corner_period (cx cy r : Int) (angle : ℝ) : cornerC cx cy r angle 3 = cornerC cx cy r angle 0 := by
  unfold cornerC RegPoly.corner
  dsimp only
  have : (angle + 360 * ((3 : Nat) : ℝ) / (3 : Nat)) * Real.pi / 180 = (angle + 360 * ((0 : Nat) : ℝ) / (3 : Nat)) * Real.pi / 180 + 2 * Real.pi := by
    push_cast
    ring
  rw [this, Real.sin_add_two_pi, Real.cos_add_two_pi]

/-- A square around a point. -/
def Box (cx cy d : ℝ) : Set ℂ := {z | |z.re - cx| ≤ d ∧ |z.im - cy| ≤ d}

theorem box_convex (cx cy d : ℝ) : Convex ℝ (Box cx cy d) := by
  intro z hz w hw s t hs ht hst
  unfold Box at *
  simp only [Set.mem_setOf_eq, abs_le, Complex.real_smul, Complex.add_re, Complex.add_im, Complex.mul_re, Complex.mul_im, Complex.ofReal_re,
    Complex.ofReal_im, zero_mul, sub_zero, add_zero] at *
  have e1 : s * z.re + t * w.re - cx = s * (z.re - cx) + t * (w.re - cx) := by linear_combination (cx) * hst
  have e2 : s * z.im + t * w.im - cy = s * (z.im - cy) + t * (w.im - cy) := by linear_combination (cy) * hst
  rw [e1, e2]
  obtain ⟨⟨a1, a2⟩, a3, a4⟩ := hz
  obtain ⟨⟨b1, b2⟩, b3, b4⟩ := hw
  have hd : d = s * d + t * d := by linear_combination (-d) * hst
  refine ⟨⟨?_, ?_⟩, ?_, ?_⟩ <;> nlinarith

theorem pixel_box {cx cy r : Int} (hr : 0 ≤ r) (angle : ℝ) (k : Nat) : pixelC cx cy r angle k ∈ Box cx cy (r + 4 / 5) := by
  have h := le_of_circle (by exact_mod_cast hr) (RegPoly.C121_radius cx cy r 3 angle k)
  have n1 := Plane.rndR_near (cornerC cx cy r angle k).re
  have n2 := Plane.rndR_near (cornerC cx cy r angle k).im
  unfold pixelC Box
  unfold cornerC at *
  simp only [Set.mem_setOf_eq, abs_le] at *
  refine ⟨⟨?_, ?_⟩, ?_, ?_⟩ <;> linarith

theorem tip_box {cx cy r : Int} (hr : 0 ≤ r) (angle : ℝ) (k : Nat) :
    tip (pixelC cx cy r angle k) (pixelC cx cy r angle (k + 1)) ∈ Box cx cy (r + 4 / 5) := by
  have h := le_of_circle (by exact_mod_cast hr) (C163_tips cx cy r angle k)
  obtain ⟨t1, t2⟩ := tip_parts (cornerC cx cy r angle k) (cornerC cx cy r angle (k + 1))
  obtain ⟨p1, p2⟩ := tip_parts (pixelC cx cy r angle k) (pixelC cx cy r angle (k + 1))
  have n1 := Plane.rndR_near (cornerC cx cy r angle k).re
  have n2 := Plane.rndR_near (cornerC cx cy r angle k).im
  have n3 := Plane.rndR_near (cornerC cx cy r angle (k + 1)).re
  have n4 := Plane.rndR_near (cornerC cx cy r angle (k + 1)).im
  have hq : Real.sqrt 3 ≤ 9 / 5 := by rw [Real.sqrt_le_left (by norm_num)]; norm_num
  have hq0 := Real.sqrt_nonneg 3
  unfold Box
  simp only [Set.mem_setOf_eq]
  rw [p1, p2]
  rw [t1, t2] at h
  unfold pixelC
  dsimp only
  generalize (cornerC cx cy r angle k) = u at *
  generalize (cornerC cx cy r angle (k + 1)) = v at *
  generalize ((rndR u.re : Int) : ℝ) = a at *
  generalize ((rndR u.im : Int) : ℝ) = b at *
  generalize ((rndR v.re : Int) : ℝ) = c at *
  generalize ((rndR v.im : Int) : ℝ) = d at *
  generalize Real.sqrt 3 = q at *
  simp only [abs_le] at *
  refine ⟨⟨?_, ?_⟩, ?_, ?_⟩ <;> nlinarith

/-- C163: every pixel of the snowflake is at most one pixel outside the square around its circle. -/
theorem C163_inside {cx cy r : Int} (hr : 0 ≤ r) (angle : ℝ) (n : Nat) : ∀ p ∈ flake cx cy r angle n, |p.1 - cx| ≤ r + 1 ∧ |p.2 - cy| ≤ r + 1 := by
  have h12 : (Real.sqrt 3 / 6) ^ 2 = 1 / 12 := by rw [div_pow, Real.sq_sqrt (by norm_num)]; norm_num
  have e3 : pixelC cx cy r angle 3 = pixelC cx cy r angle 0 := by unfold pixelC; rw [corner_period]
  have side : ∀ k, ∀ z ∈ kochPath (koch (Real.sqrt 3 / 6)) n (pixelC cx cy r angle k) (pixelC cx cy r angle (k + 1)) ++ [pixelC cx cy r angle (k + 1)],
      z ∈ Box cx cy (r + 4 / 5) := by
    intro k z hz
    rw [List.mem_append, List.mem_singleton] at hz
    rcases hz with hz | rfl
    · exact C163_convex h12 (box_convex _ _ _) n (pixel_box hr angle k) (pixel_box hr angle (k + 1)) (tip_box hr angle k) z hz
    · exact pixel_box hr angle (k + 1)
  intro p hp
  unfold flake at hp
  obtain ⟨z, hz, rfl⟩ := List.mem_map.mp hp
  have hb : z ∈ Box cx cy (r + 4 / 5) := by
    rw [List.mem_append, List.mem_append] at hz
    rcases hz with (hz | hz) | hz
    · exact side 0 z hz
    · exact side 1 z hz
    · have h2 := side 2 z
      rw [show (2 : Nat) + 1 = 3 from rfl, e3] at h2
      exact h2 hz
  have n1 := Plane.rndR_near z.re
  have n2 := Plane.rndR_near z.im
  have key : ∀ {x : ℝ} {c : Int}, |x - c| ≤ r + 4 / 5 → |(rndR x : ℝ) - x| ≤ 1 / 2 → |rndR x - c| ≤ r + 1 := by
    intro x c h1 h2
    rw [abs_le] at h1 h2
    have i1 : ((rndR x - c : Int) : ℝ) < ((r + 2 : Int) : ℝ) := by push_cast; linarith
    have i2 : ((-(r + 2) : Int) : ℝ) < ((rndR x - c : Int) : ℝ) := by push_cast; linarith
    have i1 := Int.cast_lt.mp i1
    have i2 := Int.cast_lt.mp i2
    rw [abs_le]
    omega
  exact ⟨key hb.1 n1, key hb.2 n2⟩

/-- C163: the file of a snowflake is a square image that shows the snowflake around its middle; all pixels of the snowflake are in the image. -/
theorem C163_snowflake_partial (fs : Files) (file : String) {r pen : Nat} (hpen : 1 ≤ pen) (n : Nat) (angle : ℝ) {bits : Nat} (hd : Depth bits)
    (hs : 2 * r + 2 * pen + 2 < 2 ^ 24) {color bg : Int} (hc : IsColour bits color) (hbg : IsColour bits bg) (hok : bg = 0 ∨ bits = 1 ∨ bits = 24)
    (h1 : pen = 1 → bits = 1 ∨ ∀ p q, Consec (flake (r + pen : Nat) (r + pen : Nat) r angle n) p q →
      LineOK (2 * r + 2 * pen + 2) (2 * r + 2 * pen + 2) bits p q) :
    let N := 2 * r + 2 * pen + 2
    let v := flake (r + pen : Nat) (r + pen : Nat) r angle n
    (∀ p ∈ v, (0 ≤ p.1 ∧ p.1 < N) ∧ (0 ≤ p.2 ∧ p.2 < N)) ∧
    ∃ fs', savekochsnowflake2file fs file r n angle bits color bg pen = .ok fs' ∧
      Saved fs fs' file (fun b => Valid b N N bits ∧ ∀ x y, x < N → y < N →
        let drawn := ∃ p q, (Consec v p q ∨ (v.head? = some p ∧ v.getLast? = some q)) ∧
          if pen = 1 then LineSet N N bits p q x y else StrokeSet N bits pen p q x y
        (drawn → pix b N N bits x y = color.toNat) ∧ (¬ drawn → pix b N N bits x y = bg.toNat)) := by
  intro N v
  have hN : N = 2 * r + 2 * pen + 2 := rfl
  have hin : ∀ p ∈ v, (0 ≤ p.1 ∧ p.1 < N) ∧ (0 ≤ p.2 ∧ p.2 < N) := by
    intro p hp
    have := C163_inside (by omega) angle n p hp
    rw [abs_le, abs_le] at this
    push_cast at this
    omega
  refine ⟨hin, ?_⟩
  obtain ⟨b, e, hv, hb⟩ := background (W := N) (H := N) hd ⟨by omega, hs⟩ ⟨by omega, hs⟩ hbg hok
  obtain ⟨pts, ek, -, hhead, hlast, epts⟩ := C107_snowflake (koch (Real.sqrt 3 / 6)) 0 (pixelC (r + pen : Nat) (r + pen : Nat) r angle 0)
    (pixelC (r + pen : Nat) (r + pen : Nat) r angle 1) (pixelC (r + pen : Nat) (r + pen : Nat) r angle 2) n
  have ev : pts.map (fun p => (rndR p.re, rndR p.im)) = v := by rw [epts]; rfl
  obtain ⟨u, hu⟩ : ∃ u, v.head? = some u := ⟨_, by rw [← ev, List.head?_map, hhead]; rfl⟩
  have hw : v.getLast? = some u := by
    have h1 : v.head? = v.getLast? := by rw [← ev, List.head?_map, List.getLast?_map, hhead, hlast]
    rw [← h1]; exact hu
  have hdraw : ∃ b', (if (pen : Int) > 1 then thickplotpoly b v pen color else plotpoly b v color) = .ok b' ∧
      Paints b b' N N bits (fun x y => ∃ p q, (Consec v p q ∨ (p = u ∧ q = u)) ∧
        if pen = 1 then LineSet N N bits p q x y else StrokeSet N bits pen p q x y) color.toNat := by
    by_cases hp1 : pen = 1
    · rw [if_neg (by omega)]
      obtain ⟨b', e', p⟩ := C93_plotpoly_partial hv (by omega) (by omega) hc hu hw (by
        intro p q hpq
        rcases hpq with hpq | ⟨rfl, rfl⟩
        · rcases h1 hp1 with h | h
          · intro _ _; exact .inl h
          · exact h p q hpq
        · intro _ hne; exact absurd rfl hne)
      exact ⟨b', e', p.congr fun x y _ _ => by simp only [if_pos hp1]⟩
    · rw [if_pos (by omega)]
      obtain ⟨b', e', p⟩ := C95_thickplotpoly_partial hv (pen := pen) hc hu hw (by
        intro p hp
        have := hin p hp
        exact penOK_in hd this.1.1 this.1.2)
      exact ⟨b', e', p.congr fun x y _ _ => by simp only [if_neg hp1]⟩
  obtain ⟨b', e', p⟩ := hdraw
  have hset : ∀ x y, (∃ p q, (Consec v p q ∨ (v.head? = some p ∧ v.getLast? = some q)) ∧
        if pen = 1 then LineSet N N bits p q x y else StrokeSet N bits pen p q x y) ↔ (∃ p q, (Consec v p q ∨ (p = u ∧ q = u)) ∧
        if pen = 1 then LineSet N N bits p q x y else StrokeSet N bits pen p q x y) := by
    intro x y
    rw [hu, hw]
    simp only [Option.some.injEq]
    constructor
    · rintro ⟨p, q, h | ⟨h1, h2⟩, hl⟩
      · exact ⟨p, q, .inl h, hl⟩
      · exact ⟨p, q, .inr ⟨h1.symm, h2.symm⟩, hl⟩
    · rintro ⟨p, q, h | ⟨h1, h2⟩, hl⟩
      · exact ⟨p, q, .inl h, hl⟩
      · exact ⟨p, q, .inr ⟨h1.symm, h2.symm⟩, hl⟩
  refine ⟨writeFile fs file b', ?_, Escape.write_saved fs file ⟨p.valid, ?_⟩⟩
  · have hx : pyShl (r : Int) 1 + pyShl (pen : Int) 1 + 2 = ((N : Nat) : Int) := by
      rw [hN]; unfold pyShl; push_cast; simp; ring
    have hcx : pyShr ((N : Int) - 1) 1 = ((r + pen : Nat) : Int) := by
      unfold pyShr; rw [hN]; push_cast; omega
    unfold savekochsnowflake2file
    dsimp only
    rw [hx, e, ok_bind, hcx]
    have ereg : regpolygonvert (r + pen : Nat) (r + pen : Nat) r 3 angle = .ok ((List.range 3).map fun k =>
        (rndR (cornerC (r + pen : Nat) (r + pen : Nat) r angle k).re, rndR (cornerC (r + pen : Nat) (r + pen : Nat) r angle k).im)) := by
      unfold regpolygonvert
      have := RegPoly.C121_regular ((r + pen : Nat) : Int) ((r + pen : Nat) : Int) (r : Int) (n := 3) (by decide) angle
      rw [show ((3 : Nat) : Int) = 3 from rfl] at this
      rw [this, ok_bind, pure_eq_ok, List.map_map]
      rfl
    rw [ereg, ok_bind]
    show (do
      let l : List ℂ ← kochsnowflakevert (koch (Real.sqrt 3 / 6)) 0 (pixelC (r + pen : Nat) (r + pen : Nat) r angle 0)
        (pixelC (r + pen : Nat) (r + pen : Nat) r angle 1) (pixelC (r + pen : Nat) (r + pen : Nat) r angle 2) n
      let l := l.map fun (p : ℂ) => (rndR p.re, rndR p.im)
      let bmp ← if (pen : Int) > 1 then thickplotpoly b l pen color else plotpoly b l color
      pure (writeFile fs file bmp)) = _
    rw [ek, ok_bind]
    dsimp only
    rw [ev]
    split_ifs at e' ⊢ <;> rw [e', ok_bind, pure_eq_ok]
  · intro x y hx hy
    dsimp only
    rw [hset x y]
    refine ⟨fun hs => p.inside x y hx hy hs, fun hs => ?_⟩
    rw [p.outside x y hx hy hs]
    exact hb x y hx hy

/-- The triangle of radius 4 around (5, 5): the corners are (5, 1), (2, 7) and (8, 7). -/
theorem flake_sample : flake 5 5 4 0 0 = [(5, 1), (2, 7), (2, 7), (8, 7), (8, 7), (5, 1)] := by
  have hq0 : (17 : ℝ) / 10 < Real.sqrt 3 := by rw [Real.lt_sqrt (by norm_num)]; norm_num
  have hq : Real.sqrt 3 ≤ 87 / 50 := by rw [Real.sqrt_le_left (by norm_num)]; norm_num
  have q0 : pixelC 5 5 4 0 0 = ⟨5, 1⟩ := by
    unfold pixelC cornerC RegPoly.corner
    have t : ((0 : ℝ) + 360 * ((0 : Nat) : ℝ) / (3 : Nat)) * Real.pi / 180 = 0 := by norm_num
    dsimp only
    rw [t, Real.sin_zero, Real.cos_zero, Plane.rndR_eq (k := 5) (by norm_num), Plane.rndR_eq (k := 1) (by norm_num)]
    norm_num
  have q1 : pixelC 5 5 4 0 1 = ⟨2, 7⟩ := by
    unfold pixelC cornerC RegPoly.corner
    have t : ((0 : ℝ) + 360 * ((1 : Nat) : ℝ) / (3 : Nat)) * Real.pi / 180 = Real.pi - Real.pi / 3 := by push_cast; ring
    dsimp only
    rw [t, Real.sin_pi_sub, Real.cos_pi_sub, Real.sin_pi_div_three, Real.cos_pi_div_three, Plane.rndR_eq (k := 2) (by
      rw [abs_lt]; push_cast; constructor <;> linarith), Plane.rndR_eq (k := 7) (by norm_num)]
    norm_num
  have q2 : pixelC 5 5 4 0 2 = ⟨8, 7⟩ := by
    unfold pixelC cornerC RegPoly.corner
    have t : ((0 : ℝ) + 360 * ((2 : Nat) : ℝ) / (3 : Nat)) * Real.pi / 180 = Real.pi / 3 + Real.pi := by push_cast; ring
    dsimp only
    rw [t, Real.sin_add_pi, Real.cos_add_pi, Real.sin_pi_div_three, Real.cos_pi_div_three, Plane.rndR_eq (k := 8) (by
      rw [abs_lt]; push_cast; constructor <;> linarith), Plane.rndR_eq (k := 7) (by norm_num)]
    norm_num
  have i (k : Int) : rndR (k : ℝ) = k := Plane.rndR_int k
  unfold flake
  dsimp only
  rw [q0, q1, q2]
  simp only [kochPath, List.cons_append, List.nil_append, List.map_cons, List.map_nil]
  have i5 := i 5
  have i1 := i 1
  have i2 := i 2
  have i7 := i 7
  have i8 := i 8
  push_cast at i5 i1 i2 i7 i8
  rw [i5, i1, i2, i7, i8]

/-- The snowflake of order 0 with radius 4 in an image of one bit per pixel: the bottom side of the triangle is drawn from x = 2 to x = 8 in row 7. -/
example (fs : Files) : ∃ fs', savekochsnowflake2file fs "k.bmp" 4 0 0 1 1 0 1 = .ok fs' ∧
    Saved fs fs' "k.bmp" (fun b => Valid b 12 12 1 ∧ ∀ x, 2 ≤ x → x ≤ 8 → pix b 12 12 1 x 7 = 1) := by
  obtain ⟨-, fs', e, s⟩ := C163_snowflake_partial fs "k.bmp" (r := 4) (pen := 1) (by decide) 0 0 (bits := 1) (.inl rfl) (by decide)
    (color := 1) (bg := 0) (by unfold IsColour; decide) (by unfold IsColour; decide) (.inl rfl) (fun _ => .inl rfl)
  refine ⟨fs', e, ?_⟩
  dsimp only at s
  rw [show ((4 + 1 : Nat) : Int) = 5 from rfl, show (((4 : Nat) : Int)) = 4 from rfl, flake_sample] at s
  obtain ⟨⟨b, hb, hv, hp⟩, ho⟩ := s
  refine ⟨⟨b, hb, hv, fun x h2 h8 => ?_⟩, ho⟩
  refine (hp x 7 (by omega) (by decide)).1 ⟨(2, 7), (8, 7), .inl ⟨[(5, 1), (2, 7)], [(8, 7), (5, 1)], rfl⟩, ?_⟩
  rw [if_pos rfl]
  refine (lineSet_axis (p := (2, 7)) (q := (8, 7)) (by decide) (by decide) (by decide) (.inr rfl) x 7).mpr ?_
  unfold Between
  simp
  omega

end Verif.Props.CurveFiles
