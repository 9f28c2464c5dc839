import Verif.Model.Misc
import Verif.Props.Palette
import Verif.Props.Helpers
import Verif.Props.Escape
import Verif.Props.Curves
import Verif.Props.Circle
import Verif.Props.Pals
import Verif.Props.Edges
import Verif.Props.Create
import Verif.Props.PolyFill
import Verif.Props.Solids
/-! Properties C187 to C190: default palettes and palettes in the order blue, green, red; the points of curves and
circles; the orbits of all iterated function systems; small helpers. -/

namespace Verif.Props.Rest
open Verif Spec Model Props Props.Escape

variable {b : Bytes} {W H bits : Nat}

/-! ### C187: palettes -/

/-- C187: a palette in the order blue, green, red is set like the same palette in the order red, green, blue. -/
theorem C187_bgr (b : Bytes) (pal : List RGB) : setbmppalwithBGRlist b (pal.map fun p => [p.2.2, p.2.1, p.1]) = setbmppal b pal := by
  unfold setbmppalwithBGRlist setbmppal
  rw [List.length_map]
  have key : ∀ (pal : List RGB) (s : Int) (b : Bytes), setpalBGRLoop (pal.map fun p => [p.2.2, p.2.1, p.1]) s b = setpalLoop pal s b := by
    intro pal
    induction pal with
    | nil => intros; rfl
    | cons p l ih =>
      intro s b
      obtain ⟨r, g, bl⟩ := p
      rw [List.map_cons]
      unfold setpalBGRLoop setpalLoop
      dsimp only
      cases mkArray [bl, g, r] with
      | error e => rfl
      | ok a => simp only [ok_bind]; exact ih _ _
  simp only [key]

example : (do let b ← newBMP 2 2 1; let b ← setbmppalwithBGRlist b [[1, 2, 3], [4, 5, 6]]; getallRGBpal b)
    = .ok [(3, 2, 1), (6, 5, 4)] := by decide +kernel

/-- C187 is false for entries of four numbers as the sibling `setbmppalwithBGRAlist` takes them: each makes the
file one byte longer, and the palette and all pixels are moved. -/
theorem C187_bgra_wrong : (do let b ← newBMP 2 2 1; let b' ← setbmppalwithBGRlist b [[1, 2, 3, 0], [4, 5, 6, 0]]
                              pure (b.length, b'.length)) = .ok (70, 72) := by decide +kernel

/-- The default palette of a depth. -/
def Default (bits : Nat) (pal : List RGB) : Prop := (bits = 1 ∧ pal = stdpal1) ∨ (bits = 4 ∧ pal = stdpal4) ∨ (bits = 8 ∧ pal = stdpal8)

/-- C187: `isdefaultpal` tells whether the palette that is read back is the default palette of the depth; it raises
`KeyError` for images without a palette. -/
theorem C187_isdefault (h : Valid b W H bits) :
    (bits ≠ 24 → ∃ v pal, isdefaultpal b = .ok v ∧ getallRGBpal b = .ok pal ∧ (v = true ↔ Default bits pal)) ∧
    (bits = 24 → isdefaultpal b = .error .keyError) := by
  have hb := h.depth
  have hc : getclrbits b = .ok (bits : Int) := h.clrbits_eq
  constructor
  · intro h24
    have hp := h.getallRGBpal_eq h24
    unfold isdefaultpal
    rw [hc, hp]
    generalize (List.range (2 ^ bits)).map _ = pal
    simp only [ok_bind]
    unfold Default
    rcases hb with rfl | rfl | rfl | rfl
    · refine ⟨_, pal, rfl, rfl, ?_⟩
      simp only [decide_eq_true_eq]
      constructor
      · intro e; left; exact ⟨trivial, e.symm⟩
      · rintro (⟨-, e⟩ | ⟨g, -⟩ | ⟨g, -⟩)
        · exact e.symm
        · omega
        · omega
    · refine ⟨_, pal, rfl, rfl, ?_⟩
      simp only [decide_eq_true_eq]
      constructor
      · intro e; right; left; exact ⟨trivial, e.symm⟩
      · rintro (⟨g, -⟩ | ⟨-, e⟩ | ⟨g, -⟩)
        · omega
        · exact e.symm
        · omega
    · refine ⟨_, pal, rfl, rfl, ?_⟩
      simp only [decide_eq_true_eq]
      constructor
      · intro e; right; right; exact ⟨trivial, e.symm⟩
      · rintro (⟨g, -⟩ | ⟨g, -⟩ | ⟨-, e⟩)
        · omega
        · omega
        · exact e.symm
    · exact absurd rfl h24
  · rintro rfl
    unfold isdefaultpal
    rw [hc]
    rfl

example : (do let b ← newBMP 2 2 4; let b' ← setRGBpal b 3 10 20 30
              pure (← isdefaultpal b, ← isdefaultpal b')) = .ok (true, false) := by decide +kernel

/-- C187: the inverse palette in the order blue, green, red has the entries of the palette in the order red, green,
blue; both functions fail together. -/
theorem C187_monoBGR (bits : Nat) (f : ℚ × ℚ × ℚ) (mult shift : Int) :
    monoinverseshiftableBGRpal bits f mult shift =
      (do let l ← monoinverseshiftablepal bits f mult shift; pure (l.map fun p => [p.2.2, p.2.1, p.1])) := by
  unfold monoinverseshiftableBGRpal monoinverseshiftablepal
  cases pyRange3 0 256 (palinc bits) with
  | error e => rfl
  | ok l => simp only [ok_bind, pure_eq_ok, List.map_map]; rfl

example : monoinverseshiftableBGRpal 1 (1, 1 / 2, 0) 1 0 = .ok [[0, 128, 255], [0, 0, 0]] := by decide +kernel

/-- How bright a component of the default colour is: off, half or full. -/
def level (bright : Bool) (v : Int) : Int := if 64 ≤ v then (if bright then 255 else 128) else 0

/-- C187: the colour that `matchRGBtodefault4bitpal` chooses from the default palette of 16 colours has the
components off, half or full, but with red and blue exchanged. -/
theorem C187_match_exact {r g bl : Int} (hr : 0 ≤ r ∧ r < 256) (hg : 0 ≤ g ∧ g < 256) (hb : 0 ≤ bl ∧ bl < 256) :
    let bright := decide (128 ≤ r ∨ 128 ≤ g ∨ 128 ≤ bl)
    ∃ k : Nat, matchRGBtodefault4bitpal (r, g, bl) = (k : Int) ∧ k < 16 ∧
      stdpal4[k]? = some (level bright bl, level bright g, level bright r) := by
  intro bright
  have h1 : matchRGBtodefault4bitpal (r, g, bl) = ((if bright = true then 8 else 0) + (if 64 ≤ r then 4 else 0) +
      (if 64 ≤ g then 2 else 0) + (if 64 ≤ bl then 1 else 0) : Nat) := by
    unfold matchRGBtodefault4bitpal pyShr
    simp only [bright, decide_eq_true_eq]
    split_ifs <;> omega
  refine ⟨_, h1, ?_, ?_⟩
  · split_ifs <;> omega
  · have hd : bright = false → r < 128 ∧ g < 128 ∧ bl < 128 := by
      intro e; have := of_decide_eq_false e; omega
    have hd' : bright = true → 64 ≤ r ∨ 64 ≤ g ∨ 64 ≤ bl := by
      intro e; have := of_decide_eq_true e; omega
    unfold level
    generalize bright = br at *
    cases br <;> by_cases c1 : 64 ≤ r <;> by_cases c2 : 64 ≤ g <;> by_cases c3 : 64 ≤ bl <;>
      simp only [c1, c2, c3, if_true, if_false, Bool.false_eq_true] <;> first
        | rfl
        | (exfalso; have := hd' rfl; omega)

/-- C187 is false: pure blue is matched to the number of pure red, and the dark red of the palette itself to that
of light blue. -/
theorem C187_match_false : matchRGBtodefault4bitpal (0, 0, 255) = 9 ∧ stdpal4[9]? = some (255, 0, 0) ∧
    stdpal4[1]? = some (128, 0, 0) ∧ matchRGBtodefault4bitpal (128, 0, 0) = 12 ∧ stdpal4[12]? = some (0, 0, 255) := by decide +kernel

/-! ### C188: points of curves and circles -/

/-- The points of a rasterised line are at most one step outside the rectangle between its end points. -/
theorem edge_box {p q r : Int × Int} (hr : PolyFill.EdgePt p q r) {x1 y1 x2 y2 : Int}
    (hp : x1 ≤ p.1 ∧ p.1 ≤ x2 ∧ y1 ≤ p.2 ∧ p.2 ≤ y2) (hq : x1 ≤ q.1 ∧ q.1 ≤ x2 ∧ y1 ≤ q.2 ∧ q.2 ≤ y2) :
    x1 - 1 ≤ r.1 ∧ r.1 ≤ x2 + 1 ∧ y1 - 1 ≤ r.2 ∧ r.2 ≤ y2 + 1 := by
  rcases hr with rfl | ⟨k, k0, k1, rfl⟩
  · omega
  · obtain ⟨a, b⟩ := p
    obtain ⟨c, d⟩ := q
    dsimp only at *
    unfold rasterPt
    dsimp only
    have quot : ∀ {s t : Int}, 0 ≤ s → s ≤ t → k ≤ t → 0 ≤ (k + 1) * s / t ∧ (k + 1) * s / t ≤ s + 1 := by
      intro s t hs hst hkt
      rcases eq_or_lt_of_le (le_trans hs hst) with h0 | h0
      · rw [← h0, Int.ediv_zero]; omega
      · refine ⟨Int.ediv_nonneg (by nlinarith) h0.le, ?_⟩
        have : (k + 1) * s / t < s + 2 := (Int.ediv_lt_iff_lt_mul h0).mpr (by nlinarith)
        omega
    split_ifs with hc
    · rw [max_eq_left hc] at k1
      have := quot (abs_nonneg _) hc k1
      generalize (k + 1) * |d - b| / |c - a| = m at *
      rcases sign_cases (c - a) with ⟨e, g1, g2⟩ | ⟨e, g1, g2⟩ | ⟨e, g1, g2⟩ <;>
        rcases sign_cases (d - b) with ⟨f, g3, g4⟩ | ⟨f, g3, g4⟩ | ⟨f, g3, g4⟩ <;> rw [e, f] <;> rw [g2] at k1 <;> rw [g4] at this <;> omega
    · rw [max_eq_right (by omega)] at k1
      have := quot (abs_nonneg (c - a)) (le_of_lt (not_le.mp hc)) k1
      generalize (k + 1) * |c - a| / |d - b| = m at *
      rcases sign_cases (c - a) with ⟨e, g1, g2⟩ | ⟨e, g1, g2⟩ | ⟨e, g1, g2⟩ <;>
        rcases sign_cases (d - b) with ⟨f, g3, g4⟩ | ⟨f, g3, g4⟩ | ⟨f, g3, g4⟩ <;> rw [e, f] <;> rw [g4] at k1 <;> rw [g2] at this <;> omega

theorem rounded_box {v : ℚ × ℚ} {x1 y1 x2 y2 : Int} (h : (x1 : ℚ) ≤ v.1 ∧ v.1 ≤ x2 ∧ (y1 : ℚ) ≤ v.2 ∧ v.2 ≤ y2) :
    x1 ≤ (roundvect2 v).1 ∧ (roundvect2 v).1 ≤ x2 ∧ y1 ≤ (roundvect2 v).2 ∧ (roundvect2 v).2 ≤ y2 := by
  obtain ⟨h1, h2, h3, h4⟩ := h
  have m1 := rnd_mono h1
  have m2 := rnd_mono h2
  have m3 := rnd_mono h3
  have m4 := rnd_mono h4
  rw [rnd_int] at m1 m2 m3 m4
  exact ⟨m1, m2, m3, m4⟩

/-- C188: the points of a B-spline are at most one step outside each rectangle around the control points, for open
and closed curves. -/
theorem C188_bspline {pts : List (ℚ × ℚ)} (hne : pts ≠ []) (isclosed curveback : Bool) {x1 y1 x2 y2 : Int}
    (hb : ∀ p ∈ pts, (x1 : ℚ) ≤ p.1 ∧ p.1 ≤ x2 ∧ (y1 : ℚ) ≤ p.2 ∧ p.2 ≤ y2) :
    ∃ l, bsplinevert pts isclosed curveback = .ok l ∧ ∀ p ∈ l, x1 - 1 ≤ p.1 ∧ p.1 ≤ x2 + 1 ∧ y1 - 1 ≤ p.2 ∧ p.2 ≤ y2 + 1 := by
  obtain ⟨w, ps, rfl⟩ := List.exists_cons_of_ne_nil hne
  unfold bsplinevert iterbspline
  rw [show nth (w :: ps) 0 = .ok w from rfl, ok_bind]
  refine ⟨_, rfl, ?_⟩
  generalize hp : w :: ps = pts at *
  have inv : ∀ (is : List Nat) (acc : List (Int × Int) × (ℚ × ℚ)),
      ((x1 : ℚ) ≤ acc.2.1 ∧ acc.2.1 ≤ x2 ∧ (y1 : ℚ) ≤ acc.2.2 ∧ acc.2.2 ≤ y2) →
      (∀ p ∈ acc.1, x1 - 1 ≤ p.1 ∧ p.1 ≤ x2 + 1 ∧ y1 - 1 ≤ p.2 ∧ p.2 ≤ y2 + 1) →
      ∀ p ∈ (is.foldl (fun (acc : List (Int × Int) × (ℚ × ℚ)) (i : Nat) =>
        (List.range (pts.length * 4)).foldl (fun (acc : List (Int × Int) × (ℚ × ℚ)) (k : Nat) =>
          let v := bsplinepoint pts curveback i ((k : ℚ) / (pts.length * 4 : Nat))
          (if i > 1 then acc.1 ++ iterline (roundvect2 v) (roundvect2 acc.2) else acc.1, v)) acc) acc).1,
        x1 - 1 ≤ p.1 ∧ p.1 ≤ x2 + 1 ∧ y1 - 1 ≤ p.2 ∧ p.2 ≤ y2 + 1 := by
    intro is
    induction is with
    | nil => intro acc _ h; exact h
    | cons i is ih =>
      intro acc h1 h2
      rw [List.foldl_cons]
      have inner : ∀ (ks : List Nat) (acc : List (Int × Int) × (ℚ × ℚ)), (∀ k ∈ ks, k < pts.length * 4) →
          ((x1 : ℚ) ≤ acc.2.1 ∧ acc.2.1 ≤ x2 ∧ (y1 : ℚ) ≤ acc.2.2 ∧ acc.2.2 ≤ y2) →
          (∀ p ∈ acc.1, x1 - 1 ≤ p.1 ∧ p.1 ≤ x2 + 1 ∧ y1 - 1 ≤ p.2 ∧ p.2 ≤ y2 + 1) →
          let r := ks.foldl (fun (acc : List (Int × Int) × (ℚ × ℚ)) (k : Nat) =>
            let v := bsplinepoint pts curveback i ((k : ℚ) / (pts.length * 4 : Nat))
            (if i > 1 then acc.1 ++ iterline (roundvect2 v) (roundvect2 acc.2) else acc.1, v)) acc
          ((x1 : ℚ) ≤ r.2.1 ∧ r.2.1 ≤ x2 ∧ (y1 : ℚ) ≤ r.2.2 ∧ r.2.2 ≤ y2) ∧
          (∀ p ∈ r.1, x1 - 1 ≤ p.1 ∧ p.1 ≤ x2 + 1 ∧ y1 - 1 ≤ p.2 ∧ p.2 ≤ y2 + 1) := by
        intro ks
        induction ks with
        | nil => intro acc _ h1 h2; exact ⟨h1, h2⟩
        | cons k ks ihk =>
          intro acc hk h1 h2
          rw [List.foldl_cons]
          have hkl : k < pts.length * 4 := hk k (by simp)
          have hpos : (0 : ℚ) < (pts.length * 4 : Nat) := by exact_mod_cast (by omega : 0 < pts.length * 4)
          have hull := Curves.C120_bspline_hull (pts := pts) (by rw [← hp]; simp) curveback i (u := (k : ℚ) / (pts.length * 4 : Nat))
            (by positivity) ((div_le_one hpos).mpr (by exact_mod_cast hkl.le)) hb
          refine ihk _ (fun k' hk' => hk k' (by simp [hk'])) hull ?_
          dsimp only
          split_ifs with hi
          · intro p hpm
            rcases List.mem_append.mp hpm with g | g
            · exact h2 p g
            · exact edge_box ((PolyFill.mem_iterline_iff _ _ _).mp g) (rounded_box hull) (rounded_box h1)
          · exact h2
      obtain ⟨g1, g2⟩ := inner (List.range (pts.length * 4)) acc (fun k hk => List.mem_range.mp hk) h1 h2
      exact ih _ g1 g2
  have hw : (x1 : ℚ) ≤ w.1 ∧ w.1 ≤ x2 ∧ (y1 : ℚ) ≤ w.2 ∧ w.2 ≤ y2 := hb w (by rw [← hp]; simp)
  exact inv _ ([], w) hw (by simp)

/-- C188: so are the points of a Bezier curve with two or more control points. -/
theorem C188_bezier {pts : List (ℚ × ℚ)} (hn : 2 ≤ pts.length) (isclosed curveback : Bool) {x1 y1 x2 y2 : Int}
    (hb : ∀ p ∈ pts, (x1 : ℚ) ≤ p.1 ∧ p.1 ≤ x2 ∧ (y1 : ℚ) ≤ p.2 ∧ p.2 ≤ y2) :
    ∃ l, beziercurvevert pts isclosed curveback = .ok l ∧ ∀ p ∈ l, x1 - 1 ≤ p.1 ∧ p.1 ≤ x2 + 1 ∧ y1 - 1 ≤ p.2 ∧ p.2 ≤ y2 + 1 := by
  obtain ⟨w, ps, rfl⟩ := List.exists_cons_of_ne_nil (l := pts) (by rintro rfl; simp at hn)
  unfold beziercurvevert iterbeziercurve
  rw [show nth (w :: ps) 0 = .ok w from rfl, ok_bind]
  refine ⟨_, rfl, ?_⟩
  have hw : (x1 : ℚ) ≤ w.1 ∧ w.1 ≤ x2 ∧ (y1 : ℚ) ≤ w.2 ∧ w.2 ≤ y2 := hb w (by simp)
  generalize hp : w :: ps = pts at *
  have inner : ∀ (ks : List Nat) (acc : List (Int × Int) × (ℚ × ℚ)), (∀ k ∈ ks, k < pts.length * 4) →
      ((x1 : ℚ) ≤ acc.2.1 ∧ acc.2.1 ≤ x2 ∧ (y1 : ℚ) ≤ acc.2.2 ∧ acc.2.2 ≤ y2) →
      (∀ p ∈ acc.1, x1 - 1 ≤ p.1 ∧ p.1 ≤ x2 + 1 ∧ y1 - 1 ≤ p.2 ∧ p.2 ≤ y2 + 1) →
      ∀ p ∈ (ks.foldl (fun (acc : List (Int × Int) × (ℚ × ℚ)) (k : Nat) =>
        let v := bezierpoint pts ((k : ℚ) / (pts.length * 4 : Nat))
        (acc.1 ++ iterline (roundvect2 v) (roundvect2 acc.2), v)) acc).1, x1 - 1 ≤ p.1 ∧ p.1 ≤ x2 + 1 ∧ y1 - 1 ≤ p.2 ∧ p.2 ≤ y2 + 1 := by
    intro ks
    induction ks with
    | nil => intro acc _ h1 h2; exact h2
    | cons k ks ihk =>
      intro acc hk h1 h2
      rw [List.foldl_cons]
      have hkl : k < pts.length * 4 := hk k (by simp)
      have hpos : (0 : ℚ) < (pts.length * 4 : Nat) := by exact_mod_cast (by omega : 0 < pts.length * 4)
      have hull := Curves.C120_bezier_hull hn (u := (k : ℚ) / (pts.length * 4 : Nat))
        (by positivity) ((div_le_one hpos).mpr (by exact_mod_cast hkl.le)) hb
      refine ihk _ (fun k' hk' => hk k' (by simp [hk'])) hull ?_
      dsimp only
      intro p hpm
      rcases List.mem_append.mp hpm with g | g
      · exact h2 p g
      · exact edge_box ((PolyFill.mem_iterline_iff _ _ _).mp g) (rounded_box hull) (rounded_box h1)
  exact inner _ ([], w) (fun k hk => List.mem_range.mp hk) hw (by simp)

/-- The step outside occurs, for lines along a diagonal. -/
theorem C188_box_wrong : (beziercurvevert [(9, 9), (0, 0), (0, 0)] false false).toOption.map (List.take 5) =
    some [(9, 9), (9, 9), (8, 9), (9, 10), (9, 9)] := by decide +kernel

example : (bsplinevert [(9, 9), (9, 9), (9, 9), (0, 0)] false false).toOption.map (List.take 5) =
    some [(2, 2), (2, 2), (1, 2), (2, 3), (2, 2)] := by decide +kernel

/-- C188: the points of `circlevert` are those of the rasterised circle, also outside of the image. -/
theorem C188_circle (x y r px py : Int) : (px, py) ∈ circlevert x y r ↔ OnCircle r |px - x| |py - y| := by
  unfold circlevert itercircle
  rw [List.mem_flatMap]
  constructor
  · rintro ⟨v, hv, hm⟩
    obtain ⟨n1, n2, _⟩ := part_nonneg hv
    obtain ⟨e1, e2⟩ := (mem_quad x y v n1 n2 _ _).mp hm
    rw [e1, e2]
    exact (C25_circle_points _ _ _).mp hv
  · intro h
    exact ⟨_, (C25_circle_points _ _ _).mpr h, (mem_quad x y _ (abs_nonneg _) (abs_nonneg _) _ _).mpr ⟨rfl, rfl⟩⟩

example : (-3, 4) ∈ circlevert 0 0 5 ∧ (-3, 3) ∉ circlevert 0 0 5 := by decide +kernel

/-! ### C189: iterated function systems -/

/-- A rectangle around the origin `k` times as large as that with the half sides `X` and `Y`. -/
def InBox (X Y k : ℚ) (v : ℚ × ℚ) : Prop := |v.1| ≤ k * X ∧ |v.2| ≤ k * Y

/-- The maps make the rectangle smaller by three hundredths even after an addition of three thousandths, and move it
into itself. -/
def Shrinks (X Y : ℚ) (m : Affine) : Prop :=
  |m.1| * X + |m.2.1| * Y ≤ 965 / 1000 * X ∧ |m.2.2.1| * X + |m.2.2.2.1| * Y ≤ 965 / 1000 * Y ∧
  |m.1| * X + |m.2.1| * Y + |m.2.2.2.2.1| ≤ 995 / 1000 * X ∧ |m.2.2.1| * X + |m.2.2.2.1| * Y + |m.2.2.2.2.2| ≤ 995 / 1000 * Y

theorem step_coord {rd : ℚ → ℚ} (hrd : ∀ v, |rd v - v| ≤ |v| / 1000) {a b e X Y Z k : ℚ} (hX : 0 ≤ X) (hY : 0 ≤ Y) (hk : 1 ≤ k)
    (h1 : |a| * X + |b| * Y ≤ 965 / 1000 * Z) (h2 : |a| * X + |b| * Y + |e| ≤ 995 / 1000 * Z) {v : ℚ × ℚ} (hv : InBox X Y k v) :
    |rd (rd (rd (a * v.1) + rd (b * v.2)) + e)| ≤ (1 + 97 / 100 * (k - 1)) * Z := by
  have up : ∀ v, |rd v| ≤ 1001 / 1000 * |v| := by
    intro v
    have := hrd v
    have h3 : |rd v| ≤ |rd v - v| + |v| := by
      calc |rd v| = |(rd v - v) + v| := by ring_nf
        _ ≤ _ := abs_add_le _ _
    linarith
  obtain ⟨v1, v2⟩ := hv
  have a1 : |a * v.1| ≤ |a| * (k * X) := by rw [abs_mul]; exact mul_le_mul_of_nonneg_left v1 (abs_nonneg _)
  have a2 : |b * v.2| ≤ |b| * (k * Y) := by rw [abs_mul]; exact mul_le_mul_of_nonneg_left v2 (abs_nonneg _)
  have u1 := up (a * v.1)
  have u2 := up (b * v.2)
  have u3 := up (rd (a * v.1) + rd (b * v.2))
  have u4 := up (rd (rd (a * v.1) + rd (b * v.2)) + e)
  have t1 := abs_add_le (rd (a * v.1)) (rd (b * v.2))
  have t2 := abs_add_le (rd (rd (a * v.1) + rd (b * v.2))) e
  set L := |a| * X + |b| * Y with hL
  have hL0 : 0 ≤ L := by positivity
  have e0 := abs_nonneg e
  have hsum : |a| * (k * X) + |b| * (k * Y) = k * L := by rw [hL]; ring
  have hfin : |rd (rd (rd (a * v.1) + rd (b * v.2)) + e)| ≤ 1004 / 1000 * (k * L + |e|) := by nlinarith
  have : k * L + |e| = (L + |e|) + (k - 1) * L := by ring
  nlinarith [mul_le_mul_of_nonneg_left h1 (sub_nonneg.mpr hk)]

/-- C189: with maps that shrink a rectangle, the distance of the orbit from the rectangle is multiplied by 97/100 at
least in each round, wherever it starts, whatever the random numbers, and with each result rounded with a
relative error of up to 1/1000. -/
theorem orbit_box {rd : ℚ → ℚ} (hrd : ∀ v, |rd v - v| ≤ |v| / 1000) {maps : List Affine} {p : ℚ × ℚ × ℚ} {X Y : ℚ} (hX : 0 ≤ X) (hY : 0 ≤ Y)
    (hm : ∀ m ∈ maps, Shrinks X Y m) {k : ℚ} (hk : 1 ≤ k) {v : ℚ × ℚ} (hv : InBox X Y k v) (js : List ℚ) :
    InBox X Y (1 + (97 / 100) ^ js.length * (k - 1)) (orbit maps p rd v js) := by
  induction js generalizing v k with
  | nil => simpa [orbit] using hv
  | cons j js ih =>
    unfold orbit
    rw [List.foldl_cons]
    set m := maps.getD (ifsPick p j) (0, 0, 0, 0, 0, 0) with hmd
    have hs : Shrinks X Y m := by
      rw [hmd, List.getD_eq_getElem?_getD]
      cases h : maps[ifsPick p j]? with
      | none => simp only [Option.getD_none]; unfold Shrinks; norm_num; exact ⟨hX, hY, hX, hY⟩
      | some m => exact hm m (List.mem_of_getElem? h)
    obtain ⟨s1, s2, s3, s4⟩ := hs
    have hbox : InBox X Y (1 + 97 / 100 * (k - 1)) (ifsStep rd m v) := by
      obtain ⟨a, b, c, d, e, f⟩ := m
      exact ⟨step_coord hrd hX hY hk s1 s3 hv, step_coord hrd hX hY hk s2 s4 hv⟩
    have := ih (by linarith) hbox
    unfold orbit at this
    rw [List.length_cons, pow_succ]
    rwa [show 1 + (97 / 100 : ℚ) ^ js.length * (1 + 97 / 100 * (k - 1) - 1) = 1 + (97 / 100) ^ js.length * (97 / 100) * (k - 1) by ring] at this

/-- C189: the orbits of the fern, the tree, the Cantor tree and the Sierpinski triangle. -/
theorem C189_bounded {rd : ℚ → ℚ} (hrd : ∀ v, |rd v - v| ≤ |v| / 1000) {k : ℚ} (hk : 1 ≤ k) (v : ℚ × ℚ) (js : List ℚ) :
    (InBox 5 14 k v → InBox 5 14 (1 + (97 / 100) ^ js.length * (k - 1)) (orbit IFSfern.1 IFSfern.2 rd v js)) ∧
    (InBox 2 2 k v → InBox 2 2 (1 + (97 / 100) ^ js.length * (k - 1)) (orbit IFStree.1 IFStree.2 rd v js)) ∧
    (InBox 2 2 k v → InBox 2 2 (1 + (97 / 100) ^ js.length * (k - 1)) (orbit IFScantortree.1 IFScantortree.2 rd v js)) ∧
    (InBox 3 3 k v → InBox 3 3 (1 + (97 / 100) ^ js.length * (k - 1)) (orbit IFSsierpinski.1 IFSsierpinski.2 rd v js)) := by
  refine ⟨fun hv => orbit_box hrd (by norm_num) (by norm_num) ?_ hk hv js, fun hv => orbit_box hrd (by norm_num) (by norm_num) ?_ hk hv js,
    fun hv => orbit_box hrd (by norm_num) (by norm_num) ?_ hk hv js, fun hv => orbit_box hrd (by norm_num) (by norm_num) ?_ hk hv js⟩ <;>
  · intro m hm
    simp only [IFSfern, IFStree, IFScantortree, IFSsierpinski, List.mem_cons, List.not_mem_nil, or_false] at hm
    rcases hm with rfl | rfl | rfl | rfl <;> unfold Shrinks <;> norm_num [abs_of_pos, abs_of_neg]

/-- Exact numbers and floats satisfy the condition. -/
theorem C189_rounding : (∀ v : ℚ, |id v - v| ≤ |v| / 1000) ∧ ∀ v : ℚ, |fl v - v| ≤ |v| / 1000 := by
  refine ⟨fun v => by simp; positivity, fun v => le_trans (fl_err v) ?_⟩
  have := abs_nonneg v
  rw [div_le_div_iff₀ (by norm_num) (by norm_num)]
  nlinarith

/-- From (100, 200), in two rounds. -/
example : orbit IFStree.1 IFStree.2 id (100, 200) [1 / 100, 1 / 10] = (4, 51 / 5) := by decide +kernel

/-! ### C190: small helpers -/

/-- C190: `centercoord` is the pixel with as many columns to the left as to the right and as many rows above as
below, or one less. -/
theorem C190_center (h : Valid b W H bits) (hW : 0 < W) (hH : 0 < H) :
    ∃ x y : Nat, centercoord b = .ok ((x : Int), (y : Int)) ∧ x < W ∧ y < H ∧
      (W - 1 - x = x ∨ W - 1 - x = x + 1) ∧ (H - 1 - y = y ∨ H - 1 - y = y + 1) := by
  refine ⟨(W - 1) / 2, (H - 1) / 2, ?_, by omega, by omega, by omega, by omega⟩
  unfold centercoord pyShr
  rw [h.getmaxx_eq, ok_bind, h.getmaxy_eq, ok_bind, pure_eq_ok]
  congr 2 <;> omega

example : (do let b ← newBMP 5 4 1; centercoord b) = .ok (2, 1) := by decide +kernel

/-- C190: `getneighborcolorlist` gives the colours of the pixels around `v` and of `v` itself, in the order of
`itergetneighbors` (C52). -/
theorem C190_neighbours (h : Valid b W H bits) {x y : Nat} (hx : x < W) (hy : y < H) :
    getneighborcolorlist b ((x : Int), (y : Int)) =
      .ok ((itergetneighbors ((x : Int), (y : Int)) W H true).map fun p => some (rgbI (pixRGB b W H bits p.1.toNat p.2.toNat))) := by
  unfold getneighborcolorlist
  rw [show getmaxx b = .ok (W : Int) from h.getmaxx_eq, ok_bind, show getmaxy b = .ok (H : Int) from h.getmaxy_eq, ok_bind]
  apply mapM_ok
  intro u hu
  obtain ⟨h1, h2, h3, h4, h5, h6, h7⟩ := ((C52_exact _ W H true).2 u).mp hu
  dsimp only at *
  have e := getRGB_spec h (x := u.1.toNat) (y := u.2.toNat) (by omega) (by omega)
  rw [Int.toNat_of_nonneg (by omega), Int.toNat_of_nonneg (by omega)] at e
  exact e

example : (do let b ← newBMP 3 3 1; let b ← plotxybit b 2 2 1; getneighborcolorlist b (2, 2)) =
    .ok [some (0, 0, 0), some (255, 255, 255), some (0, 0, 0), some (0, 0, 0)] := by decide +kernel

/-- C190: `initmatrix` has `j` rows of `i` copies. -/
theorem C190_matrix {α : Type} (i j : Nat) (v : α) : initmatrix (i : Int) (j : Int) v = List.replicate j (List.replicate i v) := by
  unfold initmatrix
  have : ∀ (n : Nat) (β : Type) (c : β), (pyRange 0 (n : Int)).map (fun _ => c) = List.replicate n c := by
    intro n β c
    rw [pyRange_zero, List.map_map, List.eq_replicate_iff]
    simp
  rw [this, this]

example : initmatrix 3 2 7 = [[7, 7, 7], [7, 7, 7]] := by decide +kernel

/-- C190: `rotvec3D` gives a rotation, so `perspective` keeps distances (C116). -/
theorem C190_rotation (roll pitch yaw : ℝ) (t : ℝ × ℝ × ℝ) {p q p' q' : List ℝ} (hp : turn (rotvec3D roll pitch yaw) t p = .ok p')
    (hq : turn (rotvec3D roll pitch yaw) t q = .ok q') : Solids.sqDist p' q' = Solids.sqDist p q :=
  Solids.C116_isometry (Solids.C116_rotvec roll pitch yaw) t hp hq

/-- C190: `plotRGBxybitvec` on a true colour image stores the three bytes at the pixel and nowhere else. -/
theorem C190_plotvec (h : Valid b W H 24) {x y : Nat} (hx : x < W) (hy : y < H) {r g bl : Nat} (hr : r < 256) (hg : g < 256) (hb : bl < 256) :
    ∃ b', plotRGBxybitvec b ((x : Int), (y : Int)) (r, g, bl) = .ok b' ∧ Valid b' W H 24 ∧ SameHeader b b' 24 ∧
      getRGBxybitvec b' ((x : Int), (y : Int)) = .ok (some ((r : Int), (g : Int), (bl : Int))) ∧
      ∀ x' y', x' < W → y' < H → (x', y') ≠ (x, y) → getxybit b' x' y' = getxybit b x' y' :=
  (C09_rgb_access h hx hy).2 rfl r g bl hr hg hb

end Verif.Props.Rest
