import Verif.Props.CircleGen
/-! Properties C26 and C27: drawing circles and filled circles. -/

namespace Verif.Props
open Verif Spec Model

/-- Pixels of the rasterised circle around `(x, y)`. -/
def CircleSet (x y r : Int) (px py : Nat) : Prop := OnCircle r |(px : Int) - x| |(py : Int) - y|

/-- Pixels of the rasterised disc: those horizontally between circle points of their row. -/
def DiscSet (x y r : Int) (px py : Nat) : Prop := ∃ dx, OnCircle r dx |(py : Int) - y| ∧ |(px : Int) - x| ≤ dx

theorem abs_split (a v : Int) (hv : 0 ≤ v) : |a| = v ↔ a = v ∨ a = -v := abs_eq hv

theorem mem_quad (x y : Int) (v : Int × Int) (h1 : 0 ≤ v.1) (h2 : 0 ≤ v.2) (px py : Int) :
    (px, py) ∈ mirror1stquad x y v ↔ |px - x| = v.1 ∧ |py - y| = v.2 := by
  unfold mirror1stquad mirror
  simp only [List.mem_cons, Prod.mk.injEq, List.not_mem_nil, or_false]
  rw [abs_split _ _ h1, abs_split _ _ h2]
  constructor
  · rintro (h | h | h | h) <;> omega
  · rintro ⟨h | h, h' | h'⟩
    · right; left; omega
    · right; right; right; omega
    · left; omega
    · right; right; left; omega

theorem part_nonneg {r : Int} {v : Int × Int} (h : v ∈ itercirclepart r) : 0 ≤ v.1 ∧ 0 ≤ v.2 ∧ v.1 ≤ r ∧ v.2 ≤ r := by
  obtain ⟨a, b, c, d, _⟩ := C25_circle_accuracy r v.1 v.2 h
  exact ⟨a, c, b, d⟩

theorem mem_itercircle (x y r : Int) (px py : Nat) :
    ((px : Int), (py : Int)) ∈ itercircle x y r ↔ CircleSet x y r px py := by
  unfold itercircle CircleSet
  rw [List.mem_flatMap]
  constructor
  · rintro ⟨v, hv, hm⟩
    obtain ⟨n1, n2, _⟩ := part_nonneg hv
    obtain ⟨e1, e2⟩ := (mem_quad x y v n1 n2 _ _).mp hm
    rw [e1, e2]
    exact (C25_circle_points _ _ _).mp hv
  · intro h
    exact ⟨_, (C25_circle_points _ _ _).mpr h, (mem_quad x y _ (abs_nonneg _) (abs_nonneg _) _ _).mpr ⟨rfl, rfl⟩⟩

theorem plotP_paints {b : Bytes} {W H bits : Nat} (hb : Valid b W H bits) {x0 y0 c : Nat} (hx0 : x0 < W) (hy0 : y0 < H)
    (hc : c < 2 ^ bits) :
    Paints b (plotP b W H bits x0 y0 c) W H bits (fun x' y' => x' = x0 ∧ y' = y0) c := by
  refine ⟨hb.valid_plotP hx0 hy0 hc, ⟨hb.length_plotP hx0 hy0, ?_⟩, ?_, ?_⟩
  · intro i hi
    apply hb.byte_plotP_outside hx0 hy0
    left; unfold addr; omega
  · intro x y hx hy hs
    rw [hb.pix_plotP hx0 hy0 hx hy hc, if_pos hs]
  · intro x y hx hy hs
    rw [hb.pix_plotP hx0 hy0 hx hy hc, if_neg hs]

theorem colour_lt {bits : Nat} {c : Int} (hc : IsColour bits c) : c.toNat < 2 ^ bits := by
  obtain ⟨h0, h1⟩ := hc
  obtain ⟨n, rfl⟩ := Int.eq_ofNat_of_zero_le h0
  rw [Int.toNat_natCast]
  exact_mod_cast h1

/-- A bounds-checked loop of plots. -/
theorem checked_paints {W H bits : Nat} (put : Bytes → Int → Int → Py Bytes) (pts : List (Int × Int)) (c : Nat)
    (hc : c < 2 ^ bits)
    (hput : ∀ b, Valid b W H bits → ∀ x y : Nat, x < W → y < H → put b (x : Int) (y : Int) = .ok (plotP b W H bits x y c))
    {b : Bytes} (h : Valid b W H bits) :
    ∃ b', pts.foldlM (fun bmp p => do
        let inb ← isinBMPrectbnd bmp p.1 p.2
        if inb = true then put bmp p.1 p.2 else pure bmp) b = .ok b' ∧
      Paints b b' W H bits (fun x y => ((x : Int), (y : Int)) ∈ pts) c := by
  obtain ⟨b', e, p⟩ := foldl_paints (W := W) (H := H) (bits := bits) (c := c)
    (fun bmp (p : Int × Int) => do
        let inb ← isinBMPrectbnd bmp p.1 p.2
        if inb = true then put bmp p.1 p.2 else pure bmp)
    (fun p x' y' => (x' : Int) = p.1 ∧ (y' : Int) = p.2) pts (by
      intro b hb a ha
      rw [hb.inb_eq]
      simp only [ok_bind, decide_eq_true_eq]
      by_cases hin : 0 ≤ a.1 ∧ a.1 < W ∧ 0 ≤ a.2 ∧ a.2 < H
      · rw [if_pos hin]
        obtain ⟨ax, ay⟩ := a
        obtain ⟨x0, rfl⟩ := Int.eq_ofNat_of_zero_le hin.1
        obtain ⟨y0, rfl⟩ := Int.eq_ofNat_of_zero_le hin.2.2.1
        refine ⟨_, hput b hb x0 y0 (by omega) (by omega),
          (plotP_paints hb (by omega) (by omega) hc).congr ?_⟩
        intro x y _ _; simp only; omega
      · rw [if_neg hin]
        refine ⟨b, rfl, Paints.refl hb _ ?_⟩
        intro x y _ _ hs; omega) h
  refine ⟨b', e, p.congr ?_⟩
  intro x y _ _
  constructor
  · intro hm; exact ⟨_, hm, rfl, rfl⟩
  · rintro ⟨⟨a1, a2⟩, hm, rfl, rfl⟩; exact hm

theorem slice24 {b : Bytes} {W H : Nat} (h : Valid b W H 24) {x y : Nat} (hx : x < W) (hy : y < H) {c : Nat} :
    setSlice b (addr W H 24 x y : Int) ((addr W H 24 x y : Int) + 3) [c % 256, c / 256 % 256, c / 65536]
      = plotP b W H 24 x y c := by
  have ha := addr_lt h hx hy
  rw [if_pos rfl] at ha
  rw [setSlice_ok (n := addr W H 24 x y) rfl (by simp) (by simpa using ha)]
  unfold plotP
  rw [if_pos rfl]

/-- Four plots in a row. -/
theorem four_paints {W H bits : Nat} {c : Nat} (hc : c < 2 ^ bits) {b : Bytes} (h : Valid b W H bits)
    {x1 x2 x3 x4 y1 y2 y3 y4 : Nat} (hx1 : x1 < W) (hx2 : x2 < W) (hx3 : x3 < W) (hx4 : x4 < W)
    (hy1 : y1 < H) (hy2 : y2 < H) (hy3 : y3 < H) (hy4 : y4 < H) :
    Paints b (plotP (plotP (plotP (plotP b W H bits x1 y1 c) W H bits x2 y2 c) W H bits x3 y3 c) W H bits x4 y4 c)
      W H bits (fun x y => (x = x1 ∧ y = y1) ∨ (x = x2 ∧ y = y2) ∨ (x = x3 ∧ y = y3) ∨ (x = x4 ∧ y = y4)) c := by
  have p1 := plotP_paints h hx1 hy1 hc
  have p2 := plotP_paints p1.valid hx2 hy2 hc
  have p3 := plotP_paints p2.valid hx3 hy3 hc
  have p4 := plotP_paints p3.valid hx4 hy4 hc
  refine p1.trans (p2.trans (p3.trans p4 (U := fun x y => (x = x3 ∧ y = y3) ∨ (x = x4 ∧ y = y4)) ?_)
    (U := fun x y => (x = x2 ∧ y = y2) ∨ (x = x3 ∧ y = y3) ∨ (x = x4 ∧ y = y4)) ?_) ?_ <;>
  · intro x y _ _; rfl

/-- C26: for every centre and radius `circle` paints exactly the points of the rasterised circle
that lie inside the image. -/
theorem C26_circle {b : Bytes} {W H bits : Nat} (h : Valid b W H bits) (x y r : Int) {color : Int}
    (hc : IsColour bits color) :
    ∃ b', circle b x y r color = .ok b' ∧ Paints b b' W H bits (CircleSet x y r) color.toNat := by
  have hlt := colour_lt hc
  unfold circle
  rw [getmaxxy_eq h, h.bits_eq]
  simp only [ok_bind]
  -- positions of the four mirror images when the circle is inside
  have inside : entirecircleisinboundary x y (-1) W (-1) H r = true → ∀ p ∈ itercirclepart r,
      ∃ xa xb ya yb : Nat, x - p.1 = xa ∧ x + p.1 = xb ∧ y - p.2 = ya ∧ y + p.2 = yb ∧
        xa < W ∧ xb < W ∧ ya < H ∧ yb < H := by
    intro hin p hp
    obtain ⟨n1, n2, n3, n4⟩ := part_nonneg hp
    unfold entirecircleisinboundary at hin
    simp only [Bool.and_eq_true, isinrange_iff] at hin
    refine ⟨(x - p.1).toNat, (x + p.1).toNat, (y - p.2).toNat, (y + p.2).toNat, ?_⟩
    omega
  have hset : ∀ p ∈ itercirclepart r, ∀ xa xb ya yb : Nat, x - p.1 = xa → x + p.1 = xb → y - p.2 = ya →
      y + p.2 = yb → ∀ px py : Nat, ((|(px : Int) - x| = p.1 ∧ |(py : Int) - y| = p.2) ↔
        (px = xa ∧ py = ya) ∨ (px = xb ∧ py = yb) ∨ (px = xa ∧ py = yb) ∨ (px = xb ∧ py = ya)) := by
    intro p hp xa xb ya yb e1 e2 e3 e4 px py
    obtain ⟨n1, n2, n3, n4⟩ := part_nonneg hp
    rw [abs_split _ _ n1, abs_split _ _ n2]
    omega
  have fin : ∀ px py : Nat, (CircleSet x y r px py ↔
      ∃ p ∈ itercirclepart r, |(px : Int) - x| = p.1 ∧ |(py : Int) - y| = p.2) := by
    intro px py
    unfold CircleSet
    rw [← C25_circle_points]
    constructor
    · intro hm; exact ⟨_, hm, rfl, rfl⟩
    · rintro ⟨⟨a, b⟩, hm, e1, e2⟩
      rw [e1, e2]; exact hm
  have hc1 := hc.2
  have hc0 := hc.1
  rcases h.depth with rfl | rfl | rfl | rfl
  · rw [if_neg (by norm_num), if_neg (by norm_num)]
    obtain ⟨b', e, p⟩ := plots_paints h (itercircle x y r) (c := color) (by intro g; omega)
    rw [reduce_of_colour h.depth hc] at p
    exact ⟨b', e, p.congr fun px py _ _ => (mem_itercircle x y r px py).symm⟩
  · rw [if_neg (by norm_num), if_neg (by norm_num)]
    obtain ⟨b', e, p⟩ := plots_paints h (itercircle x y r) (c := color) (by intro g; omega)
    rw [reduce_of_colour h.depth hc] at p
    exact ⟨b', e, p.congr fun px py _ _ => (mem_itercircle x y r px py).symm⟩
  · have hc256 : color.toNat < 256 := by norm_num at hlt; omega
    have hcol : color = (color.toNat : Int) := by omega
    rw [if_neg (by norm_num), if_pos rfl]
    by_cases hin : entirecircleisinboundary x y (-1) W (-1) H r = true
    · rw [if_neg (by simp [hin])]
      obtain ⟨b', e, p⟩ := foldl_paints (W := W) (H := H) (bits := 8) (c := color.toNat)
        (fun bmp (p : Int × Int) => do
          let s1 ← BMoffsethd bmp (mirror x p.1).1 (mirror y p.2).1
          let bmp ← setItem bmp s1 color
          let s2 ← BMoffsethd bmp (mirror x p.1).2 (mirror y p.2).2
          let bmp ← setItem bmp s2 color
          let s3 ← BMoffsethd bmp (mirror x p.1).1 (mirror y p.2).2
          let bmp ← setItem bmp s3 color
          let s4 ← BMoffsethd bmp (mirror x p.1).2 (mirror y p.2).1
          setItem bmp s4 color)
        (fun p px py => |(px : Int) - x| = p.1 ∧ |(py : Int) - y| = p.2) (itercirclepart r) (by
          intro b hb a ha
          obtain ⟨xa, xb, ya, yb, e1, e2, e3, e4, g1, g2, g3, g4⟩ := inside hin a ha
          refine ⟨_, ?_, (four_paints hlt hb g1 g2 g1 g2 g3 g4 g4 g3).congr ?_⟩
          · unfold mirror
            simp only [e1, e2, e3, e4]
            have q1 := put8 hb g1 g3 hc256 hcol
            have p1 := plotP_paints hb g1 g3 hlt
            have q2 := put8 p1.valid g2 g4 hc256 hcol
            have p2 := plotP_paints p1.valid g2 g4 hlt
            have q3 := put8 p2.valid g1 g4 hc256 hcol
            have p3 := plotP_paints p2.valid g1 g4 hlt
            have q4 := put8 p3.valid g2 g3 hc256 hcol
            rw [← q4]
            rw [hb.BMoffsethd_eq xa ya g3] at q1 ⊢
            simp only [ok_bind] at q1 ⊢
            rw [q1]
            simp only [ok_bind]
            rw [p1.valid.BMoffsethd_eq xb yb g4] at q2 ⊢
            simp only [ok_bind] at q2 ⊢
            rw [q2]
            simp only [ok_bind]
            rw [p2.valid.BMoffsethd_eq xa yb g4] at q3 ⊢
            simp only [ok_bind] at q3 ⊢
            rw [q3]
            simp only [ok_bind]
          · intro px py _ _
            exact hset a ha xa xb ya yb e1 e2 e3 e4 px py) h
      exact ⟨b', e, p.congr fun px py _ _ => fin px py⟩
    · rw [if_pos (by simpa using hin)]
      obtain ⟨b', e, p⟩ := checked_paints (W := W) (H := H) (bits := 8)
        (fun bmp px py => do
          let s ← BMoffsethd bmp px py
          setItem bmp s color) (itercircle x y r) color.toNat hlt
        (fun b hb px py hx hy => put8 hb hx hy hc256 hcol) h
      exact ⟨b', e, p.congr fun px py _ _ => (mem_itercircle x y r px py).symm⟩
  · rw [if_pos rfl, int2BGRarr_eq hc]
    simp only [ok_bind]
    by_cases hin : entirecircleisinboundary x y (-1) W (-1) H r = true
    · rw [if_neg (by simp [hin])]
      obtain ⟨b', e, p⟩ := foldl_paints (W := W) (H := H) (bits := 24) (c := color.toNat)
        (fun bmp (p : Int × Int) => do
          let s1 ← BMoffsethd bmp (mirror x p.1).1 (mirror y p.2).1
          let s2 ← BMoffsethd bmp (mirror x p.1).2 (mirror y p.2).2
          let s3 ← BMoffsethd bmp (mirror x p.1).1 (mirror y p.2).2
          let s4 ← BMoffsethd bmp (mirror x p.1).2 (mirror y p.2).1
          let buf := [color.toNat % 256, color.toNat / 256 % 256, color.toNat / 65536]
          let bmp := setSlice bmp s1 (s1 + 3) buf
          let bmp := setSlice bmp s2 (s2 + 3) buf
          let bmp := setSlice bmp s3 (s3 + 3) buf
          pure (setSlice bmp s4 (s4 + 3) buf))
        (fun p px py => |(px : Int) - x| = p.1 ∧ |(py : Int) - y| = p.2) (itercirclepart r) (by
          intro b hb a ha
          obtain ⟨xa, xb, ya, yb, e1, e2, e3, e4, g1, g2, g3, g4⟩ := inside hin a ha
          refine ⟨_, ?_, (four_paints hlt hb g1 g2 g1 g2 g3 g4 g4 g3).congr ?_⟩
          · unfold mirror
            simp only [e1, e2, e3, e4]
            have p1 := plotP_paints hb g1 g3 hlt
            have p2 := plotP_paints p1.valid g2 g4 hlt
            have p3 := plotP_paints p2.valid g1 g4 hlt
            rw [hb.BMoffsethd_eq xa ya g3, hb.BMoffsethd_eq xb yb g4, hb.BMoffsethd_eq xa yb g4,
              hb.BMoffsethd_eq xb ya g3]
            simp only [ok_bind, pure_eq_ok]
            rw [slice24 hb g1 g3, slice24 p1.valid g2 g4, slice24 p2.valid g1 g4, slice24 p3.valid g2 g3]
          · intro px py _ _
            exact hset a ha xa xb ya yb e1 e2 e3 e4 px py) h
      exact ⟨b', e, p.congr fun px py _ _ => fin px py⟩
    · rw [if_pos (by simpa using hin)]
      obtain ⟨b', e, p⟩ := checked_paints (W := W) (H := H) (bits := 24)
        (fun bmp px py => do
          let s ← BMoffsethd bmp px py
          pure (setSlice bmp s (s + 3) [color.toNat % 256, color.toNat / 256 % 256, color.toNat / 65536]))
        (itercircle x y r) color.toNat hlt
        (fun b hb px py hx hy => put24 hb hx hy rfl) h
      exact ⟨b', e, p.congr fun px py _ _ => (mem_itercircle x y r px py).symm⟩

example : (do let b ← newBMP 6 6 4; let b ← circle b 5 2 2 9
              pure (← getxybit b 3 2, ← getxybit b 5 0, ← getxybit b 5 2, ← getxybit b 4 0)) =
    .ok (9, 9, 0, 9) := by decide +kernel
example : (do let b ← circle sample8 1 1 1 200
              pure (← getxybit b 1 0, ← getxybit b 0 1, ← getxybit b 1 1, ← getxybit b 1 3)) =
    .ok (200, 200, 0, 0) := by decide +kernel

/-! ### Filled circles -/

theorem two_rows {W H bits : Nat} {c : Nat} (f : Bytes → Int → Py Bytes) (ya yb xa xb : Int)
    (hf : ∀ b, Valid b W H bits → ∀ y, ∃ b', f b y = .ok b' ∧ Paints b b' W H bits (HSeg y xa xb) c)
    {b : Bytes} (h : Valid b W H bits) :
    ∃ b', (do let b ← f b ya; f b yb) = .ok b' ∧
      Paints b b' W H bits (fun x' y' => HSeg ya xa xb x' y' ∨ HSeg yb xa xb x' y') c := by
  obtain ⟨b1, e1, p1⟩ := hf b h ya
  obtain ⟨b2, e2, p2⟩ := hf b1 p1.valid yb
  refine ⟨b2, ?_, p1.trans p2 ?_⟩
  · rw [e1]; exact e2
  · intro x y _ _; rfl

theorem disc_union (x y r : Int) (px py : Nat) :
    (DiscSet x y r px py ↔ ∃ v ∈ itercirclepartlineedge r,
      HSeg (y - v.2) (x - v.1) (x + v.1) px py ∨ HSeg (y + v.2) (x - v.1) (x + v.1) px py) := by
  obtain ⟨_, g2, g3⟩ := C27_scanlines r
  unfold DiscSet HSeg
  constructor
  · rintro ⟨dx, hon, hle⟩
    have hr : |(py : Int) - y| ≤ r := (C25_circle_accuracy r _ _ ((C25_circle_points _ _ _).mpr hon)).2.2.2.1
    have hm := (g2 |(py : Int) - y|).mpr ⟨abs_nonneg _, hr⟩
    rw [List.mem_map] at hm
    obtain ⟨v, hv, e⟩ := hm
    obtain ⟨g4, g5⟩ := g3 v hv
    refine ⟨v, hv, ?_⟩
    rw [e] at g5
    have hlt := g5 dx hon
    have h0 := g4.1
    have h1 := abs_le.mp (le_trans hle hlt)
    rw [min_eq_left (by omega), max_eq_right (by omega)]
    rcases (abs_split _ _ g4.2.1).mp e.symm with e' | e' <;> omega
  · rintro ⟨v, hv, hs⟩
    obtain ⟨g4, _⟩ := g3 v hv
    have h0 := g4.1
    have h1 := g4.2.1
    rw [min_eq_left (by omega), max_eq_right (by omega)] at hs
    have e : |(py : Int) - y| = v.2 := by rw [abs_split _ _ h1]; omega
    refine ⟨v.1, by rw [e]; exact g4, ?_⟩
    rw [abs_le]; omega

theorem horiline_24 {b : Bytes} {W H : Nat} (h : Valid b W H 24) (y xa xb color : Int) (hle : xa ≤ xb) {a : Bytes}
    (ha : mkArray (pyRepeat [(int2RGB color).2.2, (int2RGB color).2.1, (int2RGB color).1]
      (setmax xb ((W : Int) - 1) - setmin xa 0 + 1)) = .ok a) :
    horiline b y xa xb color = if isinrange y H (-1) = true then do
          let s ← bmofhd24 b (setmin xa 0) y
          pure (setSlice b s (s + (setmax xb ((W : Int) - 1) - setmin xa 0 + 1) * 3) a)
        else pure b := by
  unfold horiline
  rw [h.bits_eq, getmaxxy_eq h]
  simp only [ok_bind]
  by_cases hy : isinrange y H (-1) = true
  · rw [if_pos hy, if_pos hy]
    have e1 : (swapif xa xb (decide (xa > xb))).1 = xa := by rw [swap_min]; omega
    have e2 : (swapif xa xb (decide (xa > xb))).2 = xb := by rw [swap_max]; omega
    rw [e1, e2]
    have e3 : BMoffsethd b (setmin xa 0) y = bmofhd24 b (setmin xa 0) y := by
      unfold BMoffsethd; rw [h.bits_eq]; simp
    rw [e3, ha]
    simp only [if_true, ok_bind]
  · rw [if_neg hy, if_neg hy]

theorem horiline_8 {b : Bytes} {W H : Nat} (h : Valid b W H 8) (y xa xb color : Int) (hle : xa ≤ xb) {a : Bytes}
    (ha : mkArray (pyRepeat [pyAnd color 0xff] (setmax xb ((W : Int) - 1) - setmin xa 0 + 1)) = .ok a) :
    horiline b y xa xb color = if isinrange y H (-1) = true then do
          let s ← bmofhd8 b (setmin xa 0) y
          pure (setSlice b s (s + (setmax xb ((W : Int) - 1) - setmin xa 0 + 1)) a)
        else pure b := by
  unfold horiline
  rw [h.bits_eq, getmaxxy_eq h]
  simp only [ok_bind]
  by_cases hy : isinrange y H (-1) = true
  · rw [if_pos hy, if_pos hy]
    have e1 : (swapif xa xb (decide (xa > xb))).1 = xa := by rw [swap_min]; omega
    have e2 : (swapif xa xb (decide (xa > xb))).2 = xb := by rw [swap_max]; omega
    rw [e1, e2]
    have e3 : BMoffsethd b (setmin xa 0) y = bmofhd8 b (setmin xa 0) y := by
      unfold BMoffsethd; rw [h.bits_eq]; simp
    rw [e3, ha]
    simp only [if_neg (show ¬ (8 = 24) by omega), if_true, ok_bind]
  · rw [if_neg hy, if_neg hy]

theorem span24_ok {color : Int} (hc : IsColour 24 color) (n : Int) :
    ∃ a, mkArray (pyRepeat [(int2RGB color).2.2, (int2RGB color).2.1, (int2RGB color).1] n) = .ok a := by
  by_cases hn : n ≤ 0
  · rw [pyRepeat_neg _ hn]; exact ⟨[], rfl⟩
  · obtain ⟨k, rfl⟩ := Int.eq_ofNat_of_zero_le (show 0 ≤ n by omega)
    exact ⟨_, pyRepeat_run24 hc.1 hc.2 k⟩

theorem span8_ok (color n : Int) : ∃ a, mkArray (pyRepeat [pyAnd color 0xff] n) = .ok a := by
  by_cases hn : n ≤ 0
  · rw [pyRepeat_neg _ hn]; exact ⟨[], rfl⟩
  · obtain ⟨k, rfl⟩ := Int.eq_ofNat_of_zero_le (show 0 ≤ n by omega)
    exact ⟨_, pyRepeat_run8 color k⟩

/-- C27, drawing: `filledcircle` paints exactly the disc. Missing: 4-bit images (the fault of
`horiline`, see `C27_4bit_wrong`), and 8- and 24-bit images with the centre more than 19 pixels left
of the image, where the code can delete bytes of the file (`C27_left_truncates`). -/
theorem C27_filledcircle_partial {b : Bytes} {W H bits : Nat} (h : Valid b W H bits) {x y r : Int} {color : Int}
    (hc : IsColour bits color) (hok : bits = 1 ∨ ((bits = 8 ∨ bits = 24) ∧ -19 ≤ x)) :
    ∃ b', filledcircle b x y r color = .ok b' ∧ Paints b b' W H bits (DiscSet x y r) color.toNat := by
  unfold filledcircle
  rw [h.bits_eq]
  simp only [ok_bind]
  have hw : ∀ v ∈ itercirclepartlineedge r, 0 ≤ v.1 := fun v hv => ((C27_scanlines r).2.2 v hv).1.1
  have row : ∀ b, Valid b W H bits → ∀ v ∈ itercirclepartlineedge r, ∀ y',
      ∃ b', horiline b y' (x - v.1) (x + v.1) color = .ok b' ∧
        Paints b b' W H bits (HSeg y' (x - v.1) (x + v.1)) color.toNat := by
    intro b hb v hv y'
    have := hw v hv
    apply C19_horiline_partial hb hc
    rcases hok with e | ⟨e, e'⟩
    · exact Or.inl e
    · exact Or.inr (Or.inl ⟨e, by omega⟩)
  rcases hok with rfl | ⟨hb, hx⟩
  · rw [if_pos (by norm_num)]
    obtain ⟨b', e, p⟩ := foldl_paints (W := W) (H := H) (bits := 1) (c := color.toNat)
      (fun bmp (v : Int × Int) => do
        let bmp ← horiline bmp (mirror y v.2).1 (mirror x v.1).1 (mirror x v.1).2 color
        horiline bmp (mirror y v.2).2 (mirror x v.1).1 (mirror x v.1).2 color)
      (fun v px py => HSeg (y - v.2) (x - v.1) (x + v.1) px py ∨ HSeg (y + v.2) (x - v.1) (x + v.1) px py)
      (itercirclepartlineedge r) (by
        intro b hb v hv
        exact two_rows (fun b y' => horiline b y' (x - v.1) (x + v.1) color) _ _ _ _
          (fun b hb y' => row b hb v hv y') hb) h
    exact ⟨b', e, p.congr fun px py _ _ => disc_union x y r px py⟩
  · rw [if_neg (by omega), getmaxxy_eq h]
    simp only [ok_bind]
    rcases hb with rfl | rfl
    · rw [if_neg (by norm_num), if_pos rfl]
      obtain ⟨b', e, p⟩ := foldl_paints (W := W) (H := H) (bits := 8) (c := color.toNat)
        (fun bmp (v : Int × Int) => do
          let colorbuf ← mkArray (pyRepeat [pyAnd color 0xff]
            (setmax (mirror x v.1).2 ((W : Int) - 1) - setmin (mirror x v.1).1 0 + 1))
          let bmp ← if isinrange (mirror y v.2).2 H (-1) = true then do
              let s ← bmofhd8 bmp (setmin (mirror x v.1).1 0) (mirror y v.2).2
              pure (setSlice bmp s (s + (setmax (mirror x v.1).2 ((W : Int) - 1) - setmin (mirror x v.1).1 0 + 1)) colorbuf)
            else pure bmp
          if isinrange (mirror y v.2).1 H (-1) = true then do
            let s ← bmofhd8 bmp (setmin (mirror x v.1).1 0) (mirror y v.2).1
            pure (setSlice bmp s (s + (setmax (mirror x v.1).2 ((W : Int) - 1) - setmin (mirror x v.1).1 0 + 1)) colorbuf)
          else pure bmp)
        (fun v px py => HSeg (y - v.2) (x - v.1) (x + v.1) px py ∨ HSeg (y + v.2) (x - v.1) (x + v.1) px py)
        (itercirclepartlineedge r) (by
          intro b hb v hv
          have h0 := hw v hv
          obtain ⟨a, ha⟩ := span8_ok color (setmax (x + v.1) ((W : Int) - 1) - setmin (x - v.1) 0 + 1)
          obtain ⟨b1, e1, p1⟩ := row b hb v hv (y + v.2)
          obtain ⟨b2, e2, p2⟩ := row b1 p1.valid v hv (y - v.2)
          refine ⟨b2, ?_, p1.trans p2 ?_⟩
          · unfold mirror
            simp only [ha, ok_bind]
            rw [horiline_8 hb (y + v.2) (x - v.1) (x + v.1) color (by omega) ha] at e1
            rw [horiline_8 p1.valid (y - v.2) (x - v.1) (x + v.1) color (by omega) ha] at e2
            by_cases c1 : isinrange (y + v.2) H (-1) = true
            · rw [if_pos c1] at e1 ⊢
              cases hs : bmofhd8 b (setmin (x - v.1) 0) (y + v.2) with
              | error er => rw [hs] at e1; cases e1
              | ok s =>
                rw [hs] at e1
                simp only [ok_bind, pure_eq_ok, Except.ok.injEq] at e1 ⊢
                rw [e1]; exact e2
            · rw [if_neg c1] at e1 ⊢
              simp only [ok_bind, pure_eq_ok, Except.ok.injEq] at e1 ⊢
              rw [e1]; exact e2
          · intro px py _ _; exact or_comm) h
      exact ⟨b', e, p.congr fun px py _ _ => disc_union x y r px py⟩
    · rw [if_pos rfl]
      obtain ⟨b', e, p⟩ := foldl_paints (W := W) (H := H) (bits := 24) (c := color.toNat)
        (fun bmp (v : Int × Int) => do
          let colorbuf ← mkArray (pyRepeat [(int2RGB color).2.2, (int2RGB color).2.1, (int2RGB color).1]
            (setmax (mirror x v.1).2 ((W : Int) - 1) - setmin (mirror x v.1).1 0 + 1))
          let bmp ← if isinrange (mirror y v.2).2 H (-1) = true then do
              let s ← bmofhd24 bmp (setmin (mirror x v.1).1 0) (mirror y v.2).2
              pure (setSlice bmp s (s + (setmax (mirror x v.1).2 ((W : Int) - 1) - setmin (mirror x v.1).1 0 + 1) * 3) colorbuf)
            else pure bmp
          if isinrange (mirror y v.2).1 H (-1) = true then do
            let s ← bmofhd24 bmp (setmin (mirror x v.1).1 0) (mirror y v.2).1
            pure (setSlice bmp s (s + (setmax (mirror x v.1).2 ((W : Int) - 1) - setmin (mirror x v.1).1 0 + 1) * 3) colorbuf)
          else pure bmp)
        (fun v px py => HSeg (y - v.2) (x - v.1) (x + v.1) px py ∨ HSeg (y + v.2) (x - v.1) (x + v.1) px py)
        (itercirclepartlineedge r) (by
          intro b hb v hv
          have h0 := hw v hv
          obtain ⟨a, ha⟩ := span24_ok hc (setmax (x + v.1) ((W : Int) - 1) - setmin (x - v.1) 0 + 1)
          obtain ⟨b1, e1, p1⟩ := row b hb v hv (y + v.2)
          obtain ⟨b2, e2, p2⟩ := row b1 p1.valid v hv (y - v.2)
          refine ⟨b2, ?_, p1.trans p2 ?_⟩
          · unfold mirror
            simp only [ha, ok_bind]
            rw [horiline_24 hb (y + v.2) (x - v.1) (x + v.1) color (by omega) ha] at e1
            rw [horiline_24 p1.valid (y - v.2) (x - v.1) (x + v.1) color (by omega) ha] at e2
            by_cases c1 : isinrange (y + v.2) H (-1) = true
            · rw [if_pos c1] at e1 ⊢
              cases hs : bmofhd24 b (setmin (x - v.1) 0) (y + v.2) with
              | error er => rw [hs] at e1; cases e1
              | ok s =>
                rw [hs] at e1
                simp only [ok_bind, pure_eq_ok, Except.ok.injEq] at e1 ⊢
                rw [e1]; exact e2
            · rw [if_neg c1] at e1 ⊢
              simp only [ok_bind, pure_eq_ok, Except.ok.injEq] at e1 ⊢
              rw [e1]; exact e2
          · intro px py _ _; exact or_comm) h
      exact ⟨b', e, p.congr fun px py _ _ => disc_union x y r px py⟩

/-- C27 is false on 4-bit images: the right end of the middle row of a disc is not painted. -/
theorem C27_4bit_wrong :
    (do let b ← newBMP 5 5 4; let b ← filledcircle b 2 2 2 9; pure (← getxybit b 0 2, ← getxybit b 4 2)) = .ok (9, 0) ∧
    DiscSet 2 2 2 4 2 := by
  refine ⟨by decide +kernel, 2, ?_, ?_⟩
  · unfold OnCircle Near; decide
  · decide

/-- C27 is false for a centre far to the left of a 24-bit image: bytes of the file are deleted. -/
theorem C27_left_truncates :
    (do let b ← newBMP 2 2 24; let b' ← filledcircle b (-20) 1 0 9; pure (b.length, b'.length)) = .ok (70, 57) := by
  decide +kernel

example : (do let b ← newBMP 6 6 24; let b ← filledcircle b 5 2 2 9
              pure (← getxybit b 3 2, ← getxybit b 5 0, ← getxybit b 2 2, ← getxybit b 3 0)) =
    .ok (9, 9, 0, 0) := by decide +kernel

end Verif.Props
