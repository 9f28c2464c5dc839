import Verif.Props.OverlayLaws
import Verif.Props.Laws
import Verif.Props.Tone
import Verif.Props.Float
/-! Properties C184 and C185: figures in images whose colours are changed, and in images that get more colours. -/

namespace Verif.Props.Overlay
open Verif Spec Model Verif.Props Verif.Props.Far Verif.Props.Plane Verif.Props.Laws

variable {b : Bytes} {W H bits : Nat}

/-! ### C184: changes of colour -/

/-- The functions that change every colour of a 24-bit image. -/
inductive Tone
  | grey
  | bright (p : Int)
  | gamma (t : Nat → Nat → Int)
  | threshold (l0 l1 : Int)

/-- The function of BITMAPlib.py that is called; `bright` and `threshold` with the arithmetic of floats (C104, C105). -/
def adjust (t : Tone) (b : Bytes) : Py Bytes :=
  match t with
  | .grey => monofilterto24bitimage b
  | .bright p => brightnesseadjto24bitimage (brightF p) b
  | .gamma t => gammaadjto24bitimage t b
  | .threshold l0 l1 => thresholdadjto24bitimage thrT b l0 l1

/-- Specification: the new colour (C50, C59, C84, C83). -/
def toned (t : Tone) (c : Nat) : Nat :=
  match t with
  | .grey => Props.grey c
  | .bright p => brightened (brightF p) c
  | .gamma t => corrected t c
  | .threshold l0 l1 => limited thrT (min (l0 % 256) (l1 % 256)).toNat (max (l0 % 256) (l1 % 256)).toNat c

theorem adjusted (h : Valid b W H 24) (hW : 0 < W) (hH : 0 < H) (t : Tone) :
    ∃ b', adjust t b = .ok b' ∧ Redraws b b' W H 24 (fun x y => toned t (pix b W H 24 x y)) := by
  have hi : InImage W H 0 0 ((W : Int) - 1) ((H : Int) - 1) := by unfold InImage; omega
  have hr : ∀ x y : Nat, x < W → y < H → inRect 0 0 ((W : Int) - 1) ((H : Int) - 1) x y = true := by
    intro x y hx hy
    unfold inRect
    rw [decide_eq_true_eq]
    omega
  cases t with
  | grey => exact C50_image h hW hH
  | bright p =>
    obtain ⟨b', e, r⟩ := C59_brightness h (brightF p) hi
    refine ⟨b', ?_, r.valid, r.header, fun x y hx hy => by rw [r.pixels x y hx hy, if_pos (hr x y hx hy)]; rfl⟩
    show brightnesseadjto24bitimage (brightF p) b = _
    unfold brightnesseadjto24bitimage getmaxx getmaxy
    rw [h.getmaxx_eq, h.getmaxy_eq]
    exact e
  | gamma t => exact C84_image h t hW hH
  | threshold l0 l1 =>
    obtain ⟨b', e, r⟩ := C83_region h C105_scales l0 l1 hi
    refine ⟨b', ?_, r.valid, r.header, fun x y hx hy => by rw [r.pixels x y hx hy, if_pos (hr x y hx hy)]; rfl⟩
    show thresholdadjto24bitimage thrT b l0 l1 = _
    unfold thresholdadjto24bitimage getmaxx getmaxy
    rw [h.getmaxx_eq, h.getmaxy_eq]
    exact e

theorem rgb_lt {r g b : Nat} (hr : r < 256) (hg : g < 256) (hb : b < 256) : rgb r g b < 2 ^ 24 := by
  unfold rgb; omega

theorem relit_lt {lim c : Nat} (hl : lim < 256) (hc : lum c ≠ 0) : relit thrT lim c < 2 ^ 24 := by
  have b0 : redOf c < 256 ∧ greenOf c < 256 ∧ blueOf c < 256 := by unfold redOf greenOf blueOf; omega
  have b1 : redOf c ≤ lum c ∧ greenOf c ≤ lum c ∧ blueOf c ≤ lum c ∧ lum c < 256 := by unfold lum; omega
  have key : ∀ v, v ≤ lum c → (thrT lim (lum c) v).toNat < 256 := by
    intro v hv
    obtain ⟨k1, k2, -⟩ := C105_scales lim (lum c) v hl b1.2.2.2 (by omega) hv
    have : thrT lim (lum c) v * (lum c : Int) ≤ lim * (lum c : Int) :=
      k2.trans (mul_le_mul_of_nonneg_left (by exact_mod_cast hv) (by omega))
    have := le_of_mul_le_mul_right this (by omega)
    omega
  exact rgb_lt (key _ b1.1) (key _ b1.2.1) (key _ b1.2.2.1)

theorem toned_lt (t : Tone) {c : Nat} (hc : c < 2 ^ 24) : toned t c < 2 ^ 24 := by
  cases t with
  | grey =>
    have : redOf c < 256 ∧ greenOf c < 256 ∧ blueOf c < 256 := by unfold redOf greenOf blueOf; omega
    show Props.grey c < _
    unfold Props.grey
    exact rgb_lt (by omega) (by omega) (by omega)
  | bright p =>
    have hlt : ∀ v, nearestByte v < 256 := by intro v; unfold nearestByte; split_ifs <;> omega
    exact rgb_lt (hlt _) (hlt _) (hlt _)
  | gamma t =>
    show corrected t c < _
    unfold corrected
    exact rgb_lt (by dsimp only; omega) (by dsimp only; omega) (by dsimp only; omega)
  | threshold l0 l1 =>
    show limited _ _ _ _ < _
    unfold limited
    split_ifs with g1 g2
    · exact hc
    · exact relit_lt (by omega) (by tauto)
    · exact relit_lt (by omega) (by tauto)

/-- **C184**: drawing a picture and changing the colours of the image is the same as changing the colours and drawing the picture in
the changed colours. -/
theorem C184_tone (h : Valid b W H 24) (hW : 0 < W) (hH : 0 < H) (t : Tone) {l : List (Figure × Int)} (hl : AllSafe W H 24 l) :
    Agree (drawAll l b >>= adjust t) (adjust t b >>= drawAll (l.map fun s => (s.1, (toned t s.2.toNat : Int)))) W H 24 := by
  have hc : ∀ s ∈ l, s.2.toNat < 2 ^ 24 := by
    intro s hs
    have := (hl s hs).2
    unfold IsColour at this
    omega
  have hl' : AllSafe W H 24 (l.map fun s => (s.1, (toned t s.2.toNat : Int))) := by
    intro s hs
    obtain ⟨u, hu, rfl⟩ := List.mem_map.mp hs
    refine ⟨(hl u hu).1, ?_⟩
    have := toned_lt t (hc u hu)
    unfold IsColour
    dsimp only
    omega
  obtain ⟨n, e1, p1⟩ := C180_layers h hl
  obtain ⟨n', e2, p2⟩ := adjusted p1.valid hW hH t
  obtain ⟨m, e3, p3⟩ := adjusted h hW hH t
  obtain ⟨m', e4, p4⟩ := C180_layers p3.valid hl'
  refine ⟨n', m', by rw [e1]; exact e2, by rw [e3]; exact e4, p2.valid, p4.valid, fun g => absurd rfl g, fun x y hx hy => ?_⟩
  rw [p2.pixels x y hx hy]
  have k := p1.pixels x y hx hy
  have k' := p4.pixels x y hx hy
  rw [p3.pixels x y hx hy, List.map_map] at k'
  exact (Top.unique k' (top_image (f := layer W H 24) (g := layer W H 24 ∘ fun s => (s.1, (toned t s.2.toNat : Int))) (toned t)
    (fun s _ => ⟨Iff.rfl, rfl⟩) k)).symm

-- A disc of colour 0x102030 in a grey image is a disc of colour 0x202020.
example : (do
    let b ← newBMP 4 3 24
    let n ← (drawAll [(.disc 1 1 1, 0x102030), (.point 3 0, 0x030000)] b >>= adjust .grey)
    let m ← (adjust .grey b >>= drawAll [(.disc 1 1 1, 0x202020), (.point 3 0, 0x010101)])
    pure (decide (n = m), ← getxybit m 1 1, ← getxybit m 3 0, ← getxybit m 3 2)) = .ok (true, 0x202020, 0x010101, 0) := by decide +kernel

/-- The colour filter is no such function: it leaves the last column as it is (C58), so that a point there keeps its colour when the
filter comes last. -/
theorem C184_filter_wrong : (do
    let b ← newBMP 2 1 24
    let z : Nat → Int := fun _ => 0
    let n ← colorfilterto24bitimage z z z (← drawAll [(.point 0 0, 7), (.point 1 0, 7)] b)
    pure [← getxybit n 0 0, ← getxybit n 1 0]) = .ok [0, 7] := by decide +kernel

/-- The functions that change the palette of an image. -/
inductive Repaint
  | entry (c r g b : Nat)
  | whole (pal : List RGB)
  | shift (k : Int)

/-- The function of BITMAPlib.py that is called. -/
def repaint (t : Repaint) (b : Bytes) : Py Bytes :=
  match t with
  | .entry c r g bl => setRGBpal b c r g bl
  | .whole pal => setbmppal b pal
  | .shift k => palshift b k

/-- The entries and bytes exist. -/
def Repaint.Ok (bits : Nat) : Repaint → Prop
  | .entry c r g b => c < 2 ^ bits ∧ r < 256 ∧ g < 256 ∧ b < 256
  | .whole pal => ∀ p ∈ pal, Verif.ByteRGB p
  | .shift _ => True

theorem rgbI_inj {p q : Nat × Nat × Nat} (h : rgbI p = rgbI q) : p = q := by
  unfold rgbI at h
  obtain ⟨p1, p2, p3⟩ := p
  obtain ⟨q1, q2, q3⟩ := q
  simp only [Prod.mk.injEq, Nat.cast_inj] at h ⊢
  exact h

theorem entry_eq (h : Valid b W H bits) (h24 : bits ≠ 24) {c : Nat} (hc : c < 2 ^ bits) : getRGBpal b c = .ok (rgbI (palRGB b c)) := by
  apply getRGBpal_eq
  have := h.len
  have : 54 + 4 * c + 2 < dataOff bits := by
    have hd := h.depth
    unfold dataOff palSize
    rcases hd with rfl | rfl | rfl | rfl <;> norm_num at * <;> omega
  omega

/-- A change of the palette leaves the pixels as they are, and the new palette depends on the old one only. -/
theorem repainted {t : Repaint} (ht : t.Ok bits) (h24 : bits ≠ 24) {b c : Bytes} (h : Valid b W H bits) (h' : Valid c W H bits)
    (hp : ∀ k < 2 ^ bits, palRGB b k = palRGB c k) :
    ∃ b' c', repaint t b = .ok b' ∧ repaint t c = .ok c' ∧ Valid b' W H bits ∧ Valid c' W H bits ∧ SamePixels b b' bits ∧
      SamePixels c c' bits ∧ ∀ k < 2 ^ bits, palRGB b' k = palRGB c' k := by
  have same : ∀ b : Bytes, SamePixels b b bits := fun b => ⟨rfl, fun _ _ => rfl, fun _ _ => rfl⟩
  cases t with
  | entry i r g bl =>
    obtain ⟨hi, hr, hg, hbl⟩ := ht
    obtain ⟨b', e1, v1, s1, q1, o1⟩ := C12_palette_entry h h24 hi hr hg hbl
    obtain ⟨c', e2, v2, s2, q2, o2⟩ := C12_palette_entry h' h24 hi hr hg hbl
    refine ⟨b', c', e1, e2, v1, v2, s1, s2, fun k hk => ?_⟩
    by_cases g : k = i
    · subst g
      rw [entry_eq v1 h24 hk] at q1
      rw [entry_eq v2 h24 hk] at q2
      exact rgbI_inj ((Except.ok.inj q1).trans (Except.ok.inj q2).symm)
    · have k1 := o1 k hk g
      have k2 := o2 k hk g
      rw [entry_eq v1 h24 hk, entry_eq h h24 hk] at k1
      rw [entry_eq v2 h24 hk, entry_eq h' h24 hk] at k2
      rw [rgbI_inj (Except.ok.inj k1), rgbI_inj (Except.ok.inj k2)]
      exact hp k hk
  | whole pal =>
    obtain ⟨k1, k2⟩ := C13_set_palette h h24 pal
    obtain ⟨k3, k4⟩ := C13_set_palette h' h24 pal
    by_cases g : pal.length = 2 ^ bits
    · obtain ⟨b', e1, v1, s1, q1⟩ := k1 g ht
      obtain ⟨c', e2, v2, s2, q2⟩ := k3 g ht
      refine ⟨b', c', e1, e2, v1, v2, s1, s2, fun k hk => ?_⟩
      rw [v1.getallRGBpal_eq h24] at q1
      rw [v2.getallRGBpal_eq h24] at q2
      have e := (Except.ok.inj q1).trans (Except.ok.inj q2).symm
      have e' := congrArg (fun l : List RGB => l[k]?) e
      simp only [List.getElem?_map, List.getElem?_range hk, Option.map_some, Option.some.injEq] at e'
      exact rgbI_inj e'
    · exact ⟨b, c, k2 g, k4 g, h, h', same b, same c, hp⟩
  | shift s =>
    obtain ⟨k1, k2⟩ := C14_palshift h s
    obtain ⟨k3, k4⟩ := C14_palshift h' s
    by_cases g : bits = 4 ∨ bits = 8
    · obtain ⟨b', e1, v1, s1, q1⟩ := k1 g
      obtain ⟨c', e2, v2, s2, q2⟩ := k3 g
      refine ⟨b', c', e1, e2, v1, v2, s1, s2, fun k hk => ?_⟩
      rw [q1 k hk, q2 k hk]
      exact hp _ (Nat.mod_lt _ (by positivity))
    · have hd := h.depth
      unfold Depth at hd
      exact ⟨b, c, k2 (by omega), k4 (by omega), h, h', same b, same c, hp⟩

/-- **C184**, images with a palette: it does not matter whether the palette is changed before or after the picture is drawn. -/
theorem C184_palette (h : Valid b W H bits) (h24 : bits ≠ 24) {t : Repaint} (ht : t.Ok bits) {l : List (Figure × Int)} (hl : AllSafe W H bits l) :
    Agree (drawAll l b >>= repaint t) (repaint t b >>= drawAll l) W H bits := by
  obtain ⟨n, e1, p1⟩ := C180_layers h hl
  obtain ⟨n', m, e2, e3, v2, v3, s2, s3, q⟩ := repainted ht h24 p1.valid h (fun k hk => palRGB_same p1.header h.depth h24 hk)
  obtain ⟨m', e4, p4⟩ := C180_layers v3 hl
  refine ⟨n', m', by rw [e1]; exact e2, by rw [e3]; exact e4, v2, p4.valid, fun _ k hk => ?_, fun x y hx hy => ?_⟩
  · rw [q k hk, palRGB_same p4.header v3.depth h24 hk]
  · rw [s2.pix]
    have k := p1.pixels x y hx hy
    have k' := p4.pixels x y hx hy
    rw [s3.pix] at k'
    exact Top.unique k k'

-- A circle and a palette turned by three
example : (do
    let b ← newBMP 5 5 4
    let n ← (drawAll [(.ring 2 2 2, 9)] b >>= repaint (.shift 3))
    let m ← (repaint (.shift 3) b >>= drawAll [(.ring 2 2 2, 9)])
    pure (decide (n = m), ← getxybit m 0 2, ← getxybit m 2 2)) = .ok (true, 9, 0) := by decide +kernel

/-- Filled rectangles of 8-bit images are not safe calls: they take the entry nearest to blue 200 for the number 200 (C22), and which one
that is depends on the palette. -/
theorem C184_box_wrong : (do
    let n ← (draw (.box 0 0 1 1) 200 sample8 >>= repaint (.entry 5 0 0 200))
    let m ← (repaint (.entry 5 0 0 200) sample8 >>= draw (.box 0 0 1 1) 200)
    pure [← getxybit n 0 0, ← getxybit m 0 0]) = .ok [67, 5] := by decide +kernel

/-! ### C185: images with a palette made true colour -/

/-- The areas of one, eight and 24 bits are the same, except for the diagonals down to the last row. -/
theorem area_depth {bits' : Nat} (h4 : bits ≠ 4) (h4' : bits' ≠ 4) {f : Figure} (hw : ¬ Wraps W H f) {px py : Nat} :
    area W H bits f px py ↔ area W H bits' f px py := by
  cases f with
  | point x y => rfl
  | row y x1 x2 => simp only [area, RowSet, if_neg h4, if_neg h4']
  | column x y1 y2 => rfl
  | segment p q =>
    replace hw : ¬ (|clampTo q.1 W - clampTo p.1 W| = |clampTo q.2 H - clampTo p.2 H| ∧ clampTo p.2 H < clampTo q.2 H ∧
      clampTo q.2 H = (H : Int) - 1) := hw
    simp only [area, LineSet]
    by_cases g : |clampTo q.1 W - clampTo p.1 W| = |clampTo q.2 H - clampTo p.2 H| ∧ clampTo p.1 W ≠ clampTo q.1 W
    · rw [if_pos g, if_pos g, or_iff_left, or_iff_left]
      · rintro ⟨-, k2, k3, -, -⟩
        exact hw ⟨g.1, k2, k3⟩
      · rintro ⟨-, k2, k3, -, -⟩
        exact hw ⟨g.1, k2, k3⟩
    · rw [if_neg g, if_neg g, if_neg (by tauto), if_neg (by tauto)]
  | border x1 y1 x2 y2 => rfl
  | box x1 y1 x2 y2 => simp only [area, RowSet, if_neg h4, if_neg h4']
  | ring x y r => rfl
  | disc x y r => simp only [area, mark_of_ne h4, mark_of_ne h4']
  | stroke p q pen => simp only [area, StrokeSet, mark_of_ne h4, mark_of_ne h4']
  | tyre x y r pen => simp only [area, mark_of_ne h4, mark_of_ne h4']

/-- Specification: the true colour of an entry of the palette. -/
def trueColour (b : Bytes) (c : Nat) : Nat := rgb (palRGB b c).1 (palRGB b c).2.1 (palRGB b c).2.2

theorem trueColour_lt (h : Valid b W H bits) (c : Nat) : trueColour b c < 2 ^ 24 := by
  have hb : ∀ i, byte b i < 256 := fun i => byte_lt_of_mem h.bytes i
  exact rgb_lt (hb _) (hb _) (hb _)

theorem pix_of_seen {n : Bytes} (hn : Valid n W H 24) {x y r g bl : Nat} (h : pixRGB n W H 24 x y = (r, g, bl)) : pix n W H 24 x y = rgb r g bl := by
  have := hn.pix_lt x y
  simp only [pixRGB, if_true, Prod.mk.injEq] at h
  unfold rgb
  omega

/-- **C185**: drawing a picture in an image of 2 or 256 colours and converting it to 24 bits is the same as converting it and drawing
the picture in the true colours of the palette. Missing: 4 bits, where rows depend on the parity of the columns (C19), and rows of
one bit that end inside of a byte (C37). -/
theorem C185_upgrade_partial (h : Valid b W H bits) (hb : bits = 8 ∨ bits = 1 ∧ W % 8 = 0) (hW : 0 < W) (hH : 0 < H) {l : List (Figure × Int)}
    (hl : AllSafe W H bits l) (hs : ∀ t ∈ l, Safe W H 24 t.1 ∧ ¬ Wraps W H t.1) :
    Agree (drawAll l b >>= upgradeto24bitimage)
      (upgradeto24bitimage b >>= drawAll (l.map fun t => (t.1, (trueColour b t.2.toNat : Int)))) W H 24 := by
  have h24 : bits ≠ 24 := by omega
  have hw : FullBytes W bits := by
    unfold FullBytes
    rcases hb with rfl | ⟨rfl, e⟩ <;> omega
  have hl' : AllSafe W H 24 (l.map fun t => (t.1, (trueColour b t.2.toNat : Int))) := by
    intro s hs'
    obtain ⟨t, ht, rfl⟩ := List.mem_map.mp hs'
    refine ⟨(hs t ht).1, ?_⟩
    have := trueColour_lt h t.2.toNat
    unfold IsColour
    dsimp only
    omega
  obtain ⟨n, e1, p1⟩ := C180_layers h hl
  obtain ⟨n', e2, v2, p2⟩ := C37_upgrade_partial p1.valid hW hH hw
  obtain ⟨m, e3, v3, p3⟩ := C37_upgrade_partial h hW hH hw
  obtain ⟨m', e4, p4⟩ := C180_layers v3 hl'
  refine ⟨n', m', by rw [e1]; exact e2, by rw [e3]; exact e4, v2, p4.valid, fun g => absurd rfl g, fun x y hx hy => ?_⟩
  have k := p1.pixels x y hx hy
  have k' := p4.pixels x y hx hy
  have em : pix m W H 24 x y = trueColour b (pix b W H bits x y) := by
    apply pix_of_seen v3
    rw [p3 x y hx hy]
    simp only [pixRGB, if_neg h24]
  have en : pix n' W H 24 x y = trueColour b (pix n W H bits x y) := by
    apply pix_of_seen v2
    rw [p2 x y hx hy]
    simp only [pixRGB, if_neg h24]
    exact palRGB_same p1.header h.depth h24 (p1.valid.pix_lt x y)
  rw [en]
  rw [em, List.map_map] at k'
  refine (Top.unique k' (top_image (f := layer W H bits) (g := layer W H 24 ∘ fun t => (t.1, (trueColour b t.2.toNat : Int)))
    (trueColour b) (fun t ht => ⟨?_, rfl⟩) k)).symm
  exact area_depth (by omega) (by omega) (hs t ht).2

-- Two figures of a black and white image, then in true colours
example : (do
    let b ← setRGBpal (← newBMP 8 3 1) 1 17 34 51
    let n ← (drawAll [(.ring 3 1 1, 1), (.row 0 5 7, 1), (.point 3 0, 0)] b >>= upgradeto24bitimage)
    let m ← (upgradeto24bitimage b >>= drawAll [(.ring 3 1 1, 0x112233), (.row 0 5 7, 0x112233), (.point 3 0, 0)])
    pure (decide (n = m), ← getxybit m 2 1, ← getxybit m 6 0, ← getxybit m 3 0)) = .ok (true, 0x112233, 0x112233, 0) := by decide +kernel

/-- A row of two pixels of a 4-bit image from an odd column: only the first one is painted before the conversion (C19), both after. -/
theorem C185_nibble_wrong : (do
    let b ← newBMP 4 1 4
    let n ← (drawAll [(.row 0 1 2, 15)] b >>= upgradeto24bitimage)
    let m ← (upgradeto24bitimage b >>= drawAll [(.row 0 1 2, 0xffffff)])
    pure [← getxybit n 1 0, ← getxybit m 1 0, ← getxybit n 2 0, ← getxybit m 2 0]) = .ok [0xffffff, 0xffffff, 0, 0xffffff] := by decide +kernel

end Verif.Props.Overlay
