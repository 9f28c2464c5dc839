import Verif.Props.Overlay
import Verif.Props.FlipXY
import Verif.Props.Laws
/-! Property C192: figures in images whose axes have been exchanged. -/

namespace Verif.Props.Overlay
open Verif Spec Model Verif.Props Verif.Props.Far Verif.Props.Plane

variable {b : Bytes} {W H bits : Nat}

/-- The figure with its axes exchanged. -/
def exchanged : Figure → Figure
  | .point x y => .point y x
  | .row y x1 x2 => .column y x1 x2
  | .column x y1 y2 => .row x y1 y2
  | .segment p q => .segment (p.2, p.1) (q.2, q.1)
  | .border x1 y1 x2 y2 => .border y1 x1 y2 x2
  | .box x1 y1 x2 y2 => .box y1 x1 y2 x2
  | .ring x y r => .ring y x r
  | .disc x y r => .disc y x r
  | .stroke p q pen => .stroke (p.2, p.1) (q.2, q.1) pen
  | .tyre x y r pen => .tyre y x r pen

/-- Lines at an angle of 45 degrees, which `iterline` does not treat alike in both directions (C23). -/
def Diagonal (W H : Nat) : Figure → Prop
  | .segment p q => |clampTo q.1 W - clampTo p.1 W| = |clampTo q.2 H - clampTo p.2 H| ∧ clampTo p.1 W ≠ clampTo q.1 W
  | .stroke p q _ => |q.1 - p.1| = |q.2 - p.2| ∧ p.1 ≠ q.1
  | _ => False

theorem onCircle_exchange {r u v : Int} : OnCircle r u v ↔ OnCircle r v u := by
  unfold OnCircle; rw [min_comm, max_comm]; tauto

/-- A disc becomes narrower, or stays as it is, from row to row. -/
theorem halfWidth_anti {r v v' h h' : Int} (hv : v ≤ v') (g : HalfWidth r h v) (g' : OnCircle r h' v') : h' ≤ h := by
  by_contra hlt
  obtain ⟨a1, a2, a3⟩ := g.1
  obtain ⟨b1, b2, b3⟩ := g'
  rcases a3 with ⟨q, q1, q2⟩ | ⟨q, k1, k2⟩
  · rcases b3 with ⟨-, w1, w2⟩ | ⟨w, -⟩ <;> omega
  rcases b3 with ⟨w, -⟩ | ⟨-, l1, l2⟩
  · omega
  by_cases hvv : v = v'
  · subst hvv
    have := g.2 h' ⟨b1, b2, Or.inr ⟨q, l1, l2⟩⟩
    omega
  have m1 : max h v + 1 ≤ max h' v' := by omega
  have m2 : min h v + 1 ≤ min h' v' := by omega
  have m3 : 0 ≤ min h v := by omega
  have m4 : min h v ≤ max h v := by omega
  generalize max h v = X at *
  generalize max h' v' = X' at *
  generalize min h v = Y at *
  generalize min h' v' = Y' at *
  nlinarith

theorem disc_exchange {x y r : Int} {px py : Nat} : DiscSet y x r py px ↔ DiscSet x y r px py := by
  have key : ∀ (x y : Int) (px py : Nat), DiscSet x y r px py → DiscSet y x r py px := by
    rintro x y px py ⟨d, hd, hle⟩
    have h0 := abs_nonneg ((px : Int) - x)
    have hr : d ≤ r := by
      have := C25_circle_accuracy r d _ ((C25_circle_points _ _ _).mpr hd)
      exact this.2.1
    obtain ⟨hw, hh⟩ := halfWidth_exists (r := r) h0 (by omega)
    exact ⟨hw, hh.1, halfWidth_anti hle hh (onCircle_exchange.mp hd)⟩
  exact ⟨key y x py px, key x y px py⟩

theorem mark_exchange (h4 : bits ≠ 4) {x y r : Int} {px py : Nat} : Mark H bits y x r py px ↔ Mark W bits x y r px py := by
  rw [mark_of_ne h4, mark_of_ne h4]; exact disc_exchange

theorem raster_exchange {x1 y1 x2 y2 : Int} (hd : ¬ (|x2 - x1| = |y2 - y1| ∧ x1 ≠ x2)) (k : Int) :
    rasterPt y1 x1 y2 x2 k = ((rasterPt x1 y1 x2 y2 k).2, (rasterPt x1 y1 x2 y2 k).1) := by
  unfold rasterPt
  dsimp only
  rcases lt_trichotomy |x2 - x1| |y2 - y1| with g | g | g
  · rw [if_pos g.le, if_neg (by omega)]
  · have : x1 = x2 := by by_contra k; exact hd ⟨g, k⟩
    subst this
    rw [sub_self, abs_zero] at g
    have : y2 - y1 = 0 := abs_eq_zero.mp g.symm
    rw [this]
    simp
  · rw [if_neg (by omega), if_pos g.le]

theorem area_exchange (h4 : bits ≠ 4) {f : Figure} (hd : ¬ Diagonal W H f) {px py : Nat} :
    area H W bits (exchanged f) py px ↔ area W H bits f px py := by
  cases f with
  | point x y => simp only [area, exchanged]; tauto
  | row y x1 x2 => simp only [area, exchanged, RowSet, if_neg h4, HSeg, VSeg]
  | column x y1 y2 => simp only [area, exchanged, RowSet, if_neg h4, HSeg, VSeg]
  | segment p q =>
    replace hd : ¬ (|clampTo q.1 W - clampTo p.1 W| = |clampTo q.2 H - clampTo p.2 H| ∧ clampTo p.1 W ≠ clampTo q.1 W) := hd
    have hd' : ¬ (|clampTo q.2 H - clampTo p.2 H| = |clampTo q.1 W - clampTo p.1 W| ∧ clampTo p.2 H ≠ clampTo q.2 H) := by
      rintro ⟨k1, k2⟩
      refine hd ⟨k1.symm, fun e => k2 ?_⟩
      rw [e, sub_self, abs_zero, abs_eq_zero] at k1
      omega
    simp only [area, exchanged, LineSet]
    rw [if_neg hd', if_neg hd, if_neg (by tauto), if_neg (by tauto)]
    unfold Raster
    rw [max_comm]
    simp only [raster_exchange hd, Prod.ext_iff]
    constructor <;> rintro ⟨k, k1, k2, k3, k4⟩ <;> exact ⟨k, k1, k2, k4, k3⟩
  | border x1 y1 x2 y2 => simp only [area, exchanged, Border, HSeg, VSeg]; tauto
  | box x1 y1 x2 y2 =>
    simp only [area, exchanged, RowSet, if_neg h4, HSeg, InImage]
    tauto
  | ring x y r => simp only [area, exchanged, CircleSet]; exact onCircle_exchange
  | disc x y r => exact mark_exchange h4
  | stroke p q pen =>
    replace hd : ¬ (|q.1 - p.1| = |q.2 - p.2| ∧ p.1 ≠ q.1) := hd
    simp only [area, exchanged, StrokeSet, raster_exchange hd, mark_exchange (W := W) (H := H) h4]
    rw [max_comm]
  | tyre x y r pen =>
    simp only [area, exchanged, mark_exchange (W := W) (H := H) h4]
    constructor
    · rintro ⟨u, v, k1, k2⟩
      exact ⟨v, u, onCircle_exchange.mp k1, k2⟩
    · rintro ⟨u, v, k1, k2⟩
      exact ⟨v, u, onCircle_exchange.mp k1, k2⟩

/-- The figure mirrored at the other diagonal, from the lower left to the upper right corner. -/
def turned (W H : Nat) (f : Figure) : Figure := exchanged (reversed W (upsideDown H f))

theorem diagonal_flip {f : Figure} (hW : 0 < W) (hH : 0 < H) (hd : ¬ Diagonal W H f) :
    ¬ Diagonal W H (upsideDown H f) ∧ ¬ Diagonal W H (reversed W (upsideDown H f)) := by
  cases f with
  | segment p q =>
    simp only [Diagonal, upsideDown, reversed, clamp_flip _ hW, clamp_flip _ hH] at hd ⊢
    rw [show (H : Int) - 1 - clampTo q.2 H - (H - 1 - clampTo p.2 H) = -(clampTo q.2 H - clampTo p.2 H) by ring, abs_neg,
      show (W : Int) - 1 - clampTo q.1 W - (W - 1 - clampTo p.1 W) = -(clampTo q.1 W - clampTo p.1 W) by ring, abs_neg]
    exact ⟨hd, fun k => hd ⟨k.1, by omega⟩⟩
  | stroke p q pen =>
    simp only [Diagonal, upsideDown, reversed] at hd ⊢
    rw [show (H : Int) - 1 - q.2 - (H - 1 - p.2) = -(q.2 - p.2) by ring, abs_neg,
      show (W : Int) - 1 - q.1 - (W - 1 - p.1) = -(q.1 - p.1) by ring, abs_neg]
    exact ⟨hd, fun k => hd ⟨k.1, by omega⟩⟩
  | _ => exact ⟨id, id⟩

theorem area_turned (h4 : bits ≠ 4) {f : Figure} (hd : ¬ Diagonal W H f) {px py : Nat} (hx : px < H) (hy : py < W) :
    area H W bits (turned W H f) px py ↔ area W H bits f (W - 1 - py) (H - 1 - px) := by
  have hW : 0 < W := by omega
  have hH : 0 < H := by omega
  obtain ⟨d1, d2⟩ := diagonal_flip hW hH hd
  unfold turned
  rw [area_exchange h4 d2, area_flipX h4 ?_ hy, area_flipY' ?_ hx]
  · rintro p q rfl
    exact ⟨fun k1 k2 => absurd ⟨k1, k2⟩ hd, fun k1 k2 => absurd ⟨k1, k2⟩ d1⟩
  · intro k
    cases f with
    | segment p q =>
      obtain ⟨k1, k2, -⟩ := k
      refine d1 ⟨k1, fun e => ?_⟩
      rw [e, sub_self, abs_zero, eq_comm, abs_eq_zero] at k1
      omega
    | _ => exact k

/-- **C192**: drawing a picture and exchanging the axes is the same as exchanging the axes and drawing the picture with its axes
exchanged. Images of one bit. -/
theorem C192_exchanged (h : Valid b W H 1) {l : List (Figure × Int)} (hl : AllSafe W H 1 l)
    (hl' : AllSafe H W 1 (l.map fun t => (exchanged t.1, t.2))) (hd : ∀ t ∈ l, ¬ Diagonal W H t.1) :
    ∃ n n' m m', drawAll l b = .ok n ∧ flipXY n = .ok n' ∧ flipXY b = .ok m ∧
      drawAll (l.map fun t => (exchanged t.1, t.2)) m = .ok m' ∧ Valid n' H W 1 ∧ Valid m' H W 1 ∧
      (∀ c < 2, palRGB m' c = palRGB n' c) ∧ ∀ x y, x < H → y < W → pix m' H W 1 x y = pix n' H W 1 x y := by
  obtain ⟨n, e1, p1⟩ := C180_layers h hl
  obtain ⟨n', e2, p2⟩ := C34_flipXY_packed_partial p1.valid (Or.inl rfl)
  obtain ⟨m, e3, p3⟩ := C34_flipXY_packed_partial h (Or.inl rfl)
  obtain ⟨m', e4, p4⟩ := C180_layers p3.valid hl'
  refine ⟨n, n', m, m', e1, e2, e3, e4, p2.valid, p4.valid, fun c hc => ?_, fun x y hx hy => ?_⟩
  · rw [Laws.palRGB_same p4.header (Or.inl rfl) (by omega) (by simpa using hc), p3.palette (by omega) c (by simpa using hc),
      p2.palette (by omega) c (by simpa using hc), Laws.palRGB_same p1.header (Or.inl rfl) (by omega) (by simpa using hc)]
  · rw [p2.pixels x y hx hy]
    have k := p1.pixels y x hy hx
    have k' := p4.pixels x y hx hy
    rw [p3.pixels x y hx hy, List.map_map] at k'
    refine Top.unique k' (top_map (f := layer W H 1) (g := layer H W 1 ∘ fun t => (exchanged t.1, t.2)) (fun t ht => ⟨?_, rfl⟩) k)
    exact area_exchange (by omega) (hd t ht)

/-- In images of 8 and 24 bits, which are mirrored at the other diagonal (C34), so are the figures. -/
theorem C192_turned (h : Valid b W H bits) (hb : bits = 8 ∨ bits = 24) (hH : 0 < H) {l : List (Figure × Int)} (hl : AllSafe W H bits l)
    (hl' : AllSafe H W bits (l.map fun t => (turned W H t.1, t.2))) (hd : ∀ t ∈ l, ¬ Diagonal W H t.1) :
    ∃ n n' m m', drawAll l b = .ok n ∧ flipXY n = .ok n' ∧ flipXY b = .ok m ∧
      drawAll (l.map fun t => (turned W H t.1, t.2)) m = .ok m' ∧ Valid n' H W bits ∧ Valid m' H W bits ∧
      (bits = 8 → ∀ c < 256, palRGB m' c = palRGB n' c) ∧ ∀ x y, x < H → y < W → pix m' H W bits x y = pix n' H W bits x y := by
  obtain ⟨n, e1, p1⟩ := C180_layers h hl
  obtain ⟨n', e2, p2⟩ := C34_flipXY_bytes p1.valid hb hH
  obtain ⟨m, e3, p3⟩ := C34_flipXY_bytes h hb hH
  obtain ⟨m', e4, p4⟩ := C180_layers p3.valid hl'
  refine ⟨n, n', m, m', e1, e2, e3, e4, p2.valid, p4.valid, ?_, fun x y hx hy => ?_⟩
  · rintro rfl c hc
    rw [Laws.palRGB_same p4.header h.depth (by omega) (by simpa using hc), p3.palette (by omega) c (by simpa using hc),
      p2.palette (by omega) c (by simpa using hc), Laws.palRGB_same p1.header h.depth (by omega) (by simpa using hc)]
  · rw [p2.pixels x y hx hy]
    have k := p1.pixels (W - 1 - y) (H - 1 - x) (by omega) (by omega)
    have k' := p4.pixels x y hx hy
    rw [p3.pixels x y hx hy, List.map_map] at k'
    refine Top.unique k' (top_map (f := layer W H bits) (g := layer H W bits ∘ fun t => (turned W H t.1, t.2)) (fun t ht => ⟨?_, rfl⟩) k)
    exact area_turned (by omega) (hd t ht) hx hy

-- A disc over a line; the line becomes steep
example : (do
    let b ← newBMP 5 4 24
    let n ← flipXY (← drawAll [(.segment (0, 0) (4, 2), 7), (.disc 1 2 1, 9)] b)
    let m ← drawAll [(turned 5 4 (.segment (0, 0) (4, 2)), 7), (turned 5 4 (.disc 1 2 1), 9)] (← flipXY b)
    pure (decide (n = m), ← getxybit n 3 4, ← getxybit n 1 0, ← getxybit n 1 3, ← getxybit n 0 3)) = .ok (true, 7, 7, 9, 9) := by decide +kernel

/-- Diagonals are different: the start is missing, and the points are shifted upwards or downwards, not to the side (C24). -/
theorem C192_diagonal_wrong : (do
    let b ← newBMP 3 3 1
    let n ← flipXY (← draw (.segment (0, 0) (1, 1)) 1 b)
    let m ← draw (exchanged (.segment (0, 0) (1, 1))) 1 (← flipXY b)
    pure [← getxybit n 1 0, ← getxybit m 1 0, ← getxybit n 0 1, ← getxybit m 0 1]) = .ok [1, 0, 0, 1] := by decide +kernel

/-- Rows of images of 4 bits start in an even column (C19), columns do not. -/
theorem C192_nibble_wrong : (do
    let b ← newBMP 2 2 4
    let n ← flipXY (← draw (.row 0 1 1) 9 b)
    let m ← draw (exchanged (.row 0 1 1)) 9 (← flipXY b)
    pure [← getxybit n 0 0, ← getxybit m 0 0, ← getxybit n 0 1, ← getxybit m 0 1]) = .ok [9, 0, 0, 9] := by decide +kernel

end Verif.Props.Overlay
