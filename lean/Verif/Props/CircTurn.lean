import Verif.Props.CircFlip
import Verif.Props.FlipXY
/-! Property C74: exchanging the axes inside a circle. -/

namespace Verif.Props
open Verif Spec Model

section
variable {b b' : Bytes} {W H bits : Nat}

theorem length_flatten_const {m n : Nat} {g : Nat → Bytes} (hl : ∀ j, (g j).length = m) :
    ((List.range n).map g).flatten.length = m * n := by
  induction n with
  | zero => simp
  | succ n ih =>
    rw [List.range_succ, List.map_append, List.flatten_append, List.length_append, ih]
    simp [hl]; ring

theorem byte_flatten_const {m n : Nat} {g : Nat → Bytes} (hl : ∀ j, (g j).length = m) {i t : Nat} (hi : i < n) (ht : t < m) :
    byte ((List.range n).map g).flatten (m * i + t) = byte (g i) t := by
  induction n with
  | zero => omega
  | succ n ih =>
    rw [List.range_succ, List.map_append, List.flatten_append, byte_append, length_flatten_const hl]
    by_cases he : i < n
    · rw [if_pos (by have := Nat.mul_le_mul_left m (show i + 1 ≤ n by omega); rw [Nat.mul_add] at this; omega), ih he]
    · have : i = n := by omega
      subst this
      rw [if_neg (by omega)]
      simp

/-- The bytes of a pixel of an 8- or 24-bit image. -/
def encPix (bits c : Nat) : Bytes := if bits = 24 then [c % 256, c / 256 % 256, c / 65536] else [c]

theorem length_encPix (hb : bits = 8 ∨ bits = 24) (c : Nat) : (encPix bits c).length = bits / 8 := by
  unfold encPix
  rcases hb with rfl | rfl <;> simp

theorem byte_encPix (h : Valid b W H bits) (hb : bits = 8 ∨ bits = 24) {x y t : Nat} (ht : t < bits / 8) :
    byte (encPix bits (pix b W H bits x y)) t = rowOf b W H bits y (bits / 8 * x + t) := by
  have hl : ∀ j, byte b (cell W H bits y j) < 256 := fun j => byte_lt_of_mem h.bytes _
  unfold encPix rowOf
  rw [pix_cell]
  rcases hb with rfl | rfl
  · obtain rfl : t = 0 := by omega
    have h0 := hl (x * 8 / 8)
    rw [if_neg (by omega), if_neg (by omega)]
    have : shiftOf 8 x = 0 := by unfold shiftOf; omega
    rw [show x * 8 / 8 = x by omega] at *
    rw [this, show 8 / 8 * x + 0 = x by omega]
    show byte b (cell W H 8 y x) / 2 ^ 0 % 2 ^ 8 = _
    omega
  · have h0 := hl (3 * x)
    have h1 := hl (3 * x + 1)
    have h2 := hl (3 * x + 2)
    rw [if_pos rfl, if_pos rfl]
    have : t = 0 ∨ t = 1 ∨ t = 2 := by omega
    rcases this with rfl | rfl | rfl <;> simp [byte] at * <;> omega

/-- The disc is symmetric in the two axes. -/
theorem disc_swap {r a c X : Int} (h : OnCircle r X c) (hc : 0 ≤ c) (ha : 0 ≤ a) (hX : a ≤ X) :
    ∃ Y, OnCircle r Y a ∧ c ≤ Y := by
  have hXr := (C25_circle_accuracy r X c ((C25_circle_points _ _ _).mpr h)).2.1
  have hcr := (C25_circle_accuracy r X c ((C25_circle_points _ _ _).mpr h)).2.2.2.1
  obtain ⟨hw, hhw⟩ := halfWidth_exists (r := r) (v := a) ha (by omega)
  refine ⟨hw, hhw.1, ?_⟩
  have hb := halfWidth_bounds hhw
  have hmax := hhw.2
  have on1 := hhw.1
  have on2 := h
  by_contra hlt
  have hsym : OnCircle r c X := by
    obtain ⟨g1, g2, g3⟩ := on2
    refine ⟨g2, g1, ?_⟩
    rcases g3 with ⟨r0, g4⟩ | ⟨g4, g5⟩
    · exact Or.inl ⟨r0, by tauto⟩
    · exact Or.inr ⟨g4, by rw [min_comm, max_comm]; exact g5⟩
  obtain ⟨_, _, ⟨r0, _⟩ | ⟨_, n1⟩⟩ := on1
  · omega
  obtain ⟨_, _, ⟨r0, _⟩ | ⟨_, n2⟩⟩ := id on2
  · omega
  by_cases huq : a = X
  · subst huq
    exact hlt (hmax c hsym)
  have hu1 : a + 1 ≤ X := by omega
  have hw1 : hw + 1 ≤ c := by omega
  obtain ⟨a1, a2⟩ := n1
  obtain ⟨c1, c2⟩ := n2
  rcases le_total hw a with k1 | k1 <;> rcases le_total X c with k2 | k2
  · rw [min_eq_left k1, max_eq_right k1] at a1 a2
    rw [min_eq_left k2, max_eq_right k2] at c1 c2
    nlinarith
  · rw [min_eq_left k1, max_eq_right k1] at a1 a2
    rw [min_eq_right k2, max_eq_left k2] at c1 c2
    nlinarith
  · rw [min_eq_right k1, max_eq_left k1] at a1 a2
    rw [min_eq_left k2, max_eq_right k2] at c1 c2
    nlinarith
  · rw [min_eq_right k1, max_eq_left k1] at a1 a2
    rw [min_eq_right k2, max_eq_left k2] at c1 c2
    nlinarith

theorem discSet_halfWidth {x y r hw : Int} {px py : Nat} (hhw : HalfWidth r hw |(py : Int) - y|) :
    DiscSet x y r px py ↔ |(px : Int) - x| ≤ hw := by
  constructor
  · rintro ⟨dx, h1, h2⟩
    have := hhw.2 dx h1
    omega
  · intro h
    exact ⟨hw, hhw.1, h⟩

/-- Where a pixel of the turned disc comes from. -/
def turnX (x y : Int) (py : Nat) : Nat := (x + (py - y)).toNat
/-- Where a pixel of the turned disc comes from. -/
def turnY (x y : Int) (px : Nat) : Nat := (y - (px - x)).toNat

/-- Row `y'` after the two writes of a round. -/
def tNew (b : Bytes) (W H bits : Nat) (x y : Int) (v : Int × Int) (y' : Nat) (ρ1 ρ2 : Nat → Nat) (j : Nat) : Nat :=
  if bits / 8 * (x - v.1).toNat ≤ j ∧ j < bits / 8 * ((x + v.1).toNat + 1) then
    rowOf b W H bits (turnY x y (j / (bits / 8))) (bits / 8 * turnX x y y' + j % (bits / 8))
  else if (y' : Int) = y - v.2 then ρ1 j else ρ2 j

/-- The column read for a row of the turned disc, lowest row first. -/
def turnBuf (b : Bytes) (W H bits : Nat) (xs lo n : Nat) : Bytes :=
  ((List.range (n + 1)).map fun j => encPix bits (pix b W H bits xs (lo + n - j))).flatten

theorem byte_turnBuf (h : Valid b W H bits) (hb : bits = 8 ∨ bits = 24) {xs lo n i t : Nat} (hi : i ≤ n) (ht : t < bits / 8) :
    byte (turnBuf b W H bits xs lo n) (bits / 8 * i + t) = rowOf b W H bits (lo + n - i) (bits / 8 * xs + t) := by
  unfold turnBuf
  rw [byte_flatten_const (fun j => length_encPix hb _) (by omega) ht, byte_encPix h hb ht]

theorem length_turnBuf (hb : bits = 8 ∨ bits = 24) (xs lo n : Nat) :
    (turnBuf b W H bits xs lo n).length = bits / 8 * (n + 1) := by
  unfold turnBuf
  rw [length_flatten_const (fun j => length_encPix hb _)]

theorem turnBuf_bytes (h : Valid b W H bits) (hb : bits = 8 ∨ bits = 24) (xs lo n : Nat) :
    ∀ v ∈ turnBuf b W H bits xs lo n, v < 256 := by
  intro v hv
  unfold turnBuf at hv
  rw [List.mem_flatten] at hv
  obtain ⟨l, hl, hv⟩ := hv
  rw [List.mem_map] at hl
  obtain ⟨j, _, rfl⟩ := hl
  have hp := h.pix_lt xs (lo + n - j)
  unfold encPix at hv
  rcases hb with rfl | rfl <;> simp at hv <;> norm_num at hp <;> omega

theorem turn_step (h : Valid b W H bits) (hb : bits = 8 ∨ bits = 24) {b0 : Bytes} (h0 : Valid b0 W H bits) {x y : Int}
    {v : Int × Int} {xa xb ya yb ca cb ra rb : Nat} (c : InCols W H bits x y v xa xb ya yb)
    (c' : InCols W H bits x y (v.2, v.1) ca cb ra rb) :
    ∃ b', (do
      let xm := mirror x v.1
      let ym := mirror y v.2
      let bmp ← segUpdate (fun _ _ _ => .ok (turnBuf b W H bits ca ra (rb - ra))) b0 xm.1 (xm.2 + 1) ym.1
      segUpdate (fun _ _ _ => .ok (turnBuf b W H bits cb ra (rb - ra))) bmp xm.1 (xm.2 + 1) ym.2) = .ok b' ∧
      Grid b0 b' W H bits (fun y' j => if (y' : Int) = y - v.2 ∨ (y' : Int) = y + v.2
        then tNew b W H bits x y v y' (rowOf b0 W H bits (y - v.2).toNat) (rowOf b0 W H bits (y + v.2).toNat) j
        else byte b0 (cell W H bits y' j)) := by
  have hnb : 0 < bits / 8 := by rcases hb with rfl | rfl <;> omega
  obtain ⟨exa, exb, eya, eyb, hx, hxW, hya, hyb, col, row⟩ := c
  obtain ⟨eca, ecb, era, erb, hc, hcW, hra, hrb, -, -⟩ := c'
  dsimp only at eca ecb era erb
  have hlen : rb - ra = xb - xa := by omega
  have hrow : ∀ q, q ≤ W → q * bits / 8 = bits / 8 * q ∧ bits / 8 * q ≤ rowLen W bits := by
    intro q hq
    unfold rowLen
    rcases hb with rfl | rfl <;> constructor <;> omega
  have w : ∀ b1, Valid b1 W H bits → ∀ yd xs : Nat, yd < H → (xs : Int) = x + (yd - y) → ∃ b2,
      segUpdate (fun _ _ _ => .ok (turnBuf b W H bits xs ra (rb - ra))) b1 xa ((xb : Int) + 1) yd = .ok b2 ∧
      Grid b1 b2 W H bits (fun y' j' =>
        if y' = yd ∧ bits / 8 * xa ≤ j' ∧ j' < bits / 8 * (xb + 1) then
          rowOf b W H bits (turnY x y (j' / (bits / 8))) (bits / 8 * turnX x y yd + j' % (bits / 8))
        else byte b1 (cell W H bits y' j')) := by
    intro b1 h1 yd xs hyd hxs
    unfold segUpdate
    rw [show ((xb : Int) + 1) = ((xb + 1 : Nat) : Int) by omega]
    rw [BMoffsethd_col h1 _ hyd, BMoffsethd_col h1 _ hyd]
    simp only [ok_bind, cell_col_int]
    rw [(hrow xa (by omega)).1, (hrow (xb + 1) (by omega)).1]
    refine ⟨_, rfl, (setSlice_row h1 hyd (Nat.mul_le_mul_left _ (by omega)) (hrow (xb + 1) (by omega)).2
      (turnBuf_bytes h hb _ _ _) (by rw [length_turnBuf hb, hlen, ← Nat.mul_sub, show xb + 1 - xa = xb - xa + 1 by omega])).congr ?_⟩
    intro y' j' _ _
    split_ifs with c
    · obtain ⟨_, c1, c2⟩ := c
      have d1 : xa ≤ j' / (bits / 8) := by rw [Nat.le_div_iff_mul_le hnb, Nat.mul_comm]; exact c1
      have d2 : j' / (bits / 8) < xb + 1 := by rw [Nat.div_lt_iff_lt_mul hnb, Nat.mul_comm]; exact c2
      have d3 := Nat.mod_lt j' hnb
      have d4 := Nat.div_add_mod j' (bits / 8)
      have d5 : j' - bits / 8 * xa = bits / 8 * (j' / (bits / 8) - xa) + j' % (bits / 8) := by
        have := Nat.mul_le_mul_left (bits / 8) d1
        rw [Nat.mul_sub]; omega
      rw [d5, byte_turnBuf h hb (by omega) d3]
      have e1 : ra + (rb - ra) - (j' / (bits / 8) - xa) = turnY x y (j' / (bits / 8)) := by unfold turnY; omega
      have e2 : xs = turnX x y yd := by unfold turnX; omega
      rw [e1, e2]
    · rfl
  simp only [mirror, exa, exb, eya, eyb]
  obtain ⟨b1, e1, g1⟩ := w b0 h0 ya ca hya (by omega)
  obtain ⟨b2, e2, g2⟩ := w b1 g1.valid yb cb hyb (by omega)
  rw [e1, ok_bind, e2]
  refine ⟨b2, rfl, (g1.trans g2).congr ?_⟩
  intro y' j' hy' hj'
  rw [g1.cells y' j' hy' hj']
  unfold tNew
  simp only [exa, exb, eya, eyb, Int.toNat_natCast, Nat.cast_inj]
  clear * -
  rcases eq_or_ne y' ya with rfl | c1 <;> rcases eq_or_ne y' yb with rfl | c2 <;>
    by_cases c3 : bits / 8 * xa ≤ j' ∧ j' < bits / 8 * (xb + 1) <;> simp_all [rowOf]

/-- The rows after `flipXYcircregion` on 8- and 24-bit images, byte by byte. -/
theorem turn_rows (h : Valid b W H bits) (hb : bits = 8 ∨ bits = 24) {x y r : Int} (hs : SquareInside W H x y r)
    (hg : SquareInside W W x y r) :
    ∃ b', flipXYcircregion b x y r = .ok b' ∧ Valid b' W H bits ∧ SameHeader b b' bits ∧
      ∀ y' q t, y' < H → bits / 8 * q + t < rowLen W bits → t < bits / 8 →
        (DiscSet x y r q y' → rowOf b' W H bits y' (bits / 8 * q + t) =
          rowOf b W H bits (turnY x y q) (bits / 8 * turnX x y y' + t)) ∧
        (¬ DiscSet x y r q y' → rowOf b' W H bits y' (bits / 8 * q + t) = rowOf b W H bits y' (bits / 8 * q + t)) := by
  have hnb : 0 < bits / 8 := by rcases hb with rfl | rfl <;> omega
  have hsq := (square_iff W H x y r).mpr hs
  simp only [entirecircleisinboundary, isinrange, Bool.and_eq_true, decide_eq_true_eq] at hsq
  have both : ∀ v ∈ itercirclepartlineedge r, ∃ xa xb ya yb ca cb ra rb : Nat, InCols W H bits x y v xa xb ya yb ∧
      InCols W H bits x y (v.2, v.1) ca cb ra rb := by
    intro v hv
    obtain ⟨xa, xb, ya, yb, c⟩ := inCols h.depth hs hv
    have := halfWidth_bounds (mem_lineedge.mp hv)
    have hle : (x - v.2).toNat ≤ (x + v.2).toNat := by omega
    exact ⟨xa, xb, ya, yb, (x - v.2).toNat, (x + v.2).toNat, (y - v.1).toNat, (y + v.1).toNat, c,
      by dsimp only; omega, by dsimp only; omega, by dsimp only; omega, by dsimp only; omega, hle, by omega, by omega,
      by omega, Nat.div_le_div_right (Nat.mul_le_mul_right _ hle), (col_le_row h.depth (by omega)).1⟩
  obtain ⟨G, hG⟩ : ∃ G : Int × Int → Bytes × Bytes, G = fun v =>
    (turnBuf b W H bits (x - v.2).toNat (y - v.1).toNat ((y + v.1).toNat - (y - v.1).toNat),
     turnBuf b W H bits (x + v.2).toNat (y - v.1).toNat ((y + v.1).toNat - (y - v.1).toNat)) := ⟨_, rfl⟩
  obtain ⟨b', e, hv, hh, hc⟩ := scanline_fold (W := W) (H := H) (bits := bits) (x := x) (y := y) (r := r)
    (fun bmp v => do
      let xm := mirror x v.1
      let ym := mirror y v.2
      let bmp ← segUpdate (fun _ _ _ => .ok (G v).1) bmp xm.1 (xm.2 + 1) ym.1
      segUpdate (fun _ _ _ => .ok (G v).2) bmp xm.1 (xm.2 + 1) ym.2)
    (tNew b W H bits x y)
    (by
      intro v hv y' ρ1 ρ1' ρ2 ρ2' h1 h2 _ _ j hj
      have := halfWidth_bounds (mem_lineedge.mp hv)
      have h1 := h1 (by omega) (by omega) j hj
      have h2 := h2 (by omega) (by omega) j hj
      unfold tNew
      rw [h1, h2])
    (fun b1 hb1 v hv => by
      obtain ⟨xa, xb, ya, yb, ca, cb, ra, rb, c, c'⟩ := both v hv
      have := turn_step h hb hb1 c c'
      have q1 := c'.exa; have q2 := c'.exb; have q3 := c'.eya; have q4 := c'.eyb
      dsimp only at q1 q2 q3 q4
      rw [hG]
      simp only [q1, q2, q3, q4, Int.toNat_natCast]
      exact this) h
  refine ⟨b', ?_, hv, hh, ?_⟩
  · unfold flipXYcircregion
    rw [(C45_entirecircle_exact h _ x y r).1 hg, h.bits_eq, ok_bind, if_neg (by rcases hb with rfl | rfl <;> simp)]
    unfold flipXYcircCore
    rw [mapM_ok _ _ (fun v => (v, some (G v).1, some (G v).2))]
    · rw [ok_bind, List.foldlM_map]
      simp only [orTypeError, pure_eq_ok, ok_bind]
      dsimp only at e
      rw [e]
      rfl
    · intro v hv
      obtain ⟨xa, xb, ya, yb, ca, cb, ra, rb, c, c'⟩ := both v hv
      have q1 := c'.exa; have q2 := c'.exb; have q3 := c'.eya; have q4 := c'.eyb
      dsimp only at q1 q2 q3 q4
      have hr1 := c'.hya; have hr2 := c'.hyb
      have := halfWidth_bounds (mem_lineedge.mp hv)
      rw [hG]
      simp only [mirror, q1, q2, q3, q4, Int.toNat_natCast]
      have hcW := c'.hxW
      have hcx := c'.hx
      rw [C18_vertical_get h hb (x := ca) (by omega) (lo := ra) (hi := rb) (by omega) (by omega) (by omega)]
      simp only [ok_bind]
      rw [C18_vertical_get h hb (x := cb) (by omega) (lo := ra) (hi := rb) (by omega) (by omega) (by omega)]
      simp only [ok_bind]
      unfold turnBuf encPix
      rw [show ra + (rb - ra) = rb by omega]
      rfl
  · intro y' q t hy hj ht
    have hdiv : (bits / 8 * q + t) / (bits / 8) = q := by
      rw [Nat.mul_add_div hnb, Nat.div_eq_of_lt ht, Nat.add_zero]
    have hmod : (bits / 8 * q + t) % (bits / 8) = t := by rw [Nat.mul_add_mod, Nat.mod_eq_of_lt ht]
    by_cases hr : r < |(y' : Int) - y|
    · refine ⟨fun hd => ?_, fun _ => (hc y' _ hy hj).2 hr⟩
      obtain ⟨X, on, _⟩ := hd
      have := (C25_circle_accuracy r X _ ((C25_circle_points _ _ _).mpr on)).2.2.2.1
      omega
    · obtain ⟨hw, hhw⟩ := halfWidth_exists (abs_nonneg ((y' : Int) - y)) (le_of_not_gt hr)
      have hbd := halfWidth_bounds hhw
      have key := (hc y' _ hy hj).1 hw hhw
      have hin : (bits / 8 * (x - hw).toNat ≤ bits / 8 * q + t ∧ bits / 8 * q + t < bits / 8 * ((x + hw).toNat + 1)) ↔
          DiscSet x y r q y' := by
        rw [discSet_halfWidth hhw, abs_le, Nat.mul_comm (bits / 8) (x - hw).toNat, ← Nat.le_div_iff_mul_le hnb, hdiv,
          Nat.mul_comm (bits / 8) ((x + hw).toNat + 1), ← Nat.div_lt_iff_lt_mul hnb, hdiv]
        omega
      unfold tNew at key
      dsimp only at key
      rw [hdiv, hmod] at key
      constructor
      · intro hd
        rw [if_pos (hin.mpr hd)] at key
        exact key
      · intro hd
        rw [if_neg (fun g => hd (hin.mp g))] at key
        have hcase := abs_cases ((y' : Int) - y)
        rw [key]
        by_cases c1 : (y' : Int) = y - |(y' : Int) - y|
        · rw [if_pos c1, show (y - |(y' : Int) - y|).toNat = y' by omega]
        · rw [if_neg c1, show (y + |(y' : Int) - y|).toNat = y' by omega]

theorem turn_bounds {x y r : Int} (hs : SquareInside W H x y r) {q y' : Nat} (hd : DiscSet x y r q y') :
    turnY x y q < H ∧ turnX x y y' < W ∧ ((turnX x y y' : Nat) : Int) = x + (y' - y) ∧
      ((turnY x y q : Nat) : Int) = y - (q - x) ∧ DiscSet x y r (turnX x y y') (turnY x y q) := by
  have hsq := (square_iff W H x y r).mpr hs
  simp only [entirecircleisinboundary, isinrange, Bool.and_eq_true, decide_eq_true_eq] at hsq
  obtain ⟨X, on, hX⟩ := hd
  have hb := C25_circle_accuracy r X _ ((C25_circle_points _ _ _).mpr on)
  have h1 := hb.2.1
  have h2 := hb.2.2.2.1
  have ha := abs_le.mp (show |(y' : Int) - y| ≤ r from h2)
  have hc := abs_le.mp (show |(q : Int) - x| ≤ r by omega)
  have e1 : ((turnX x y y' : Nat) : Int) = x + (y' - y) := by unfold turnX; omega
  have e2 : ((turnY x y q : Nat) : Int) = y - (q - x) := by unfold turnY; omega
  refine ⟨by omega, by omega, e1, e2, ?_⟩
  obtain ⟨Y, on2, hY⟩ := disc_swap on (abs_nonneg _) (abs_nonneg _) hX
  refine ⟨Y, ?_, ?_⟩
  · rw [e2, show y - ((q : Int) - x) - y = -((q : Int) - x) by omega, abs_neg]; exact on2
  · rw [e1, show x + ((y' : Int) - y) - x = (y' : Int) - y by omega]; exact hY

/-- C74, what `flipXYcircregion` does to 8- and 24-bit images: the disc is turned by a quarter. -/
theorem C74_turn_exact (h : Valid b W H bits) (hb : bits = 8 ∨ bits = 24) {x y r : Int} (hs : SquareInside W H x y r)
    (hg : SquareInside W W x y r) :
    ∃ b', flipXYcircregion b x y r = .ok b' ∧ Alters b b' W H bits (DiscSet x y r)
      (fun px py => pix b W H bits (x + (py - y)).toNat (y - (px - x)).toNat) := by
  obtain ⟨b', e, hv, hh, hc⟩ := turn_rows h hb hs hg
  have hmul : ∀ q, q * bits / 8 = bits / 8 * q := by intro q; rcases hb with rfl | rfl <;> omega
  have hbpp : bpp bits = bits / 8 := by unfold bpp; rcases hb with rfl | rfl <;> simp
  have hsh : ∀ p q, shiftOf bits p = shiftOf bits q := by
    intro p q; unfold shiftOf; rcases hb with rfl | rfl <;> omega
  refine ⟨b', e, hv, hh, ?_, ?_⟩
  · intro px py hpx hpy hd
    apply pix_congr2 (hsh _ _)
    intro t ht
    have hj : px * bits / 8 + t < rowLen W bits := by have := xcell_lt h.depth hpx; omega
    rw [hmul] at hj ⊢
    rw [hmul]
    rw [hbpp] at ht
    exact (hc py px t hpy hj ht).1 hd
  · intro px py hpx hpy hd
    apply pix_congr rfl
    intro t ht
    have hj : px * bits / 8 + t < rowLen W bits := by have := xcell_lt h.depth hpx; omega
    rw [hmul] at hj ⊢
    rw [hbpp] at ht
    exact (hc py px t hpy hj ht).2 hd

/-- C74: four calls restore the file byte for byte. -/
theorem C74_four_times (h : Valid b W H bits) (hb : bits = 8 ∨ bits = 24) {x y r : Int} (hs : SquareInside W H x y r)
    (hg : SquareInside W W x y r) :
    (do let b1 ← flipXYcircregion b x y r
        let b2 ← flipXYcircregion b1 x y r
        let b3 ← flipXYcircregion b2 x y r
        flipXYcircregion b3 x y r) = .ok b := by
  have hnb : 0 < bits / 8 := by rcases hb with rfl | rfl <;> omega
  obtain ⟨b1, e1, v1, hh1, c1⟩ := turn_rows h hb hs hg
  obtain ⟨b2, e2, v2, hh2, c2⟩ := turn_rows v1 hb hs hg
  obtain ⟨b3, e3, v3, hh3, c3⟩ := turn_rows v2 hb hs hg
  obtain ⟨b4, e4, v4, hh4, c4⟩ := turn_rows v3 hb hs hg
  simp only [e1, e2, e3, ok_bind]
  rw [e4]
  congr 1
  apply grid_ext h ⟨hh4.1.trans (hh3.1.trans (hh2.1.trans hh1.1)),
    fun i hi => (hh4.2 i hi).trans ((hh3.2 i hi).trans ((hh2.2 i hi).trans (hh1.2 i hi)))⟩
  intro y' j hy hj
  show rowOf b4 W H bits y' j = rowOf b W H bits y' j
  obtain ⟨q, t, ht, rfl⟩ : ∃ q t, t < bits / 8 ∧ j = bits / 8 * q + t :=
    ⟨j / (bits / 8), j % (bits / 8), Nat.mod_lt _ hnb, (Nat.div_add_mod _ _).symm⟩
  by_cases hd : DiscSet x y r q y'
  · have hrow : ∀ p, p < W → bits / 8 * p + t < rowLen W bits := by
      intro p hp
      unfold rowLen
      rcases hb with rfl | rfl <;> omega
    obtain ⟨k1, k2, k3, k4, d1⟩ := turn_bounds hs hd
    obtain ⟨l1, l2, l3, l4, d2⟩ := turn_bounds hs d1
    obtain ⟨m1, m2, m3, m4, d3⟩ := turn_bounds hs d2
    obtain ⟨n1, n2, n3, n4, d4⟩ := turn_bounds hs d3
    rw [(c4 y' q t hy hj ht).1 hd, (c3 _ _ t k1 (hrow _ k2) ht).1 d1, (c2 _ _ t l1 (hrow _ l2) ht).1 d2,
      (c1 _ _ t m1 (hrow _ m2) ht).1 d3]
    congr 1
    · omega
    · congr 2
      omega
  · rw [(c4 y' q t hy hj ht).2 hd, (c3 y' q t hy hj ht).2 hd, (c2 y' q t hy hj ht).2 hd, (c1 y' q t hy hj ht).2 hd]

/-- C74 for 1- and 4-bit images: the axes are exchanged, when `x` and `y` agree in their position inside the bytes.
Missing: other centres, and the ends of the rows that are not whole bytes. -/
theorem C74_packed_partial (h : Valid b W H bits) (hb : bits = 1 ∨ bits = 4) {x y r : Int} (hs : SquareInside W H x y r)
    (hg : SquareInside W W x y r) (hal : 8 ∣ (x - y) * bits) :
    ∃ b', flipXYcircregion b x y r = .ok b' ∧ Alters b b' W H bits (CircCols W bits x y r)
      (fun px py => pix b W H bits (x + (py - y)).toNat (y + (px - x)).toNat) := by
  obtain ⟨n, e, s⟩ := C34_flipXY_packed_partial h hb
  have hsq := (square_iff W H x y r).mpr hs
  have hs' : SquareInside H W y x r := by
    rw [← square_iff]
    simp only [entirecircleisinboundary, isinrange, Bool.and_eq_true, decide_eq_true_eq] at hsq ⊢
    omega
  obtain ⟨b', e2, a⟩ := paste_fold s.valid h hs' hs hal
  simp only [entirecircleisinboundary, isinrange, Bool.and_eq_true, decide_eq_true_eq] at hsq
  refine ⟨b', ?_, a.valid, a.header, ?_, a.outside⟩
  · unfold flipXYcircregion
    rw [(C45_entirecircle_exact h _ x y r).1 hg, h.bits_eq, ok_bind, if_pos (by rcases hb with rfl | rfl <;> simp)]
    unfold flipXYcircPacked
    rw [e, ok_bind]
    have : ∀ (l : List (Int × Int)), (∀ v ∈ l, v ∈ itercirclepartlineedge r) → ∀ b0 : Bytes,
      l.foldlM (fun bmp v => do
        let x34 := mirror y v.1
        let y34 := mirror x v.2
        let xm := mirror x v.1
        let ym := mirror y v.2
        let s3 ← BMoffsethd n x34.1 y34.1
        let e3 ← BMoffsethd n x34.2 y34.1
        let bmp ← segUpdate (fun _ _ _ => .ok (slice n s3 e3)) bmp xm.1 xm.2 ym.1
        let s4 ← BMoffsethd n x34.1 y34.2
        let e4 ← BMoffsethd n x34.2 y34.2
        segUpdate (fun _ _ _ => .ok (slice n s4 e4)) bmp xm.1 xm.2 ym.2) b0 =
      l.foldlM (fun bmp v => do
        let xm := mirror x v.1
        let ym := mirror y v.2
        let bmp ← segUpdate (fun _ _ _ => .ok (circSegs n H W bits y x v).1) bmp xm.1 xm.2 ym.1
        segUpdate (fun _ _ _ => .ok (circSegs n H W bits y x v).2) bmp xm.1 xm.2 ym.2) b0 := by
      intro l
      induction l with
      | nil => intro _ _; rfl
      | cons v l ih =>
        intro hl b0
        rw [List.foldlM_cons, List.foldlM_cons]
        obtain ⟨xa, xb, ya, yb, c⟩ := inCols h.depth hs' (hl v (by simp))
        have : (fun b0 => l.foldlM (fun bmp v => do
          let x34 := mirror y v.1
          let y34 := mirror x v.2
          let xm := mirror x v.1
          let ym := mirror y v.2
          let s3 ← BMoffsethd n x34.1 y34.1
          let e3 ← BMoffsethd n x34.2 y34.1
          let bmp ← segUpdate (fun _ _ _ => .ok (slice n s3 e3)) bmp xm.1 xm.2 ym.1
          let s4 ← BMoffsethd n x34.1 y34.2
          let e4 ← BMoffsethd n x34.2 y34.2
          segUpdate (fun _ _ _ => .ok (slice n s4 e4)) bmp xm.1 xm.2 ym.2) b0) = _ :=
          funext (ih (fun v hv => hl v (by simp [hv])))
        rw [this]
        congr 1
        unfold circSegs
        simp only [mirror, c.exa, c.exb, c.eya, c.eyb, Int.toNat_natCast]
        rw [BMoffsethd_col s.valid _ c.hya, BMoffsethd_col s.valid _ c.hya, BMoffsethd_col s.valid _ c.hyb,
          BMoffsethd_col s.valid _ c.hyb]
        simp only [ok_bind, cell_col_int]
        rw [slice_row s.valid c.hya c.col c.row, slice_row s.valid c.hyb c.col c.row]
    rw [this _ (fun v hv => hv) b, e2]
    rfl
  · intro px py hpx hpy hin
    rw [a.inside px py hpx hpy hin]
    obtain ⟨hw, hhw, h1⟩ := hin
    have hbd := halfWidth_bounds hhw
    have ha := abs_le.mp hbd.2.2.2
    have hb1 : 0 ≤ y + ((px : Int) - x) ∧ y + ((px : Int) - x) < H := by
      rcases hb with rfl | rfl <;> push_cast at hal h1 <;> omega
    rw [s.pixels _ _ (by omega) (by omega)]
    congr 1 <;> omega

/-- C74: a circle that does not fit the square of the width is ignored. -/
theorem C74_rejected (h : Valid b W H bits) {x y r : Int} (hg : ¬ SquareInside W W x y r) :
    flipXYcircregion b x y r = .ok b := by
  unfold flipXYcircregion
  rw [(C45_entirecircle_exact h _ x y r).2 hg]
  rfl

/-- C74 is false: on 24-bit images the axes are not exchanged. -/
theorem C74_false : ¬ ∀ (b : Bytes) (W H bits : Nat), Valid b W H bits → ∀ x y r : Int, SquareInside W H x y r →
    SquareInside W W x y r →
    ∃ b', flipXYcircregion b x y r = .ok b' ∧ Alters b b' W H bits (DiscSet x y r)
      (fun px py => pix b W H bits (x + (py - y)).toNat (y + (px - x)).toNat) := by
  intro hall
  obtain ⟨b, e, v0, -, -, -, -, hz, -⟩ := C01_newBMP_valid 3 3 24 (by simp [Depth]) (by norm_num) (by norm_num)
  have v := v0.valid_plotP (x := 1) (y := 0) (n := 5) (by omega) (by omega) (by norm_num)
  have hs : SquareInside 3 3 1 1 1 := by rw [← square_iff]; decide
  obtain ⟨b1, f1, a1⟩ := hall _ 3 3 24 v 1 1 1 hs hs
  obtain ⟨b2, f2, a2⟩ := C74_turn_exact v (Or.inr rfl) hs hs
  rw [f1] at f2
  obtain rfl := Except.ok.inj f2
  have hd : DiscSet 1 1 1 0 1 := ⟨1, by unfold OnCircle Near; decide, by decide⟩
  have g1 := a1.inside 0 1 (by omega) (by omega) hd
  have g2 := a2.inside 0 1 (by omega) (by omega) hd
  rw [g1] at g2
  have g3 : pix (plotP b 3 3 24 1 0 5) 3 3 24 1 0 = pix (plotP b 3 3 24 1 0 5) 3 3 24 1 2 := g2
  rw [v0.pix_plotP (by omega) (by omega) (by norm_num) (by omega) (by omega),
    v0.pix_plotP (by omega) (by omega) (by norm_num) (by omega) (by omega), hz 1 2 (by omega) (by omega)] at g3
  norm_num at g3

example : (do let b ← newBMP 5 5 24; let b ← plotxybit b 1 2 0x102030; let b ← plotxybit b 2 0 0x405060
              let b ← flipXYcircregion b 2 2 2
              pure (← getxybit b 2 1, ← getxybit b 4 2, ← getxybit b 2 0)) = .ok (0x102030, 0x405060, 0) := by decide +kernel

end
end Verif.Props
