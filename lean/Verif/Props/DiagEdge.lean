import Verif.Props.Line4
/-! Property C24, diagonals that end in the first or last row: the row after the last one is outside the image, and
`line` writes there without a check. -/

namespace Verif.Props
open Verif Spec Model

/-- The positions of pixels only depend on the geometry in the header. -/
theorem BMoffsethd_congr {b b' : Bytes} (hl : 30 ≤ b.length) (hl' : 30 ≤ b'.length) (hb : ∀ i < 30, byte b' i = byte b i)
    (x y : Int) : BMoffsethd b' x y = BMoffsethd b x y := by
  have g : ∀ i : Nat, i < 30 → getItem b' (i : Int) = getItem b (i : Int) := by
    intro i hi
    rw [getItem_ok rfl (by omega), getItem_ok rfl (by omega), hb i hi]
  have rd : ∀ off : Nat, off + 4 < 30 → readint (off : Int) 4 b' = readint (off : Int) 4 b := by
    intro off ho
    unfold readint
    rw [show pyRange 0 (4 - 1) = [0, 1, 2] from rfl]
    simp only [List.foldlM_cons, List.foldlM_nil]
    rw [show (off : Int) + 0 = ((off + 0 : Nat) : Int) by push_cast; rfl, show (off : Int) + 1 = ((off + 1 : Nat) : Int) by push_cast; rfl,
      show (off : Int) + 2 = ((off + 2 : Nat) : Int) by push_cast; rfl, g _ (by omega), g _ (by omega), g _ (by omega)]
  have ro : ∀ y bits, rowoff b' y bits = rowoff b y bits := by
    intro y bits
    unfold rowoff
    rw [show readint bmpy 4 b' = readint bmpy 4 b from rd 22 (by omega), show readint bmpx 4 b' = readint bmpx 4 b from rd 18 (by omega)]
  unfold BMoffsethd
  rw [show getItem b' bmpcolorbits = getItem b bmpcolorbits from g 28 (by omega)]
  simp only [bmofhd24, bmofhd8, bmofhd4, bmofhd1, ro]

theorem BMoffsethd_any {b : Bytes} {W H bits : Nat} (h : Valid b W H bits) (x y : Int) :
    BMoffsethd b x y = .ok ((dataOff bits : Int) + ((H : Int) - y - 1) * (rowLen W bits : Int) + x * bits / 8) := by
  have hr := h.rowoff_eq y
  unfold BMoffsethd
  rw [h.bits_eq]
  rcases h.depth with rfl | rfl | rfl | rfl
  all_goals
    norm_num at hr
    norm_num [bmofhd24, bmofhd8, bmofhd4, bmofhd1, hr, dataOff, palSize]
    try rw [pyShr_3]
    try rw [pyShr_1]
    try generalize ((H : Int) - y - 1) * (rowLen W _ : Int) = R
    try omega

/-- One point of a line that is neither horizontal nor vertical, on images of more than one bit. -/
def diagStep (bits : Nat) (color : Int) (bmp : Bytes) (p : Int × Int) : Py Bytes := do
  let s ← BMoffsethd bmp p.1 p.2
  if bits = 24 then
    pure (setSlice bmp s (s + 3) [color.toNat % 256, color.toNat / 256 % 256, color.toNat / 65536])
  else if bits = 8 then setItem bmp s color
  else do
    let v ← getItem bmp s
    if pyAnd p.1 1 = 1 then setItem bmp s (((v &&& 0xf0 : Nat) : Int) + color)
    else setItem bmp s (pyShl color 4 + ((v &&& 0xf : Nat) : Int))

variable {b : Bytes} {W H bits : Nat}

theorem diagStep_plot (hd : Depth bits) (h1 : bits ≠ 1) {color : Int} (hc : IsColour bits color) {b : Bytes}
    (h : Valid b W H bits) {x y : Nat} (hx : x < W) (hy : y < H) :
    diagStep bits color b ((x : Int), (y : Int)) = .ok (plotP b W H bits x y color.toNat) := by
  have hc0 := hc.1
  have hc1 := hc.2
  rcases hd with rfl | rfl | rfl | rfl
  · omega
  · exact put4 h hx hy (by norm_num at hc1; omega) (by omega)
  · exact put8 h hx hy (by norm_num at hc1; omega) (by omega)
  · exact put24 h hx hy rfl

theorem line_steps (h : Valid b W H bits) (h1 : bits ≠ 1) {x1 y1 x2 y2 color : Int} (hc : IsColour bits color)
    (hx : clampTo x1 W ≠ clampTo x2 W) (hy : clampTo y1 H ≠ clampTo y2 H) :
    line b x1 y1 x2 y2 color =
      (iterline (clampTo x1 W, clampTo y1 H) (clampTo x2 W, clampTo y2 H)).foldlM (diagStep bits color) b := by
  unfold line
  have hbr : bottomrightcoord b = .ok ((W : Int) - 1, (H : Int) - 1) := by
    unfold bottomrightcoord; rw [h.getmaxx_eq, h.getmaxy_eq]; rfl
  rw [hbr]
  simp only [ok_bind, setminmax_eq]
  rw [if_neg hx, if_neg hy, h.bits_eq]
  simp only [ok_bind]
  have hc0 := hc.1
  have hc1 := hc.2
  rcases h.depth with rfl | rfl | rfl | rfl
  · omega
  · rw [if_neg (by omega), if_neg (by omega), if_pos (by norm_num), if_neg (by norm_num at hc1; omega)]
    rfl
  · rw [if_neg (by omega), if_pos (by norm_num), pyAnd_255]
    norm_num at hc1
    rw [show color % 256 = color by omega]
    rfl
  · rw [if_pos (by norm_num), int2BGRarr_eq hc]
    rfl

/-- A diagonal on an image of more than one bit: all points before the last but one are painted as usual, then the point
below (above) the second end point and that end point itself are written. -/
theorem diag_run (h : Valid b W H bits) (h1 : bits ≠ 1) (hW : 0 < W) (hH : 0 < H) {x1 y1 x2 y2 color : Int}
    (hc : IsColour bits color) (hd : |clampTo x2 W - clampTo x1 W| = |clampTo y2 H - clampTo y1 H|)
    (hne : clampTo x1 W ≠ clampTo x2 W) :
    ∃ b1, Paints b b1 W H bits (fun px py => ∃ k : Nat, k < (clampTo x2 W - clampTo x1 W).natAbs ∧
        (px : Int) = clampTo x1 W + k * (clampTo x2 W - clampTo x1 W).sign ∧
        (py : Int) = clampTo y1 H + ((k : Int) + 1) * (clampTo y2 H - clampTo y1 H).sign) color.toNat ∧
      line b x1 y1 x2 y2 color = (do
        let b2 ← diagStep bits color b1 (clampTo x2 W, clampTo y2 H + (clampTo y2 H - clampTo y1 H).sign)
        diagStep bits color b2 (clampTo x2 W, clampTo y2 H)) := by
  have hyne : clampTo y1 H ≠ clampTo y2 H := by
    intro e
    rw [e, Int.sub_self, abs_zero, abs_eq_zero] at hd
    omega
  rw [line_steps h h1 hc hne hyne]
  have hX1 : 0 ≤ clampTo x1 W ∧ clampTo x1 W < W := by unfold clampTo; omega
  have hX2 : 0 ≤ clampTo x2 W ∧ clampTo x2 W < W := by unfold clampTo; omega
  have hY1 : 0 ≤ clampTo y1 H ∧ clampTo y1 H < H := by unfold clampTo; omega
  have hY2 : 0 ≤ clampTo y2 H ∧ clampTo y2 H < H := by unfold clampTo; omega
  generalize clampTo x1 W = X1 at *
  generalize clampTo x2 W = X2 at *
  generalize clampTo y1 H = Y1 at *
  generalize clampTo y2 H = Y2 at *
  rw [C23_diagonal X1 Y1 X2 Y2 hd hne, List.range_succ, List.map_append, List.foldlM_append, List.foldlM_append]
  rw [Int.abs_eq_natAbs, Int.abs_eq_natAbs] at hd
  obtain ⟨b1, e, p⟩ := loop_paints (W := W) (H := H) (bits := bits) (diagStep bits color)
    ((List.range (X2 - X1).natAbs).map fun (k : Nat) =>
        (X1 + (k : Int) * (X2 - X1).sign, Y1 + ((k : Int) + 1) * (Y2 - Y1).sign)) color.toNat (colour_lt hc) (by
      intro p hp
      simp only [List.mem_map, List.mem_range] at hp
      obtain ⟨k, k1, rfl⟩ := hp
      dsimp only
      rcases sign_cases (X2 - X1) with ⟨t1, t2, t3⟩ | ⟨t1, t2, t3⟩ | ⟨t1, t2, t3⟩ <;>
      rcases sign_cases (Y2 - Y1) with ⟨u1, u2, u3⟩ | ⟨u1, u2, u3⟩ | ⟨u1, u2, u3⟩ <;>
      rw [t1, u1] <;> omega)
    (fun b hb x y hx hy => diagStep_plot h.depth h1 hc hb hx hy) h
  refine ⟨b1, p.congr ?_, ?_⟩
  · intro x y _ _
    simp only [List.mem_map, List.mem_range, Prod.mk.injEq]
    constructor
    · rintro ⟨k, k1, k2, k3⟩; exact ⟨k, k1, k2.symm, k3.symm⟩
    · rintro ⟨k, k1, k2, k3⟩; exact ⟨k, k1, k2.symm, k3.symm⟩
  · rw [e, ok_bind]
    simp only [List.map_cons, List.map_nil, List.foldlM_cons, List.foldlM_nil]
    have ex : X1 + (((X2 - X1).natAbs : Nat) : Int) * (X2 - X1).sign = X2 := by
      rcases sign_cases (X2 - X1) with ⟨t1, t2, t3⟩ | ⟨t1, t2, t3⟩ | ⟨t1, t2, t3⟩ <;> rw [t1] <;> omega
    have ey : Y1 + ((((X2 - X1).natAbs : Nat) : Int) + 1) * (Y2 - Y1).sign = Y2 + (Y2 - Y1).sign := by
      rcases sign_cases (Y2 - Y1) with ⟨t1, t2, t3⟩ | ⟨t1, t2, t3⟩ | ⟨t1, t2, t3⟩ <;> rw [t1] <;> omega
    rw [ex, ey]
    simp only [bind_pure]

/-- Another file of the same length with the same geometry and the same pixel bytes. -/
def SameData (b b' : Bytes) (bits : Nat) : Prop :=
  b'.length = b.length ∧ (∀ v ∈ b', v < 256) ∧ ∀ i, i < 30 ∨ dataOff bits ≤ i → byte b' i = byte b i

theorem SameData.valid {b b' : Bytes} (h : Valid b W H bits) (s : SameData b b' bits) : Valid b' W H bits := by
  obtain ⟨hl, hb, he⟩ := s
  have hle : ∀ n off, off + n ≤ 30 → le b' off n = le b off n := by
    intro n
    induction n with
    | zero => intro off _; rfl
    | succ n ih => intro off ho; simp only [le]; rw [he off (Or.inl (by omega)), ih _ (by omega)]
  exact ⟨h.depth, h.wlt, h.hlt, hb, by rw [hl]; exact h.len,
    by rw [he 0 (Or.inl (by omega)), he 1 (Or.inl (by omega))]; exact h.magic,
    by rw [hle _ _ (by omega), hl]; exact h.size, by rw [hle _ _ (by omega)]; exact h.off,
    by rw [hle _ _ (by omega)]; exact h.info, by rw [hle _ _ (by omega)]; exact h.width,
    by rw [hle _ _ (by omega)]; exact h.height, by rw [hle _ _ (by omega)]; exact h.bitcount⟩

theorem SameData.pix_eq {b b' : Bytes} (s : SameData b b' bits) (x y : Nat) : pix b' W H bits x y = pix b W H bits x y := by
  have he : ∀ i, byte b' (dataOff bits + i) = byte b (dataOff bits + i) := fun i => s.2.2 _ (Or.inr (by omega))
  unfold pix
  simp only [Nat.add_assoc, he]

/-- Painting on files that differ in their palette or in the tail of the header. -/
theorem SameData.paints {b b1 b0 b2 : Bytes} {S : Nat → Nat → Prop} {c : Nat} (p : Paints b b1 W H bits S c)
    (s0 : SameData b b0 bits) (s2 : SameData b1 b2 bits) (hh : ∀ i < dataOff bits, byte b2 i = byte b0 i) :
    Paints b0 b2 W H bits S c :=
  ⟨s2.valid p.valid, ⟨by rw [s2.1, s0.1]; exact p.header.1, hh⟩,
    fun x y hx hy hs => by rw [s2.pix_eq]; exact p.inside x y hx hy hs,
    fun x y hx hy hs => by rw [s2.pix_eq, s0.pix_eq]; exact p.outside x y hx hy hs⟩

/-- Two layers in the same colour. -/
theorem paints_two {b b1 b2 : Bytes} {S T U : Nat → Nat → Prop} {c : Nat} (p : Paints b b1 W H bits S c)
    (q : Paints b1 b2 W H bits T c) (hu : ∀ x y, x < W → y < H → (U x y ↔ S x y ∨ T x y)) : Paints b b2 W H bits U c := by
  refine ⟨q.valid, ⟨q.header.1.trans p.header.1, fun i hi => (q.header.2 i hi).trans (p.header.2 i hi)⟩, ?_, ?_⟩
  · intro x y hx hy hs
    by_cases ht : T x y
    · exact q.inside x y hx hy ht
    · rw [q.outside x y hx hy ht]
      exact p.inside x y hx hy (((hu x y hx hy).mp hs).resolve_right ht)
  · intro x y hx hy hs
    rw [hu x y hx hy] at hs
    push Not at hs
    rw [q.outside x y hx hy hs.2, p.outside x y hx hy hs.1]

/-- The points inside the image, when the point after the second end point is outside. -/
theorem diagSet_edge {X1 Y1 X2 Y2 : Int} {px py : Nat} (hd : |X2 - X1| = |Y2 - Y1|) (hpy : py < H)
    (ho : Y2 + (Y2 - Y1).sign < 0 ∨ (H : Int) ≤ Y2 + (Y2 - Y1).sign) :
    DiagSet X1 Y1 X2 Y2 px py ↔ (∃ k : Nat, k < (X2 - X1).natAbs ∧ (px : Int) = X1 + k * (X2 - X1).sign ∧
        (py : Int) = Y1 + ((k : Int) + 1) * (Y2 - Y1).sign) ∨ ((px : Int) = X2 ∧ (py : Int) = Y2) := by
  unfold DiagSet
  constructor
  · rintro (⟨k, k1, k2, k3⟩ | g)
    · refine Or.inl ⟨k, ?_, k2, k3⟩
      rw [Int.abs_eq_natAbs, Int.abs_eq_natAbs] at hd
      rcases Nat.lt_or_eq_of_le k1 with hk | hk
      · exact hk
      · exfalso
        rcases sign_cases (Y2 - Y1) with ⟨u1, u2, u3⟩ | ⟨u1, u2, u3⟩ | ⟨u1, u2, u3⟩ <;> rw [u1] at k3 ho <;> omega
    · exact Or.inr g
  · rintro (⟨k, k1, k2, k3⟩ | g)
    · exact Or.inl ⟨k, by omega, k2, k3⟩
    · exact Or.inr g

section
variable {x1 y1 x2 y2 color : Int}

/-- C24: a diagonal that ends in the first row raises `IndexError` on images of 4 and 8 bits. -/
theorem C24_diagonal_top (h : Valid b W H bits) (hb : bits = 4 ∨ bits = 8) (hW : 0 < W) (hH : 0 < H)
    (hc : IsColour bits color) (hd : |clampTo x2 W - clampTo x1 W| = |clampTo y2 H - clampTo y1 H|)
    (hne : clampTo x1 W ≠ clampTo x2 W) (hy : clampTo y2 H = 0) :
    line b x1 y1 x2 y2 color = .error .indexError := by
  obtain ⟨b1, p, e⟩ := diag_run h (by omega) hW hH hc hd hne
  have hX2 : 0 ≤ clampTo x2 W ∧ clampTo x2 W < W := by unfold clampTo; omega
  have hY1 : 0 ≤ clampTo y1 H ∧ clampTo y1 H < H := by unfold clampTo; omega
  have hs : (clampTo y2 H - clampTo y1 H).sign = -1 := by
    apply Int.sign_eq_neg_one_of_neg
    rw [Int.abs_eq_natAbs, Int.abs_eq_natAbs] at hd
    omega
  have hlen := p.valid.len
  have hr : ((H : Int) - (-1) - 1) * (rowLen W bits : Int) = ((H * rowLen W bits : Nat) : Int) := by push_cast; ring
  have hdiv : 0 ≤ clampTo x2 W * (bits : Int) / 8 := Int.ediv_nonneg (Int.mul_nonneg hX2.1 (by omega)) (by omega)
  rw [e, hs, hy]
  have key : diagStep bits color b1 (clampTo x2 W, 0 + -1) = .error .indexError := by
    unfold diagStep
    rw [show (0 : Int) + -1 = -1 by norm_num]
    dsimp only
    rw [BMoffsethd_any p.valid, hr, ok_bind]
    rcases hb with rfl | rfl
    · rw [if_neg (by omega), if_neg (by omega), getItem_ge (by omega)]
      rfl
    · rw [if_neg (by omega), if_pos rfl, setItem_ge (by omega)]
  rw [key]
  rfl

/-- C24: on 24-bit images the same diagonal is drawn, but three bytes are appended to the file. -/
theorem C24_diagonal_top_24 (h : Valid b W H 24) (hW : 0 < W) (hH : 0 < H)
    (hc : IsColour 24 color) (hd : |clampTo x2 W - clampTo x1 W| = |clampTo y2 H - clampTo y1 H|)
    (hne : clampTo x1 W ≠ clampTo x2 W) (hy : clampTo y2 H = 0) :
    ∃ b', line b x1 y1 x2 y2 color =
        .ok (b' ++ [color.toNat % 256, color.toNat / 256 % 256, color.toNat / 65536]) ∧
      Paints b b' W H 24 (DiagSet (clampTo x1 W) (clampTo y1 H) (clampTo x2 W) (clampTo y2 H)) color.toNat := by
  obtain ⟨b1, p, e⟩ := diag_run h (by omega) hW hH hc hd hne
  have hX2 : 0 ≤ clampTo x2 W ∧ clampTo x2 W < W := by unfold clampTo; omega
  have hY1 : 0 ≤ clampTo y1 H ∧ clampTo y1 H < H := by unfold clampTo; omega
  have hs : (clampTo y2 H - clampTo y1 H).sign = -1 := by
    apply Int.sign_eq_neg_one_of_neg
    rw [Int.abs_eq_natAbs, Int.abs_eq_natAbs] at hd
    omega
  have hlen := p.valid.len
  have hoff : dataOff 24 = 54 := rfl
  have hr : ((H : Int) - (-1) - 1) * (rowLen W 24 : Int) = ((H * rowLen W 24 : Nat) : Int) := by push_cast; ring
  obtain ⟨X, hX⟩ := Int.eq_ofNat_of_zero_le hX2.1
  have hXW : X < W := by omega
  set buf : Bytes := [color.toNat % 256, color.toNat / 256 % 256, color.toNat / 65536] with hbuf
  have key : diagStep 24 color b1 (clampTo x2 W, 0 + -1) = .ok (b1 ++ buf) := by
    unfold diagStep
    rw [show (0 : Int) + -1 = -1 by norm_num]
    dsimp only
    rw [BMoffsethd_any p.valid, hr, ok_bind, if_pos rfl, hX, ← hbuf]
    unfold setSlice
    dsimp only
    have c1 : ∀ s : Int, (b1.length : Int) ≤ s → clampIdx b1.length s = b1.length := by
      intro s hs; unfold clampIdx; split_ifs <;> omega
    rw [c1 _ (by omega), c1 _ (by omega), Nat.max_self, List.take_length, List.drop_length, List.append_nil]
    rfl
  have hX2' : diagStep 24 color b1 ((X : Int), ((0 : Nat) : Int)) = .ok (plotP b1 W H 24 X 0 color.toNat) :=
    diagStep_plot h.depth (by omega) hc p.valid hXW hH
  have ha := addr_lt p.valid hXW hH
  rw [if_pos rfl] at ha
  have last : diagStep 24 color (b1 ++ buf) ((X : Int), 0) = .ok (plotP b1 W H 24 X 0 color.toNat ++ buf) := by
    unfold diagStep at hX2' ⊢
    dsimp only at hX2' ⊢
    rw [BMoffsethd_congr (b := b1) (by omega) (by rw [List.length_append]; omega) (fun i hi => by
      rw [byte_append, if_pos (by omega)])]
    rw [show (((0 : Nat) : Int)) = 0 from rfl] at hX2'
    have := p.valid.BMoffsethd_eq X 0 hH
    rw [show (((0 : Nat) : Int)) = 0 from rfl] at this
    rw [this, ok_bind, if_pos rfl, ← hbuf] at hX2' ⊢
    have e2 : setSlice b1 (addr W H 24 X 0 : Int) ((addr W H 24 X 0 : Int) + 3) buf = plotP b1 W H 24 X 0 color.toNat := by
      have := hX2'
      simp only [pure_eq_ok, Except.ok.injEq] at this
      exact this
    have hb3 : buf.length = 3 := rfl
    rw [setSlice_ok rfl (by rw [hb3]; rfl) (by omega)] at e2
    rw [setSlice_ok rfl (by rw [hb3]; rfl) (by rw [List.length_append]; omega)]
    rw [← e2, pure_eq_ok]
    congr 1
    unfold ow
    rw [List.take_append_of_le_length (by omega), List.drop_append_of_le_length (by omega)]
    simp only [List.append_assoc]
  refine ⟨plotP b1 W H 24 X 0 color.toNat, ?_, ?_⟩
  · rw [e, hs, hy, key, ok_bind, hX, last]
  · refine paints_two p (plotP_paints p.valid hXW hH (colour_lt hc)) fun px py hpx hpy => ?_
    rw [diagSet_edge (H := H) hd hpy (Or.inl (by rw [hs, hy]; norm_num)), hX, hy]
    constructor
    · rintro (g | ⟨g1, g2⟩)
      · exact Or.inl g
      · exact Or.inr ⟨by omega, by omega⟩
    · rintro (g | ⟨g1, g2⟩)
      · exact Or.inl g
      · exact Or.inr ⟨by omega, by omega⟩

/-- The byte that is hit below the last row. -/
def belowOff (W bits : Nat) (x : Int) : Int := (dataOff bits : Int) - rowLen W bits + x * bits / 8

/-- What the bytes at `belowOff` become: a pixel of colour `c` in column `x` is written over them. -/
def belowBytes (bits : Nat) (x : Int) (c v : Nat) : Bytes :=
  if bits = 24 then [c % 256, c / 256 % 256, c / 65536]
  else if bits = 8 then [c]
  else if x % 2 = 1 then [v / 16 * 16 + c] else [c * 16 + v % 16]

/-- C24: a diagonal that ends in the last row is painted as on a file in which bytes of the palette (or of the tail of
the header, on 24-bit images) have been overwritten with the colour. -/
theorem C24_diagonal_bottom (h : Valid b W H bits) (h1 : bits ≠ 1) (hW : 0 < W) (hH : 0 < H)
    (hc : IsColour bits color) (hd : |clampTo x2 W - clampTo x1 W| = |clampTo y2 H - clampTo y1 H|)
    (hne : clampTo x1 W ≠ clampTo x2 W) (hy : clampTo y2 H = (H : Int) - 1) {n : Nat}
    (hn : belowOff W bits (clampTo x2 W) = n) (h30 : 30 ≤ n) :
    ∃ b', line b x1 y1 x2 y2 color = .ok b' ∧
      Paints (ow b n (belowBytes bits (clampTo x2 W) color.toNat (byte b n))) b' W H bits
        (DiagSet (clampTo x1 W) (clampTo y1 H) (clampTo x2 W) (clampTo y2 H)) color.toNat := by
  obtain ⟨b1, p, e⟩ := diag_run h h1 hW hH hc hd hne
  have hX2 : 0 ≤ clampTo x2 W ∧ clampTo x2 W < W := by unfold clampTo; omega
  have hY1 : 0 ≤ clampTo y1 H ∧ clampTo y1 H < H := by unfold clampTo; omega
  have hs : (clampTo y2 H - clampTo y1 H).sign = 1 := by
    apply Int.sign_eq_one_of_pos
    rw [Int.abs_eq_natAbs, Int.abs_eq_natAbs] at hd
    omega
  obtain ⟨X, hX⟩ := Int.eq_ofNat_of_zero_le hX2.1
  have hXW : X < W := by omega
  rw [hX] at hn hne hd ⊢
  unfold belowOff at hn
  have hlen := h.len
  have hl1 := p.header.1
  have hc0 := hc.1
  have hc1 := hc.2
  have hlb : (belowBytes bits (X : Int) color.toNat (byte b n)).length = if bits = 24 then 3 else 1 := by
    unfold belowBytes; split_ifs <;> rfl
  have hoff : n + (belowBytes bits (X : Int) color.toNat (byte b n)).length ≤ dataOff bits := by
    rw [hlb]
    unfold rowLen at hn
    rcases h.depth with rfl | rfl | rfl | rfl
    · omega
    all_goals norm_num at hn ⊢; omega
  have hnd : n < dataOff bits := by
    have : 0 < (belowBytes bits (X : Int) color.toNat (byte b n)).length := by rw [hlb]; split_ifs <;> omega
    omega
  have hbn : byte b1 n = byte b n := p.header.2 n hnd
  have hbl : byte b n < 256 := byte_lt_of_mem h.bytes _
  have hbb : ∀ v ∈ belowBytes bits (X : Int) color.toNat (byte b n), v < 256 := by
    unfold belowBytes
    rcases h.depth with rfl | rfl | rfl | rfl
    · omega
    · norm_num at hc1
      rw [if_neg (by omega), if_neg (by omega)]
      split_ifs
      · intro v hv; rw [List.mem_singleton] at hv; omega
      · intro v hv; rw [List.mem_singleton] at hv; omega
    · norm_num at hc1
      rw [if_neg (by omega), if_pos rfl]
      simp only [List.mem_singleton, forall_eq]; omega
    · norm_num at hc1
      rw [if_pos rfl]
      simp only [List.mem_cons, List.not_mem_nil, or_false]
      rintro v (rfl | rfl | rfl) <;> omega
  have same : ∀ {c : Bytes}, c.length = b.length → (∀ v ∈ c, v < 256) →
      SameData c (ow c n (belowBytes bits (X : Int) color.toNat (byte b n))) bits := by
    intro c hl hcb
    refine ⟨length_ow (by omega), ow_bytes hcb hbb, fun i hi => ?_⟩
    rw [byte_ow (by omega), if_neg (by omega)]
  have hset : ∀ v : Nat, b1.set n v = ow b1 n [v] := by
    intro v
    rw [List.set_eq_take_append_cons_drop, if_pos (by omega)]
    simp [ow]
  have key : diagStep bits color b1 ((X : Int), clampTo y2 H + (clampTo y2 H - clampTo y1 H).sign) =
      .ok (ow b1 n (belowBytes bits (X : Int) color.toNat (byte b n))) := by
    unfold diagStep
    dsimp only
    rw [hs, hy, BMoffsethd_any p.valid, ok_bind]
    rw [show (dataOff bits : Int) + ((H : Int) - ((H : Int) - 1 + 1) - 1) * (rowLen W bits : Int) + (X : Int) * bits / 8 = n by
      rw [← hn]; ring]
    unfold belowBytes
    rcases h.depth with rfl | rfl | rfl | rfl
    · omega
    · norm_num at hc1
      simp only [if_neg (show ¬ (4 : Nat) = 24 by omega), if_neg (show ¬ (4 : Nat) = 8 by omega)]
      rw [getItem_ok rfl (by omega), ok_bind, hbn, pyAnd_1, and_f0 _ hbl, and_0f]
      by_cases ho : (X : Int) % 2 = 1
      · rw [if_pos ho, if_pos ho, setItem_ok (w := byte b n / 16 * 16 + color.toNat) rfl (by omega) (by omega) (by omega), hset]
      · rw [if_neg ho, if_neg ho, setItem_ok (w := color.toNat * 16 + byte b n % 16) rfl (by omega)
          (by rw [show pyShl color 4 = color * 16 from rfl]; omega) (by omega), hset]
    · norm_num at hc1
      rw [if_neg (by omega), if_pos rfl, if_neg (by omega), if_pos rfl,
        setItem_ok (w := color.toNat) rfl (by omega) (by omega) (by omega), hset]
    · rw [if_pos rfl, if_pos rfl, setSlice_ok (n := n) (b := b1) (e := (n : Int) + 3)
        (buf := [color.toNat % 256, color.toNat / 256 % 256, color.toNat / 65536]) rfl rfl (by
        have : ([color.toNat % 256, color.toNat / 256 % 256, color.toNat / 65536] : Bytes).length = 3 := rfl
        rw [if_pos rfl] at hlb
        omega)]
      rfl
  have p2 : Paints (ow b n (belowBytes bits (X : Int) color.toNat (byte b n)))
      (ow b1 n (belowBytes bits (X : Int) color.toNat (byte b n))) W H bits _ color.toNat :=
    SameData.paints p (same rfl h.bytes) (same hl1 p.valid.bytes) (by
      intro i hi
      rw [byte_ow (by omega), byte_ow (by omega), p.header.2 i hi])
  have hHn : H - 1 < H := by omega
  refine ⟨plotP (ow b1 n (belowBytes bits (X : Int) color.toNat (byte b n))) W H bits X (H - 1) color.toNat, ?_, ?_⟩
  · rw [e, hX, key, ok_bind, hy, show (H : Int) - 1 = ((H - 1 : Nat) : Int) by omega,
      diagStep_plot h.depth h1 hc p2.valid hXW hHn]
  · refine paints_two p2 (plotP_paints p2.valid hXW hHn (colour_lt hc)) fun px py hpx hpy => ?_
    rw [diagSet_edge (H := H) hd hpy (Or.inr (by rw [hs, hy]; norm_num)), hX, hy]
    constructor
    · rintro (g | ⟨g1, g2⟩)
      · exact Or.inl g
      · exact Or.inr ⟨by omega, by omega⟩
    · rintro (g | ⟨g1, g2⟩)
      · exact Or.inl g
      · exact Or.inr ⟨by omega, by omega⟩

end

/-- A diagonal from the lower left to the upper right corner of a 4-bit image: `IndexError`. -/
example : (do let b ← newBMP 4 4 4; line b 0 3 3 0 9) = .error .indexError := by decide +kernel

/-- The same on a 24-bit image: the file gets three bytes longer. -/
example : (do let b ← newBMP 4 4 24; let b' ← line b 0 3 3 0 9; pure (b'.length, byte b' 102, pix b' 4 4 24 1 1, b.length)) =
    .ok (105, 9, 9, 102) := by decide +kernel

/-- A diagonal to the lower right corner of a 4-bit image: byte 115 (the green part of colour 15) is overwritten. -/
example : (do let b ← newBMP 4 4 4; let b' ← line b 0 0 3 3 9; pure [byte b 115, byte b' 115, (palRGB b 15).2.1, (palRGB b' 15).2.1]) =
    .ok [255, 249, 255, 249] := by decide +kernel

end Verif.Props
