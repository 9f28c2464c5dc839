import Verif.Props.DiagEdge
/-! Property C24, diagonals that end in the last row of a wide image. The position of the point below the image is negative
there, and Python counts negative positions from the end of the file: the point appears in the first row. -/

namespace Verif.Props
open Verif Spec Model

variable {b : Bytes} {W H bits : Nat}

theorem getItem_neg {b : Bytes} {s : Int} (h0 : s < 0) (h1 : 0 ≤ s + b.length) : getItem b s = getItem b (s + b.length) := by
  unfold getItem resolveIdx
  split_ifs <;> first | rfl | omega

theorem setItem_neg {b : Bytes} {s v : Int} (h0 : s < 0) (h1 : 0 ≤ s + b.length) : setItem b s v = setItem b (s + b.length) v := by
  unfold setItem resolveIdx
  split_ifs <;> first | rfl | omega

theorem setSlice_neg {b : Bytes} {s e : Int} {buf : Bytes} (h0 : s < 0) (h1 : 0 ≤ s + b.length) (h2 : e < 0) (h3 : 0 ≤ e + b.length) :
    setSlice b s e buf = setSlice b (s + b.length) (e + b.length) buf := by
  have : ∀ i : Int, i < 0 → 0 ≤ i + b.length → clampIdx b.length i = clampIdx b.length (i + b.length) := by
    intro i hi hj
    unfold clampIdx
    rw [if_pos hi, if_neg (by omega)]; omega
  unfold setSlice
  rw [this s h0 h1, this e h2 h3]

/-- The number of pixels that are as long as the header and the palette. -/
def headPix (bits : Nat) : Nat := 8 * dataOff bits / bits

/-- The pixel that a diagonal to `(X2, H - 1)` sets in the first row. -/
def WrapSet (H bits : Nat) (Y1 X2 Y2 : Int) (px py : Nat) : Prop :=
  bits ≠ 1 ∧ Y1 < Y2 ∧ Y2 = (H : Int) - 1 ∧ (px : Int) = X2 + headPix bits ∧ py = 0

/-- The images that are wide enough for that. -/
def Wide (W bits : Nat) (X2 : Int) : Prop := belowOff W bits X2 < 0 ∧ (bits = 24 → belowOff W bits X2 < -3)

/-- A change of one byte in the padding of the first row, or of the unused half of its last byte. -/
theorem padding_paints (h : Valid b W H bits) (hH : 0 < H) (hb : bits = 4 ∨ bits = 8) {k v c : Nat} (hk : k < rowLen W bits) (hv : v < 256)
    (hW : W * bits ≤ 8 * k ∨ (bits = 4 ∧ W = 2 * k + 1 ∧ v / 16 = byte b (dataOff bits + (H - 1) * rowLen W bits + k) / 16)) :
    Paints b (b.set (dataOff bits + (H - 1) * rowLen W bits + k) v) W H bits (fun _ _ => False) c := by
  have hlen := h.len
  have hHr : H * rowLen W bits = (H - 1) * rowLen W bits + rowLen W bits := by
    obtain ⟨n, rfl⟩ : ∃ n, H = n + 1 := ⟨H - 1, by omega⟩
    simp; ring
  have hn : dataOff bits + (H - 1) * rowLen W bits + k < b.length := by omega
  generalize hN : dataOff bits + (H - 1) * rowLen W bits + k = n at *
  have hby : ∀ i, byte (b.set n v) i = if i = n then v else byte b i := by
    intro i
    unfold byte
    rw [List.getD_eq_getElem?_getD, List.getD_eq_getElem?_getD, List.getElem?_set]
    split_ifs <;> first | rfl | omega
  have hd : 30 ≤ dataOff bits := by rcases hb with rfl | rfl <;> decide
  have hle : ∀ m off, off + m ≤ dataOff bits → le (b.set n v) off m = le b off m := by
    intro m
    induction m with
    | zero => intro off _; rfl
    | succ m ih => intro off ho; simp only [le]; rw [hby, if_neg (by omega), ih _ (by omega)]
  have hl : (b.set n v).length = b.length := List.length_set
  refine ⟨⟨h.depth, h.wlt, h.hlt, ?_, by rw [hl]; exact h.len, ?_, by rw [hle _ _ (by omega), hl]; exact h.size,
    by rw [hle _ _ (by omega)]; exact h.off, by rw [hle _ _ (by omega)]; exact h.info, by rw [hle _ _ (by omega)]; exact h.width,
    by rw [hle _ _ (by omega)]; exact h.height, by rw [hle _ _ (by omega)]; exact h.bitcount⟩,
    ⟨hl, fun i hi => by rw [hby, if_neg (by omega)]⟩, fun _ _ _ _ g => g.elim, ?_⟩
  · intro w hw
    rcases List.mem_or_eq_of_mem_set hw with g | rfl
    · exact h.bytes w g
    · exact hv
  · rw [hby, hby, if_neg (by omega), if_neg (by omega)]; exact h.magic
  · intro x y hx hy _
    unfold pix
    dsimp only
    rw [if_neg (by omega), if_neg (by omega)]
    rw [hby]
    split_ifs with e
    · have hy0 : y = 0 := by
        by_contra hy0
        have : (H - 1 - y) * rowLen W bits + rowLen W bits ≤ (H - 1) * rowLen W bits := by
          obtain ⟨j, hj⟩ : ∃ j, H - 1 = j + y := ⟨H - 1 - y, by omega⟩
          rw [hj, Nat.add_sub_cancel]
          nlinarith [Nat.zero_le (rowLen W bits), Nat.one_le_iff_ne_zero.mpr hy0]
        have := xoff_lt (W := W) (bits := bits) hx h.depth
        split_ifs at this <;> omega
      subst hy0
      rw [Nat.sub_zero] at e
      have ek : x * bits / 8 = k := by omega
      rcases hW with g | ⟨rfl, g1, g2⟩
      · exfalso
        rcases hb with rfl | rfl <;> omega
      · have hx2 : x = 2 * k := by omega
        subst hx2
        rw [Nat.sub_zero, show dataOff 4 + (H - 1) * rowLen W 4 + 2 * k * 4 / 8 = n by omega]
        rw [show 8 - 4 - 2 * k * 4 % 8 = 4 by omega]
        norm_num
        rw [g2]
    · rfl

variable {x1 y1 x2 y2 color : Int}

/-- C24: on wide images, a diagonal that ends in the last row is painted, with one more pixel in the first row. -/
theorem C24_diagonal_wide (h : Valid b W H bits) (h1 : bits ≠ 1) (hW : 0 < W) (hH : 0 < H)
    (hc : IsColour bits color) (hd : |clampTo x2 W - clampTo x1 W| = |clampTo y2 H - clampTo y1 H|)
    (hne : clampTo x1 W ≠ clampTo x2 W) (hy : clampTo y2 H = (H : Int) - 1) (hw : Wide W bits (clampTo x2 W)) :
    ∃ b', line b x1 y1 x2 y2 color = .ok b' ∧
      Paints b b' W H bits (fun px py => DiagSet (clampTo x1 W) (clampTo y1 H) (clampTo x2 W) (clampTo y2 H) px py ∨
        WrapSet H bits (clampTo y1 H) (clampTo x2 W) (clampTo y2 H) px py) color.toNat := by
  obtain ⟨b1, p, e⟩ := diag_run h h1 hW hH hc hd hne
  have hX2 : 0 ≤ clampTo x2 W ∧ clampTo x2 W < W := by unfold clampTo; omega
  have hY1 : 0 ≤ clampTo y1 H ∧ clampTo y1 H < H := by unfold clampTo; omega
  have hlt : clampTo y1 H < clampTo y2 H := by
    rw [Int.abs_eq_natAbs, Int.abs_eq_natAbs] at hd
    omega
  have hs : (clampTo y2 H - clampTo y1 H).sign = 1 := Int.sign_eq_one_of_pos (by omega)
  obtain ⟨X, hX⟩ := Int.eq_ofNat_of_zero_le hX2.1
  have hXW : X < W := by omega
  rw [hX] at hw hne hd ⊢
  have hlen := p.valid.len
  have hHr : H * rowLen W bits = (H - 1) * rowLen W bits + rowLen W bits := by
    obtain ⟨n, rfl⟩ : ∃ n, H = n + 1 := ⟨H - 1, by omega⟩
    simp; ring
  have hHr' : (H : Int) * rowLen W bits = ((H - 1) * rowLen W bits : Nat) + rowLen W bits := by exact_mod_cast hHr
  obtain ⟨hw0, hw3⟩ := hw
  -- the point below the image is the pixel `headPix` columns further in the first row
  have key : diagStep bits color b1 ((X : Int), clampTo y2 H + (clampTo y2 H - clampTo y1 H).sign) =
      diagStep bits color b1 (((X + headPix bits : Nat) : Int), ((0 : Nat) : Int)) := by
    unfold diagStep
    dsimp only
    rw [hs, hy, BMoffsethd_any p.valid, BMoffsethd_any p.valid, ok_bind, ok_bind]
    have eo : (dataOff bits : Int) + ((H : Int) - ((H : Int) - 1 + 1) - 1) * (rowLen W bits : Int) + (X : Int) * bits / 8 =
        belowOff W bits X := by unfold belowOff; ring
    have ep : (dataOff bits : Int) + ((H : Int) - ((0 : Nat) : Int) - 1) * (rowLen W bits : Int) + ((X + headPix bits : Nat) : Int) * bits / 8 =
        belowOff W bits X + b1.length := by
      unfold belowOff headPix
      rw [hlen]
      push_cast
      rcases h.depth with rfl | rfl | rfl | rfl
      · omega
      · norm_num [dataOff, palSize]; generalize (rowLen W 4 : Int) = R; rw [show ((H : Int) - 1) * R = H * R - R by ring]; omega
      · norm_num [dataOff, palSize]; generalize (rowLen W 8 : Int) = R; rw [show ((H : Int) - 1) * R = H * R - R by ring]; omega
      · norm_num [dataOff, palSize]; generalize (rowLen W 24 : Int) = R; rw [show ((H : Int) - 1) * R = H * R - R by ring]; omega
    rw [eo, ep]
    have hge : 0 ≤ belowOff W bits X + b1.length := by
      unfold belowOff
      have : 0 ≤ (X : Int) * bits / 8 := Int.ediv_nonneg (by positivity) (by norm_num)
      rw [hlen]; push_cast; omega
    rcases h.depth with rfl | rfl | rfl | rfl
    · omega
    · simp only [if_neg (show ¬ (4 : Nat) = 24 by omega), if_neg (show ¬ (4 : Nat) = 8 by omega)]
      rw [getItem_neg hw0 hge]
      have : pyAnd ((X + headPix 4 : Nat) : Int) 1 = pyAnd (X : Int) 1 := by
        rw [pyAnd_1, pyAnd_1, show headPix 4 = 236 by decide]; push_cast; omega
      rw [this]
      cases getItem b1 (belowOff W 4 X + b1.length) with
      | error er => rfl
      | ok v => simp only [ok_bind]; rw [setItem_neg hw0 hge, setItem_neg hw0 hge]
    · rw [if_neg (by omega), if_pos rfl, if_neg (by omega), if_pos rfl, setItem_neg hw0 hge]
    · rw [if_pos rfl, if_pos rfl, setSlice_neg hw0 hge (by have := hw3 rfl; omega) (by omega)]
      congr 2; ring
  -- it is painted, or in the padding
  have step : ∃ b2, diagStep bits color b1 (((X + headPix bits : Nat) : Int), ((0 : Nat) : Int)) = .ok b2 ∧
      Paints b1 b2 W H bits (fun px py => px = X + headPix bits ∧ py = 0) color.toNat := by
    by_cases hin : X + headPix bits < W
    · exact ⟨_, diagStep_plot h.depth h1 hc p.valid hin hH, plotP_paints p.valid hin hH (colour_lt hc)⟩
    · have hb : bits = 4 ∨ bits = 8 := by
        rcases h.depth with rfl | rfl | rfl | rfl
        · omega
        · left; rfl
        · right; rfl
        · exfalso
          have := hw3 rfl
          unfold belowOff at this
          unfold headPix at hin
          norm_num [dataOff, palSize] at this hin
          unfold rowLen at this
          norm_num at this
          omega
      have hk : (X + headPix bits) * bits / 8 < rowLen W bits := by
        unfold belowOff at hw0
        unfold headPix
        rcases hb with rfl | rfl
        · norm_num [dataOff, palSize] at hw0 ⊢; omega
        · norm_num [dataOff, palSize] at hw0 ⊢; omega
      have hc0 := hc.1
      have hc1 := hc.2
      set k := (X + headPix bits) * bits / 8 with hkd
      have hn : dataOff bits + (H - 1) * rowLen W bits + k < b1.length := by omega
      have hbl : byte b1 (dataOff bits + (H - 1) * rowLen W bits + k) < 256 := byte_lt_of_mem p.valid.bytes _
      have hoff : (dataOff bits : Int) + ((H : Int) - ((0 : Nat) : Int) - 1) * (rowLen W bits : Int) + ((X + headPix bits : Nat) : Int) * bits / 8 =
          ((dataOff bits + (H - 1) * rowLen W bits + k : Nat) : Int) := by
        rw [hkd]; push_cast; rw [Int.natCast_sub (by omega)]; push_cast; ring
      have none : ∀ {b2 : Bytes}, Paints b1 b2 W H bits (fun _ _ => False) color.toNat →
          Paints b1 b2 W H bits (fun px py => px = X + headPix bits ∧ py = 0) color.toNat := fun q =>
        q.congr fun px py hpx _ => ⟨fun g => absurd g.1 (by omega), fun g => g.elim⟩
      unfold diagStep
      dsimp only
      rw [BMoffsethd_any p.valid, hoff, ok_bind]
      rcases hb with rfl | rfl
      · simp only [if_neg (show ¬ (4 : Nat) = 24 by omega), if_neg (show ¬ (4 : Nat) = 8 by omega)]
        norm_num at hc1
        rw [getItem_ok rfl hn, ok_bind, pyAnd_1, and_f0 _ hbl, and_0f]
        have h236 : headPix 4 = 236 := by decide
        by_cases ho : ((X + headPix 4 : Nat) : Int) % 2 = 1
        · rw [if_pos ho, setItem_ok (w := byte b1 (dataOff 4 + (H - 1) * rowLen W 4 + k) / 16 * 16 + color.toNat) rfl hn (by omega) (by omega)]
          refine ⟨_, rfl, none (padding_paints p.valid hH (.inl rfl) hk (by omega) ?_)⟩
          by_cases g : W * 4 ≤ 8 * k
          · exact .inl g
          · refine .inr ⟨rfl, by omega, by omega⟩
        · rw [if_neg ho, setItem_ok (w := color.toNat * 16 + byte b1 (dataOff 4 + (H - 1) * rowLen W 4 + k) % 16) rfl hn
            (by rw [show pyShl color 4 = color * 16 from rfl]; omega) (by omega)]
          exact ⟨_, rfl, none (padding_paints p.valid hH (.inl rfl) hk (by omega) (.inl (by omega)))⟩
      · rw [if_neg (by omega), if_pos rfl]
        norm_num at hc1
        rw [setItem_ok (w := color.toNat) rfl hn (by omega) (by omega)]
        exact ⟨_, rfl, none (padding_paints p.valid hH (.inr rfl) hk (by omega) (.inl (by omega)))⟩
  obtain ⟨b2, e2, p2⟩ := step
  have hHn : H - 1 < H := by omega
  refine ⟨plotP b2 W H bits X (H - 1) color.toNat, ?_, ?_⟩
  · rw [e, hX, key, e2, ok_bind, hy, show (H : Int) - 1 = ((H - 1 : Nat) : Int) by omega,
      diagStep_plot h.depth h1 hc p2.valid hXW hHn]
  · refine paints_two (paints_two p p2 fun _ _ _ _ => Iff.rfl) (plotP_paints p2.valid hXW hHn (colour_lt hc)) fun px py hpx hpy => ?_
    rw [diagSet_edge (H := H) hd hpy (Or.inr (by rw [hs, hy]; norm_num)), hX]
    unfold WrapSet
    constructor
    · rintro ((g | ⟨g1, g2⟩) | ⟨-, -, -, g1, g2⟩)
      · exact Or.inl (Or.inl g)
      · exact Or.inr ⟨by omega, by omega⟩
      · exact Or.inl (Or.inr ⟨by omega, g2⟩)
    · rintro ((g | ⟨g1, g2⟩) | ⟨g1, g2⟩)
      · exact Or.inl (Or.inl g)
      · exact Or.inr ⟨h1, hlt, hy, by rw [g1]; push_cast; ring, g2⟩
      · exact Or.inl (Or.inr ⟨by omega, by omega⟩)

/-- A diagonal to the lower edge of a 24-bit image of 24 columns also sets a pixel 18 columns further right in the first row. -/
example : (do let b ← newBMP 24 3 24; let b' ← line b 0 0 2 2 9; pure (pix b' 24 3 24 20 0, pix b' 24 3 24 2 2, pix b 24 3 24 20 0)) =
    .ok (9, 9, 0) := by decide +kernel

end Verif.Props
