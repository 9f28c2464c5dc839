import Verif.Props.FarLeft
import Verif.Props.Thick
/-! Property C20 for every position: what `vertline` does with columns below the image, where the slice it assigns to runs
backwards. -/

namespace Verif.Props
open Verif Spec Model

/-- The file without every `k`-th byte from `s` on up to `back - s` bytes before its end, if `back` is more than `s`; the whole file
otherwise. -/
def combOut (b : Bytes) (s k back : Nat) : Bytes :=
  ((List.range b.length).filter fun i => !decide (s < back ∧ s ≤ i ∧ i + back < b.length + s ∧ k ∣ i - s)).map (byte b)

/-- Where the bytes of column `x` are in the lowest row. -/
def colStart (bits x : Nat) : Nat := dataOff bits + bits / 8 * x

theorem combOut_all {b : Bytes} {s k back : Nat} (h : ¬ (s < back ∧ back < b.length)) : combOut b s k back = b := by
  unfold combOut
  rw [List.filter_eq_self.mpr]
  · apply List.ext_getElem (by simp)
    intro i h1 h2
    simp [byte, List.getD_eq_getElem?_getD, h2]
  · intro i hi
    simp only [List.mem_range] at hi
    simp only [Bool.not_eq_true', decide_eq_false_iff_not]
    rintro ⟨h1, h2, h3, -⟩
    exact h ⟨h1, by omega⟩

theorem combOut_length_le (b : Bytes) (s k back : Nat) : (combOut b s k back).length ≤ b.length := by
  unfold combOut
  rw [List.length_map]
  exact (List.length_filter_le _ _).trans (by simp)

/-- At least one byte is deleted. -/
theorem combOut_length_lt {b : Bytes} {s k back : Nat} (h : s < back ∧ back < b.length) : (combOut b s k back).length < b.length := by
  unfold combOut
  rw [List.length_map]
  refine lt_of_lt_of_eq (List.length_filter_lt_length_iff_exists.mpr ⟨s, by simp; omega, ?_⟩) (by simp)
  simp only [Bool.not_eq_true', decide_eq_false_iff_not, not_not, Nat.sub_self, dvd_zero, and_true]
  omega

/-- The assignment of nothing to a slice with a step. -/
theorem setSliceStep_comb (b : Bytes) (s back k : Nat) (hk : 1 < k) :
    setSliceStep b (s : Int) ((s : Int) - back) k [] = .ok (combOut b s k back) := by
  unfold setSliceStep
  rw [if_neg (by omega), if_neg (by omega)]
  dsimp only
  by_cases g : s < back ∧ back < b.length
  · have hs : clampIdx b.length (s : Int) = s := by unfold clampIdx; rw [if_neg (by omega)]; omega
    have he : clampIdx b.length ((s : Int) - back) = b.length + s - back := by unfold clampIdx; rw [if_pos (by omega)]; omega
    rw [hs, he]
    have hn : stepCount s (b.length + s - back) k ≠ 0 := by unfold stepCount; rw [if_pos (by omega)]; exact Nat.succ_ne_zero _
    rw [if_neg (by simpa using hn), if_pos rfl]
    unfold deleteStride combOut
    congr 2
    refine List.filter_congr fun i hi => ?_
    rw [← decide_not]
    refine decide_eq_decide.mpr (not_congr ?_)
    unfold stepCount
    rw [if_pos (by omega)]
    have hd : (i - s) % k = 0 ↔ k ∣ i - s := (Nat.dvd_iff_mod_eq_zero ..).symm
    rw [hd]
    refine ⟨fun ⟨h1, h2, h3⟩ => ⟨g.1, h1, ?_, h2⟩, fun ⟨_, h1, h2, h3⟩ => ⟨h1, h3, ?_⟩⟩
    · obtain ⟨q, hq⟩ := h2
      rw [hq, Nat.mul_div_cancel_left _ (by omega)] at h3
      have := (Nat.le_div_iff_mul_le (show 0 < k by omega)).mp (Nat.lt_succ_iff.mp h3)
      rw [Nat.mul_comm, ← hq] at this
      omega
    · exact Nat.lt_succ_iff.mpr (Nat.div_le_div_right (by omega))
  · rw [combOut_all g]
    have : stepCount (clampIdx b.length (s : Int)) (clampIdx b.length ((s : Int) - back)) k = 0 := by
      unfold stepCount clampIdx
      split_ifs <;> omega
    rw [this]
    rfl

/-- The bytes that `vertline` deletes for a column that begins `d` rows below the image. -/
def belowCut (b : Bytes) (W bits x d : Nat) : Bytes :=
  if bits = 24 then
    let back := d * rowLen W 24 + 2
    combOut (combOut (combOut b (colStart 24 x) (rowLen W 24) back) (colStart 24 x + 1) (rowLen W 24) back) (colStart 24 x + 2)
      (rowLen W 24) back
  else combOut b (colStart bits x) (rowLen W bits) (d * rowLen W bits)

/-- C20: the result of `vertline` for every segment and every depth. -/
theorem C20_exact {b : Bytes} {W H bits : Nat} (h : Valid b W H bits) {x y1 y2 color : Int} (hc : IsColour bits color) :
    (¬ (0 ≤ x ∧ x < W) → vertline b x y1 y2 color = .ok b) ∧
    ∀ x0 : Nat, x0 < W → x = x0 →
      if (bits = 8 ∨ bits = 24) ∧ (H : Int) ≤ min y1 y2 then
        vertline b x y1 y2 color = .ok (belowCut b W bits x0 (min y1 y2 - H).toNat)
      else ∃ b', vertline b x y1 y2 color = .ok b' ∧ Paints b b' W H bits (VSeg x y1 y2) color.toNat := by
  have hout : ¬ (0 ≤ x ∧ x < W) → vertline b x y1 y2 color = .ok b := by
    intro hx
    by_cases hb : bits = 8 ∨ bits = 24
    · unfold vertline
      rw [h.bits_eq, h.xchrcnt_eq, getmaxxy_eq h]
      simp only [ok_bind]
      rw [if_neg (by omega), if_neg (by rw [isinrange_iff]; exact hx)]
      rfl
    · unfold vertline
      rw [h.bits_eq, ok_bind, if_pos (by omega)]
      dsimp only
      generalize pyRange _ _ = l
      induction l with
      | nil => rfl
      | cons y l ih =>
        rw [List.foldlM_cons, (C07_out_of_bounds h (by omega) color).1, ok_bind, ih]
  refine ⟨hout, ?_⟩
  rintro x0 hx0 rfl
  by_cases hq : (bits = 8 ∨ bits = 24) ∧ (H : Int) ≤ min y1 y2
  swap
  · rw [if_neg hq]
    have hd := h.depth
    unfold Depth at hd
    exact C20_vertline_partial h hc (by omega)
  rw [if_pos hq]
  obtain ⟨hb, hy⟩ := hq
  unfold vertline
  rw [h.bits_eq, h.xchrcnt_eq, getmaxxy_eq h]
  simp only [ok_bind, swap_min, swap_max, setmin_eq, setmax_eq]
  rw [if_neg (by omega), if_pos ((isinrange_iff _ _).mpr ⟨by omega, by omega⟩)]
  have hr := rowLen_pos (bits := bits) (show 0 < W by omega) h.depth
  have hr4 : 4 ∣ rowLen W bits := Nat.dvd_mul_left _ _
  rw [show max (min y1 y2) 0 = min y1 y2 by omega, show min (max y1 y2) ((H : Int) - 1) = (H : Int) - 1 by omega]
  rw [BMoffsethd_int h hb, BMoffsethd_int h hb]
  simp only [ok_bind]
  rw [pyRepeat_neg _ (by omega), pyRepeat_neg _ (by omega), pyRepeat_neg _ (by omega), pyRepeat_neg _ (by omega)]
  have hnil : mkArray [] = .ok [] := rfl
  rw [hnil]
  simp only [ok_bind]
  obtain ⟨d, hd⟩ := Int.eq_ofNat_of_zero_le (show 0 ≤ min y1 y2 - H by omega)
  have hm : min y1 y2 = d + H := by omega
  rw [hd, hm, Int.toNat_natCast, Int.toNat_natCast]
  unfold belowCut
  rcases hb with rfl | rfl
  · rw [if_neg (by norm_num), if_neg (by norm_num), ← setSliceStep_comb _ _ _ _ (by omega)]
    congr 1 <;> (unfold colStart bpp; push_cast; ring)
  · rw [if_pos (by norm_num), if_pos rfl]
    dsimp only
    have e0 : ∀ (b : Bytes) (j : Nat) (s e : Int), s = (colStart 24 x0 + j : Nat) → e = ((colStart 24 x0 + j : Nat) : Int) - (d * rowLen W 24 + 2 : Nat) →
        setSliceStep b s e (rowLen W 24) [] = .ok (combOut b (colStart 24 x0 + j) (rowLen W 24) (d * rowLen W 24 + 2)) := by
      rintro b j s e rfl rfl
      exact setSliceStep_comb _ _ _ _ (by omega)
    rw [e0 b 0 _ _ (by unfold colStart bpp; push_cast; ring) (by unfold colStart bpp; push_cast; ring), ok_bind,
      e0 _ 1 _ _ (by unfold colStart bpp; push_cast; ring) (by unfold colStart bpp; push_cast; ring), ok_bind,
      e0 _ 2 _ _ (by unfold colStart bpp; push_cast; ring) (by unfold colStart bpp; push_cast; ring)]
    rfl

/-- The bytes before the first deleted one are kept. -/
theorem combOut_head (b : Bytes) (s k back : Nat) {i : Nat} (hi : i < s) : byte (combOut b s k back) i = byte b i := by
  by_cases g : s < back ∧ back < b.length
  swap
  · rw [combOut_all g]
  unfold combOut
  have e : b.length = s + (b.length - s) := by omega
  rw [e, List.range_add, List.filter_append, List.filter_eq_self.mpr, List.map_append]
  · simp only [byte, List.getD_eq_getElem?_getD]
    rw [List.getElem?_append_left (by simpa using hi)]
    simp [hi, byte, List.getD_eq_getElem?_getD]
  · intro j hj
    simp only [List.mem_range] at hj
    simp only [Bool.not_eq_true', decide_eq_false_iff_not]
    omega

/-- C20: a column below the image changes nothing exactly if the slice ends in the header or before the beginning of the file. -/
theorem C20_below_iff {b : Bytes} {W H bits : Nat} (h : Valid b W H bits) (hb : bits = 8 ∨ bits = 24) {x : Nat} (hx : x < W)
    {y1 y2 color : Int} (hy : (H : Int) ≤ min y1 y2) (hc : IsColour bits color) :
    vertline b x y1 y2 color = .ok b ↔
      (let back := (min y1 y2 - H).toNat * rowLen W bits + (if bits = 24 then 2 else 0)
       back ≤ colStart bits x ∨ b.length ≤ back) := by
  have g := (C20_exact h (x := x) (y1 := y1) (y2 := y2) hc).2 x hx rfl
  rw [if_pos ⟨hb, hy⟩] at g
  rw [g]
  generalize (min y1 y2 - H).toNat = d
  unfold belowCut
  dsimp only
  constructor
  · intro e
    by_contra q
    have e := congrArg List.length (Except.ok.inj e)
    rcases hb with rfl | rfl
    · rw [if_neg (by norm_num)] at e q
      exact absurd e (combOut_length_lt (by omega)).ne
    · rw [if_pos rfl] at e q
      have l1 := combOut_length_lt (b := b) (s := colStart 24 x) (k := rowLen W 24) (back := d * rowLen W 24 + 2) (by omega)
      have l2 := combOut_length_le (combOut b (colStart 24 x) (rowLen W 24) (d * rowLen W 24 + 2)) (colStart 24 x + 1) (rowLen W 24)
        (d * rowLen W 24 + 2)
      have l3 := combOut_length_le (combOut (combOut b (colStart 24 x) (rowLen W 24) (d * rowLen W 24 + 2)) (colStart 24 x + 1)
        (rowLen W 24) (d * rowLen W 24 + 2)) (colStart 24 x + 2) (rowLen W 24) (d * rowLen W 24 + 2)
      omega
  · intro q
    rcases hb with rfl | rfl
    · rw [if_neg (by norm_num)] at q ⊢
      rw [combOut_all (by omega)]
    · rw [if_pos rfl] at q ⊢
      rw [combOut_all (b := b) (by omega), combOut_all (b := b) (by omega), combOut_all (b := b) (by omega)]

/-- The column in column `x` from `y1` to `y2` deletes no bytes. -/
def ColumnSafe (W H bits : Nat) (x y1 y2 : Int) : Prop :=
  (bits = 8 ∨ bits = 24) → 0 ≤ x → x < W → (H : Int) ≤ min y1 y2 →
    (let back := (min y1 y2 - H).toNat * rowLen W bits + (if bits = 24 then 2 else 0)
     back ≤ colStart bits x.toNat ∨ dataOff bits + H * rowLen W bits ≤ back)

/-- C20: exactly the safe columns are painted as `VSeg` says. -/
theorem C20_safe_iff {b : Bytes} {W H bits : Nat} (h : Valid b W H bits) {x y1 y2 color : Int} (hc : IsColour bits color) :
    (∃ b', vertline b x y1 y2 color = .ok b' ∧ Paints b b' W H bits (VSeg x y1 y2) color.toNat) ↔ ColumnSafe W H bits x y1 y2 := by
  by_cases hx : 0 ≤ x ∧ x < W
  swap
  · refine ⟨fun _ _ g1 g2 => absurd ⟨g1, g2⟩ hx, fun _ => ⟨b, (C20_exact h hc).1 hx, Paints.refl h _ ?_⟩⟩
    intro px py h1 _ g
    unfold VSeg at g
    omega
  obtain ⟨x0, rfl⟩ := Int.eq_ofNat_of_zero_le hx.1
  have g := (C20_exact h (x := (x0 : Int)) (y1 := y1) (y2 := y2) hc).2 x0 (by omega) rfl
  split_ifs at g with q
  · have k := C20_below_iff h q.1 (show x0 < W by omega) q.2 hc
    rw [h.len] at k
    constructor
    · rintro ⟨b', e, p⟩ - - - -
      refine k.mp ?_
      have hl : b'.length = b.length := by rw [p.valid.len, h.len]
      rw [g] at e ⊢
      have e := Except.ok.inj e
      subst e
      unfold belowCut at hl ⊢
      split_ifs at hl ⊢ with h24
      · subst h24
        dsimp only at hl ⊢
        have l1 := combOut_length_le b (colStart 24 x0) (rowLen W 24) ((min y1 y2 - H).toNat * rowLen W 24 + 2)
        have l2 := combOut_length_le (combOut b (colStart 24 x0) (rowLen W 24) ((min y1 y2 - H).toNat * rowLen W 24 + 2)) (colStart 24 x0 + 1)
          (rowLen W 24) ((min y1 y2 - H).toNat * rowLen W 24 + 2)
        have l3 := combOut_length_le (combOut (combOut b (colStart 24 x0) (rowLen W 24) ((min y1 y2 - H).toNat * rowLen W 24 + 2))
          (colStart 24 x0 + 1) (rowLen W 24) ((min y1 y2 - H).toNat * rowLen W 24 + 2)) (colStart 24 x0 + 2) (rowLen W 24)
          ((min y1 y2 - H).toNat * rowLen W 24 + 2)
        have n1 : ¬ (colStart 24 x0 < (min y1 y2 - H).toNat * rowLen W 24 + 2 ∧ (min y1 y2 - H).toNat * rowLen W 24 + 2 < b.length) :=
          fun g => by have := combOut_length_lt (k := rowLen W 24) g; omega
        rw [combOut_all (b := b) n1, combOut_all (b := b) (by omega), combOut_all (b := b) (by omega)]
      · have n1 : ¬ (colStart bits x0 < (min y1 y2 - H).toNat * rowLen W bits ∧ (min y1 y2 - H).toNat * rowLen W bits < b.length) :=
          fun g => by have := combOut_length_lt (k := rowLen W bits) g; omega
        rw [combOut_all n1]
    · intro hs
      refine ⟨b, k.mpr (hs q.1 hx.1 hx.2 q.2), Paints.refl h _ ?_⟩
      intro px py _ h1 g
      unfold VSeg at g
      omega
  · exact ⟨fun _ g1 _ _ g2 => absurd ⟨g1, g2⟩ q, fun _ => g⟩

/-- C96: columns at the points of a list, wherever they are, if they delete no bytes. -/
theorem C96_vertlinevert_safe {b : Bytes} {W H bits : Nat} (h : Valid b W H bits) {len adj color : Int} (hc : IsColour bits color)
    {v : List (Int × Int)} (hs : ∀ p ∈ v, ColumnSafe W H bits p.1 p.2 (p.2 + len + adj)) :
    ∃ b', vertlinevert b v len adj color = .ok b' ∧
      Paints b b' W H bits (fun px py => ∃ p ∈ v, VSeg p.1 p.2 (p.2 + len + adj) px py) color.toNat :=
  foldl_paints (fun bmp (p : Int × Int) => vertline bmp p.1 p.2 (p.2 + len + adj) color)
    (fun p => VSeg p.1 p.2 (p.2 + len + adj)) v (fun _ hb p hp => (C20_safe_iff hb hc).mpr (hs p hp)) h

/-- C20: the header and the palette are kept in all cases. -/
theorem C20_header {b b' : Bytes} {W H bits : Nat} (h : Valid b W H bits) {x y1 y2 color : Int} (hc : IsColour bits color)
    (e : vertline b x y1 y2 color = .ok b') : ∀ i < dataOff bits, byte b' i = byte b i := by
  intro i hi
  by_cases hx : 0 ≤ x ∧ x < W
  swap
  · rw [(C20_exact h hc).1 hx] at e
    cases e
    rfl
  have g := (C20_exact h (x := x) (y1 := y1) (y2 := y2) hc).2 x.toNat (by omega) (by omega)
  split_ifs at g with q
  · rw [g] at e
    cases e
    unfold belowCut
    have hs : dataOff bits ≤ colStart bits x.toNat := Nat.le_add_right _ _
    split_ifs with h24
    · subst h24
      dsimp only
      rw [combOut_head _ _ _ _ (by omega), combOut_head _ _ _ _ (by omega), combOut_head _ _ _ _ (by omega)]
    · rw [combOut_head _ _ _ _ (by omega)]
  · obtain ⟨b'', e', p⟩ := g
    rw [e] at e'
    cases e'
    exact p.header.2 i hi

/-- On a 24-bit image of one column and four rows (70 bytes): a column 13 rows below it changes nothing, 14 rows below it takes three
bytes of blue, three of green and two of red out of the file, and 17 rows below it changes nothing again. -/
example : (do let b ← newBMP 1 4 24
              pure ((← vertline b 0 17 18 0).length, (← vertline b 0 18 18 0).length, (← vertline b 0 21 30 0).length)) =
    .ok (70, 62, 70) := by decide +kernel

end Verif.Props
