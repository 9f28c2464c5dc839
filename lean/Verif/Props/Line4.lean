import Verif.Props.LinePath
import Verif.Props.Colors
import Verif.Lemmas.CircRegion
/-! Properties C19, C21, C24 and C27 on 4-bit images, where a byte holds two pixels: the exact set of
pixels that `horiline` paints for every segment that meets the image, and what this means for the
functions that draw by rows. C22: the colour that `filledrect` paints on 8-bit images. -/

namespace Verif.Props
open Verif Spec Model

/-- Pixels of row `y` that a 4-bit `horiline` paints if the ends are `a` and `z` after clipping: the
right end is painted only if the segment is made of whole bytes, and a segment of one odd pixel
paints its left neighbour. -/
def Nib (y : Int) (a z : Nat) (x' y' : Nat) : Prop :=
  (y' : Int) = y ∧ ((a ≤ x' ∧ x' < z) ∨ (x' = z ∧ a % 2 = 0 ∧ z % 2 = 1) ∨ (a = z ∧ a % 2 = 1 ∧ x' + 1 = a))

theorem array_nibbles {color : Int} {c : Nat} (hcol : pyAnd color 15 = (c : Int)) (hc : c < 16) (n : Nat) :
    mkArray (pyRepeat [pyShl (pyAnd color 15) 4 + pyAnd color 15] (n : Int)) = .ok (List.replicate n (17 * c)) := by
  rw [hcol]
  apply mkArray_ok
  · have e : pyShl (c : Int) 4 + (c : Int) = ((17 * c : Nat) : Int) := by simp [pyShl]; ring
    rw [e]
    unfold pyRepeat
    rw [List.map_replicate, Int.toNat_natCast]
    induction n with
    | zero => rfl
    | succ k ih => rw [List.replicate_succ, List.flatten_cons, ih, List.replicate_succ]; rfl
  · intro v hv
    rw [List.mem_replicate] at hv; omega

theorem pix_4 (b : Bytes) (W H x y : Nat) :
    pix b W H 4 x y = byte b (addr W H 4 x y) / 2 ^ shiftOf 4 x % 16 := by
  rw [pix_eq, if_neg (by omega)]
  norm_num

/-- C19 on 4-bit images, the exact effect: every pixel of the clipped segment but the last, and the
last one only if the segment consists of whole bytes. -/
theorem C19_horiline_4bit {b : Bytes} {W H : Nat} (h : Valid b W H 4) {y x1 x2 color : Int} {a z : Nat}
    (ha : max (min x1 x2) 0 = (a : Int)) (hz : min (max x1 x2) ((W : Int) - 1) = (z : Int)) (haz : a ≤ z) :
    ∃ b', horiline b y x1 x2 color = .ok b' ∧ Paints b b' W H 4 (Nib y a z) (reduce 4 color) := by
  unfold horiline
  rw [h.bits_eq, getmaxxy_eq h]
  simp only [ok_bind, swap_min, swap_max, setmin_eq, setmax_eq]
  by_cases hy : 0 ≤ y ∧ y < H
  swap
  · rw [if_neg (by rw [isinrange_iff]; exact hy)]
    refine ⟨b, rfl, Paints.refl h _ ?_⟩
    rintro x' y' _ _ ⟨e, _⟩; omega
  rw [if_pos ((isinrange_iff _ _).mpr hy)]
  obtain ⟨y0, rfl⟩ := Int.eq_ofNat_of_zero_le hy.1
  have hyH : y0 < H := by omega
  rw [ha, hz, h.BMoffsethd_eq a y0 hyH]
  simp only [ok_bind]
  rw [if_neg (by norm_num), if_neg (by norm_num), if_pos trivial]
  have hdx : pyShr ((z : Int) - (a : Int) + 1) 1 = (((z - a + 1) / 2 : Nat) : Int) := by
    rw [pyShr_1]; omega
  rw [hdx]
  set n := (z - a + 1) / 2 with hn
  set c := reduce 4 color with hcdef
  have hc : c < 16 := reduce_lt (bits := 4) color
  have hcol : pyAnd color 15 = (c : Int) := by rw [pyAnd_15, hcdef, reduce_4]; omega
  have hzW : z < W := by omega
  have hA : addr W H 4 a y0 = addr W H 4 0 y0 + a / 2 := by rw [addr_same_row]; omega
  have hZ : addr W H 4 z y0 = addr W H 4 0 y0 + z / 2 := by rw [addr_same_row]; omega
  have hlz := addr_lt h hzW hyH
  have hla := addr_lt h (show a < W by omega) hyH
  rw [if_neg (by omega)] at hlz hla
  have hfit : addr W H 4 a y0 + (List.replicate n (17 * c)).length ≤ b.length := by simp; omega
  have hge := dataOff_ge 4
  have haddr : dataOff 4 ≤ addr W H 4 a y0 := by unfold addr; omega
  set b1 := ow b (addr W H 4 a y0) (List.replicate n (17 * c)) with hb1
  have hl1 : b1.length = b.length := length_ow hfit
  have hv1 : Valid b1 W H 4 := valid_ow h (by omega) hfit (by intro v hv; rw [List.mem_replicate] at hv; omega)
  have hB1 : ∀ i, byte b1 i = if addr W H 4 a y0 ≤ i ∧ i < addr W H 4 a y0 + n then 17 * c else byte b i := by
    intro i
    rw [hb1, byte_ow hfit, byte_replicate]
    simp only [List.length_replicate]
    by_cases c1 : addr W H 4 a y0 ≤ i ∧ i < addr W H 4 a y0 + n
    · rw [if_pos c1, if_pos (by omega), if_pos c1]
    · rw [if_neg c1, if_neg c1]
  have hbA : byte b (addr W H 4 a y0) < 256 := byte_lt_of_mem h.bytes _
  have hb1A : byte b1 (addr W H 4 a y0) < 256 := byte_lt_of_mem hv1.bytes _
  set w := 16 * (byte b (addr W H 4 a y0) / 16) + byte b1 (addr W H 4 a y0) % 16 with hw
  have hw256 : w < 256 := by omega
  have hslice : setSlice b (addr W H 4 a y0 : Int) ((addr W H 4 a y0 : Int) + (n : Int)) (List.replicate n (17 * c)) = b1 :=
    setSlice_ok rfl (by simp) hfit
  -- the byte of an odd left end gets its left pixel back
  obtain ⟨b2, step, hl2, hm2, hB2⟩ : ∃ b2 : Bytes, (∀ k : Bytes → Py Bytes,
      (do let c1 ← if pyAnd (a : Int) 1 = 1 then do
              let v ← getItem b (addr W H 4 a y0 : Int)
              pure (((v &&& 0xf0 : Nat) : Int))
            else pure (-1)
          let a' ← (.ok (List.replicate n (17 * c)) : Py Bytes)
          let b1' := setSlice b (addr W H 4 a y0 : Int) ((addr W H 4 a y0 : Int) + (n : Int)) a'
          let b2' ← if c1 ≠ -1 then do
              let v ← getItem b1' (addr W H 4 a y0 : Int)
              setItem b1' (addr W H 4 a y0 : Int) (c1 + ((v &&& 0xf : Nat) : Int))
            else pure b1'
          k b2') = k b2) ∧ b2.length = b.length ∧ (∀ v ∈ b2, v < 256) ∧
        ∀ i, byte b2 i = if a % 2 = 1 ∧ i = addr W H 4 a y0 then w else byte b1 i := by
    by_cases ho : a % 2 = 1
    · refine ⟨b1.set (addr W H 4 a y0) w, ?_, ?_, ?_, ?_⟩
      · intro k
        rw [if_pos (by rw [pyAnd_1]; omega), getItem_ok rfl hla]
        simp only [ok_bind, pure_eq_ok]
        rw [hslice, if_pos (by omega), getItem_ok rfl (by rw [hl1]; exact hla)]
        simp only [ok_bind]
        rw [show setItem b1 (addr W H 4 a y0 : Int) _ = .ok (b1.set (addr W H 4 a y0) w) from ?_]
        · rfl
        apply setItem_ok rfl (by rw [hl1]; exact hla) _ hw256
        rw [and_f0 _ hbA, and_0f, hw]
        omega
      · rw [List.length_set, hl1]
      · intro v hv
        rcases List.mem_or_eq_of_mem_set hv with hv | rfl
        · exact hv1.bytes v hv
        · exact hw256
      · intro i
        rw [byte_set]
        by_cases ci : i = addr W H 4 a y0
        · rw [if_pos ⟨ci, by rw [hl1]; exact hla⟩, if_pos ⟨ho, ci⟩]
        · rw [if_neg (by tauto), if_neg (by tauto)]
    · refine ⟨b1, ?_, hl1, hv1.bytes, ?_⟩
      · intro k
        rw [if_neg (by rw [pyAnd_1]; omega)]
        simp only [ok_bind, pure_eq_ok]
        rw [hslice, if_neg (by simp)]
      · intro i; rw [if_neg (by tauto)]
  have hv2 : Valid b2 W H 4 := by
    apply valid_congr h hl2 hm2
    intro i hi
    rw [hB2, hB1, if_neg (by omega), if_neg (by omega)]
  have hp : Paints b b2 W H 4 (fun x' y' => y' = y0 ∧ a ≤ x' ∧ x' < 2 * (a / 2) + 2 * n) c := by
    have key : ∀ x' y', x' < W → y' < H → pix b2 W H 4 x' y' =
        if y' = y0 ∧ a ≤ x' ∧ x' < 2 * (a / 2) + 2 * n then c else pix b W H 4 x' y' := by
      intro x' y' hx' hy'
      rw [pix_4, pix_4]
      by_cases cy : y' = y0
      · subst cy
        have hX : addr W H 4 x' y' = addr W H 4 0 y' + x' / 2 := by rw [addr_same_row]; omega
        have hs : shiftOf 4 x' = 4 - 4 * (x' % 2) := by unfold shiftOf; omega
        by_cases cA : a % 2 = 1 ∧ x' / 2 = a / 2
        · have hXA : addr W H 4 x' y' = addr W H 4 a y' := by omega
          rw [hB2, if_pos ⟨cA.1, hXA⟩, hw, hXA, hs]
          rcases Nat.mod_two_eq_zero_or_one x' with hx | hx
          · rw [if_neg (by omega), hx]
            norm_num
            omega
          · have hV := hB1 (addr W H 4 a y')
            by_cases hn0 : n = 0
            · rw [if_neg (by omega)] at hV
              rw [if_neg (by omega), hV, hx]
              norm_num
            · rw [if_pos (by omega)] at hV
              rw [if_pos (by omega), hV, hx]
              norm_num
              omega
        · rw [hB2, if_neg (by omega), hB1, hX, hA]
          by_cases cx : a ≤ x' ∧ x' < 2 * (a / 2) + 2 * n
          · rw [if_pos (by omega), if_pos ⟨rfl, cx⟩, hs]
            rcases Nat.mod_two_eq_zero_or_one x' with hx | hx <;> rw [hx]
            · exact (nibbles c hc).1
            · exact (nibbles c hc).2
          · rw [if_neg (by omega), if_neg (by tauto)]
      · have g3 := row_disj (W := W) (H := H) (bits := 4) hy' hyH cy
        have g5 := addr_in_row (H := H) (y := y') h.depth hx'
        have g6 := addr_in_row (H := H) (y := y0) h.depth hzW
        rw [if_neg (by omega)] at g5 g6
        rw [hB2, if_neg (by omega), hB1, if_neg (by omega), if_neg (by tauto)]
    refine ⟨hv2, ⟨hl2, ?_⟩, ?_, ?_⟩
    · intro i hi; rw [hB2, hB1, if_neg (by omega), if_neg (by omega)]
    · intro x' y' hx' hy' hs; rw [key x' y' hx' hy', if_pos hs]
    · intro x' y' hx' hy' hs; rw [key x' y' hx' hy', if_neg hs]
  have hcc : reduce 4 (pyAnd color 15) = c := by rw [hcol, reduce_4]; omega
  rw [array_nibbles hcol hc]
  refine (step _) ▸ ?_
  rcases Nat.mod_two_eq_zero_or_one z with ez | ez
  · refine ⟨b2, ?_, hp.congr ?_⟩
    · rw [if_neg (by rw [pyAnd_1]; omega)]; rfl
    · intro x' y' hx' hy'
      unfold Nib
      omega
  · obtain ⟨b3, e3, p3⟩ := plot_paints (c := pyAnd color 15) hv2 ((z : Int) - 1) (y0 : Int) (by omega)
    refine ⟨b3, ?_, ?_⟩
    · rw [if_pos (by rw [pyAnd_1]; omega)]; exact e3
    · rw [hcc] at p3
      apply hp.trans p3
      intro x' y' hx' hy'
      unfold Nib
      omega

/-- The exact 4-bit set is the segment just when its left end is even and its right end odd. -/
theorem C19_4bit_iff {y x1 x2 : Int} {W a z y0 : Nat} (hy : (y0 : Int) = y)
    (ha : max (min x1 x2) 0 = (a : Int)) (hz : min (max x1 x2) ((W : Int) - 1) = (z : Int)) (haz : a ≤ z) :
    (∀ x', x' < W → (Nib y a z x' y0 ↔ HSeg y x1 x2 x' y0)) ↔ a % 2 = 0 ∧ z % 2 = 1 := by
  constructor
  · intro hall
    have := hall z (by omega)
    unfold Nib HSeg at this
    omega
  · intro hp x' hx'
    unfold Nib HSeg
    omega

/-- C19 is false on 4-bit images even for segments wholly to the right of the image: on an image of
even width the last pixel but one is painted. -/
theorem C19_4bit_right_wrong :
    (do
      let b ← newBMP 4 1 4
      let b ← horiline b 0 10 20 9
      pure (← getxybit b 1 0, ← getxybit b 2 0, ← getxybit b 3 0)) = .ok (0, 9, 0) := by decide +kernel

example : (do
    let b ← newBMP 8 1 4
    let b ← horiline b 0 1 6 9
    pure ((← getxybit b 0 0, ← getxybit b 1 0, ← getxybit b 5 0, ← getxybit b 6 0))) = .ok (0, 9, 9, 0) := by
  decide +kernel

/-- C21 on 4-bit images, the exact effect: each row of the rectangle is painted like a horizontal line. -/
theorem C21_filledrect_4bit {b : Bytes} {W H : Nat} (h : Valid b W H 4) {x1 y1 x2 y2 color : Int}
    (h1 : 0 ≤ x1 ∧ x1 < W ∧ 0 ≤ y1 ∧ y1 < H) (h2 : 0 ≤ x2 ∧ x2 < W ∧ 0 ≤ y2 ∧ y2 < H) :
    ∃ b', filledrect b x1 y1 x2 y2 color = .ok b' ∧ Paints b b' W H 4
      (fun x y => min y1 y2 ≤ y ∧ (y : Int) ≤ max y1 y2 ∧ Nib y (min x1 x2).toNat (max x1 x2).toNat x y)
      (reduce 4 color) := by
  unfold filledrect
  rw [rect_guard h, if_pos ⟨h1, h2⟩, h.bits_eq, sortrec_eq]
  simp only [ok_bind]
  rw [if_pos (by omega)]
  obtain ⟨b', e, p⟩ := foldl_paints (W := W) (H := H) (bits := 4) (c := reduce 4 color)
    (fun b (y : Int) => horiline b y (min x1 x2) (max x1 x2) color)
    (fun y x' y' => Nib y (min x1 x2).toNat (max x1 x2).toNat x' y')
    (pyRange (min y1 y2) (max y1 y2 + 1))
    (fun b hb a _ => C19_horiline_4bit hb (by omega) (by omega) (by omega)) h
  refine ⟨b', e, p.congr ?_⟩
  intro x' y' hx' hy'
  simp only [mem_pyRange]
  constructor
  · rintro ⟨e1, e2, e3⟩
    exact ⟨(y' : Int), ⟨e1, by omega⟩, e3⟩
  · rintro ⟨a, ⟨a1, a2⟩, e3⟩
    have := e3.1
    subst this
    exact ⟨a1, by omega, e3⟩

/-- C24 on 4-bit images, horizontal lines: the exact effect. -/
theorem C24_line_4bit {b : Bytes} {W H : Nat} (h : Valid b W H 4) (hW : 0 < W) (hH : 0 < H)
    {x1 y1 x2 y2 color : Int} (hx : clampTo x1 W ≠ clampTo x2 W) (hy : clampTo y1 H = clampTo y2 H) :
    ∃ b', line b x1 y1 x2 y2 color = .ok b' ∧ Paints b b' W H 4
      (Nib (clampTo y1 H) (min (clampTo x1 W) (clampTo x2 W)).toNat (max (clampTo x1 W) (clampTo x2 W)).toNat)
      (reduce 4 color) := by
  unfold line
  have hbr : bottomrightcoord b = .ok ((W : Int) - 1, (H : Int) - 1) := by
    unfold bottomrightcoord; rw [h.getmaxx_eq, h.getmaxy_eq]; rfl
  rw [hbr]
  simp only [ok_bind, setminmax_eq]
  have hX1 : 0 ≤ clampTo x1 W ∧ clampTo x1 W < W := by unfold clampTo; omega
  have hX2 : 0 ≤ clampTo x2 W ∧ clampTo x2 W < W := by unfold clampTo; omega
  rw [if_neg hx, if_pos hy]
  exact C19_horiline_4bit h (by omega) (by omega) (by omega)

/-- Pixels that `line` paints between two different points on a diagonal: the diagonal moved by one row in
the direction of the line, one pixel longer at its end, and the second end point. -/
def DiagSet (x1 y1 x2 y2 : Int) (px py : Nat) : Prop :=
  (∃ k : Nat, k ≤ (x2 - x1).natAbs ∧ (px : Int) = x1 + k * (x2 - x1).sign ∧
    (py : Int) = y1 + ((k : Int) + 1) * (y2 - y1).sign) ∨ ((px : Int) = x2 ∧ (py : Int) = y2)

/-- C24 on diagonals, the exact effect whenever the row after the last one belongs to the image. On 1-bit
images that row need not belong to it. -/
theorem C24_diagonal {b : Bytes} {W H bits : Nat} (h : Valid b W H bits) (hW : 0 < W) (hH : 0 < H)
    {x1 y1 x2 y2 color : Int} (hc : IsColour bits color)
    (hd : |clampTo x2 W - clampTo x1 W| = |clampTo y2 H - clampTo y1 H|) (hne : clampTo x1 W ≠ clampTo x2 W)
    (hov : bits = 1 ∨ (0 ≤ clampTo y2 H + (clampTo y2 H - clampTo y1 H).sign ∧
      clampTo y2 H + (clampTo y2 H - clampTo y1 H).sign < H)) :
    ∃ b', line b x1 y1 x2 y2 color = .ok b' ∧
      Paints b b' W H bits (DiagSet (clampTo x1 W) (clampTo y1 H) (clampTo x2 W) (clampTo y2 H)) color.toNat := by
  unfold line
  have hbr : bottomrightcoord b = .ok ((W : Int) - 1, (H : Int) - 1) := by
    unfold bottomrightcoord; rw [h.getmaxx_eq, h.getmaxy_eq]; rfl
  rw [hbr]
  simp only [ok_bind, setminmax_eq]
  have hX1 : 0 ≤ clampTo x1 W ∧ clampTo x1 W < W := by unfold clampTo; omega
  have hX2 : 0 ≤ clampTo x2 W ∧ clampTo x2 W < W := by unfold clampTo; omega
  have hY1 : 0 ≤ clampTo y1 H ∧ clampTo y1 H < H := by unfold clampTo; omega
  have hY2 : 0 ≤ clampTo y2 H ∧ clampTo y2 H < H := by unfold clampTo; omega
  generalize clampTo x1 W = X1 at *
  generalize clampTo x2 W = X2 at *
  generalize clampTo y1 H = Y1 at *
  generalize clampTo y2 H = Y2 at *
  have hyne : Y1 ≠ Y2 := by
    rintro rfl
    rw [Int.sub_self, abs_zero, abs_eq_zero] at hd
    omega
  rw [if_neg hne, if_neg hyne, h.bits_eq]
  simp only [ok_bind]
  have hmem : ∀ px py : Nat, ((px : Int), (py : Int)) ∈ iterline (X1, Y1) (X2, Y2) ↔ DiagSet X1 Y1 X2 Y2 px py := by
    intro px py
    rw [C23_diagonal X1 Y1 X2 Y2 hd hne]
    unfold DiagSet
    simp only [List.mem_append, List.mem_map, List.mem_range, List.mem_singleton, Prod.mk.injEq]
    constructor
    · rintro (⟨k, k1, k2, k3⟩ | g)
      · exact Or.inl ⟨k, by omega, k2.symm, k3.symm⟩
      · exact Or.inr g
    · rintro (⟨k, k1, k2, k3⟩ | g)
      · exact Or.inl ⟨k, by omega, k2.symm, k3.symm⟩
      · exact Or.inr g
  have hlt : color.toNat < 2 ^ bits := by
    have := reduce_lt (bits := bits) color
    rwa [reduce_of_colour h.depth hc] at this
  have hc0 := hc.1
  have hc1 := hc.2
  have fin : bits ≠ 1 → ∀ f : Bytes → Int × Int → Py Bytes,
      (∀ b, Valid b W H bits → ∀ x y : Nat, x < W → y < H →
        f b ((x : Int), (y : Int)) = .ok (plotP b W H bits x y color.toNat)) →
      ∃ b', (iterline (X1, Y1) (X2, Y2)).foldlM f b = .ok b' ∧ Paints b b' W H bits (DiagSet X1 Y1 X2 Y2) color.toNat := by
    intro hb1 f hf
    have hov' := hov.resolve_left hb1
    obtain ⟨b', e, p⟩ := loop_paints f (iterline (X1, Y1) (X2, Y2)) color.toNat hlt (by
      intro p hp
      rw [C23_diagonal X1 Y1 X2 Y2 hd hne] at hp
      simp only [List.mem_append, List.mem_map, List.mem_range, List.mem_singleton] at hp
      rcases hp with ⟨k, k1, rfl⟩ | rfl
      · dsimp only
        rw [Int.abs_eq_natAbs, Int.abs_eq_natAbs] at hd
        rcases sign_cases (X2 - X1) with ⟨t1, t2, t3⟩ | ⟨t1, t2, t3⟩ | ⟨t1, t2, t3⟩ <;>
        rcases sign_cases (Y2 - Y1) with ⟨u1, u2, u3⟩ | ⟨u1, u2, u3⟩ | ⟨u1, u2, u3⟩ <;>
        rw [t1, u1] <;> rw [u1] at hov' <;> omega
      · exact ⟨hX2.1, hX2.2, hY2.1, hY2.2⟩) hf h
    exact ⟨b', e, p.congr fun x y _ _ => (hmem x y).symm⟩
  rcases h.depth with rfl | rfl | rfl | rfl
  · rw [if_neg (by omega), if_neg (by omega), if_neg (by omega), if_pos rfl]
    rw [if_neg (by norm_num at hc1; omega)]
    obtain ⟨b', e, p⟩ := foldl_paints (W := W) (H := H) (bits := 1) (c := color.toNat)
      (fun bmp (p : Int × Int) => plotxybit bmp p.1 p.2 color)
      (fun p x' y' => (x' : Int) = p.1 ∧ (y' : Int) = p.2) (iterline (X1, Y1) (X2, Y2)) (by
        intro b hb a _
        obtain ⟨b', e, p⟩ := plot_paints hb a.1 a.2 (c := color) (by omega)
        rw [reduce_of_colour h.depth hc] at p
        exact ⟨b', e, p⟩) h
    refine ⟨b', e, p.congr fun x y _ _ => ?_⟩
    rw [← hmem]
    constructor
    · intro g; exact ⟨_, g, rfl, rfl⟩
    · rintro ⟨⟨u, w⟩, g, rfl, rfl⟩; exact g
  · rw [if_neg (by omega), if_neg (by omega), if_pos rfl]
    rw [if_neg (by norm_num at hc1; omega)]
    apply fin (by norm_num)
    intro b hb x y hx hy
    exact put4 hb hx hy (by norm_num at hc1; omega) (by omega)
  · rw [if_neg (by omega), if_pos rfl]
    apply fin (by norm_num)
    intro b hb x y hx hy
    exact put8 hb hx hy (by norm_num at hc1; omega) (by rw [pyAnd_255]; norm_num at hc1; omega)
  · rw [if_pos rfl, int2BGRarr_eq hc]
    simp only [ok_bind]
    apply fin (by norm_num)
    intro b hb x y hx hy
    exact put24 hb hx hy rfl

/-- C24: the first end point of a diagonal is never one of the pixels that `line` paints. -/
theorem C24_diagonal_start (x1 y1 x2 y2 : Nat) (hd : |(x2 : Int) - x1| = |(y2 : Int) - y1|) (hne : x1 ≠ x2) :
    ¬ DiagSet x1 y1 x2 y2 x1 y1 := by
  rintro (⟨k, k1, k2, k3⟩ | ⟨g1, g2⟩)
  · rcases sign_cases ((y2 : Int) - y1) with ⟨u1, u2, u3⟩ | ⟨u1, u2, u3⟩ | ⟨u1, u2, u3⟩ <;> rw [u1] at k3
    · omega
    · rw [u3, abs_eq_zero] at hd; omega
    · omega
  · omega

example : (do let b ← newBMP 4 5 24; let b ← line b 0 0 3 3 7
              pure (← getxybit b 0 0, ← getxybit b 0 1, ← getxybit b 1 2, ← getxybit b 3 4, ← getxybit b 3 3)) =
    .ok (0, 7, 7, 7, 7) := by decide +kernel

/-- Pixels that a 4-bit `filledcircle` paints: each row of the disc like a horizontal line. -/
def DiscNib (W : Nat) (x y r : Int) (px py : Nat) : Prop :=
  ∃ hw, HalfWidth r hw |(py : Int) - y| ∧ Nib py (max (x - hw) 0).toNat (min (x + hw) ((W : Int) - 1)).toNat px py

/-- C27 on 4-bit images, the exact effect for centres in a column of the image. -/
theorem C27_filledcircle_4bit {b : Bytes} {W H : Nat} (h : Valid b W H 4) {x y r color : Int}
    (hx : 0 ≤ x ∧ x < W) :
    ∃ b', filledcircle b x y r color = .ok b' ∧ Paints b b' W H 4 (DiscNib W x y r) (reduce 4 color) := by
  unfold filledcircle
  rw [h.bits_eq]
  simp only [ok_bind]
  rw [if_pos (by norm_num)]
  have row : ∀ b, Valid b W H 4 → ∀ v ∈ itercirclepartlineedge r, ∀ y',
      ∃ b', horiline b y' (x - v.1) (x + v.1) color = .ok b' ∧ Paints b b' W H 4
        (Nib y' (max (x - v.1) 0).toNat (min (x + v.1) ((W : Int) - 1)).toNat) (reduce 4 color) := by
    intro b hb v hv y'
    have := halfWidth_bounds (mem_lineedge.mp hv)
    exact C19_horiline_4bit hb (by omega) (by omega) (by omega)
  obtain ⟨b', e, p⟩ := foldl_paints (W := W) (H := H) (bits := 4) (c := reduce 4 color)
    (fun bmp (v : Int × Int) => do
      let bmp ← horiline bmp (mirror y v.2).1 (mirror x v.1).1 (mirror x v.1).2 color
      horiline bmp (mirror y v.2).2 (mirror x v.1).1 (mirror x v.1).2 color)
    (fun v px py => Nib (y - v.2) (max (x - v.1) 0).toNat (min (x + v.1) ((W : Int) - 1)).toNat px py ∨
      Nib (y + v.2) (max (x - v.1) 0).toNat (min (x + v.1) ((W : Int) - 1)).toNat px py)
    (itercirclepartlineedge r) (by
      intro b hb v hv
      obtain ⟨b1, e1, p1⟩ := row b hb v hv (y - v.2)
      obtain ⟨b2, e2, p2⟩ := row b1 p1.valid v hv (y + v.2)
      refine ⟨b2, ?_, p1.trans p2 fun _ _ _ _ => Iff.rfl⟩
      unfold mirror
      dsimp only
      rw [e1]
      exact e2) h
  refine ⟨b', e, p.congr ?_⟩
  intro px py hpx hpy
  unfold DiscNib
  constructor
  · rintro ⟨hw, h1, h2⟩
    refine ⟨(hw, |(py : Int) - y|), mem_lineedge.mpr h1, ?_⟩
    dsimp only
    rcases abs_cases ((py : Int) - y) with ⟨e1, _⟩ | ⟨e1, _⟩
    · right; rw [e1, show y + ((py : Int) - y) = py by ring]; exact h2
    · left; rw [e1, show y - -((py : Int) - y) = py by ring]; exact h2
  · rintro ⟨v, hv, hn⟩
    have hv' := mem_lineedge.mp hv
    have hb := halfWidth_bounds hv'
    have hy : (py : Int) = y - v.2 ∨ (py : Int) = y + v.2 := by
      rcases hn with hn | hn
      · exact Or.inl hn.1
      · exact Or.inr hn.1
    have habs : |(py : Int) - y| = v.2 := by
      rcases hy with e | e <;> rw [e]
      · rw [show y - v.2 - y = -v.2 by ring, abs_neg, abs_of_nonneg hb.2.2.1]
      · rw [show y + v.2 - y = v.2 by ring, abs_of_nonneg hb.2.2.1]
    refine ⟨v.1, by rw [habs]; exact hv', ?_⟩
    rcases hn with hn | hn
    · rw [hn.1]; exact ⟨hn.1, hn.2⟩
    · rw [hn.1]; exact ⟨hn.1, hn.2⟩

example : (do
    let b ← newBMP 8 5 4
    let b ← filledcircle b 3 2 2 9
    pure (← getxybit b 1 2, ← getxybit b 4 2, ← getxybit b 5 2)) = .ok (9, 9, 0) := by decide +kernel

/-! ### The colour of filled rectangles on 8-bit images -/

theorem matchLoop_tuple (rgb : RGB) (ps : List RGB) (i c d : Int) :
    (matchLoop rgb false ps i c d = c ∧ ∀ p ∈ ps, p ≠ (0, 0, 0) → d ≤ sqDist rgb p) ∨
    ∃ (k : Nat) (hk : k < ps.length), matchLoop rgb false ps i c d = i + k ∧ ps[k] ≠ (0, 0, 0) ∧ sqDist rgb ps[k] < d ∧
      (∀ p ∈ ps, p ≠ (0, 0, 0) → sqDist rgb ps[k] ≤ sqDist rgb p) ∧
      (∀ (j : Nat) (hj : j < k), (ps[j]'(by omega)) ≠ (0, 0, 0) → sqDist rgb ps[k] < sqDist rgb (ps[j]'(by omega))) := by
  induction ps generalizing i c d with
  | nil => left; exact ⟨rfl, by simp⟩
  | cons p ps ih =>
    unfold matchLoop
    simp only [true_or, and_true]
    by_cases he : p ≠ (0, 0, 0)
    · rw [if_pos he, dist2_eq]
      by_cases hd : sqDist rgb p < d
      · rw [if_pos hd]
        right
        rcases ih (i + 1) i (sqDist rgb p) with ⟨h1, h2⟩ | ⟨k, hk, h1, h2, h3, h4, h5⟩
        · refine ⟨0, by simp, by simpa using h1, he, hd, ?_, by simp⟩
          intro q hq hqe
          rcases List.mem_cons.mp hq with rfl | hq
          · exact le_refl _
          · exact h2 q hq hqe
        · refine ⟨k + 1, by simpa using hk, by rw [h1]; push_cast; ring, h2, lt_trans h3 hd, ?_, ?_⟩
          · intro q hq hqe
            rcases List.mem_cons.mp hq with rfl | hq
            · exact le_of_lt h3
            · exact h4 q hq hqe
          · intro j hj hje
            cases j with
            | zero => exact h3
            | succ j => exact h5 j (by omega) hje
      · rw [if_neg hd]
        rcases ih (i + 1) c d with ⟨h1, h2⟩ | ⟨k, hk, h1, h2, h3, h4, h5⟩
        · left
          refine ⟨h1, ?_⟩
          intro q hq hqe
          rcases List.mem_cons.mp hq with rfl | hq
          · exact not_lt.mp hd
          · exact h2 q hq hqe
        · right
          refine ⟨k + 1, by simpa using hk, by rw [h1]; push_cast; ring, h2, h3, ?_, ?_⟩
          · intro q hq hqe
            rcases List.mem_cons.mp hq with rfl | hq
            · exact le_trans (le_of_lt h3) (not_lt.mp hd)
            · exact h4 q hq hqe
          · intro j hj hje
            cases j with
            | zero => exact lt_of_lt_of_le h3 (not_lt.mp hd)
            | succ j => exact h5 j (by omega) hje
    · rw [if_neg he]
      rcases ih (i + 1) c d with ⟨h1, h2⟩ | ⟨k, hk, h1, h2, h3, h4, h5⟩
      · left
        refine ⟨h1, ?_⟩
        intro q hq hqe
        rcases List.mem_cons.mp hq with rfl | hq
        · exact absurd hqe he
        · exact h2 q hq hqe
      · right
        refine ⟨k + 1, by simpa using hk, by rw [h1]; push_cast; ring, h2, h3, ?_, ?_⟩
        · intro q hq hqe
          rcases List.mem_cons.mp hq with rfl | hq
          · exact absurd hqe he
          · exact h4 q hq hqe
        · intro j hj hje
          cases j with
          | zero => exact absurd hje he
          | succ j => exact h5 j (by omega) hje

/-- The entry `c` of the palette of `b` is the first of the entries other than black that are nearest to
`rgb`; or all entries are black and `c` is 0. -/
def FirstNearest (b : Bytes) (rgb : RGB) (c : Nat) : Prop :=
  (c = 0 ∧ ∀ i < 256, palRGB b i = (0, 0, 0)) ∨
  (palRGB b c ≠ (0, 0, 0) ∧ ∀ i < 256, palRGB b i ≠ (0, 0, 0) →
    sqDist rgb (rgbI (palRGB b c)) ≤ sqDist rgb (rgbI (palRGB b i)) ∧
    (i < c → sqDist rgb (rgbI (palRGB b c)) < sqDist rgb (rgbI (palRGB b i))))

theorem rgbI_black (p : Nat × Nat × Nat) : rgbI p = (0, 0, 0) ↔ p = (0, 0, 0) := by
  obtain ⟨r, g, b⟩ := p
  unfold rgbI
  simp only [Prod.mk.injEq]
  omega

/-- C22, the exact effect: asked for index `color`, `filledrect` takes it for the colour number of
the shade of blue `(0, 0, color)` and paints the nearest palette entry. -/
theorem C22_exact {b : Bytes} {W H : Nat} (h : Valid b W H 8) {x1 y1 x2 y2 color : Int}
    (h1 : 0 ≤ x1 ∧ x1 < W ∧ 0 ≤ y1 ∧ y1 < H) (h2 : 0 ≤ x2 ∧ x2 < W ∧ 0 ≤ y2 ∧ y2 < H) (hc : IsColour 8 color) :
    ∃ b' c, c < 256 ∧ FirstNearest b (0, 0, color) c ∧ filledrect b x1 y1 x2 y2 color = .ok b' ∧
      Paints b b' W H 8 (RectSet x1 y1 x2 y2) c := by
  obtain ⟨hc0, hc1⟩ := hc
  have hrgb : int2RGB color = (0, 0, color) := by
    obtain ⟨n, rfl⟩ := Int.eq_ofNat_of_zero_le hc0
    norm_num at hc1
    have hn : n < 256 := by omega
    clear hc0 hc1
    revert n
    decide +kernel
  have hpal := h.getallRGBpal_eq (show (8 : Nat) ≠ 24 by norm_num)
  set pal := (List.range (2 ^ 8)).map fun c => rgbI (palRGB b c) with hp
  have hlen : pal.length = 256 := by simp [hp]
  have hget : ∀ i (hi : i < pal.length), pal[i] = rgbI (palRGB b i) := by
    intro i hi; simp [hp]
  have hbyte : ∀ i, ByteRGB (rgbI (palRGB b i)) := by
    intro i
    have hb := fun j => byte_lt_of_mem h.bytes j
    have k1 := hb (54 + 4 * i)
    have k2 := hb (54 + 4 * i + 1)
    have k3 := hb (54 + 4 * i + 2)
    simp only [ByteRGB, IsByte, rgbI, palRGB]
    omega
  obtain ⟨c, hc256, hcm, hnear⟩ : ∃ c : Nat, c < 256 ∧ matchRGBtopal (0, 0, color) false pal = (c : Int) ∧
      FirstNearest b (0, 0, color) c := by
    unfold matchRGBtopal
    rw [if_neg (by simp)]
    rcases matchLoop_tuple (0, 0, color) pal 0 0 (442 ^ 2) with ⟨g1, g2⟩ | ⟨k, hk, g1, g2, g3, g4, g5⟩
    · refine ⟨0, by norm_num, by rw [g1]; rfl, Or.inl ⟨rfl, ?_⟩⟩
      intro i hi
      by_contra hne
      have hm : pal[i]'(by omega) ∈ pal := List.getElem_mem _
      rw [hget i (by omega)] at hm
      have := g2 _ hm (fun e => hne ((rgbI_black _).mp e))
      have h3 := sqDist_lt (p := (0, 0, color)) (q := rgbI (palRGB b i))
        ⟨⟨by norm_num, by norm_num⟩, ⟨by norm_num, by norm_num⟩, ⟨hc0, by norm_num at hc1; exact hc1⟩⟩ (hbyte i)
      omega
    · rw [hlen] at hk
      refine ⟨k, hk, by rw [g1]; omega, Or.inr ⟨?_, ?_⟩⟩
      · rw [hget k (by omega)] at g2
        exact fun e => g2 ((rgbI_black _).mpr e)
      · intro i hi hne
        have hm : pal[i]'(by omega) ∈ pal := List.getElem_mem _
        rw [hget i (by omega)] at hm
        have hne' : rgbI (palRGB b i) ≠ (0, 0, 0) := fun e => hne ((rgbI_black _).mp e)
        refine ⟨?_, fun hik => ?_⟩
        · have := g4 _ hm hne'
          rwa [hget k (by omega)] at this
        · have := g5 i hik (by rw [hget i (by omega)]; exact hne')
          rwa [hget k (by omega), hget i (by omega)] at this
  obtain ⟨b', e, p⟩ := filledrect_run (color := color) (c := c) h (Or.inl rfl) h1 h2 (by norm_num; omega) (by
    intro n
    rw [if_neg (by norm_num), hpal]
    simp only [ok_bind]
    rw [hrgb, hcm, mkArray_replicate rfl (by omega)]
    unfold run enc
    rw [if_neg (by norm_num)]
    congr 1
    induction n with
    | zero => rfl
    | succ k ih =>
      simp only [Int.toNat_natCast] at ih ⊢
      rw [List.replicate_succ, List.replicate_succ, List.flatten_cons, ← ih]; rfl)
  exact ⟨b', c, hc256, hnear, e, p⟩

end Verif.Props
