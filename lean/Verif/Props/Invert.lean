import Mathlib.Data.List.Nodup
import Verif.Lemmas.Rows
/-! Properties C32 and C33: inverting images and regions. -/

namespace Verif.Props
open Verif Spec Model

theorem xor_255 : ∀ v, v < 256 → v ^^^ 255 = 255 - v := by decide +kernel
theorem xor_15 : ∀ v, v < 16 → v ^^^ 15 = 15 - v := by decide +kernel

theorem invertLoop_spec (n : Nat) : ∀ {b : Bytes} {off : Nat}, (∀ v ∈ b, v < 256) → off ≤ b.length →
    b.length - off ≤ n →
    ∃ b', invertLoop (b.length : Int) n b (off : Int) = .ok b' ∧ b'.length = b.length ∧
      ∀ i, byte b' i = if off ≤ i ∧ i < b.length then 255 - byte b i else byte b i := by
  induction n with
  | zero =>
    intro b off hb h1 h2
    refine ⟨b, rfl, rfl, ?_⟩
    intro i
    rw [if_neg (by omega)]
  | succ n ih =>
    intro b off hb h1 h2
    rw [invertLoop]
    by_cases c : off < b.length
    · have hv := byte_lt_of_mem hb off
      rw [if_pos (by omega), getItem_ok rfl c]
      simp only [ok_bind]
      rw [setItem_ok (n := off) (w := 255 - byte b off) rfl c (by rw [xor_255 _ hv]) (by omega)]
      simp only [ok_bind]
      have hb' : ∀ v ∈ b.set off (255 - byte b off), v < 256 := by
        intro v hv'
        rcases List.mem_or_eq_of_mem_set hv' with hm | rfl
        · exact hb v hm
        · omega
      obtain ⟨b', e, hl, hc⟩ := ih (off := off + 1) hb' (by simp; omega) (by simp; omega)
      rw [List.length_set] at e hl hc
      refine ⟨b', by exact_mod_cast e, hl, ?_⟩
      intro i
      rw [hc i, byte_set]
      by_cases ci : i = off
      · subst ci
        rw [if_neg (by omega), if_pos ⟨rfl, c⟩, if_pos ⟨by omega, c⟩]
      · rw [if_neg (show ¬ (i = off ∧ off < b.length) by omega)]
        by_cases cj : off + 1 ≤ i ∧ i < b.length
        · rw [if_pos cj, if_pos (by omega)]
        · rw [if_neg cj, if_neg (by omega)]
    · rw [if_neg (by omega)]
      refine ⟨b, rfl, rfl, ?_⟩
      intro i
      rw [if_neg (by omega)]

theorem invert_grid {b : Bytes} {W H bits : Nat} (h : Valid b W H bits) :
    ∃ b', invertimagebits b = .ok b' ∧ Grid b b' W H bits (fun y j => 255 - byte b (cell W H bits y j)) := by
  unfold invertimagebits
  rw [h.hdsz_eq, h.flsz_eq]
  simp only [ok_bind]
  have hl := h.len
  obtain ⟨b', e, el, hc⟩ := invertLoop_spec ((b.length : Int) - (dataOff bits : Int)).toNat (b := b)
    (off := dataOff bits) h.bytes (by omega) (by omega)
  refine ⟨b', e, grid_of_bytes h el ?_ ?_ ?_⟩
  · intro i hi; rw [hc, if_neg (by omega)]
  · intro y j _ _; omega
  · intro y j hy hj
    rw [hc, if_pos ⟨cell_ge W H bits y j, cell_lt h hy hj⟩]

theorem field_compl_1 : ∀ s, s < 8 → ∀ v, v < 256 → (255 - v) / 2 ^ s % 2 ^ 1 = 2 ^ 1 - 1 - v / 2 ^ s % 2 ^ 1 := by
  decide +kernel
theorem field_compl_4 : ∀ s, s < 5 → ∀ v, v < 256 → (255 - v) / 2 ^ s % 2 ^ 4 = 2 ^ 4 - 1 - v / 2 ^ s % 2 ^ 4 := by
  decide +kernel

/-- Complementing the bytes of a pixel complements its colour. -/
theorem pix_compl {b b' : Bytes} {W H bits x y : Nat} (h : Valid b W H bits)
    (hc : ∀ t, t < bpp bits → byte b' (cell W H bits y (x * bits / 8 + t))
      = 255 - byte b (cell W H bits y (x * bits / 8 + t))) :
    pix b' W H bits x y = 2 ^ bits - 1 - pix b W H bits x y := by
  rw [pix_cell, pix_cell]
  unfold bpp at hc
  by_cases c : bits = 24
  · subst c
    rw [if_pos rfl, if_pos rfl]
    have h0 := hc 0 (by norm_num)
    have h1 := hc 1 (by norm_num)
    have h2 := hc 2 (by norm_num)
    rw [show x * 24 / 8 = 3 * x by omega] at h0 h1 h2
    rw [Nat.add_zero] at h0
    rw [h0, h1, h2]
    have v0 := byte_lt_of_mem h.bytes (cell W H 24 y (3 * x))
    have v1 := byte_lt_of_mem h.bytes (cell W H 24 y (3 * x + 1))
    have v2 := byte_lt_of_mem h.bytes (cell W H 24 y (3 * x + 2))
    norm_num
    omega
  · rw [if_neg c, if_neg c]
    rw [if_neg c] at hc
    have h0 := hc 0 (by omega)
    rw [Nat.add_zero] at h0
    rw [h0]
    have v0 := byte_lt_of_mem h.bytes (cell W H bits y (x * bits / 8))
    have hs := shift_le (x := x) (h.depth3 c)
    rcases h.depth3 c with rfl | rfl | rfl
    · exact field_compl_1 _ (by omega) _ v0
    · exact field_compl_4 _ (by omega) _ v0
    · rw [show shiftOf 8 x = 0 by omega]
      rw [show x * 8 / 8 = x by omega] at v0 ⊢
      norm_num
      omega

/-- C32: `invertimagebits` complements every pixel, keeps header and palette, and undoes itself,
byte for byte. -/
theorem C32_invertimagebits {b : Bytes} {W H bits : Nat} (h : Valid b W H bits) :
    ∃ b', invertimagebits b = .ok b' ∧
      Redraws b b' W H bits (fun x y => 2 ^ bits - 1 - pix b W H bits x y) ∧ invertimagebits b' = .ok b := by
  obtain ⟨b', e, g⟩ := invert_grid h
  refine ⟨b', e, ⟨g.valid, g.header, ?_⟩, ?_⟩
  · intro x y hx hy
    apply pix_compl h
    intro t ht
    have := xcell_lt h.depth hx
    exact g.cells y _ hy (by omega)
  · obtain ⟨b2, e2, g2⟩ := invert_grid g.valid
    rw [e2]
    congr 1
    apply Grid.undo h g g2
    intro y j hy hj
    have := byte_lt_of_mem h.bytes (cell W H bits y j)
    rw [g.cells y j hy hj]
    omega

example : (do let b ← newBMP 5 2 4; let b ← plotxybit b 1 0 7; let b ← invertimagebits b
              pure (← getxybit b 1 0, ← getxybit b 0 0)) = .ok (8, 15) := by decide +kernel
example : (do let b ← newBMP 3 2 24; let b ← plotxybit b 2 1 0x102030; let b ← invertimagebits b
              pure (← getxybit b 2 1, ← getxybit b 0 0)) = .ok (0xefdfcf, 0xffffff) := by decide +kernel

theorem rowoff_other {b : Bytes} {W H bits : Nat} (h : Valid b W H bits) (y : Int) {k : Nat} (hk : Depth k) :
    rowoff b y (k : Int) = .ok (((H : Int) - y - 1) * (rowLen W k : Int)) := by
  simp [rowoff, h.getmaxx_eq, h.getmaxy_eq, xbytes_eq hk]

theorem invertbuf_eq {buf : Bytes} (hb : ∀ v ∈ buf, v < 256) :
    invertbitsinbuffer buf = .ok (buf.map fun v => 255 - v) := by
  apply mkArray_ok
  · rw [List.map_map]
    apply List.map_congr_left
    intro v hv
    simp only [Function.comp, xor_255 v (hb v hv)]
    rfl
  · intro w hw
    obtain ⟨v, _, rfl⟩ := List.mem_map.mp hw
    omega

theorem invertregion_bytes {b : Bytes} {W H bits : Nat} (h : Valid b W H bits) (hb : bits = 8 ∨ bits = 24)
    {x1 y1 x2 y2 : Int} {xa xb ya yb : Nat} (hxa : (xa : Int) = min x1 x2) (hxb : (xb : Int) = max x1 x2)
    (hya : (ya : Int) = min y1 y2) (hyb : (yb : Int) = max y1 y2) (hW : xb < W) (hH : yb < H) :
    ∃ b', invertregion b x1 y1 x2 y2 = .ok b' ∧ Grid b b' W H bits (fun y j =>
      if (ya ≤ y ∧ y ≤ yb) ∧ xa * bits / 8 ≤ j ∧ j < xa * bits / 8 + (xb - xa + 1) * bits / 8
      then 255 - byte b (cell W H bits y j) else byte b (cell W H bits y j)) := by
  have ha : Aligned bits xa xb := by rcases hb with rfl | rfl <;> constructor <;> omega
  have hx1 := xcell_lt h.depth hW
  have hfit : xa * bits / 8 + (xb - xa + 1) * bits / 8 ≤ rowLen W bits := by
    unfold bpp at hx1
    rcases hb with rfl | rfl <;> norm_num at * <;> omega
  unfold invertregion
  rw [rect_guard h, if_pos (by omega)]
  unfold invertregionCore
  rw [sortrec_eq, ← hxa, ← hxb, ← hya, ← hyb]
  dsimp only
  rw [h.bits_eq]
  simp only [ok_bind]
  rw [if_neg (by omega)]
  have e24 : bmof24 b (xa : Int) (yb : Int) = .ok ((xa : Int) * 3 + ((H : Int) - yb - 1) * (rowLen W 24 : Int)) := by
    unfold bmof24
    rw [show ((24 : Int)) = ((24 : Nat) : Int) from rfl, rowoff_other h _ (by simp [Depth])]
    rfl
  have e8 : bmof8 b (xa : Int) (yb : Int) = .ok ((xa : Int) + ((H : Int) - yb - 1) * (rowLen W 8 : Int)) := by
    unfold bmof8
    rw [show ((8 : Int)) = ((8 : Nat) : Int) from rfl, rowoff_other h _ (by simp [Depth])]
    rfl
  rw [e24, e8, h.xchrcnt_eq]
  simp only [ok_bind]
  have hoff : iif (decide (bits = 24)) ((xa : Int) * 3 + ((H : Int) - yb - 1) * (rowLen W 24 : Int))
      ((xa : Int) + ((H : Int) - yb - 1) * (rowLen W 8 : Int))
      = (((H - 1 - yb) * rowLen W bits + xa * bits / 8 : Nat) : Int) := by
    rw [row_cast hH, row_cast hH]
    unfold iif
    rcases hb with rfl | rfl
    · simp; omega
    · simp; omega
  rw [hoff]
  obtain ⟨s', e, hP⟩ := itercopyrect_rule (src := fun st : Bytes × Int => st.1)
    (st := (b, (((H - 1 - yb) * rowLen W bits + xa * bits / 8 : Nat) : Int))) (W := W) (H := H) (bits := bits) h
    (x1 := (xa : Int)) (y1 := (ya : Int)) (x2 := (xb : Int)) (y2 := (yb : Int))
    (xa := xa) (xb := xb) (ya := ya) (yb := yb) (by omega) (by omega) (by omega) (by omega) hW hH ha
    (body := fun st buf => do
      let inv ← invertbitsinbuffer buf
      let bmp ← BMPbitBLTput st.1 st.2 inv
      pure (bmp, st.2 + (rowLen W bits : Int)))
    (P := fun k s => s.2 = (((H - 1 - yb) * rowLen W bits + k * rowLen W bits + xa * bits / 8 : Nat) : Int) ∧
      Grid b s.1 W H bits (fun y j =>
        if (yb < y + k ∧ y ≤ yb) ∧ xa * bits / 8 ≤ j ∧ j < xa * bits / 8 + (xb - xa + 1) * bits / 8
        then 255 - byte b (cell W H bits y j) else byte b (cell W H bits y j)))
    (by
      refine ⟨by simp, (Grid.refl h).congr ?_⟩
      intro y j _ _
      rw [if_neg (by omega)])
    (by
      intro k s hk ⟨hoffk, g⟩
      refine ⟨g.valid, ?_⟩
      rw [invertbuf_eq (seg_bytes g.valid _ _ _)]
      simp only [ok_bind]
      have hrow : (H - 1 - (yb - k)) * rowLen W bits = (H - 1 - yb) * rowLen W bits + k * rowLen W bits := by
        rw [show H - 1 - (yb - k) = (H - 1 - yb) + k by omega, Nat.add_mul]
      obtain ⟨b1, e1, g1⟩ := put_seg g.valid (y := yb - k) (j := xa * bits / 8)
        (buf := (seg s.1 W H bits (yb - k) (xa * bits / 8) ((xb - xa + 1) * bits / 8)).map fun v => 255 - v)
        (by omega) (by
          intro w hw
          obtain ⟨v, _, rfl⟩ := List.mem_map.mp hw
          omega) (by rw [List.length_map, length_seg]; exact hfit)
      rw [hrow] at e1
      rw [hoffk, e1]
      refine ⟨_, rfl, ?_, (g.trans g1).congr ?_⟩
      · dsimp only
        rw [Nat.add_mul k 1]; push_cast; ring
      · intro y j hy hj
        rw [List.length_map, length_seg]
        by_cases cj : xa * bits / 8 ≤ j ∧ j < xa * bits / 8 + (xb - xa + 1) * bits / 8
        · by_cases cy : y = yb - k
          · rw [if_pos ⟨cy, cj⟩, if_pos ⟨by omega, cj⟩]
            rw [byte_eq_getElem _ _ (by rw [List.length_map, length_seg]; omega), List.getElem_map,
              ← byte_eq_getElem _ _ (by rw [length_seg]; omega), byte_seg _ _ _ _ _ _ (by omega)]
            rw [show xa * bits / 8 + (j - xa * bits / 8) = j by omega, ← cy, g.cells y j hy hj, if_neg (by omega)]
          · rw [if_neg (by tauto), g.cells y j hy hj]
            by_cases c2 : yb < y + k ∧ y ≤ yb
            · rw [if_pos ⟨c2, cj⟩, if_pos ⟨by omega, cj⟩]
            · rw [if_neg (by tauto), if_neg (by omega)]
        · rw [if_neg (by tauto), g.cells y j hy hj, if_neg (by tauto), if_neg (by tauto)])
  rw [e]
  refine ⟨s'.1, rfl, hP.2.congr ?_⟩
  intro y j _ _
  have : (yb < y + (yb - ya + 1) ∧ y ≤ yb) ↔ (ya ≤ y ∧ y ≤ yb) := by omega
  simp only [this]

theorem mem_pyRange {a b v : Int} : v ∈ pyRange a b ↔ a ≤ v ∧ v < b := by
  unfold pyRange
  simp only [List.mem_map, List.mem_range]
  constructor
  · rintro ⟨i, hi, rfl⟩; omega
  · intro h; exact ⟨(v - a).toNat, by omega, by omega⟩

theorem nodup_pyRange (a b : Int) : (pyRange a b).Nodup := by
  unfold pyRange
  apply List.Nodup.map
  · intro i j hij
    simpa using hij
  · exact List.nodup_range

theorem mem_rectPoints {x1 y1 x2 y2 : Int} {p : Int × Int} :
    p ∈ rectPoints x1 y1 x2 y2 ↔ (x1 ≤ p.1 ∧ p.1 ≤ x2) ∧ (y1 ≤ p.2 ∧ p.2 ≤ y2) := by
  unfold rectPoints
  simp only [List.mem_flatMap, List.mem_map, mem_pyRange]
  constructor
  · rintro ⟨y, hy, x, hx, rfl⟩
    dsimp only
    omega
  · intro hp
    exact ⟨p.2, by omega, p.1, by omega, rfl⟩

theorem nodup_rectPoints (x1 y1 x2 y2 : Int) : (rectPoints x1 y1 x2 y2).Nodup := by
  unfold rectPoints
  rw [List.nodup_flatMap]
  constructor
  · intro y _
    apply List.Nodup.map
    · intro a b hab
      simpa using hab
    · exact nodup_pyRange _ _
  · apply (nodup_pyRange y1 (y2 + 1)).imp
    intro a b hab
    intro p hp hq
    simp only [List.mem_map] at hp hq
    obtain ⟨_, _, rfl⟩ := hp
    obtain ⟨_, _, e⟩ := hq
    simp at e
    exact hab e.2.symm

/-- C33: `invertregion` complements exactly the pixels of the rectangle, in every depth. -/
theorem C33_invertregion {b : Bytes} {W H bits : Nat} (h : Valid b W H bits) {x1 y1 x2 y2 : Int}
    (hi : InImage W H x1 y1 x2 y2) :
    ∃ b', invertregion b x1 y1 x2 y2 = .ok b' ∧ Redraws b b' W H bits (fun x y =>
      if inRect x1 y1 x2 y2 x y then 2 ^ bits - 1 - pix b W H bits x y else pix b W H bits x y) := by
  obtain ⟨xa, xb, ya, yb, hxa, hxb, hya, hyb, hW, hH⟩ := corners hi
  by_cases hb : bits = 8 ∨ bits = 24
  · obtain ⟨b', e, g⟩ := invertregion_bytes h hb hxa hxb hya hyb hW hH
    have hal : Aligned bits xa xb := by rcases hb with rfl | rfl <;> constructor <;> omega
    refine ⟨b', e, g.valid, g.header, ?_⟩
    intro x y hx hy
    have hxc := xcell_lt h.depth hx
    by_cases c : inRect x1 y1 x2 y2 x y = true
    · rw [if_pos c]
      unfold inRect at c
      rw [decide_eq_true_eq] at c
      apply pix_compl h
      intro s hs
      rw [g.cells y _ hy (by omega), if_pos ⟨by omega, (seg_iff h.depth hal (by omega) hs).mpr (by omega)⟩]
    · rw [if_neg c]
      unfold inRect at c
      rw [decide_eq_true_eq] at c
      apply pix_congr rfl
      intro s hs
      rw [g.cells y _ hy (by omega), if_neg]
      intro ⟨q1, q2⟩
      have := (seg_iff h.depth hal (by omega) hs).mp q2
      omega
  · have hb' : bits = 1 ∨ bits = 4 := by rcases h.depth with e | e | e | e <;> omega
    unfold InImage at hi
    unfold invertregion
    rw [rect_guard h, if_pos hi]
    unfold invertregionCore
    rw [sortrec_eq, ← hxa, ← hxb, ← hya, ← hyb]
    dsimp only
    rw [h.bits_eq]
    simp only [ok_bind]
    rw [if_pos (by omega), h.getmaxcolors_eq]
    simp only [ok_bind]
    obtain ⟨b', e, v, s, p⟩ := foldl_pixmap (W := W) (H := H) (bits := bits)
      (fun bmp p => do
        let v ← getxybit bmp p.1 p.2
        plotxybit bmp p.1 p.2 (pyXor v (((2 ^ bits : Nat) : Int) - 1)))
      (fun c => 2 ^ bits - 1 - c) (rectPoints xa ya xb yb) (nodup_rectPoints _ _ _ _)
      (by
        rintro ⟨px, py⟩ hp
        rw [mem_rectPoints] at hp
        dsimp only at hp
        exact ⟨px.toNat, py.toNat, by rw [Int.toNat_of_nonneg (by omega), Int.toNat_of_nonneg (by omega)],
          by omega, by omega⟩)
      (by
        intro b h x y hx hy
        have hp := h.pix_lt x y
        refine ⟨by have : 0 < 2 ^ bits := Nat.two_pow_pos _; omega, ?_⟩
        dsimp only
        rw [h.getxybit_eq hx hy]
        simp only [ok_bind]
        rw [h.plot_eq hx hy (by omega)]
        congr 2
        generalize pix b W H bits x y = v at *
        rcases hb' with rfl | rfl
        · interval_cases v <;> decide
        · rw [show pyXor (v : Int) (((2 ^ 4 : Nat) : Int) - 1) = ((v ^^^ 15 : Nat) : Int) from rfl,
            xor_15 v (by omega), reduce_4]
          omega) h
    refine ⟨b', e, v, s, ?_⟩
    intro x y hx hy
    rw [p x y hx hy]
    have hiff : ((x : Int), (y : Int)) ∈ rectPoints xa ya xb yb ↔ inRect x1 y1 x2 y2 x y = true := by
      rw [mem_rectPoints]
      unfold inRect
      rw [decide_eq_true_eq]
      dsimp only
      omega
    simp only [hiff]

/-- C33: applied twice, every pixel is restored. -/
theorem C33_twice {b : Bytes} {W H bits : Nat} (h : Valid b W H bits) {x1 y1 x2 y2 : Int}
    (hi : InImage W H x1 y1 x2 y2) :
    ∃ b' b'', invertregion b x1 y1 x2 y2 = .ok b' ∧ invertregion b' x1 y1 x2 y2 = .ok b'' ∧
      Redraws b b'' W H bits (pix b W H bits) := by
  obtain ⟨b', e, r⟩ := C33_invertregion h hi
  obtain ⟨b'', e2, r2⟩ := C33_invertregion r.valid hi
  refine ⟨b', b'', e, e2, r2.valid,
    ⟨r2.header.1.trans r.header.1, fun i hi => (r2.header.2 i hi).trans (r.header.2 i hi)⟩, ?_⟩
  intro x y hx hy
  have hp := h.pix_lt x y
  rw [r2.pixels x y hx hy, r.pixels x y hx hy]
  by_cases c : inRect x1 y1 x2 y2 x y = true
  · rw [if_pos c, if_pos c]; omega
  · rw [if_neg c, if_neg c]

/-- C33: a corner outside the image: nothing happens. -/
theorem C33_rejected {b : Bytes} {W H bits : Nat} (h : Valid b W H bits) {x1 y1 x2 y2 : Int}
    (hi : ¬ InImage W H x1 y1 x2 y2) : invertregion b x1 y1 x2 y2 = .ok b := by
  unfold InImage at hi
  unfold invertregion
  rw [rect_guard h, if_neg hi]

example : (do let b ← newBMP 5 3 1; let b ← plotxybit b 2 1 1; let b ← invertregion b 3 2 1 1
              pure (← getxybit b 1 1, ← getxybit b 2 1, ← getxybit b 3 2, ← getxybit b 4 2, ← getxybit b 1 0)) =
    .ok (1, 0, 1, 0, 0) := by decide +kernel
example : (do let b ← newBMP 4 3 24; let b ← plotxybit b 2 1 0xff; let b ← invertregion b 2 1 1 2
              pure (← getxybit b 2 1, ← getxybit b 1 2, ← getxybit b 3 1, ← getxybit b 1 0)) =
    .ok (0xffff00, 0xffffff, 0, 0) := by decide +kernel

end Verif.Props
