import Verif.Lemmas.NewBMP
import Verif.Sample
/-! Properties C05–C11: single pixels and histories of pixel writes. -/

namespace Verif.Props
open Verif Spec Model

/-- What a plot call does: the file stays well-formed, header and palette stay as they are, the
pixel gets the reduced colour, every other pixel keeps its colour. -/
theorem plot_spec {b : Bytes} {W H bits x y : Nat} (h : Valid b W H bits) (hx : x < W) (hy : y < H)
    {c : Int} (hc : bits = 24 → 0 ≤ c ∧ c < 2 ^ 24) :
    ∃ b', plotxybit b x y c = .ok b' ∧ Valid b' W H bits ∧ SameHeader b b' bits ∧
      ∀ x' y', x' < W → y' < H → pix b' W H bits x' y' =
        if x' = x ∧ y' = y then reduce bits c else pix b W H bits x' y' := by
  refine ⟨_, h.plot_eq hx hy hc, h.valid_plotP hx hy (reduce_lt c), ⟨h.length_plotP hx hy, ?_⟩, ?_⟩
  · intro i hi
    apply h.byte_plotP_outside hx hy
    left; unfold addr; omega
  · intro x' y' hx' hy'
    exact h.pix_plotP hx hy hx' hy' (reduce_lt c)

/-- C05: a plotted pixel reads back, reduced to the depth of the image. -/
theorem C05_plot_get {b : Bytes} {W H bits x y : Nat} (h : Valid b W H bits) (hx : x < W) (hy : y < H)
    {c : Int} (hc : bits = 24 → 0 ≤ c ∧ c < 2 ^ 24) :
    (do let b' ← plotxybit b x y c; getxybit b' x y) = .ok (reduce bits c : Int) := by
  obtain ⟨b', h1, h2, _, h4⟩ := plot_spec h hx hy hc
  rw [h1]
  simp only [ok_bind]
  rw [h2.getxybit_eq hx hy, h4 x y hx hy]
  simp

/-- C05 for the four depths in the terms of the property text. -/
theorem C05_reduce_values (c : Int) :
    (0 ≤ c → c < 2 ^ 24 → (reduce 24 c : Int) = c) ∧ (reduce 8 c : Int) = c % 256 ∧
    (reduce 4 c : Int) = c % 16 ∧ (reduce 1 c : Int) = if c > 0 then 1 else 0 := by
  refine ⟨fun h0 h1 => by rw [reduce_24 h0 h1]; omega, ?_, ?_, ?_⟩
  · rw [reduce_8]; omega
  · rw [reduce_4]; omega
  · rw [reduce_1]; split_ifs <;> rfl

example : (do let b ← newBMP 5 3 1; let b ← plotxybit b 4 2 7; getxybit b 4 2) = .ok 1 := by
  decide +kernel
example : (do let b ← newBMP 5 3 4; let b ← plotxybit b 3 1 (-2); getxybit b 3 1) = .ok 14 := by
  decide +kernel
example : (do let b ← newBMP 5 3 24; let b ← plotxybit b 4 2 0xabcdef; getxybit b 4 2) = .ok 0xabcdef := by
  decide +kernel

/-- C06: nothing else changes. -/
theorem C06_plot_frame {b : Bytes} {W H bits x y : Nat} (h : Valid b W H bits) (hx : x < W) (hy : y < H)
    {c : Int} (hc : bits = 24 → 0 ≤ c ∧ c < 2 ^ 24) :
    ∃ b', plotxybit b x y c = .ok b' ∧ SameHeader b b' bits ∧
      ∀ x' y', x' < W → y' < H → (x', y') ≠ (x, y) → getxybit b' x' y' = getxybit b x' y' := by
  obtain ⟨b', h1, h2, h3, h4⟩ := plot_spec h hx hy hc
  refine ⟨b', h1, h3, ?_⟩
  intro x' y' hx' hy' hne
  rw [h2.getxybit_eq hx' hy', h.getxybit_eq hx' hy', h4 x' y' hx' hy', if_neg]
  rintro ⟨rfl, rfl⟩
  exact hne rfl

/-- Neighbours in the same byte survive. -/
example : (do let b ← newBMP 9 1 1; let b ← plotxybit b 2 0 1; let b ← plotxybit b 3 0 1
              let b ← plotxybit b 2 0 0; pure (← getxybit b 2 0, ← getxybit b 3 0)) = .ok (0, 1) := by
  decide +kernel

/-- C07: coordinates outside the image are ignored by plotting and reported by reading. -/
theorem C07_out_of_bounds {b : Bytes} {W H bits : Nat} (h : Valid b W H bits) {x y : Int}
    (ho : x < 0 ∨ (W : Int) ≤ x ∨ y < 0 ∨ (H : Int) ≤ y) (c : Int) :
    plotxybit b x y c = .ok b ∧ getxybit b x y = .ok (-1) ∧ getRGBxybit b x y = .ok none := by
  have hf : isinBMPrectbnd b x y = .ok false := by
    rw [h.inb_eq]; congr 1; simp; omega
  refine ⟨?_, ?_, ?_⟩
  · simp [plotxybit, hf]
  · simp [getxybit, hf]
  · simp [getRGBxybit, hf]

example : (do let b' ← plotxybit sample8 (-1) 2 5
              pure (decide (b' = sample8), ← getxybit sample8 3 0, ← getRGBxybit sample8 0 4)) = .ok (true, -1, none) := by
  decide +kernel

/-- A plot request. -/
abbrev Plot := Int × Int × Int

/-- Specification of a history: the colour of the last in-range plot at the point. -/
def lastColour (W H bits : Nat) (ops : List Plot) (x y : Nat) (start : Nat) : Nat :=
  ops.foldl (fun cur o => if o.1 = (x : Int) ∧ o.2.1 = (y : Int) ∧ x < W ∧ y < H then reduce bits o.2.2 else cur) start

/-- C08: any history of plots behaves like updates of a map; the file stays well-formed with the
same header and palette. -/
theorem C08_history {b : Bytes} {W H bits : Nat} (h : Valid b W H bits) (ops : List Plot)
    (hc : bits = 24 → ∀ o ∈ ops, 0 ≤ o.2.2 ∧ o.2.2 < 2 ^ 24) :
    ∃ b', ops.foldlM (fun b o => plotxybit b o.1 o.2.1 o.2.2) b = .ok b' ∧ Valid b' W H bits ∧
      SameHeader b b' bits ∧
      ∀ x y : Nat, x < W → y < H →
        getxybit b' x y = .ok (lastColour W H bits ops x y (pix b W H bits x y) : Int) := by
  induction ops generalizing b with
  | nil =>
    exact ⟨b, rfl, h, ⟨rfl, fun _ _ => rfl⟩, fun x y hx hy => h.getxybit_eq hx hy⟩
  | cons o ops ih =>
    obtain ⟨ox, oy, oc⟩ := o
    rw [List.foldlM_cons]
    by_cases hin : 0 ≤ ox ∧ ox < W ∧ 0 ≤ oy ∧ oy < H
    · obtain ⟨x0, rfl⟩ := Int.eq_ofNat_of_zero_le hin.1
      obtain ⟨y0, rfl⟩ := Int.eq_ofNat_of_zero_le hin.2.2.1
      have hx0 : x0 < W := by omega
      have hy0 : y0 < H := by omega
      obtain ⟨b1, h1, h2, h3, h4⟩ := plot_spec (c := oc) h hx0 hy0 (fun e => hc e ((x0 : Int), (y0 : Int), oc) (by simp))
      obtain ⟨b', g1, g2, g3, g4⟩ := ih h2 (fun e o ho => hc e o (by simp [ho]))
      refine ⟨b', ?_, g2, ⟨g3.1.trans h3.1, fun i hi => (g3.2 i hi).trans (h3.2 i hi)⟩, ?_⟩
      · simp only [h1, ok_bind]; exact g1
      · intro x y hx hy
        rw [g4 x y hx hy, h4 x y hx hy]
        unfold lastColour
        rw [List.foldl_cons]
        congr 3
        by_cases e : x = x0 ∧ y = y0
        · obtain ⟨rfl, rfl⟩ := e; simp [hx, hy]
        · rw [if_neg e, if_neg (by simp; omega)]
    · have hs := (C07_out_of_bounds h (x := ox) (y := oy) (by omega) oc).1
      obtain ⟨b', g1, g2, g3, g4⟩ := ih h (fun e o ho => hc e o (by simp [ho]))
      refine ⟨b', ?_, g2, g3, ?_⟩
      · simp only [hs, ok_bind]; exact g1
      · intro x y hx hy
        rw [g4 x y hx hy]
        unfold lastColour
        rw [List.foldl_cons]
        congr 3
        rw [if_neg (by simp only; omega)]

example : lastColour 4 4 8 [(1, 1, 5), (9, 9, 6), (1, 1, 300), (2, 2, 7)] 1 1 0 = 44 := by decide +kernel

theorem getRGB_spec {b : Bytes} {W H bits x y : Nat} (h : Valid b W H bits) (hx : x < W) (hy : y < H) :
    getRGBxybit b x y = .ok (some (rgbI (pixRGB b W H bits x y))) := by
  have ha := addr_lt h hx hy
  unfold getRGBxybit
  rw [h.inb_true hx hy, h.bits_eq]
  simp only [ok_bind, if_true]
  by_cases h24 : bits = 24
  · subst h24
    simp only [if_true] at ha ⊢
    have hoff : bmofhd24 b x y = .ok (addr W H 24 x y : Int) := by
      have := h.BMoffsethd_eq x y hy
      unfold BMoffsethd at this
      rw [h.bits_eq] at this
      simpa using this
    rw [hoff]
    simp only [ok_bind]
    rw [getItem_ok (n := addr W H 24 x y + 2) (by push_cast; rfl) (by omega),
      getItem_ok (n := addr W H 24 x y + 1) (by push_cast; rfl) (by omega), getItem_ok rfl (by omega)]
    simp only [ok_bind, pure_eq_ok]
    have h0 := byte_lt_of_mem h.bytes (addr W H 24 x y)
    have h1 := byte_lt_of_mem h.bytes (addr W H 24 x y + 1)
    have h2 := byte_lt_of_mem h.bytes (addr W H 24 x y + 2)
    congr 2
    unfold pixRGB rgbI
    simp only [if_true, pix_eq]
    apply Prod.ext
    · simp only; omega
    · apply Prod.ext <;> simp only <;> omega
  · rw [if_neg h24, h.getxybit_eq hx hy]
    simp only [ok_bind]
    have := h.pal_fits h24 (h.pix_lt x y)
    have := h.len
    rw [getRGBpal_eq (by omega)]
    simp only [ok_bind, pure_eq_ok, pixRGB]
    rw [if_neg h24]

/-- C09: reading RGB gives the stored components, or the palette entry of the pixel colour; writing
RGB on a true colour image stores exactly the triple at that pixel and nowhere else. -/
theorem C09_rgb_access {b : Bytes} {W H bits x y : Nat} (h : Valid b W H bits) (hx : x < W) (hy : y < H) :
    getRGBxybit b x y = .ok (some (rgbI (pixRGB b W H bits x y))) ∧
    (bits = 24 → ∀ r g bl : Nat, r < 256 → g < 256 → bl < 256 →
      ∃ b', plotRGBxybit b x y (r, g, bl) = .ok b' ∧ Valid b' W H bits ∧ SameHeader b b' bits ∧
        getRGBxybit b' x y = .ok (some ((r : Int), (g : Int), (bl : Int))) ∧
        ∀ x' y', x' < W → y' < H → (x', y') ≠ (x, y) → getxybit b' x' y' = getxybit b x' y') := by
  refine ⟨getRGB_spec h hx hy, ?_⟩
  rintro rfl r g bl hr hg hb
  have hn : bl + 256 * g + 65536 * r < 2 ^ 24 := by omega
  obtain ⟨b', h1, h2, h3, h4⟩ := plot_spec (c := ((bl + 256 * g + 65536 * r : Nat) : Int)) h hx hy
    (fun _ => ⟨by omega, by exact_mod_cast hn⟩)
  have hred : reduce 24 ((bl + 256 * g + 65536 * r : Nat) : Int) = bl + 256 * g + 65536 * r := by
    rw [reduce_24 (by omega) (by exact_mod_cast hn)]; omega
  have ha := addr_lt h hx hy
  simp only [if_true] at ha
  have hw : plotRGBxybit b x y (r, g, bl) = .ok b' := by
    rw [← h1, h.plot_eq hx hy (fun _ => ⟨by omega, by exact_mod_cast hn⟩), hred]
    have hoff : bmofhd24 b x y = .ok (addr W H 24 x y : Int) := by
      have := h.BMoffsethd_eq x y hy
      unfold BMoffsethd at this
      rw [h.bits_eq] at this
      simpa using this
    unfold plotRGBxybit
    rw [h.inb_true hx hy, h.bits_eq]
    simp only [ok_bind, if_true, hoff]
    rw [mkArray3_ok rfl rfl rfl hb hg hr]
    simp only [ok_bind, pure_eq_ok]
    rw [setSlice_ok (n := addr W H 24 x y) rfl (by simp) (by simp; omega)]
    unfold plotP
    simp only [if_true]
    congr 3
    · omega
    · congr 1
      · omega
      · congr 1; omega
  refine ⟨b', hw, h2, h3, ?_, ?_⟩
  · rw [getRGB_spec h2 hx hy]
    congr 2
    unfold pixRGB rgbI
    simp only [if_true]
    rw [h4 x y hx hy, if_pos ⟨rfl, rfl⟩, hred]
    apply Prod.ext
    · simp only; omega
    · apply Prod.ext <;> simp only <;> omega
  · intro x' y' hx' hy' hne
    rw [h2.getxybit_eq hx' hy', h.getxybit_eq hx' hy', h4 x' y' hx' hy', if_neg]
    rintro ⟨rfl, rfl⟩
    exact hne rfl

example : (do let b ← newBMP 3 2 24; let b ← plotRGBxybit b 2 1 (1, 2, 3); getRGBxybit b 2 1)
    = .ok (some (1, 2, 3)) := by decide +kernel
/-- On a default 4-bit palette colour 9 is pure red. -/
example : (do let b ← newBMP 3 2 4; let b ← plotxybit b 2 1 9; getRGBxybit b 2 1)
    = .ok (some (255, 0, 0)) := by decide +kernel

/-- C10: true colour images refuse colours outside `0 .. 2^24-1`; paletted images accept every
integer. -/
theorem C10_colour_range {b : Bytes} {W H bits x y : Nat} (h : Valid b W H bits) (hx : x < W) (hy : y < H)
    (c : Int) :
    (bits = 24 → (c < 0 ∨ 2 ^ 24 ≤ c) → plotxybit b x y c = .error .overflowError) ∧
    (bits ≠ 24 → ∃ b', plotxybit b x y c = .ok b') := by
  constructor
  · rintro rfl hc
    have hr := h.rowoff_eq (y : Int)
    simp only [Nat.cast_ofNat] at hr
    unfold plotxybit
    rw [h.inb_true hx hy, h.bits_eq]
    simp only [ok_bind, if_true]
    rw [if_neg (by simp), hr]
    simp only [ok_bind]
    rw [mkArray_err (v := pyShr c 16) (by simp)]
    · rfl
    · rw [pyShr_16]; omega
  · intro h24
    exact ⟨_, h.plot_eq hx hy (fun e => absurd e h24)⟩

example : (do let b ← newBMP 3 2 24; plotxybit b 2 1 (2 ^ 24)) = .error .overflowError := by decide +kernel

/-- C11: `swapcolors` exchanges two pixels and changes nothing else; twice is the identity on
pixels. -/
theorem C11_swap {b : Bytes} {W H bits x1 y1 x2 y2 : Nat} (h : Valid b W H bits)
    (hx1 : x1 < W) (hy1 : y1 < H) (hx2 : x2 < W) (hy2 : y2 < H) :
    ∃ b', swapcolors b (x1, y1) (x2, y2) = .ok b' ∧ Valid b' W H bits ∧ SameHeader b b' bits ∧
      ∀ x y, x < W → y < H → pix b' W H bits x y =
        if x = x1 ∧ y = y1 then pix b W H bits x2 y2
        else if x = x2 ∧ y = y2 then pix b W H bits x1 y1
        else pix b W H bits x y := by
  have red : ∀ n : Nat, n < 2 ^ bits → reduce bits (n : Int) = n := by
    intro n hn
    unfold reduce
    split_ifs with e1 e2
    · subst e1; norm_num at hn; omega
    · subst e1; omega
    · have e3 : ((n : Int) % 2 ^ bits) = ((n % 2 ^ bits : Nat) : Int) := by push_cast; rfl
      rw [e3, Nat.mod_eq_of_lt hn]; simp
  have rng : ∀ x y, bits = 24 → (0 : Int) ≤ (pix b W H bits x y : Int) ∧ (pix b W H bits x y : Int) < 2 ^ 24 := by
    intro x y e
    have := h.pix_lt x y
    subst e
    exact ⟨by omega, by exact_mod_cast this⟩
  obtain ⟨b1, g1, g2, g3, g4⟩ := plot_spec (c := (pix b W H bits x2 y2 : Int)) h hx1 hy1 (rng x2 y2)
  obtain ⟨b2, k1, k2, k3, k4⟩ := plot_spec (c := (pix b W H bits x1 y1 : Int)) g2 hx2 hy2 (rng x1 y1)
  refine ⟨b2, ?_, k2, ⟨k3.1.trans g3.1, fun i hi => (k3.2 i hi).trans (g3.2 i hi)⟩, ?_⟩
  · unfold swapcolors
    simp only
    rw [h.getxybit_eq hx1 hy1, h.getxybit_eq hx2 hy2]
    simp only [ok_bind]
    rw [g1]
    simp only [ok_bind]
    exact k1
  · intro x y hx hy
    rw [k4 x y hx hy, g4 x y hx hy, red _ (h.pix_lt _ _), red _ (h.pix_lt _ _)]
    by_cases e1 : x = x1 ∧ y = y1
    · obtain ⟨rfl, rfl⟩ := e1
      by_cases e2 : x = x2 ∧ y = y2
      · obtain ⟨rfl, rfl⟩ := e2; simp
      · rw [if_neg e2]; simp
    · simp only [if_neg e1]

/-- C11, second part: swapping twice restores every pixel. -/
theorem C11_swap_twice {b : Bytes} {W H bits x1 y1 x2 y2 : Nat} (h : Valid b W H bits)
    (hx1 : x1 < W) (hy1 : y1 < H) (hx2 : x2 < W) (hy2 : y2 < H) :
    ∃ b', (do let b1 ← swapcolors b (x1, y1) (x2, y2); swapcolors b1 (x1, y1) (x2, y2)) = .ok b' ∧
      SameHeader b b' bits ∧ ∀ x y, x < W → y < H → pix b' W H bits x y = pix b W H bits x y := by
  obtain ⟨b1, g1, g2, g3, g4⟩ := C11_swap h hx1 hy1 hx2 hy2
  obtain ⟨b2, k1, k2, k3, k4⟩ := C11_swap g2 hx1 hy1 hx2 hy2
  refine ⟨b2, ?_, ⟨k3.1.trans g3.1, fun i hi => (k3.2 i hi).trans (g3.2 i hi)⟩, ?_⟩
  · rw [g1]; exact k1
  · intro x y hx hy
    rw [k4 x y hx hy, g4 x y hx hy, g4 x2 y2 hx2 hy2, g4 x1 y1 hx1 hy1]
    by_cases e1 : x = x1 ∧ y = y1
    · obtain ⟨rfl, rfl⟩ := e1
      by_cases e2 : x2 = x ∧ y2 = y
      · obtain ⟨rfl, rfl⟩ := e2; simp
      · simp [e2]
    · by_cases e2 : x = x2 ∧ y = y2
      · obtain ⟨rfl, rfl⟩ := e2; simp [e1]
      · simp [e1, e2]

example : (do let b ← newBMP 4 1 4; let b ← plotxybit b 0 0 3; let b ← plotxybit b 1 0 9
              let b ← swapcolors b (0, 0) (1, 0); pure (← getxybit b 0 0, ← getxybit b 1 0)) = .ok (9, 3) := by
  decide +kernel

end Verif.Props
