import Verif.Lemmas.Region24
import Verif.Lemmas.Blocks
/-! The 24-bit region filters: monochrome, colour factors and brightness. -/

namespace Verif.Props
open Spec Model

/-- The channels of a 24-bit colour. -/
def blueOf (c : Nat) : Nat := c % 256
def greenOf (c : Nat) : Nat := c / 256 % 256
def redOf (c : Nat) : Nat := c / 65536 % 256

/-- A 24-bit colour from its channels. -/
def rgb (r g b : Nat) : Nat := r * 65536 + g * 256 + b

/-- The grey whose level is the truncated mean of the channels. -/
def grey (c : Nat) : Nat :=
  let m := (redOf c + greenOf c + blueOf c) / 3
  rgb m m m

theorem bufPx24_channels {buf : Bytes} (hb : ∀ v ∈ buf, v < 256) (i : Nat) :
    blueOf (bufPx 24 buf i) = byte buf (3 * i) ∧ greenOf (bufPx 24 buf i) = byte buf (3 * i + 1) ∧
      redOf (bufPx 24 buf i) = byte buf (3 * i + 2) := by
  have h0 := byte_lt_of_mem hb (3 * i)
  have h1 := byte_lt_of_mem hb (3 * i + 1)
  have h2 := byte_lt_of_mem hb (3 * i + 2)
  unfold bufPx blueOf greenOf redOf
  rw [if_pos rfl]
  omega

theorem bufPx24_rgb (buf : Bytes) (i : Nat) :
    bufPx 24 buf i = rgb (byte buf (3 * i + 2)) (byte buf (3 * i + 1)) (byte buf (3 * i)) := by
  unfold bufPx rgb
  rw [if_pos rfl]
  omega

/-- Reading a channel of the first `k` pixels of a buffer. -/
theorem channel_read {buf : Bytes} {n k s eN : Nat} (hl : buf.length = 3 * n) (hn : 0 < n) (hk : k ≤ n) (hs : s < 3)
    {si e : Int} (hsi : si = s) (he : e = eN) (h1 : eN ≤ s + 3 * k) (h2 : s + 3 * k < eN + 3) :
    sliceStep buf si e 3 = .ok ((List.range k).map fun i => byte buf (3 * i + s)) := by
  rcases Nat.eq_zero_or_pos k with rfl | hp
  · unfold sliceStep
    rw [if_neg (by decide), clampIdx_ok hsi (by omega), clampIdx_min he]
    unfold stepCount
    dsimp only
    rw [if_neg (by omega)]
    rfl
  · rw [sliceStep_ok hsi he (by omega) hp (by omega) (by omega) (by omega)]
    congr 1
    apply List.map_congr_left
    intro j _
    rw [show s + j * 3 = 3 * j + s by omega]

/-- Writing a channel of the first pixels of a buffer. -/
theorem channel_write {buf vs : Bytes} {n k s eN : Nat} (hl : buf.length = 3 * n) (hn : 0 < n) (hk : k ≤ n) (hs : s < 3)
    {si e : Int} (hsi : si = s) (he : e = eN) (h1 : eN ≤ s + 3 * k) (h2 : s + 3 * k < eN + 3) (hv : vs.length = k) :
    setSliceStep buf si e 3 vs = .ok (writeStride buf s 3 vs) := by
  rcases Nat.eq_zero_or_pos k with rfl | hp
  · have : vs = [] := List.length_eq_zero_iff.mp hv
    subst this
    unfold setSliceStep
    rw [if_neg (by decide), if_neg (by decide), clampIdx_ok hsi (by omega), clampIdx_min he]
    unfold stepCount
    dsimp only
    rw [if_pos (by rw [if_neg (by omega)]; rfl)]
  · exact setSliceStep_ok hsi he (by omega) (by omega) (by omega) (by omega) (by omega)

/-- Writing three channels of the first `k` pixels of a buffer of `n` pixels. -/
theorem channels_out {buf A B C : Bytes} {n k : Nat} (hb : ∀ v ∈ buf, v < 256) (hl : buf.length = 3 * n) (hk : k ≤ n)
    (hA : A.length = k) (hB : B.length = k) (hC : C.length = k)
    (bA : ∀ v ∈ A, v < 256) (bB : ∀ v ∈ B, v < 256) (bC : ∀ v ∈ C, v < 256) :
    let out := writeStride (writeStride (writeStride buf 0 3 A) 1 3 B) 2 3 C
    out.length = 3 * n ∧ (∀ v ∈ out, v < 256) ∧
      ∀ i, i < n → bufPx 24 out i = if i < k then rgb (byte C i) (byte B i) (byte A i) else bufPx 24 buf i := by
  obtain ⟨t1, t2⟩ := three_strides hl hk hA hB hC
  refine ⟨t1, writeStride_bytes _ _ _ _ bC (writeStride_bytes _ _ _ _ bB (writeStride_bytes _ _ _ _ bA hb)), ?_⟩
  intro i hi
  obtain ⟨t3, t4, t5⟩ := t2 i hi
  rw [bufPx24_rgb, t3, t4, t5, bufPx24_rgb]
  split_ifs <;> rfl

theorem byte_range_map {k i : Nat} (f : Nat → Nat) (hi : i < k) : byte ((List.range k).map f) i = f i := by
  rw [byte_eq_getElem _ _ (by simpa using hi)]
  simp

theorem mono_maps (n : Nat) (hn : 0 < n) : MapsPx applymonochromefiltertoBGRbuf n (fun _ c => grey c) := by
  intro buf hb hl
  unfold applymonochromefiltertoBGRbuf
  have e0 : sliceStep buf 0 ((buf.length : Int) - 2) 3 = _ :=
    channel_read (s := 0) (eN := 3 * n - 2) hl hn (Nat.le_refl n) (by omega) rfl (by omega) (by omega) (by omega)
  have e1 : sliceStep buf 1 ((buf.length : Int) - 1) 3 = _ :=
    channel_read (s := 1) (eN := 3 * n - 1) hl hn (Nat.le_refl n) (by omega) rfl (by omega) (by omega) (by omega)
  have e2 : sliceStep buf 2 (buf.length : Int) 3 = _ :=
    channel_read (s := 2) (eN := 3 * n) hl hn (Nat.le_refl n) (by omega) rfl (by omega) (by omega) (by omega)
  dsimp only
  rw [e0, e1, e2]
  simp only [ok_bind]
  obtain ⟨v, hv⟩ : ∃ v : Bytes, v = (List.range n).map fun i =>
    (byte buf (3 * i + 0) + byte buf (3 * i + 1) + byte buf (3 * i + 2)) / 3 := ⟨_, rfl⟩
  have hvl : v.length = n := by rw [hv]; simp
  have hvb : ∀ w ∈ v, w < 256 := by
    intro w hw
    rw [hv] at hw
    obtain ⟨i, _, rfl⟩ := List.mem_map.mp hw
    have h0 := byte_lt_of_mem hb (3 * i + 0)
    have h1 := byte_lt_of_mem hb (3 * i + 1)
    have h2 := byte_lt_of_mem hb (3 * i + 2)
    omega
  rw [mkArray_ok (m := v) (by
      rw [List.zip_map', List.zip_map', List.map_map, hv, List.map_map]
      rfl) hvb]
  simp only [ok_bind]
  have w0 : setSliceStep buf 0 ((buf.length : Int) - 2) 3 v = _ :=
    channel_write (s := 0) (eN := 3 * n - 2) hl hn (Nat.le_refl n) (by omega) rfl (by omega) (by omega) (by omega) hvl
  have w1 : setSliceStep (writeStride buf 0 3 v) 1 ((buf.length : Int) - 1) 3 v = _ :=
    channel_write (s := 1) (eN := 3 * n - 1) (by rw [length_writeStride]; exact hl) hn (Nat.le_refl n) (by omega) rfl
      (by omega) (by omega) (by omega) hvl
  have w2 : setSliceStep (writeStride (writeStride buf 0 3 v) 1 3 v) 2 (buf.length : Int) 3 v = _ :=
    channel_write (s := 2) (eN := 3 * n) (by rw [length_writeStride, length_writeStride]; exact hl) hn (Nat.le_refl n)
      (by omega) rfl (by omega) (by omega) (by omega) hvl
  rw [w0]
  simp only [ok_bind]
  rw [w1]
  simp only [ok_bind]
  rw [w2]
  obtain ⟨c1, c2, c3⟩ := channels_out hb hl (Nat.le_refl n) hvl hvl hvl hvb hvb hvb
  refine ⟨_, rfl, c1, c2, ?_⟩
  intro i hi
  rw [c3 i hi, if_pos hi]
  obtain ⟨q1, q2, q3⟩ := bufPx24_channels hb i
  unfold grey
  rw [q1, q2, q3, hv, byte_range_map _ hi]
  dsimp only
  rw [show byte buf (3 * i + 0) + byte buf (3 * i + 1) + byte buf (3 * i + 2)
    = byte buf (3 * i + 2) + byte buf (3 * i + 1) + byte buf (3 * i) by rw [Nat.add_zero]; omega]

/-- C50: exactly the pixels of the rectangle become grey, with the truncated mean as level. -/
theorem C50_monofilter {b : Bytes} {W H : Nat} (h : Valid b W H 24) {x1 y1 x2 y2 : Int} (hi : InImage W H x1 y1 x2 y2) :
    ∃ b', monofilterto24bitregion b x1 y1 x2 y2 = .ok b' ∧ Redraws b b' W H 24 (fun x y =>
      if inRect x1 y1 x2 y2 x y then grey (pix b W H 24 x y) else pix b W H 24 x y) := by
  unfold monofilterto24bitregion
  rw [filterregion24_run h _ hi]
  exact region24 h hi (φ := fun _ _ c => grey c) (fun k _ => mono_maps _ (by omega))

theorem grey_grey (c : Nat) : grey (grey c) = grey c := by
  have key : ∀ m, m < 256 → grey (rgb m m m) = rgb m m m := by
    intro m hm
    have h1 : blueOf (rgb m m m) = m := by unfold blueOf rgb; omega
    have h2 : greenOf (rgb m m m) = m := by
      unfold greenOf rgb
      have : (m * 65536 + m * 256 + m) / 256 = 257 * m := by omega
      omega
    have h3 : redOf (rgb m m m) = m := by
      unfold redOf rgb
      have : (m * 65536 + m * 256 + m) / 65536 = m := by omega
      omega
    unfold grey
    dsimp only
    rw [h1, h2, h3, show (m + m + m) / 3 = m by omega]
  apply key
  unfold redOf greenOf blueOf
  omega

/-- C50: the whole image. -/
theorem C50_image {b : Bytes} {W H : Nat} (h : Valid b W H 24) (hW : 0 < W) (hH : 0 < H) :
    ∃ b', monofilterto24bitimage b = .ok b' ∧ Redraws b b' W H 24 (fun x y => grey (pix b W H 24 x y)) := by
  obtain ⟨b', e, r⟩ := C50_monofilter h (x1 := 0) (y1 := 0) (x2 := (W : Int) - 1) (y2 := (H : Int) - 1)
    (by unfold InImage; omega)
  refine ⟨b', ?_, r.valid, r.header, ?_⟩
  · unfold monofilterto24bitimage getmaxx getmaxy
    rw [h.getmaxx_eq, h.getmaxy_eq]
    exact e
  · intro x y hx hy
    rw [r.pixels x y hx hy, if_pos]
    unfold inRect
    rw [decide_eq_true_eq]
    omega

/-- C50: a second application changes nothing. -/
theorem C50_idempotent {b : Bytes} {W H : Nat} (h : Valid b W H 24) {x1 y1 x2 y2 : Int} (hi : InImage W H x1 y1 x2 y2) :
    ∃ b' b'', monofilterto24bitregion b x1 y1 x2 y2 = .ok b' ∧ monofilterto24bitregion b' x1 y1 x2 y2 = .ok b'' ∧
      Redraws b' b'' W H 24 (pix b' W H 24) := by
  obtain ⟨b', e, r⟩ := C50_monofilter h hi
  obtain ⟨b'', e2, r2⟩ := C50_monofilter r.valid hi
  refine ⟨b', b'', e, e2, r2.valid, r2.header, ?_⟩
  intro x y hx hy
  rw [r2.pixels x y hx hy, r.pixels x y hx hy]
  split_ifs
  · exact grey_grey _
  · rfl

/-- C50: other depths and rectangles that leave the image are left alone. -/
theorem C50_rejected {b : Bytes} {W H bits : Nat} (h : Valid b W H bits) {x1 y1 x2 y2 : Int}
    (hi : ¬ (bits = 24 ∧ InImage W H x1 y1 x2 y2)) : monofilterto24bitregion b x1 y1 x2 y2 = .ok b :=
  filterregion24_reject h _ hi

example : (do let b ← newBMP 3 2 24; let b ← plotxybit b 1 0 0x102033; let b ← plotxybit b 2 0 0x405060
              let b ← monofilterto24bitregion b 1 1 0 0
              pure (← getxybit b 1 0, ← getxybit b 2 0)) = .ok (0x212121, 0x405060) := by decide +kernel

/-! ### Colour factors -/

/-- Each channel scaled. -/
def scaled (fr fg fb : Nat → Int) (c : Nat) : Nat :=
  rgb (fr (redOf c)).toNat (fg (greenOf c)).toNat (fb (blueOf c)).toNat

/-- The scaled value of a byte is a byte. -/
def KeepsByte (f : Nat → Int) : Prop := ∀ v, v < 256 → 0 ≤ f v ∧ f v < 256

theorem scaled_array {f : Nat → Int} (hf : KeepsByte f) {l : Bytes} (hl : ∀ v ∈ l, v < 256) :
    mkArray (l.map f) = .ok (l.map fun v => (f v).toNat) ∧ ∀ w ∈ l.map (fun v => (f v).toNat), w < 256 := by
  have hb : ∀ w ∈ l.map (fun v => (f v).toNat), w < 256 := by
    intro w hw
    obtain ⟨v, hv, rfl⟩ := List.mem_map.mp hw
    have := hf v (hl v hv)
    omega
  refine ⟨mkArray_ok ?_ hb, hb⟩
  rw [List.map_map]
  apply List.map_congr_left
  intro v hv
  have := hf v (hl v hv)
  simp only [Function.comp_apply, Int.ofNat_eq_natCast]
  omega

theorem color_maps {fr fg fb : Nat → Int} (hr : KeepsByte fr) (hg : KeepsByte fg) (hbl : KeepsByte fb) (n : Nat)
    (hn : 0 < n) :
    MapsPx (applycolorfiltertoBGRbuf fr fg fb) n (fun i c => if i < n - 1 then scaled fr fg fb c else c) := by
  intro buf hb hl
  unfold applycolorfiltertoBGRbuf
  have e0 : sliceStep buf 0 ((buf.length : Int) - 1 - 2) 3 = _ :=
    channel_read (s := 0) (k := n - 1) (eN := 3 * n - 3) hl hn (by omega) (by omega) rfl (by omega) (by omega) (by omega)
  have e1 : sliceStep buf 1 ((buf.length : Int) - 1 - 1) 3 = _ :=
    channel_read (s := 1) (k := n - 1) (eN := 3 * n - 2) hl hn (by omega) (by omega) rfl (by omega) (by omega) (by omega)
  have e2 : sliceStep buf 2 ((buf.length : Int) - 1) 3 = _ :=
    channel_read (s := 2) (k := n - 1) (eN := 3 * n - 1) hl hn (by omega) (by omega) rfl (by omega) (by omega) (by omega)
  dsimp only
  rw [e0, e1, e2]
  simp only [ok_bind]
  have hmem : ∀ s, ∀ v ∈ (List.range (n - 1)).map (fun i => byte buf (3 * i + s)), v < 256 := by
    intro s v hv
    obtain ⟨i, _, rfl⟩ := List.mem_map.mp hv
    exact byte_lt_of_mem hb _
  obtain ⟨a0, b0⟩ := scaled_array hbl (hmem 0)
  obtain ⟨a1, b1⟩ := scaled_array hg (hmem 1)
  obtain ⟨a2, b2⟩ := scaled_array hr (hmem 2)
  rw [a0, a1, a2]
  simp only [ok_bind]
  have w0 := fun (A : Bytes) (hA : A.length = n - 1) =>
    (channel_write (buf := buf) (s := 0) (k := n - 1) (eN := 3 * n - 3) (e := (buf.length : Int) - 1 - 2) (si := 0)
      hl hn (by omega) (by omega) rfl (by omega) (by omega) (by omega) hA)
  have w1 := fun (X A : Bytes) (hX : X.length = 3 * n) (hA : A.length = n - 1) =>
    (channel_write (buf := X) (s := 1) (k := n - 1) (eN := 3 * n - 2) (e := (buf.length : Int) - 1 - 1) (si := 1)
      hX hn (by omega) (by omega) rfl (by omega) (by omega) (by omega) hA)
  have w2 := fun (X A : Bytes) (hX : X.length = 3 * n) (hA : A.length = n - 1) =>
    (channel_write (buf := X) (s := 2) (k := n - 1) (eN := 3 * n - 1) (e := (buf.length : Int) - 1) (si := 2)
      hX hn (by omega) (by omega) rfl (by omega) (by omega) (by omega) hA)
  rw [w0 _ (by simp)]
  simp only [ok_bind]
  rw [w1 _ _ (by rw [length_writeStride]; exact hl) (by simp)]
  simp only [ok_bind]
  rw [w2 _ _ (by rw [length_writeStride, length_writeStride]; exact hl) (by simp)]
  obtain ⟨c1, c2, c3⟩ := channels_out hb hl (k := n - 1) (by omega) (by simp) (by simp) (by simp) b0 b1 b2
  refine ⟨_, rfl, c1, c2, ?_⟩
  intro i hi
  rw [c3 i hi]
  by_cases c : i < n - 1
  · rw [if_pos c, if_pos c]
    obtain ⟨q1, q2, q3⟩ := bufPx24_channels hb i
    unfold scaled
    rw [q1, q2, q3]
    simp only [List.map_map]
    rw [byte_range_map _ c, byte_range_map _ c, byte_range_map _ c]
    rfl
  · rw [if_neg c, if_neg c]

/-- C58, what the code does: the channels are scaled in the rectangle without its last column. -/
theorem C58_exact {b : Bytes} {W H : Nat} (h : Valid b W H 24) {fr fg fb : Nat → Int} (hr : KeepsByte fr)
    (hg : KeepsByte fg) (hb : KeepsByte fb) {x1 y1 x2 y2 : Int} (hi : InImage W H x1 y1 x2 y2) :
    ∃ b', colorfilterto24bitregion fr fg fb b x1 y1 x2 y2 = .ok b' ∧ Redraws b b' W H 24 (fun x y =>
      if inRect x1 y1 x2 y2 x y ∧ (x : Int) ≠ max x1 x2 then scaled fr fg fb (pix b W H 24 x y)
      else pix b W H 24 x y) := by
  unfold colorfilterto24bitregion
  rw [filterregion24_run h _ hi]
  obtain ⟨b', e, r⟩ := region24 h hi
    (φ := fun _ i c => if i < (max x1 x2 - min x1 x2 + 1).toNat - 1 then scaled fr fg fb c else c)
    (fun k _ => color_maps hr hg hb _ (by omega))
  refine ⟨b', e, r.valid, r.header, ?_⟩
  intro x y hx hy
  rw [r.pixels x y hx hy]
  by_cases c : inRect x1 y1 x2 y2 x y = true
  · rw [if_pos c]
    have c' := c
    unfold inRect at c'
    rw [decide_eq_true_eq] at c'
    by_cases c2 : (x : Int) = max x1 x2
    · rw [if_neg (by omega), if_neg (by tauto)]
    · rw [if_pos (by omega), if_pos ⟨c, c2⟩]
  · rw [if_neg c, if_neg (by tauto)]

/-- C58 for all columns but the last. Missing: the last column of the rectangle. -/
theorem C58_colorfilter_partial {b : Bytes} {W H : Nat} (h : Valid b W H 24) {fr fg fb : Nat → Int} (hr : KeepsByte fr)
    (hg : KeepsByte fg) (hb : KeepsByte fb) {x1 y1 x2 y2 : Int} (hi : InImage W H x1 y1 x2 y2) :
    ∃ b', colorfilterto24bitregion fr fg fb b x1 y1 x2 y2 = .ok b' ∧ Valid b' W H 24 ∧ SameHeader b b' 24 ∧
      ∀ x y, x < W → y < H → (x : Int) ≠ max x1 x2 → pix b' W H 24 x y =
        if inRect x1 y1 x2 y2 x y then scaled fr fg fb (pix b W H 24 x y) else pix b W H 24 x y := by
  obtain ⟨b', e, r⟩ := C58_exact h hr hg hb hi
  refine ⟨b', e, r.valid, r.header, ?_⟩
  intro x y hx hy hne
  rw [r.pixels x y hx hy]
  simp only [hne, ne_eq, not_false_eq_true, and_true]

/-- C58 fails: with all factors 0 the pixels of the last column keep their colour. -/
theorem C58_false : ¬ ∀ (b : Bytes) (W H : Nat), Valid b W H 24 → ∀ fr fg fb : Nat → Int, KeepsByte fr → KeepsByte fg →
    KeepsByte fb → ∀ x1 y1 x2 y2 : Int, InImage W H x1 y1 x2 y2 →
    ∃ b', colorfilterto24bitregion fr fg fb b x1 y1 x2 y2 = .ok b' ∧ Redraws b b' W H 24 (fun x y =>
      if inRect x1 y1 x2 y2 x y then scaled fr fg fb (pix b W H 24 x y) else pix b W H 24 x y) := by
  intro hall
  obtain ⟨b0, e0, v0, _, _, _, _, hz0, _⟩ := C01_newBMP_valid 1 1 24 (by simp [Depth]) (by norm_num) (by norm_num)
  have v := v0.valid_plotP (x := 0) (y := 0) (n := 255) (by omega) (by omega) (by norm_num)
  have k0 : KeepsByte (fun _ => 0) := by intro _ _; constructor <;> norm_num
  have hi : InImage 1 1 0 0 0 0 := by unfold InImage; omega
  obtain ⟨b1, e1, r1⟩ := hall _ _ _ v _ _ _ k0 k0 k0 0 0 0 0 hi
  obtain ⟨b2, e2, r2⟩ := C58_exact v k0 k0 k0 hi
  rw [e1] at e2
  obtain rfl := Except.ok.inj e2
  have h1 := r1.pixels 0 0 (by omega) (by omega)
  have h2 := r2.pixels 0 0 (by omega) (by omega)
  rw [h1] at h2
  rw [if_pos (by decide), if_neg (by simp),
    v0.pix_plotP (by omega) (by omega) (by omega) (by omega) (by norm_num)] at h2
  simp [scaled, rgb] at h2

/-- C58: other depths and rectangles that leave the image are left alone. -/
theorem C58_rejected {b : Bytes} {W H bits : Nat} (h : Valid b W H bits) (fr fg fb : Nat → Int) {x1 y1 x2 y2 : Int}
    (hi : ¬ (bits = 24 ∧ InImage W H x1 y1 x2 y2)) : colorfilterto24bitregion fr fg fb b x1 y1 x2 y2 = .ok b :=
  filterregion24_reject h _ hi

example : (do let b ← newBMP 3 1 24; let b ← plotxybit b 0 0 0x6496c8; let b ← plotxybit b 2 0 0x6496c8
              let b ← colorfilterto24bitregion (fun v => v) (fun _ => 0) (fun v => v / 2) b 0 0 2 0
              pure (← getxybit b 0 0, ← getxybit b 2 0)) = .ok (0x640064, 0x6496c8) := by decide +kernel

/-! ### Brightness -/

/-- The byte nearest to an integer. -/
def nearestByte (v : Int) : Nat := if v < 0 then 0 else if v < 256 then v.toNat else 255

/-- Each channel replaced by the nearest byte to its scaled value. -/
def brightened (f : Nat → Int) (c : Nat) : Nat :=
  rgb (nearestByte (f (redOf c))) (nearestByte (f (greenOf c))) (nearestByte (f (blueOf c)))

theorem bright_maps (f : Nat → Int) (n : Nat) : MapsPx (applybrightnessadjtoBGRbuf f) n (fun _ c => brightened f c) := by
  intro buf hb hl
  have hlt : ∀ v, nearestByte v < 256 := by intro v; unfold nearestByte; split_ifs <;> omega
  have e : applybrightnessadjtoBGRbuf f buf = .ok (buf.map fun v => nearestByte (f v)) := by
    apply mkArray_ok
    · rw [List.map_map, List.map_map]
      apply List.map_congr_left
      intro v _
      simp only [Function.comp_apply, Int.ofNat_eq_natCast, setminmax, nearestByte]
      split_ifs <;> omega
    · intro w hw
      obtain ⟨v, _, rfl⟩ := List.mem_map.mp hw
      exact hlt _
  refine ⟨_, e, by simpa using hl, ?_, ?_⟩
  · intro w hw
    obtain ⟨v, _, rfl⟩ := List.mem_map.mp hw
    exact hlt _
  · intro i hi
    obtain ⟨q1, q2, q3⟩ := bufPx24_channels hb i
    have hm : ∀ j, j < 3 * n → byte (buf.map fun v => nearestByte (f v)) j = nearestByte (f (byte buf j)) := by
      intro j hj
      rw [byte_eq_getElem _ _ (by simp; omega), List.getElem_map, ← byte_eq_getElem]
    unfold brightened
    dsimp only
    rw [q1, q2, q3, bufPx24_rgb, hm _ (by omega), hm _ (by omega), hm _ (by omega)]

/-- C59: exactly the pixels of the rectangle are brightened, each channel limited to 0..255. -/
theorem C59_brightness {b : Bytes} {W H : Nat} (h : Valid b W H 24) (f : Nat → Int) {x1 y1 x2 y2 : Int}
    (hi : InImage W H x1 y1 x2 y2) :
    ∃ b', brightnesseadjto24bitregion f b x1 y1 x2 y2 = .ok b' ∧ Redraws b b' W H 24 (fun x y =>
      if inRect x1 y1 x2 y2 x y then brightened f (pix b W H 24 x y) else pix b W H 24 x y) := by
  unfold brightnesseadjto24bitregion
  rw [filterregion24_run h _ hi]
  exact region24 h hi (φ := fun _ _ c => brightened f c) (fun k _ => bright_maps f _)

example : (do let b ← newBMP 3 1 24; let b ← plotxybit b 0 0 0x6496c8; let b ← plotxybit b 2 0 0x6496c8
              let b ← brightnesseadjto24bitregion (fun v => 2 * v) b 1 0 2 0
              pure (← getxybit b 0 0, ← getxybit b 2 0)) = .ok (0x6496c8, 0xc8ffff) := by decide +kernel

/-- C59: an adjustment that rounds to the same value leaves the picture as it is. -/
theorem C59_identity {b : Bytes} {W H : Nat} (h : Valid b W H 24) {x1 y1 x2 y2 : Int}
    (hi : InImage W H x1 y1 x2 y2) :
    ∃ b', brightnesseadjto24bitregion (fun v => v) b x1 y1 x2 y2 = .ok b' ∧ Redraws b b' W H 24 (pix b W H 24) := by
  obtain ⟨b', e, r⟩ := C59_brightness h (fun v => v) hi
  refine ⟨b', e, r.valid, r.header, ?_⟩
  intro x y hx hy
  rw [r.pixels x y hx hy]
  have hp := h.pix_lt x y
  have key : ∀ c, c < 2 ^ 24 → brightened (fun v => (v : Int)) c = c := by
    intro c hc
    have hn : ∀ v : Nat, v < 256 → nearestByte (v : Int) = v := by
      intro v hv; unfold nearestByte; rw [if_neg (by omega), if_pos (by omega)]; omega
    unfold brightened
    dsimp only
    rw [hn _ (by unfold redOf; omega), hn _ (by unfold greenOf; omega), hn _ (by unfold blueOf; omega)]
    unfold rgb redOf greenOf blueOf
    omega
  rw [key _ hp]
  split_ifs <;> rfl

/-- C59: other depths and rectangles that leave the image are left alone. -/
theorem C59_rejected {b : Bytes} {W H bits : Nat} (h : Valid b W H bits) (f : Nat → Int) {x1 y1 x2 y2 : Int}
    (hi : ¬ (bits = 24 ∧ InImage W H x1 y1 x2 y2)) : brightnesseadjto24bitregion f b x1 y1 x2 y2 = .ok b :=
  filterregion24_reject h _ hi

/-- C60: row `y` of the rectangle is brightened with the factor of pass `bottom - y`. -/
theorem C60_vertgradient_partial {b : Bytes} {W H : Nat} (h : Valid b W H 24) (f : Nat → Nat → Int) {x1 y1 x2 y2 : Int}
    (hi : InImage W H x1 y1 x2 y2) (hy : y1 ≠ y2) :
    ∃ b', verticalbrightnessgradto24bitregion f b x1 y1 x2 y2 = .ok b' ∧ Redraws b b' W H 24 (fun x y =>
      if inRect x1 y1 x2 y2 x y then brightened (f (max y1 y2 - y).toNat) (pix b W H 24 x y)
      else pix b W H 24 x y) := by
  obtain ⟨b', e, r⟩ := region24 h hi (f := fun k => applybrightnessadjtoBGRbuf (f k))
    (φ := fun k _ c => brightened (f k) c) (fun k _ => bright_maps (f k) _)
  refine ⟨b', ?_, r⟩
  unfold verticalbrightnessgradto24bitregion
  rw [(C44_rect_guards h _ x1 y1 x2 y2).2.1.1 ⟨rfl, hi⟩, if_neg (by omega), e]
  rfl

example : (do let b ← newBMP 1 2 24; let b ← plotxybit b 0 0 10; let b ← plotxybit b 0 1 10
              let b ← verticalbrightnessgradto24bitregion (fun k v => (k + 2) * v) b 0 0 0 1
              pure (← getxybit b 0 0, ← getxybit b 0 1)) = .ok (30, 20) := by decide +kernel

/-- C60 fails for a region of one row: the step of the gradient is a division by zero. -/
theorem C60_one_row {b : Bytes} {W H : Nat} (h : Valid b W H 24) (f : Nat → Nat → Int) {x1 y1 x2 y2 : Int}
    (hi : InImage W H x1 y1 x2 y2) (hy : y1 = y2) :
    verticalbrightnessgradto24bitregion f b x1 y1 x2 y2 = .error .zeroDivision := by
  unfold verticalbrightnessgradto24bitregion
  rw [(C44_rect_guards h _ x1 y1 x2 y2).2.1.1 ⟨rfl, hi⟩, if_pos (by omega)]
  rfl

end Verif.Props
