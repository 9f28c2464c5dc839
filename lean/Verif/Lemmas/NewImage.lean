import Verif.Lemmas.Iterate
import Verif.Props.Create
/-! Building a new image: palette copies, whole rows written from a buffer, points plotted one by one. -/

namespace Verif
open Spec Model Props

theorem samePal {b b' : Bytes} {bits : Nat} (h : SameHeader b b' bits) (h24 : bits ≠ 24) {c : Nat}
    (hc : c < 2 ^ bits) : palRGB b' c = palRGB b c := by
  have h2 := h.2
  unfold dataOff palSize at h2
  rw [if_neg h24] at h2
  unfold palRGB
  rw [h2 _ (by omega), h2 _ (by omega), h2 _ (by omega)]

theorem SameHeader.trans {b b' b'' : Bytes} {bits : Nat} (h : SameHeader b b' bits) (h' : SameHeader b' b'' bits) :
    SameHeader b b'' bits := ⟨h'.1.trans h.1, fun i hi => (h'.2 i hi).trans (h.2 i hi)⟩

theorem copyPal {src dst : Bytes} {W H W' H' bits : Nat} (hs : Valid src W H bits) (hd : Valid dst W' H' bits) :
    ∃ d', copyRGBpal src dst = .ok d' ∧ Valid d' W' H' bits ∧
      (bits ≠ 24 → ∀ c < 2 ^ bits, palRGB d' c = palRGB src c) ∧
      ∀ x y, pix d' W' H' bits x y = pix dst W' H' bits x y := by
  have h1 := hs.len
  have h2 := hd.len
  have h54 := dataOff_ge bits
  have hl : (slice src bmppal (dataOff bits : Int)).length = dataOff bits - 54 :=
    length_slice_ok (n := 54) rfl rfl (by omega) h54
  have hb : ∀ i, byte (slice src bmppal (dataOff bits : Int)) i = if i < dataOff bits - 54 then byte src (54 + i) else 0 :=
    fun i => byte_slice_ok (n := 54) rfl rfl (by omega) h54 i
  have hbytes : ∀ v ∈ slice src bmppal (dataOff bits : Int), v < 256 := by
    apply mem_lt_of_byte
    intro i _
    rw [hb]
    split_ifs
    · exact byte_lt_of_mem hs.bytes _
    · omega
  have hfit : 54 + (slice src bmppal (dataOff bits : Int)).length ≤ dst.length := by rw [hl]; omega
  refine ⟨ow dst 54 (slice src bmppal (dataOff bits : Int)), ?_, valid_ow hd (le_refl _) hfit hbytes, ?_, ?_⟩
  · unfold copyRGBpal
    rw [hs.hdsz_eq]
    simp only [ok_bind, pure_eq_ok]
    exact congrArg _ (setSlice_ok (n := 54) rfl (by rw [hl]; omega) hfit)
  · intro h24 c hc
    have hp := hs.pal_fits h24 hc
    unfold palRGB
    simp only [byte_ow hfit, hl]
    rw [if_pos (by omega), if_pos (by omega), if_pos (by omega), hb, hb, hb, if_pos (by omega), if_pos (by omega),
      if_pos (by omega)]
    rw [show 54 + (54 + 4 * c + 2 - 54) = 54 + 4 * c + 2 by omega, show 54 + (54 + 4 * c + 1 - 54) = 54 + 4 * c + 1 by omega,
      show 54 + (54 + 4 * c - 54) = 54 + 4 * c by omega]
  · intro x y
    have ho : ∀ i, dataOff bits ≤ i → byte (ow dst 54 (slice src bmppal (dataOff bits : Int))) i = byte dst i := by
      intro i hi
      rw [byte_ow hfit, hl, if_neg (by omega)]
    unfold pix
    dsimp only
    split_ifs with h24
    · rw [ho _ (by omega), ho _ (by omega), ho _ (by omega)]
    · rw [ho _ (by omega)]

/-- Pixel `i` of a row buffer. -/
def bufPx (bits : Nat) (buf : Bytes) (i : Nat) : Nat :=
  if bits = 24 then byte buf (3 * i) + 256 * byte buf (3 * i + 1) + 65536 * byte buf (3 * i + 2)
  else byte buf (i * bits / 8) / 2 ^ shiftOf bits i % 2 ^ bits

/-- A buffer that covers the first `n` pixels of a row is written to row `y`. -/
theorem put_row_part {b : Bytes} {W H bits : Nat} (h : Valid b W H bits) {y n : Nat} {buf : Bytes} (hy : y < H)
    (hb : ∀ v ∈ buf, v < 256) (hj : buf.length ≤ rowLen W bits)
    (hcov : ∀ x, x < W → x < n → x * bits / 8 + bpp bits ≤ buf.length)
    (hnot : ∀ x, x < W → n ≤ x → buf.length ≤ x * bits / 8) :
    ∃ b', BMPbitBLTput b (((H - 1 - y) * rowLen W bits : Nat) : Int) buf = .ok b' ∧ Valid b' W H bits ∧
      SameHeader b b' bits ∧
      ∀ x' y', x' < W → y' < H → pix b' W H bits x' y' =
        if y' = y ∧ x' < n then bufPx bits buf x' else pix b W H bits x' y' := by
  obtain ⟨b', e, g⟩ := put_seg h hy hb (j := 0) (by omega)
  rw [Nat.add_zero] at e
  refine ⟨b', e, g.valid, g.header, ?_⟩
  intro x' y' hx' hy'
  have hc := hcov x' hx'
  have hn := hnot x' hx'
  have hle := xcell_lt h.depth hx'
  rw [pix_cell, pix_cell]
  unfold bufPx
  unfold bpp at hc hle
  by_cases h24 : bits = 24
  · subst h24
    simp only [if_true] at hc hle ⊢
    rw [show x' * 24 / 8 = 3 * x' by omega] at hc hle hn
    rw [g.cells y' (3 * x') hy' (by omega), g.cells y' (3 * x' + 1) hy' (by omega), g.cells y' (3 * x' + 2) hy' (by omega)]
    by_cases he : y' = y ∧ x' < n
    · have := hc he.2
      rw [if_pos (by omega), if_pos (by omega), if_pos (by omega), if_pos he]; rfl
    · by_cases hxn : x' < n
      · rw [if_neg (by omega), if_neg (by omega), if_neg (by omega), if_neg he]
      · have := hn (by omega)
        rw [if_neg (by omega), if_neg (by omega), if_neg (by omega), if_neg he]
  · simp only [if_neg h24] at hc hle ⊢
    rw [g.cells y' (x' * bits / 8) hy' (by omega)]
    by_cases he : y' = y ∧ x' < n
    · have := hc he.2
      rw [if_pos (by omega), if_pos he]; rfl
    · by_cases hxn : x' < n
      · rw [if_neg (by omega), if_neg he]
      · have := hn (by omega)
        rw [if_neg (by omega), if_neg he]

/-- The bytes of a source row from an aligned column on show its pixels. -/
theorem bufPx_seg {b : Bytes} {W H bits : Nat} (hd : Depth bits) {y xa L x : Nat} (ha : xa * bits % 8 = 0)
    (hL : x * bits / 8 + bpp bits ≤ L) :
    bufPx bits (seg b W H bits y (xa * bits / 8) L) x = pix b W H bits (xa + x) y := by
  unfold bufPx
  rw [pix_cell]
  unfold bpp at hL
  by_cases h24 : bits = 24
  · subst h24
    simp only [if_true] at hL ⊢
    rw [byte_seg _ _ _ _ _ _ (by omega), byte_seg _ _ _ _ _ _ (by omega), byte_seg _ _ _ _ _ _ (by omega)]
    rw [show xa * 24 / 8 + 3 * x = 3 * (xa + x) by omega, show xa * 24 / 8 + (3 * x + 1) = 3 * (xa + x) + 1 by omega,
      show xa * 24 / 8 + (3 * x + 2) = 3 * (xa + x) + 2 by omega]
  · simp only [if_neg h24] at hL ⊢
    rw [byte_seg _ _ _ _ _ _ (by omega)]
    have e1 : xa * bits / 8 + x * bits / 8 = (xa + x) * bits / 8 := by rw [Nat.add_mul]; omega
    have e2 : shiftOf bits (xa + x) = shiftOf bits x := by
      unfold shiftOf; rw [Nat.add_mul]
      have : (xa * bits + x * bits) % 8 = x * bits % 8 := by omega
      rw [this]
    rw [e1, e2]

/-- Plotting points one after another in colours that depend on the point only. -/
theorem foldl_plot {α : Type} {W H bits : Nat} (f : Bytes → α → Py Bytes) (l : List α) (px py c : α → Nat)
    (g : Nat → Nat → Nat)
    (hl : ∀ a ∈ l, px a < W ∧ py a < H ∧ c a < 2 ^ bits ∧ g (px a) (py a) = c a)
    (step : ∀ b, Valid b W H bits → ∀ a ∈ l, f b a = .ok (plotP b W H bits (px a) (py a) (c a)))
    {b : Bytes} (h : Valid b W H bits) :
    ∃ b', l.foldlM f b = .ok b' ∧ Valid b' W H bits ∧ SameHeader b b' bits ∧
      ∀ x y : Nat, x < W → y < H →
        ((∃ a ∈ l, px a = x ∧ py a = y) → pix b' W H bits x y = g x y) ∧
        ((¬ ∃ a ∈ l, px a = x ∧ py a = y) → pix b' W H bits x y = pix b W H bits x y) := by
  induction l generalizing b with
  | nil => exact ⟨b, rfl, h, ⟨rfl, fun _ _ => rfl⟩, by simp⟩
  | cons p l ih =>
    obtain ⟨hx0, hy0, hc, hg⟩ := hl p (by simp)
    have e := step b h p (by simp)
    have hv := h.valid_plotP hx0 hy0 hc
    obtain ⟨b', e', v', s', p'⟩ := ih (fun q hq => hl q (by simp [hq])) (fun b hb a ha => step b hb a (by simp [ha])) hv
    refine ⟨b', ?_, v', ?_, ?_⟩
    · rw [List.foldlM_cons, e]; exact e'
    · refine ⟨s'.1.trans (h.length_plotP hx0 hy0), fun i hi => (s'.2 i hi).trans ?_⟩
      apply h.byte_plotP_outside hx0 hy0
      left
      unfold addr; omega
    · intro x y hx hy
      obtain ⟨q1, q2⟩ := p' x y hx hy
      have hp := h.pix_plotP hx0 hy0 hx hy hc
      by_cases hin : ∃ a ∈ l, px a = x ∧ py a = y
      · refine ⟨fun _ => q1 hin, fun hn => absurd ?_ hn⟩
        obtain ⟨a, ha, e⟩ := hin
        exact ⟨a, by simp [ha], e⟩
      · by_cases e0 : x = px p ∧ y = py p
        · refine ⟨fun _ => ?_, fun hn => absurd ⟨p, by simp, e0.1.symm, e0.2.symm⟩ hn⟩
          rw [q2 hin, hp, if_pos e0, e0.1, e0.2, hg]
        · have hno : ¬ ∃ a ∈ p :: l, px a = x ∧ py a = y := by
            rintro ⟨a, ha, e1, e2⟩
            rcases List.mem_cons.mp ha with rfl | ha
            · exact e0 ⟨e1.symm, e2.symm⟩
            · exact hin ⟨a, ha, e1, e2⟩
          refine ⟨fun hy => absurd hy hno, fun _ => ?_⟩
          rw [q2 hin, hp, if_neg e0]

/-- Writing rows from the bottom up: `k` rows done, the others as in `n0`. -/
structure RowsDone (n0 b : Bytes) (W H bits k : Nat) (g : Nat → Nat → Nat) : Prop where
  valid : Valid b W H bits
  header : SameHeader n0 b bits
  rows : ∀ x y, x < W → y < H → H - k ≤ y → pix b W H bits x y = g x y
  rest : ∀ x y, x < W → y < H → y < H - k → pix b W H bits x y = pix n0 W H bits x y

theorem RowsDone.start {n0 : Bytes} {W H bits : Nat} (h : Valid n0 W H bits) (g : Nat → Nat → Nat) :
    RowsDone n0 n0 W H bits 0 g := ⟨h, ⟨rfl, fun _ _ => rfl⟩, fun _ _ _ hy hk => by omega, fun _ _ _ _ _ => rfl⟩

/-- One more row, of which the first `n` pixels are written. -/
theorem RowsDone.step_part {n0 b : Bytes} {W H bits k n : Nat} {g : Nat → Nat → Nat} (h : RowsDone n0 b W H bits k g)
    (hk : k < H) {buf : Bytes} (hb : ∀ v ∈ buf, v < 256) (hj : buf.length ≤ rowLen W bits)
    (hcov : ∀ x, x < W → x < n → x * bits / 8 + bpp bits ≤ buf.length)
    (hnot : ∀ x, x < W → n ≤ x → buf.length ≤ x * bits / 8)
    (hg : ∀ x, x < W → x < n → bufPx bits buf x = g x (H - 1 - k))
    (hg' : ∀ x, x < W → n ≤ x → pix n0 W H bits x (H - 1 - k) = g x (H - 1 - k)) :
    ∃ b', BMPbitBLTput b ((k * rowLen W bits : Nat) : Int) buf = .ok b' ∧ RowsDone n0 b' W H bits (k + 1) g := by
  obtain ⟨b', e, v', s', p'⟩ := put_row_part h.valid (y := H - 1 - k) (n := n) (by omega) hb hj hcov hnot
  rw [show H - 1 - (H - 1 - k) = k by omega] at e
  refine ⟨b', e, v', SameHeader.trans h.header s', ?_, ?_⟩
  · intro x y hx hy hky
    rw [p' x y hx hy]
    by_cases he : y = H - 1 - k
    · subst he
      by_cases hxn : x < n
      · rw [if_pos ⟨rfl, hxn⟩]; exact hg x hx hxn
      · rw [if_neg (by omega), h.rest x _ hx hy (by omega)]
        exact hg' x hx (by omega)
    · rw [if_neg (by omega)]; exact h.rows x y hx hy (by omega)
  · intro x y hx hy hky
    rw [p' x y hx hy, if_neg (by omega)]
    exact h.rest x y hx hy (by omega)

/-- One more row. -/
theorem RowsDone.step {n0 b : Bytes} {W H bits k : Nat} {g : Nat → Nat → Nat} (h : RowsDone n0 b W H bits k g)
    (hk : k < H) {buf : Bytes} (hb : ∀ v ∈ buf, v < 256) (hj : buf.length ≤ rowLen W bits)
    (hcov : ∀ x, x < W → x * bits / 8 + bpp bits ≤ buf.length) (hg : ∀ x, x < W → bufPx bits buf x = g x (H - 1 - k)) :
    ∃ b', BMPbitBLTput b ((k * rowLen W bits : Nat) : Int) buf = .ok b' ∧ RowsDone n0 b' W H bits (k + 1) g :=
  h.step_part (n := W) hk hb hj (fun x hx _ => hcov x hx) (fun x hx hn => by omega) (fun x hx _ => hg x hx)
    (fun x hx hn => by omega)

/-- An empty buffer changes nothing at any position in the pixel data. -/
theorem put_nil {b : Bytes} {W H bits : Nat} (h : Valid b W H bits) {k : Nat} (hk : k ≤ H * rowLen W bits) :
    BMPbitBLTput b (k : Int) [] = .ok b := by
  have hl := h.len
  unfold BMPbitBLTput
  rw [h.hdsz_eq, h.flsz_eq]
  simp only [ok_bind, List.length_nil]
  rw [if_pos (by omega), if_pos (by omega), setSlice_empty (by omega) (by omega)]
  rfl

/-- The `for` loop over `itercopyrect` for the whole image: one round for each row, from the bottom
up, with the whole bytes of the row, and one more round with an empty buffer if the row ends inside a byte. -/
theorem itercopyimage_rule {σ : Type} {src : σ → Bytes} {st : σ} {W H bits : Nat} (h : Valid (src st) W H bits)
    (hW : 0 < W) (hH : 0 < H) {body : σ → Bytes → Py σ} {P : Nat → σ → Prop} (h0 : P 0 st)
    (step : ∀ k s, k < H → P k s → Valid (src s) W H bits ∧
      ∃ s', body s (seg (src s) W H bits (H - 1 - k) 0 (W * bits / 8)) = .ok s' ∧ P (k + 1) s')
    (extra : W * bits % 8 ≠ 0 → ∀ s, P H s → Valid (src s) W H bits ∧ ∃ s', body s [] = .ok s' ∧ P (H + 1) s') :
    ∃ s', foritercopyrect src st 0 0 ((W : Int) - 1) ((H : Int) - 1) body = .ok s' ∧
      P (if W * bits % 8 = 0 then H else H + 1) s' := by
  unfold foritercopyrect
  rw [rectinboundary_eq h, if_pos (by omega), sortrec_eq, show min 0 ((W : Int) - 1) = ((0 : Nat) : Int) by omega,
    show max 0 ((W : Int) - 1) = ((W - 1 : Nat) : Int) by omega, show min 0 ((H : Int) - 1) = ((0 : Nat) : Int) by omega,
    show max 0 ((H : Int) - 1) = ((H - 1 : Nat) : Int) by omega]
  dsimp only
  rw [adjustx h (by omega), h.xchrcnt_eq, h.BMoffset_eq _ _ (show H - 1 < H by omega), h.BMoffset_eq _ _ hH]
  simp only [ok_bind]
  rw [show W - 1 - 0 + 1 = W by omega]
  have e0 : rel W H bits 0 (H - 1) = 0 := by unfold rel; simp
  have e1 : rel W H bits (W - 1) 0 + rowLen W bits = H * rowLen W bits + (W - 1) * bits / 8 := by
    unfold rel
    have : (H - 1) * rowLen W bits + rowLen W bits = H * rowLen W bits := by
      rw [← Nat.succ_mul]; congr 1; omega
    rw [← this, Nat.sub_zero]; omega
  have hRp := rowLen_pos hW h.depth
  have hL : W * bits / 8 ≤ rowLen W bits := by
    unfold rowLen; rcases h.depth with rfl | rfl | rfl | rfl <;> omega
  have hlast : (W - 1) * bits / 8 < rowLen W bits := by
    unfold rowLen; rcases h.depth with rfl | rfl | rfl | rfl <;> omega
  have hJL : W * bits / 8 < rowLen W bits + (W - 1) * bits / 8 := by
    unfold rowLen; rcases h.depth with rfl | rfl | rfl | rfl <;> omega
  have hal : (W * bits % 8 = 0 → (W - 1) * bits / 8 < W * bits / 8) ∧
      (W * bits % 8 ≠ 0 → (W - 1) * bits / 8 = W * bits / 8) := by
    rcases h.depth with rfl | rfl | rfl | rfl <;> omega
  rw [e0, show (rel W H bits (W - 1) 0 : Int) + (rowLen W bits : Int) = ((H * rowLen W bits + (W - 1) * bits / 8 : Nat) : Int) by
    rw [← e1]; push_cast; rfl]
  have hbuf : ∀ s, Valid (src s) W H bits → ∀ k, k < H → BMPbitBLTget (src s) ((k * rowLen W bits : Nat) : Int) ((W * bits / 8 : Nat) : Int)
      = .ok (seg (src s) W H bits (H - 1 - k) 0 (W * bits / 8)) := by
    intro s hv k hk
    rcases Nat.eq_zero_or_pos (W * bits / 8) with hz | hp
    · rw [hz]
      unfold BMPbitBLTget
      rw [hv.hdsz_eq]
      simp only [ok_bind]
      rw [if_neg (by omega)]; rfl
    · have := get_seg hv (y := H - 1 - k) (j := 0) (L := W * bits / 8) (by omega) (by omega) hp
      rwa [show H - 1 - (H - 1 - k) = k by omega, Nat.add_zero] at this
  have hbufx : ∀ s, Valid (src s) W H bits → BMPbitBLTget (src s) ((H * rowLen W bits : Nat) : Int) ((W * bits / 8 : Nat) : Int)
      = .ok [] := by
    intro s hv
    have := hv.len
    unfold BMPbitBLTget
    rw [hv.hdsz_eq, hv.flsz_eq]
    simp only [ok_bind]
    by_cases hz : W * bits / 8 = 0
    · rw [if_neg (by omega)]; rfl
    · rw [if_pos (by omega), if_neg (by omega)]; rfl
  generalize W * bits / 8 = L at *
  generalize (W - 1) * bits / 8 = J at *
  generalize rowLen W bits = R at *
  have key : ∀ m k s n, m + k = H → m + 1 ≤ n → P k s →
      ∃ s', copyrectLoop src body (L : Int) ((H * R + J : Nat) : Int) (R : Int) n s ((k * R : Nat) : Int) = .ok s' ∧
        P (if W * bits % 8 = 0 then H else H + 1) s' := by
    intro m
    induction m with
    | zero =>
      intro k s n hk hn hp
      obtain rfl : k = H := by omega
      obtain ⟨n, rfl⟩ : ∃ n', n = n' + 1 := ⟨n - 1, by omega⟩
      rw [copyrectLoop]
      by_cases ha : W * bits % 8 = 0
      · rw [if_neg (by have := hal.1 ha; omega), if_pos ha]
        exact ⟨s, rfl, hp⟩
      · have := hal.2 ha
        obtain ⟨hv, s', e, hp'⟩ := extra ha s hp
        rw [if_pos (by omega), if_neg ha, hbufx s hv]
        simp only [ok_bind]
        rw [e]
        simp only [ok_bind]
        refine ⟨s', ?_, hp'⟩
        cases n with
        | zero => rfl
        | succ n => rw [copyrectLoop, if_neg (by omega)]; rfl
    | succ m ih =>
      intro k s n hk hn hp
      obtain ⟨n, rfl⟩ : ∃ n', n = n' + 1 := ⟨n - 1, by omega⟩
      have hkr := row_lt (S := R) (show k < H by omega)
      obtain ⟨hv, s', e, hp'⟩ := step k s (by omega) hp
      rw [copyrectLoop, if_pos (by omega), hbuf s hv k (by omega)]
      simp only [ok_bind]
      rw [e]
      simp only [ok_bind]
      obtain ⟨s2, e2, hp2⟩ := ih (k + 1) s' n (by omega) (by omega) hp'
      refine ⟨s2, ?_, hp2⟩
      rw [← e2]
      congr 1
      push_cast; ring
  have hH1 : H * 1 ≤ H * R := Nat.mul_le_mul_left _ (by omega)
  have hHR : R + (H - 1) * 4 ≤ H * R := by
    have h1 : (H - 1) * 4 ≤ (H - 1) * R := Nat.mul_le_mul_left _ hRp
    have h2 : (H - 1) * R + R = H * R := by rw [← Nat.succ_mul]; congr 1; omega
    omega
  obtain ⟨s', e, hp⟩ := key H 0 st (((H * R + J : Nat) : Int) - ((0 : Nat) : Int) - (L : Int) + 1).toNat (by omega) (by omega) h0
  refine ⟨s', ?_, hp⟩
  rw [Nat.zero_mul] at e
  rw [e]
  rfl

end Verif
