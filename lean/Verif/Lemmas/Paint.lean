import Verif.Lemmas.Stride
import Verif.Props.Pixel
/-! Painting sets of pixels. -/

namespace Verif
open Spec Model Props

theorem Spec.Paints.refl {b : Bytes} {W H bits : Nat} (h : Valid b W H bits) {S : Nat → Nat → Prop} (c : Nat)
    (hS : ∀ x y, x < W → y < H → ¬ S x y) : Paints b b W H bits S c :=
  ⟨h, ⟨rfl, fun _ _ => rfl⟩, fun x y hx hy hs => absurd hs (hS x y hx hy), fun _ _ _ _ _ => rfl⟩

theorem Spec.Paints.trans {b b1 b2 : Bytes} {W H bits : Nat} {S T U : Nat → Nat → Prop} {c : Nat}
    (h1 : Paints b b1 W H bits S c) (h2 : Paints b1 b2 W H bits T c)
    (hU : ∀ x y, x < W → y < H → (U x y ↔ S x y ∨ T x y)) : Paints b b2 W H bits U c := by
  refine ⟨h2.valid, ⟨h2.header.1.trans h1.header.1, fun i hi => (h2.header.2 i hi).trans (h1.header.2 i hi)⟩, ?_, ?_⟩
  · intro x y hx hy hu
    by_cases ht : T x y
    · exact h2.inside x y hx hy ht
    · rw [h2.outside x y hx hy ht]
      exact h1.inside x y hx hy (((hU x y hx hy).mp hu).resolve_right ht)
  · intro x y hx hy hu
    have : ¬ (S x y ∨ T x y) := fun hst => hu ((hU x y hx hy).mpr hst)
    rw [h2.outside x y hx hy (fun t => this (Or.inr t)), h1.outside x y hx hy (fun s => this (Or.inl s))]

theorem Spec.Paints.congr {b b1 : Bytes} {W H bits : Nat} {S T : Nat → Nat → Prop} {c : Nat}
    (h1 : Paints b b1 W H bits S c) (hT : ∀ x y, x < W → y < H → (T x y ↔ S x y)) :
    Paints b b1 W H bits T c :=
  ⟨h1.valid, h1.header, fun x y hx hy t => h1.inside x y hx hy ((hT x y hx hy).mp t),
    fun x y hx hy t => h1.outside x y hx hy (fun s => t ((hT x y hx hy).mpr s))⟩

/-- Plotting at any integer point. -/
theorem plot_paints {b : Bytes} {W H bits : Nat} (h : Valid b W H bits) (x y : Int) {c : Int}
    (hc : bits = 24 → 0 ≤ c ∧ c < 2 ^ 24) :
    ∃ b', plotxybit b x y c = .ok b' ∧
      Paints b b' W H bits (fun x' y' => (x' : Int) = x ∧ (y' : Int) = y) (reduce bits c) := by
  by_cases hin : 0 ≤ x ∧ x < W ∧ 0 ≤ y ∧ y < H
  · obtain ⟨x0, rfl⟩ := Int.eq_ofNat_of_zero_le hin.1
    obtain ⟨y0, rfl⟩ := Int.eq_ofNat_of_zero_le hin.2.2.1
    obtain ⟨b', h1, h2, h3, h4⟩ := plot_spec (c := c) h (x := x0) (y := y0) (by omega) (by omega) hc
    refine ⟨b', h1, h2, h3, ?_, ?_⟩
    · intro x' y' hx hy hs
      rw [h4 x' y' hx hy, if_pos (by omega)]
    · intro x' y' hx hy hs
      rw [h4 x' y' hx hy, if_neg (by omega)]
  · refine ⟨b, (C07_out_of_bounds h (by omega) c).1, Paints.refl h _ ?_⟩
    intro x' y' hx hy; omega

/-- Painting a list of shapes one after the other. -/
theorem foldl_paints {α : Type} {W H bits c : Nat} (f : Bytes → α → Py Bytes) (S : α → Nat → Nat → Prop)
    (l : List α)
    (step : ∀ b, Valid b W H bits → ∀ a ∈ l, ∃ b', f b a = .ok b' ∧ Paints b b' W H bits (S a) c)
    {b : Bytes} (h : Valid b W H bits) :
    ∃ b', l.foldlM f b = .ok b' ∧ Paints b b' W H bits (fun x y => ∃ a ∈ l, S a x y) c := by
  induction l generalizing b with
  | nil => exact ⟨b, rfl, Paints.refl h _ (by simp)⟩
  | cons a l ih =>
    obtain ⟨b1, e1, p1⟩ := step b h a (by simp)
    obtain ⟨b2, e2, p2⟩ := ih (fun b hb a' ha' => step b hb a' (by simp [ha'])) p1.valid
    refine ⟨b2, ?_, p1.trans p2 ?_⟩
    · rw [List.foldlM_cons, e1]; exact e2
    · intro x y _ _; simp

theorem plots_paints {b : Bytes} {W H bits : Nat} (h : Valid b W H bits) (pts : List (Int × Int)) {c : Int}
    (hc : bits = 24 → 0 ≤ c ∧ c < 2 ^ 24) :
    ∃ b', pts.foldlM (fun b p => plotxybit b p.1 p.2 c) b = .ok b' ∧
      Paints b b' W H bits (fun x y => ((x : Int), (y : Int)) ∈ pts) (reduce bits c) := by
  obtain ⟨b', e, p⟩ := foldl_paints (W := W) (H := H) (bits := bits) (c := reduce bits c)
    (fun b (p : Int × Int) => plotxybit b p.1 p.2 c) (fun p x' y' => (x' : Int) = p.1 ∧ (y' : Int) = p.2) pts
    (fun b hb a _ => plot_paints hb a.1 a.2 hc) h
  refine ⟨b', e, p.congr ?_⟩
  intro x y _ _
  constructor
  · intro hm; exact ⟨_, hm, rfl, rfl⟩
  · rintro ⟨⟨a1, a2⟩, hm, rfl, rfl⟩; exact hm

theorem reduce_of_colour {bits : Nat} {c : Int} (hd : Depth bits) (hc : IsColour bits c) :
    reduce bits c = c.toNat := by
  obtain ⟨h0, h1⟩ := hc
  rcases hd with rfl | rfl | rfl | rfl
  · rw [reduce_1]; norm_num at h1; split_ifs <;> omega
  · rw [reduce_4]; norm_num at h1; omega
  · rw [reduce_8]; norm_num at h1; omega
  · exact reduce_24 h0 h1

/-! ### Row buffers in 8- and 24-bit images -/

/-- Bytes per pixel. -/
def bpp (bits : Nat) : Nat := if bits = 24 then 3 else 1

/-- Colour of pixel `i` of a row buffer. -/
def bufPix (bits : Nat) (buf : Bytes) (i : Nat) : Nat :=
  if bits = 24 then byte buf (3 * i) + 256 * byte buf (3 * i + 1) + 65536 * byte buf (3 * i + 2)
  else byte buf i

theorem addr_x {W H bits : Nat} (hb : bits = 8 ∨ bits = 24) (x y : Nat) :
    addr W H bits x y = addr W H bits 0 y + bpp bits * x := by
  rw [addr_same_row]
  unfold bpp
  rcases hb with rfl | rfl
  · rw [if_neg (by omega)]; omega
  · rw [if_pos rfl]; omega

theorem pix_bytes {b : Bytes} {W H bits : Nat} (h : Valid b W H bits) (hb : bits = 8 ∨ bits = 24) (x y : Nat) :
    pix b W H bits x y = if bits = 24 then
      byte b (addr W H bits x y) + 256 * byte b (addr W H bits x y + 1) + 65536 * byte b (addr W H bits x y + 2)
      else byte b (addr W H bits x y) := by
  rw [pix_eq]
  rcases hb with rfl | rfl
  · rw [if_neg (by omega), if_neg (by omega)]
    have : shiftOf 8 x = 0 := by unfold shiftOf; omega
    rw [this]
    have := byte_lt_of_mem h.bytes (addr W H 8 x y)
    omega
  · rfl

/-- Byte positions determine pixel and channel. -/
theorem addr_inj {W H bits x y x' y' t t' : Nat} (hb : bits = 8 ∨ bits = 24) (hx : x < W) (hx' : x' < W)
    (hy : y < H) (hy' : y' < H) (ht : t < bpp bits) (ht' : t' < bpp bits)
    (e : addr W H bits x y + t = addr W H bits x' y' + t') : x = x' ∧ y = y' ∧ t = t' := by
  have hd : Depth bits := by rcases hb with rfl | rfl <;> simp [Depth]
  have hyy : y = y' := by
    by_contra hne
    have := addr_row hd hx hx' hy hy' hne
    unfold bpp at ht ht'
    omega
  subst hyy
  rw [addr_x hb x, addr_x hb x'] at e
  unfold bpp at *
  split_ifs at * <;> omega

theorem addr_le_len {b : Bytes} {W H bits : Nat} (h : Valid b W H bits) (hb : bits = 8 ∨ bits = 24)
    {x n y : Nat} (hx : x + n ≤ W) (hn : 0 < n) (hy : y < H) :
    addr W H bits x y + bpp bits * n ≤ b.length := by
  have ha := addr_lt h (x := x + n - 1) (y := y) (by omega) hy
  rw [addr_x hb] at ha ⊢
  unfold bpp at *
  split_ifs at * <;> omega

/-- A pixel lies within its row. -/
theorem addr_in_row {W H bits x y : Nat} (hd : Depth bits) (hx : x < W) :
    addr W H bits 0 y ≤ addr W H bits x y ∧
      addr W H bits x y + (if bits = 24 then 3 else 1) ≤ addr W H bits 0 y + rowLen W bits := by
  have := xoff_lt hx hd
  rw [addr_same_row W H bits x y]; omega

/-- Different rows do not overlap. -/
theorem row_disj {W H bits y y' : Nat} (hy : y < H) (hy' : y' < H) (h : y ≠ y') :
    addr W H bits 0 y + rowLen W bits ≤ addr W H bits 0 y' ∨
      addr W H bits 0 y' + rowLen W bits ≤ addr W H bits 0 y := by
  unfold addr rel
  by_cases c : H - 1 - y < H - 1 - y'
  · have := row_lt (S := rowLen W bits) c; omega
  · have := row_lt (S := rowLen W bits) (show H - 1 - y' < H - 1 - y by omega); omega

/-- Writing a row buffer. -/
theorem rowbuf_spec {b : Bytes} {W H bits : Nat} (h : Valid b W H bits) (hb : bits = 8 ∨ bits = 24)
    {x1 n y : Nat} (hx : x1 + n ≤ W) (hn : 0 < n) (hy : y < H) {buf : Bytes} (hbuf : ∀ v ∈ buf, v < 256)
    (hlen : buf.length = bpp bits * n) :
    let b' := ow b (addr W H bits x1 y) buf
    Valid b' W H bits ∧ SameHeader b b' bits ∧
    (∀ x' y' t, x' < W → y' < H → t < bpp bits → byte b' (addr W H bits x' y' + t) =
      if y' = y ∧ x1 ≤ x' ∧ x' < x1 + n then byte buf (bpp bits * (x' - x1) + t)
      else byte b (addr W H bits x' y' + t)) ∧
    ∀ x' y', x' < W → y' < H → pix b' W H bits x' y' =
      if y' = y ∧ x1 ≤ x' ∧ x' < x1 + n then bufPix bits buf (x' - x1) else pix b W H bits x' y' := by
  intro b'
  have hfit := addr_le_len h hb hx hn hy
  rw [← hlen] at hfit
  have hge := dataOff_ge bits
  have haddr : dataOff bits ≤ addr W H bits x1 y := by unfold addr; omega
  have hv : Valid b' W H bits := valid_ow h (by omega) hfit hbuf
  have key : ∀ x' y' t, x' < W → y' < H → t < bpp bits → byte b' (addr W H bits x' y' + t) =
      if y' = y ∧ x1 ≤ x' ∧ x' < x1 + n then byte buf (bpp bits * (x' - x1) + t)
      else byte b (addr W H bits x' y' + t) := by
    intro x' y' t hx' hy' ht
    show byte (ow b (addr W H bits x1 y) buf) _ = _
    rw [byte_ow hfit, hlen]
    have hk : bpp bits = 1 ∨ bpp bits = 3 := by unfold bpp; split_ifs <;> simp
    by_cases c : y' = y
    · subst c
      rw [addr_x hb x', addr_x hb x1]
      by_cases c2 : x1 ≤ x' ∧ x' < x1 + n
      · rw [if_pos (by rcases hk with e | e <;> rw [e] at ht ⊢ <;> omega), if_pos ⟨rfl, c2⟩]
        congr 1
        rcases hk with e | e <;> rw [e] at ht ⊢ <;> omega
      · rw [if_neg (by rcases hk with e | e <;> rw [e] at ht ⊢ <;> omega), if_neg (by tauto)]
    · rw [if_neg (c := y' = y ∧ _) (by tauto)]
      rw [if_neg]
      rintro ⟨g1, g2⟩
      have g3 := row_disj (W := W) (H := H) (bits := bits) hy' hy c
      have g5 := addr_in_row (H := H) (y := y') h.depth hx'
      have g6 := addr_in_row (W := W) (H := H) (x := x1 + n - 1) (y := y) h.depth (by omega)
      have g7 := addr_x (W := W) (H := H) hb x1 y
      have g8 := addr_x (W := W) (H := H) hb (x1 + n - 1) y
      have hk' : (if bits = 24 then 3 else 1) = bpp bits := rfl
      rw [hk'] at g5 g6
      rcases hk with e | e <;> rw [e] at ht g2 g5 g6 g7 g8 <;> omega
  refine ⟨hv, ⟨length_ow hfit, ?_⟩, key, ?_⟩
  · intro i hi; show byte (ow b _ buf) i = _; rw [byte_ow hfit, if_neg (by omega)]
  · intro x' y' hx' hy'
    have k0 := key x' y' 0 hx' hy' (by unfold bpp; split_ifs <;> omega)
    rw [Nat.add_zero, Nat.add_zero] at k0
    rw [pix_bytes hv hb, pix_bytes h hb]
    unfold bufPix
    rcases hb with rfl | rfl
    · simp only [show ¬ ((8 : Nat) = 24) by decide, if_false]
      rw [k0]; simp [bpp]
    · have k1 := key x' y' 1 hx' hy' (by unfold bpp; simp)
      have k2 := key x' y' 2 hx' hy' (by unfold bpp; simp)
      rw [if_pos rfl, if_pos rfl, if_pos rfl, k0, k1, k2]
      by_cases c : y' = y ∧ x1 ≤ x' ∧ x' < x1 + n
      · simp only [if_pos c]; simp [bpp]
      · simp only [if_neg c]

/-- Bytes of one pixel. -/
def enc (bits c : Nat) : Bytes := if bits = 24 then [c % 256, c / 256 % 256, c / 65536] else [c]

/-- A run of `n` equal pixels. -/
def run (bits c n : Nat) : Bytes := (List.replicate n (enc bits c)).flatten

theorem length_run (bits c n : Nat) : (run bits c n).length = bpp bits * n := by
  unfold run enc bpp
  split_ifs <;> simp; ring

theorem run_bytes {bits c : Nat} (hb : bits = 8 ∨ bits = 24) (hc : c < 2 ^ bits) (n : Nat) :
    ∀ v ∈ run bits c n, v < 256 := by
  intro v hv
  unfold run at hv
  simp only [List.mem_flatten, List.mem_replicate] at hv
  obtain ⟨l, ⟨_, rfl⟩, hv⟩ := hv
  unfold enc at hv
  rcases hb with rfl | rfl
  · rw [if_neg (by omega)] at hv; simp at hv; norm_num at hc; omega
  · rw [if_pos rfl] at hv; simp at hv; norm_num at hc; omega

theorem byte_flatten_replicate (l : Bytes) (n i t : Nat) (hi : i < n) (ht : t < l.length) :
    byte (List.replicate n l).flatten (l.length * i + t) = byte l t := by
  induction n generalizing i with
  | zero => omega
  | succ n ih =>
    rw [List.replicate_succ, List.flatten_cons, byte_append]
    cases i with
    | zero => simp [ht]
    | succ i =>
      rw [if_neg (by rw [Nat.mul_add]; omega), ← ih i (by omega)]
      congr 1; rw [Nat.mul_add]; omega

theorem bufPix_run {bits c n i : Nat} (hb : bits = 8 ∨ bits = 24) (hi : i < n) :
    bufPix bits (run bits c n) i = c := by
  unfold bufPix run enc
  rcases hb with rfl | rfl
  · rw [if_neg (by omega), if_neg (by omega)]
    have := byte_flatten_replicate [c] n i 0 hi (by simp)
    simp only [List.length_cons, List.length_nil] at this
    rw [show i = (0 + 1) * i + 0 by omega, this]; rfl
  · rw [if_pos rfl, if_pos rfl]
    have k : ∀ t, t < 3 → byte (List.replicate n [c % 256, c / 256 % 256, c / 65536]).flatten (3 * i + t)
        = byte [c % 256, c / 256 % 256, c / 65536] t :=
      fun t ht => byte_flatten_replicate [c % 256, c / 256 % 256, c / 65536] n i t hi ht
    have k0 := k 0 (by omega)
    rw [Nat.add_zero] at k0
    rw [k0, k 1 (by omega), k 2 (by omega)]
    simp [byte]; omega

theorem run_paints {b : Bytes} {W H bits : Nat} (h : Valid b W H bits) (hb : bits = 8 ∨ bits = 24)
    {x1 n y c : Nat} (hx : x1 + n ≤ W) (hn : 0 < n) (hy : y < H) (hc : c < 2 ^ bits) :
    Paints b (ow b (addr W H bits x1 y) (run bits c n)) W H bits
      (fun x' y' => y' = y ∧ x1 ≤ x' ∧ x' < x1 + n) c := by
  obtain ⟨h1, h2, _, h4⟩ := rowbuf_spec h hb hx hn hy (run_bytes hb hc n) (length_run bits c n)
  refine ⟨h1, h2, ?_, ?_⟩
  · intro x' y' hx' hy' hs
    rw [h4 x' y' hx' hy', if_pos hs]
    exact bufPix_run hb (by omega)
  · intro x' y' hx' hy' hs
    rw [h4 x' y' hx' hy', if_neg hs]

theorem setSlice_empty {b : Bytes} {s e : Int} (he : 0 ≤ e) (hs : e ≤ s) : setSlice b s e [] = b := by
  unfold setSlice
  obtain ⟨s', rfl⟩ := Int.eq_ofNat_of_zero_le (show 0 ≤ s by omega)
  obtain ⟨e', rfl⟩ := Int.eq_ofNat_of_zero_le he
  simp only [clampIdx_min rfl]
  rw [max_eq_left (by omega)]
  simp

theorem pyRepeat_run24 {color : Int} (h0 : 0 ≤ color) (h1 : color < 2 ^ 24) (n : Nat) :
    mkArray (pyRepeat [(int2RGB color).2.2, (int2RGB color).2.1, (int2RGB color).1] (n : Int))
      = .ok (run 24 color.toNat n) := by
  obtain ⟨c, rfl⟩ := Int.eq_ofNat_of_zero_le h0
  apply mkArray_ok
  · unfold pyRepeat run enc int2RGB
    simp only [pyAnd_255, pyShr_8, pyShr_16, Int.toNat_natCast, if_true]
    rw [List.map_flatten, List.map_replicate]
    rfl
  · exact run_bytes (Or.inr rfl) (by simpa using h1) n

theorem pyRepeat_run8 (color : Int) (n : Nat) :
    mkArray (pyRepeat [pyAnd color 0xff] (n : Int)) = .ok (run 8 (reduce 8 color) n) := by
  apply mkArray_ok
  · unfold pyRepeat run enc
    rw [pyAnd_255, reduce_8]
    simp only [Int.toNat_natCast, if_neg (show ¬ (8 = 24) by omega)]
    rw [List.map_flatten, List.map_replicate]
    have : [color % 256] = List.map Int.ofNat [(color % 256).toNat] := by simp; omega
    rw [this]
  · exact run_bytes (Or.inl rfl) (reduce_lt color) n

theorem pyRepeat_neg {α : Type} (l : List α) {n : Int} (h : n ≤ 0) : pyRepeat l n = [] := by
  unfold pyRepeat
  rw [show n.toNat = 0 by omega]; rfl

end Verif

/-! ### Column writes -/

namespace Verif
open Spec Model Props

theorem length_writeStride (b : Bytes) (s k : Nat) (buf : Bytes) :
    (writeStride b s k buf).length = b.length := by
  induction buf generalizing b s with
  | nil => rfl
  | cons v vs ih => rw [writeStride, ih]; simp

theorem byte_writeStride_out (b : Bytes) (s k : Nat) (buf : Bytes) (i : Nat)
    (h : ∀ j, j < buf.length → i ≠ s + j * k) : byte (writeStride b s k buf) i = byte b i := by
  induction buf generalizing b s with
  | nil => rfl
  | cons v vs ih =>
    rw [writeStride, ih, byte_set, if_neg]
    · have := h 0 (by simp); omega
    · intro j hj
      have := h (j + 1) (by simp; omega)
      rw [Nat.add_mul] at this; omega

theorem byte_writeStride_in (b : Bytes) (s k : Nat) (buf : Bytes) (hk : 0 < k)
    (hfit : s + (buf.length - 1) * k < b.length) (j : Nat) (hj : j < buf.length) :
    byte (writeStride b s k buf) (s + j * k) = byte buf j := by
  induction buf generalizing b s j with
  | nil => simp at hj
  | cons v vs ih =>
    rw [writeStride]
    simp only [List.length_cons, Nat.add_sub_cancel] at hfit
    cases j with
    | zero =>
      rw [byte_writeStride_out, byte_set, if_pos]
      · simp [byte]
      · have : 0 ≤ vs.length * k := by omega
        constructor <;> omega
      · intro j _
        have := Nat.zero_le (j * k); omega
    | succ j =>
      simp only [List.length_cons] at hj
      have e : s + (j + 1) * k = s + k + j * k := by ring
      have hlen : (vs.length - 1) * k + k = vs.length * k := by
        conv_rhs => rw [show vs.length = (vs.length - 1) + 1 by omega]
        ring
      rw [e, ih (b.set s v) (s + k) (by rw [List.length_set]; omega) j (by omega)]
      rfl

/-- One channel of a column. -/
theorem col_channel {b : Bytes} {W H bits : Nat} (h : Valid b W H bits) (hb : bits = 8 ∨ bits = 24)
    {x lo hi t0 : Nat} (hx : x < W) (hle : lo ≤ hi) (hH : hi < H) (ht0 : t0 < bpp bits) {buf : Bytes}
    (hbuf : ∀ v ∈ buf, v < 256) (hlen : buf.length = hi - lo + 1) :
    let b' := writeStride b (addr W H bits x hi + t0) (rowLen W bits) buf
    Valid b' W H bits ∧ SameHeader b b' bits ∧
    ∀ x' y' t, x' < W → y' < H → t < bpp bits → byte b' (addr W H bits x' y' + t) =
      if x' = x ∧ t = t0 ∧ lo ≤ y' ∧ y' ≤ hi then byte buf (hi - y')
      else byte b (addr W H bits x' y' + t) := by
  intro b'
  have hr := rowLen_pos (bits := bits) (show 0 < W by omega) h.depth
  have hcol := addr_col (W := W) (H := H) (bits := bits) (x := x) hH
  have hlo2 : addr W H bits x lo = addr W H bits x hi + (hi - lo) * rowLen W bits := by
    have := hcol (hi - lo) (by omega)
    rwa [show hi - (hi - lo) = lo by omega] at this
  have ha := addr_lt h hx (y := lo) (by omega)
  have hk' : (if bits = 24 then 3 else 1) = bpp bits := rfl
  rw [hk'] at ha
  have hfit : addr W H bits x hi + t0 + (buf.length - 1) * rowLen W bits < b.length := by
    rw [hlen, Nat.add_sub_cancel]; omega
  have hpos : ∀ j, j < buf.length → addr W H bits x hi + t0 + j * rowLen W bits = addr W H bits x (hi - j) + t0 := by
    intro j hj
    rw [hcol j (by omega)]; omega
  have hge := dataOff_ge bits
  have hout : ∀ i, i < dataOff bits → byte b' i = byte b i := by
    intro i hi'
    apply byte_writeStride_out
    intro j hj
    rw [hpos j hj]; unfold addr; omega
  have hl : b'.length = b.length := length_writeStride _ _ _ _
  have hbytes : ∀ (l : Bytes) (b0 : Bytes) (s : Nat), (∀ v ∈ l, v < 256) → (∀ v ∈ b0, v < 256) →
      ∀ v ∈ writeStride b0 s (rowLen W bits) l, v < 256 := by
    intro l
    induction l with
    | nil => intro b0 s _ hb0; exact hb0
    | cons a l ih =>
      intro b0 s hl hb0
      rw [writeStride]
      apply ih _ _ (fun v hv => hl v (by simp [hv]))
      intro v hv
      rcases List.mem_or_eq_of_mem_set hv with hv | rfl
      · exact hb0 v hv
      · exact hl v (by simp)
  refine ⟨valid_congr h hl (hbytes _ _ _ hbuf h.bytes) (fun i hi => hout i (by omega)), ⟨hl, hout⟩, ?_⟩
  intro x' y' t hx' hy' ht
  by_cases c : x' = x ∧ t = t0 ∧ lo ≤ y' ∧ y' ≤ hi
  · rw [if_pos c]
    obtain ⟨rfl, rfl, c3, c4⟩ := c
    have e := hpos (hi - y') (by omega)
    rw [show hi - (hi - y') = y' by omega] at e
    rw [← e]
    exact byte_writeStride_in _ _ _ _ (by omega) hfit _ (by omega)
  · rw [if_neg c]
    apply byte_writeStride_out
    intro j hj e
    rw [hpos j hj] at e
    obtain ⟨e1, e2, e3⟩ := addr_inj hb hx' hx hy' (by omega) ht ht0 e
    apply c
    refine ⟨e1, e3, by omega, by omega⟩

theorem setSliceStep_ok {b : Bytes} {s e : Int} {n k : Nat} {eN : Nat} {buf : Bytes} (hs : s = n) (he : e = eN)
    (hk : 1 < k) (hm : 0 < buf.length) (h1 : n + (buf.length - 1) * k < eN) (h2 : eN ≤ n + buf.length * k)
    (h3 : n + (buf.length - 1) * k < b.length) :
    setSliceStep b s e k buf = .ok (writeStride b n k buf) := by
  unfold setSliceStep
  rw [if_neg (by omega), if_neg (by omega)]
  have hsn : clampIdx b.length s = n := clampIdx_ok hs (by omega)
  have hc : stepCount n (clampIdx b.length e) k = buf.length := by
    rw [clampIdx_min he]
    exact stepCount_eq (by omega) hm (by omega) (by omega)
  rw [hsn]
  dsimp only
  rw [if_pos hc]

end Verif
