import Verif.Model.Gradient
import Verif.Props.Pals
import Verif.Props.Guards
import Verif.Props.Strokes
import Verif.Props.Thick
import Verif.Props.Ellipse
import Verif.Props.Files
/-! C131 to C133: gradients. -/

namespace Verif.Props.Gradient
open Verif Spec Model Verif.Props Verif.Props.Pals

/-! ### Levels and colours -/

/-- `n` is the integer part of `q`, up to the rounding of floats. -/
def Part (q : ℚ) (n : Int) : Prop := 0 ≤ n ∧ n ≤ 255 ∧ |(n : ℚ) + 1 / 2 - q| ≤ 1 / 2 + 1 / 2 ^ 38

/-- `n` is nearest to `q`, up to the rounding of floats. -/
def Round (q : ℚ) (n : Int) : Prop := 0 ≤ n ∧ n ≤ 255 ∧ |(n : ℚ) - q| ≤ 1 / 2 + 1 / 2 ^ 38

/-- The value `i` of `n` steps from `a` to `b`. -/
def level (a b : ℚ) (i n : Int) : ℚ := a + (b - a) * i / n

/-- The colour `p` has the shares `f` of the brightness `l`. -/
def Mixed (f : ℚ × ℚ × ℚ) (l : ℚ) (p : RGB) : Prop := Part (f.1 * l) p.1 ∧ Part (f.2.1 * l) p.2.1 ∧ Part (f.2.2 * l) p.2.2

/-- The palette of a file. -/
def palette (b : Bytes) (bits : Nat) : List RGB := (List.range (2 ^ bits)).map fun c => rgbI (palRGB b c)

/-- The pixel value `k` shows the colour `p`: itself in true colour, otherwise the nearest entry of the palette that
is not black. -/
def Shown (b : Bytes) (bits : Nat) (p : RGB) (k : Nat) : Prop :=
  (bits = 24 ∧ (k : Int) = p.2.2 + 256 * p.2.1 + 65536 * p.1) ∨ (bits ≠ 24 ∧ NearestNotBlack (palette b bits) p k)

theorem fl_close {q M : ℚ} (h : |q| ≤ M) : |fl q - q| ≤ M / 2 ^ 53 :=
  (fl_err q).trans (by gcongr)

theorem trunc_near {v m : ℚ} (h0 : 0 ≤ m) (h1 : m ≤ 255) (h : |v - m| ≤ 1 / 2 ^ 38) : Part m (trunc v) := by
  rw [abs_le] at h
  have he : (1 : ℚ) / 2 ^ 38 < 1 / 2 := by norm_num
  unfold Part trunc
  by_cases hv : 0 ≤ v
  · rw [if_pos hv]
    have f1 := Int.floor_le v
    have f2 := Int.lt_floor_add_one v
    refine ⟨Int.floor_nonneg.mpr hv, ?_, ?_⟩
    · have : ⌊v⌋ < 256 := by rw [Int.floor_lt]; push_cast; linarith
      omega
    · rw [abs_le]; constructor <;> linarith
  · rw [if_neg hv]
    have : ⌊-v⌋ = 0 := by rw [Int.floor_eq_zero_iff]; constructor <;> linarith
    rw [this]
    refine ⟨by norm_num, by norm_num, ?_⟩
    rw [abs_le]; push_cast; constructor <;> linarith

theorem round_near {v m : ℚ} (h0 : 0 ≤ m) (h1 : m ≤ 255) (h : |v - m| ≤ 1 / 2 ^ 38) : Round m (rnd v) := by
  have hr := rnd_near v
  have he : (1 : ℚ) / 2 ^ 38 < 1 / 2 := by norm_num
  have hb : |(rnd v : ℚ) - m| ≤ 1 / 2 + 1 / 2 ^ 38 := by
    rw [abs_le] at *
    constructor <;> linarith
  rw [abs_le] at hb
  refine ⟨?_, ?_, by rw [abs_le]; exact hb⟩
  · have : (-1 : ℚ) < (rnd v : ℚ) := by linarith
    have : (-1 : Int) < rnd v := by exact_mod_cast this
    omega
  · have : (rnd v : ℚ) < 256 := by linarith
    have : rnd v < 256 := by exact_mod_cast this
    omega

theorem lerp_near {a b t f : ℚ} (ha : 0 ≤ a ∧ a ≤ 255) (hb : 0 ≤ b ∧ b ≤ 255) (hf : 0 ≤ f ∧ f ≤ 1)
    (hft : |f - t| ≤ 1 / 2 ^ 53) : |lerpF a b f - (a + (b - a) * t)| ≤ 1 / 2 ^ 40 := by
  unfold lerpF
  have u1 := fl_close (q := 1 - f) (M := 1) (by rw [abs_le]; constructor <;> linarith)
  generalize fl (1 - f) = u at *
  rw [abs_le] at u1 hft
  have hu : |u * a| ≤ 256 := by
    rw [abs_le]
    have : 1 / (2 : ℚ) ^ 53 ≤ 1 / 2 ^ 10 := by norm_num
    constructor <;> nlinarith
  have u2 := fl_close hu
  generalize fl (u * a) = w at *
  have hv : |f * b| ≤ 256 := by rw [abs_le]; constructor <;> nlinarith
  have v1 := fl_close hv
  generalize fl (f * b) = z at *
  rw [abs_le] at u2 v1 hu hv
  have hs : |w + z| ≤ 1024 := by
    rw [abs_le]
    have : 256 / (2 : ℚ) ^ 53 ≤ 1 := by norm_num
    constructor <;> linarith
  have s1 := fl_close hs
  generalize fl (w + z) = s at *
  rw [abs_le] at s1
  have m1 : |u * a - (1 - f) * a| ≤ 255 / 2 ^ 53 := by
    rw [← sub_mul, abs_mul, abs_of_nonneg ha.1]
    have : |u - (1 - f)| ≤ 1 / 2 ^ 53 := by rw [abs_le]; exact u1
    calc |u - (1 - f)| * a ≤ 1 / 2 ^ 53 * 255 := mul_le_mul this ha.2 ha.1 (by positivity)
      _ = _ := by ring
  have m2 : |(f - t) * (b - a)| ≤ 255 / 2 ^ 53 := by
    rw [abs_mul]
    have h1 : |f - t| ≤ 1 / 2 ^ 53 := by rw [abs_le]; exact hft
    have h2 : |b - a| ≤ 255 := by rw [abs_le]; constructor <;> linarith
    calc |f - t| * |b - a| ≤ 1 / 2 ^ 53 * 255 := mul_le_mul h1 h2 (abs_nonneg _) (by positivity)
      _ = _ := by ring
  rw [abs_le] at *
  have e : s - (a + (b - a) * t)
      = (s - (w + z)) + (w - u * a) + (z - f * b) + (u * a - (1 - f) * a) + (f - t) * (b - a) := by ring
  rw [e]
  have hn : (1024 : ℚ) / 2 ^ 53 + 256 / 2 ^ 53 + 256 / 2 ^ 53 + 255 / 2 ^ 53 + 255 / 2 ^ 53 ≤ 1 / 2 ^ 40 := by norm_num
  constructor <;> linarith

theorem share_near {i n : Int} (h0 : 0 ≤ i) (h1 : i ≤ n) (hn : 0 < n) :
    (0 ≤ fl ((i : ℚ) / n) ∧ fl ((i : ℚ) / n) ≤ 1) ∧ |fl ((i : ℚ) / n) - (i : ℚ) / n| ≤ 1 / 2 ^ 53 := by
  have hq : (0 : ℚ) < n := by exact_mod_cast hn
  have a0 : (0 : ℚ) ≤ (i : ℚ) / n := div_nonneg (by exact_mod_cast h0) hq.le
  have a1 : (i : ℚ) / n ≤ 1 := by rw [div_le_one hq]; exact_mod_cast h1
  refine ⟨⟨fl_nonneg a0, ?_⟩, fl_close (by rw [abs_of_nonneg a0]; exact a1)⟩
  have := fl_le_of_int (k := 1) (by norm_num) a0 (by exact_mod_cast a1)
  simpa using this

theorem level_range {a b : ℚ} (ha : 0 ≤ a ∧ a ≤ 255) (hb : 0 ≤ b ∧ b ≤ 255) {i n : Int} (h0 : 0 ≤ i) (h1 : i ≤ n) (hn : 0 < n) :
    0 ≤ level a b i n ∧ level a b i n ≤ 255 := by
  have hq : (0 : ℚ) < n := by exact_mod_cast hn
  have a0 : (0 : ℚ) ≤ (i : ℚ) / n := div_nonneg (by exact_mod_cast h0) hq.le
  have a1 : (i : ℚ) / n ≤ 1 := by rw [div_le_one hq]; exact_mod_cast h1
  unfold level
  rw [mul_div_assoc]
  generalize (i : ℚ) / n = t at *
  constructor <;> nlinarith

/-- A brightness. -/
def Lum (l : Int × Int) : Prop := (0 ≤ l.1 ∧ l.1 ≤ 255) ∧ (0 ≤ l.2 ∧ l.2 ≤ 255)

theorem Lum.q {l : Int × Int} (h : Lum l) : (0 ≤ (l.1 : ℚ) ∧ (l.1 : ℚ) ≤ 255) ∧ (0 ≤ (l.2 : ℚ) ∧ (l.2 : ℚ) ≤ 255) := by
  obtain ⟨⟨a, b⟩, c, d⟩ := h
  exact ⟨⟨by exact_mod_cast a, by exact_mod_cast b⟩, by exact_mod_cast c, by exact_mod_cast d⟩

theorem blend_near {l : Int × Int} (h : Lum l) {i n : Int} (h0 : 0 ≤ i) (h1 : i ≤ n) (hn : 0 < n) :
    |lerpF l.1 l.2 (fl ((i : ℚ) / n)) - level l.1 l.2 i n| ≤ 1 / 2 ^ 40 := by
  obtain ⟨s1, s2⟩ := share_near h0 h1 hn
  have := lerp_near h.q.1 h.q.2 s1 s2
  unfold level
  rw [mul_div_assoc]
  exact this

theorem lumBlend_part {l : Int × Int} (h : Lum l) {i n : Int} (h0 : 0 ≤ i) (h1 : i ≤ n) (hn : 0 < n) :
    Part (level l.1 l.2 i n) (lumBlend lerpF l i n) := by
  obtain ⟨r0, r1⟩ := level_range h.q.1 h.q.2 h0 h1 hn
  exact trunc_near r0 r1 ((blend_near h h0 h1 hn).trans (by norm_num))

theorem lumStep_part {l : Int × Int} (h : Lum l) {i n : Int} (h0 : 0 ≤ i) (h1 : i ≤ n) (hn : 0 < n) :
    Part (level l.1 l.2 i n) (lumStep l i n) := by
  obtain ⟨r0, r1⟩ := level_range h.q.1 h.q.2 h0 h1 hn
  refine trunc_near r0 r1 ?_
  have hq : (0 : ℚ) < n := by exact_mod_cast hn
  have a0 : (0 : ℚ) ≤ (i : ℚ) / n := div_nonneg (by exact_mod_cast h0) hq.le
  have a1 : (i : ℚ) / n ≤ 1 := by rw [div_le_one hq]; exact_mod_cast h1
  have hl := h.q
  have e : (((l.2 - l.1) * i : Int) : ℚ) / n = ((l.2 : ℚ) - l.1) * i / n := by push_cast; ring
  have hb : |((l.2 : ℚ) - l.1) * i / n| ≤ 255 := by
    rw [mul_div_assoc]
    generalize (i : ℚ) / n = t at *
    rw [abs_le]; constructor <;> nlinarith
  rw [e]
  unfold level
  have c1 := fl_close hb
  generalize ((l.2 : ℚ) - l.1) * i / n = w at *
  generalize fl w = v at *
  rw [abs_le] at c1 hb
  have c2 := fl_close (q := (l.1 : ℚ) + v) (M := 1024) (by
    have : 255 / (2 : ℚ) ^ 53 ≤ 1 := by norm_num
    rw [abs_le]; constructor <;> linarith)
  rw [abs_le] at c2 ⊢
  have hn : (1024 : ℚ) / 2 ^ 53 + 255 / 2 ^ 53 ≤ 1 / 2 ^ 38 := by norm_num
  constructor <;> linarith

/-- A colour is a number of 24 bits. -/
theorem rgb_colour {p : RGB} (hp : Verif.ByteRGB p) : RGB2int p.1 p.2.1 p.2.2 = p.2.2 + 256 * p.2.1 + 65536 * p.1 ∧
    IsColour 24 (RGB2int p.1 p.2.1 p.2.2) := by
  obtain ⟨h1, h2, h3⟩ := hp
  refine ⟨by rw [RGB2int_eq]; unfold rgbValue; ring, (C41_unpack_pack h1 h2 h3).2⟩

theorem palColour_ok {b : Bytes} {W H bits : Nat} (h : Valid b W H bits) {p : RGB} (hp : Verif.ByteRGB p) :
    ∃ k : Nat, palColour b (RGB2int p.1 p.2.1 p.2.2) = .ok (k : Int) ∧ IsColour bits (k : Int) ∧ Shown b bits p k := by
  obtain ⟨e, hc⟩ := rgb_colour hp
  unfold palColour
  rw [h.bits_eq, ok_bind]
  by_cases h24 : bits = 24
  · rw [if_neg (by omega)]
    refine ⟨(RGB2int p.1 p.2.1 p.2.2).toNat, by rw [Int.toNat_of_nonneg hc.1, pure_eq_ok], ?_, .inl ⟨h24, ?_⟩⟩
    · rw [Int.toNat_of_nonneg hc.1, h24]; exact hc
    · rw [Int.toNat_of_nonneg hc.1, e]
  · rw [if_pos (by omega)]
    obtain ⟨r, g, bl, hr, hg, hb, e1, e2, -⟩ := (C41_arrays _).1 hc
    have hinj := C41_injective (r := p.1) (g := p.2.1) (b := p.2.2) (r' := r) (g' := g) (b' := bl) hp.1 hp.2.1 hp.2.2
      ⟨by omega, hr⟩ ⟨by omega, hg⟩ ⟨by omega, hb⟩ (by rw [e1, RGB2int_eq])
    have hpal : ∀ q ∈ palette b bits, Verif.ByteRGB q := by
      intro q hq
      unfold palette at hq
      rw [List.mem_map] at hq
      obtain ⟨c, -, rfl⟩ := hq
      have := byte_lt_of_mem h.bytes
      have h1 := this (54 + 4 * c + 2)
      have h2 := this (54 + 4 * c + 1)
      have h3 := this (54 + 4 * c)
      unfold Verif.ByteRGB rgbI palRGB
      dsimp only
      omega
    have hne : palette b bits ≠ [] := by
      unfold palette
      rw [ne_eq, List.map_eq_nil_iff, List.range_eq_nil]
      positivity
    obtain ⟨k, ek, hk⟩ := match_tuple hne hpal hp
    have hlen : (palette b bits).length = 2 ^ bits := by unfold palette; simp
    refine ⟨k, ?_, ⟨by omega, ?_⟩, .inr ⟨h24, hk⟩⟩
    · rw [e2, ok_bind, h.getallRGBpal_eq h24, ok_bind]
      dsimp only
      rw [← hinj]
      exact congrArg Except.ok ek
    · have := hk.1
      rw [hlen] at this
      exact_mod_cast this

theorem shown_header {b b' : Bytes} {bits : Nat} (hh : SameHeader b b' bits) {p : RGB} {k : Nat} (h : Shown b' bits p k) :
    Shown b bits p k := by
  rcases h with h | ⟨h24, h⟩
  · exact .inl h
  · refine .inr ⟨h24, ?_⟩
    rwa [show palette b bits = palette b' bits by
      unfold palette
      apply List.map_congr_left
      intro c hc
      rw [samePal hh h24 (List.mem_range.mp hc)]]

/-! ### Layers -/

theorem sameHeader_refl (b : Bytes) (bits : Nat) : SameHeader b b bits := ⟨rfl, fun _ _ => rfl⟩

/-- Layers painted one after the other: what is on top is seen. -/
theorem layers {W H bits : Nat} {ι : Type} {b₀ : Bytes} (f : Bytes → ι → Py Bytes) (S : ι → Nat → Nat → Prop) (C : ι → Nat → Prop)
    (R : ι → ι → Prop) (l : List ι)
    (hf : ∀ i ∈ l, ∀ b, Valid b W H bits → SameHeader b₀ b bits →
      ∃ b' k, f b i = .ok b' ∧ C i k ∧ Paints b b' W H bits (S i) k) {b : Bytes} (hv : Valid b W H bits)
    (hh : SameHeader b₀ b bits) (hR : l.Pairwise R) :
    ∃ b', l.foldlM f b = .ok b' ∧ Valid b' W H bits ∧ SameHeader b₀ b' bits ∧
      ∀ x y, x < W → y < H → ((∀ i ∈ l, ¬ S i x y) → pix b' W H bits x y = pix b W H bits x y) ∧
        ∀ i ∈ l, S i x y → (∀ j ∈ l, R i j → ¬ S j x y) → C i (pix b' W H bits x y) := by
  induction l generalizing b with
  | nil => exact ⟨b, rfl, hv, hh, fun x y _ _ => ⟨fun _ => rfl, by simp⟩⟩
  | cons a l ih =>
    obtain ⟨b1, k, e1, hk, p1⟩ := hf a (by simp) b hv hh
    rw [List.pairwise_cons] at hR
    obtain ⟨b', e', hv', hh', hp⟩ := ih (fun i hi => hf i (by simp [hi])) p1.valid (SameHeader.trans hh p1.header) hR.2
    refine ⟨b', by rw [List.foldlM_cons, e1, ok_bind, e'], hv', hh', ?_⟩
    intro x y hx hy
    obtain ⟨q1, q2⟩ := hp x y hx hy
    constructor
    · intro hn
      rw [q1 (fun i hi => hn i (by simp [hi])), p1.outside x y hx hy (hn a (by simp))]
    · intro i hi hS hj
      rcases List.mem_cons.mp hi with rfl | hi
      · rw [q1 (fun j hj' => hj j (by simp [hj']) (hR.1 j hj')), p1.inside x y hx hy hS]
        exact hk
      · exact q2 i hi hS (fun j hj' => hj j (by simp [hj']))

theorem mem_countdown {n i : Int} : i ∈ countdown n ↔ 1 ≤ i ∧ i ≤ n := by
  unfold countdown
  simp only [List.mem_map, List.mem_range]
  constructor
  · rintro ⟨k, hk, rfl⟩; omega
  · rintro ⟨h1, h2⟩; exact ⟨(n - i).toNat, by omega, by omega⟩

theorem countdown_pairwise (n : Int) : (countdown n).Pairwise (· > ·) := by
  unfold countdown
  rw [List.pairwise_map]
  refine List.pairwise_lt_range.imp ?_
  intro a b h
  omega

theorem pyRange_ne (a b : Int) : (pyRange a b).Pairwise (· ≠ ·) := by
  unfold pyRange
  rw [List.pairwise_map]
  refine List.pairwise_lt_range.imp ?_
  intro a b h
  omega

/-- The image `b'` is `b` with the areas `S N`, ..., `S 1` painted over each other: a pixel in none of them is
unchanged, and the others have the colour of the first of `S 1`, `S 2`, ... that they are in. -/
structure Graded (b b' : Bytes) (W H bits : Nat) (N : Int) (S : Int → Nat → Nat → Prop) (C : Int → Nat → Prop) : Prop where
  valid : Valid b' W H bits
  header : SameHeader b b' bits
  outside : ∀ x y, x < W → y < H → (∀ i, 1 ≤ i → i ≤ N → ¬ S i x y) → pix b' W H bits x y = pix b W H bits x y
  inside : ∀ x y, x < W → y < H → ∀ i, 1 ≤ i → i ≤ N → S i x y → (∀ j, 1 ≤ j → j < i → ¬ S j x y) → C i (pix b' W H bits x y)

/-- The colour of step `i` of `n` between two brightnesses. -/
def Step (b : Bytes) (bits : Nat) (lum : Int × Int) (f : ℚ × ℚ × ℚ) (n i : Int) (k : Nat) : Prop :=
  ∃ l p, Part (level lum.1 lum.2 i n) l ∧ Mixed f l p ∧ Shown b bits p k

theorem mixed_byte {f : ℚ × ℚ × ℚ} {l : ℚ} {p : RGB} (h : Mixed f l p) : Verif.ByteRGB p := by
  obtain ⟨⟨a, a', -⟩, ⟨b, b', -⟩, c, c', -⟩ := h
  unfold Verif.ByteRGB
  omega

theorem colormix_mixed {f : ℚ × ℚ × ℚ} (hf : Unit f) {l m : ℚ} (hm : 0 ≤ m ∧ m ≤ 255) (hl : |l - m| ≤ 1 / 2 ^ 40) :
    ∃ p, colormixF l f = RGB2int p.1 p.2.1 p.2.2 ∧ Mixed f m p := by
  refine ⟨(trunc (fl (f.1 * l)), trunc (fl (f.2.1 * l)), trunc (fl (f.2.2 * l))), rfl, ?_⟩
  have key : ∀ g : ℚ, 0 ≤ g ∧ g ≤ 1 → Part (g * m) (trunc (fl (g * l))) := by
    intro g ⟨g0, g1⟩
    have h0 : 0 ≤ g * m := mul_nonneg g0 hm.1
    have h1 : g * m ≤ 255 := by nlinarith [hm.1, hm.2]
    refine trunc_near h0 h1 ?_
    have e1 : |g * l - g * m| ≤ 1 / 2 ^ 40 := by
      rw [← mul_sub, abs_mul, abs_of_nonneg g0]
      calc g * |l - m| ≤ 1 * (1 / 2 ^ 40) := mul_le_mul g1 hl (abs_nonneg _) (by norm_num)
        _ = _ := one_mul _
    rw [abs_le] at e1
    have hn : (1 : ℚ) / 2 ^ 40 ≤ 1 := by norm_num
    have e2 := fl_close (q := g * l) (M := 256) (by rw [abs_le]; constructor <;> linarith)
    rw [abs_le] at e2 ⊢
    have hn : (1 : ℚ) / 2 ^ 40 + 256 / 2 ^ 53 ≤ 1 / 2 ^ 38 := by norm_num
    constructor <;> linarith
  exact ⟨key _ hf.1, key _ hf.2.1, key _ hf.2.2⟩

/-- One layer in the colour of a brightness. -/
theorem layer_ok {b₀ b : Bytes} {W H bits : Nat} (h : Valid b W H bits) (hh : SameHeader b₀ b bits) {f : ℚ × ℚ × ℚ} (hf : Unit f)
    {lum : Int × Int} {i n l : Int} (hl : Part (level lum.1 lum.2 i n) l) {g : Int → Py Bytes} {S : Nat → Nat → Prop}
    (hg : ∀ c, IsColour bits c → ∃ b', g c = .ok b' ∧ Paints b b' W H bits S c.toNat) :
    ∃ b' k, (do let c ← palColour b (colormixF l f); g c) = .ok b' ∧ Step b₀ bits lum f n i k ∧ Paints b b' W H bits S k := by
  have ⟨h0, h1, _⟩ := hl
  obtain ⟨p, ep, hp⟩ := colormix_mixed hf (l := l) (m := l) ⟨by exact_mod_cast h0, by exact_mod_cast h1⟩ (by simp)
  obtain ⟨k, ek, hk, hs⟩ := palColour_ok h (mixed_byte hp)
  obtain ⟨b', e', hb'⟩ := hg k hk
  refine ⟨b', k, by rw [ep, ek, ok_bind, e'], ⟨l, p, hl, hp, shown_header hh hs⟩, by simpa using hb'⟩

theorem graded {b : Bytes} {W H bits : Nat} (h : Valid b W H bits) {N : Int} {S : Int → Nat → Nat → Prop} {C : Int → Nat → Prop}
    {f : Bytes → Int → Py Bytes}
    (hf : ∀ i, 1 ≤ i → i ≤ N → ∀ b', Valid b' W H bits → SameHeader b b' bits →
      ∃ b'' k, f b' i = .ok b'' ∧ C i k ∧ Paints b' b'' W H bits (S i) k) :
    ∃ b', (countdown N).foldlM f b = .ok b' ∧ Graded b b' W H bits N S C := by
  obtain ⟨b', e, hv, hh, hp⟩ := layers f S C (· > ·) (countdown N)
    (fun i hi => hf i (mem_countdown.mp hi).1 (mem_countdown.mp hi).2) h (sameHeader_refl b bits) (countdown_pairwise N)
  refine ⟨b', e, hv, hh, ?_, ?_⟩
  · intro x y hx hy hn
    exact (hp x y hx hy).1 (fun i hi => hn i (mem_countdown.mp hi).1 (mem_countdown.mp hi).2)
  · intro x y hx hy i h1 h2 hS hj
    exact (hp x y hx hy).2 i (mem_countdown.mpr ⟨h1, h2⟩) hS (fun j hj' hlt => hj j (mem_countdown.mp hj').1 hlt)

variable {b : Bytes} {W H bits : Nat}

/-! ### C132: pens -/

/-- C132: a line with a gradient. -/
theorem C132_gradthickroundline_partial (h : Valid b W H bits) {p q : Int × Int} (hp : PenOK W bits p.1) (hq : PenOK W bits q.1) (pen : Int)
    {lum : Int × Int} (hl : Lum lum) {f : ℚ × ℚ × ℚ} (hf : Unit f) :
    ∃ b', gradthickroundline b p q pen lum f = .ok b' ∧
      Graded b b' W H bits pen (fun i => StrokeSet W bits i p q) (Step b bits lum f pen) := by
  apply graded h
  intro i h1 h2 b' hv hh
  exact layer_ok hv hh hf (lumStep_part hl (by omega) h2 (by omega)) (fun c hc => C95_thickroundline_partial hv hc hp hq)

/-- C132: a circle with a gradient. -/
theorem C132_gradthickcircle_partial (h : Valid b W H bits) {x y r : Int} (hx : PenOK W bits (x - r)) (hx' : bits = 4 → x + r < 2 * rowLen W 4) (pen : Int)
    {lum : Int × Int} (hl : Lum lum) {f : ℚ × ℚ × ℚ} (hf : Unit f) :
    ∃ b', gradthickcircle b x y r pen lum f = .ok b' ∧
      Graded b b' W H bits pen (fun i px py => ∃ u v, OnCircle r |u - x| |v - y| ∧ Mark W bits u v i px py) (Step b bits lum f pen) := by
  apply graded h
  intro i h1 h2 b' hv hh
  exact layer_ok hv hh hf (lumStep_part hl (by omega) h2 (by omega)) (fun c hc => C95_thickcircle_partial hv hc hx hx')

/-- C132: a polygon with a gradient. -/
theorem C132_gradthickplotpoly_partial (h : Valid b W H bits) {v : List (Int × Int)} {u w : Int × Int} (hu : v.head? = some u)
    (hw : v.getLast? = some w) (hok : ∀ p ∈ v, PenOK W bits p.1) (pen : Int)
    {lum : Int × Int} (hl : Lum lum) {f : ℚ × ℚ × ℚ} (hf : Unit f) :
    ∃ b', gradthickplotpoly lerpF b v pen lum f = .ok b' ∧
      Graded b b' W H bits pen (fun i px py => ∃ p q, (Consec v p q ∨ (p = u ∧ q = w)) ∧ StrokeSet W bits i p q px py) (Step b bits lum f pen) := by
  apply graded h
  intro i h1 h2 b' hv hh
  exact layer_ok hv hh hf (lumBlend_part hl (by omega) h2 (by omega)) (fun c hc => C95_thickplotpoly_partial hv hc hu hw hok)

/-- The lines of `plotlines`, thin for the pen 1. -/
def PathSet (W H bits : Nat) (v : List (Int × Int)) (pen : Int) (px py : Nat) : Prop :=
  ∃ p q, Consec v p q ∧ ((pen = 1 ∧ LineSet W H bits p q px py) ∨ (1 < pen ∧ StrokeSet W bits pen p q px py))

/-- C132: connected lines with a gradient. -/
theorem C132_gradplotlines_partial (h : Valid b W H bits) (hW : 0 < W) (hH : 0 < H) {v : List (Int × Int)}
    (hok : ∀ p ∈ v, PenOK W bits p.1) (hok' : ∀ p q, Consec v p q → LineOK W H bits p q) (pen : Int)
    {lum : Int × Int} (hl : Lum lum) {f : ℚ × ℚ × ℚ} (hf : Unit f) :
    ∃ b', gradplotlines lerpF b v pen lum f = .ok b' ∧ Graded b b' W H bits pen (PathSet W H bits v) (Step b bits lum f pen) := by
  apply graded h
  intro i h1 h2 b' hv hh
  refine layer_ok hv hh hf (lumBlend_part hl (by omega) h2 (by omega)) (fun c hc => ?_)
  by_cases g : i = 1
  · obtain ⟨b'', e, hp⟩ := C93_plotlines_partial hv hW hH hc (pen := i) (by omega) hok'
    refine ⟨b'', e, hp.congr ?_⟩
    intro x y _ _
    unfold PathSet
    constructor
    · rintro ⟨p, q, h1, h2 | h2⟩
      · exact ⟨p, q, h1, h2.2⟩
      · omega
    · rintro ⟨p, q, h1, h2⟩
      exact ⟨p, q, h1, .inl ⟨g, h2⟩⟩
  · obtain ⟨b'', e, hp⟩ := C95_plotlines_partial hv hc (pen := i) (by omega) hok
    refine ⟨b'', e, hp.congr ?_⟩
    intro x y _ _
    unfold PathSet
    constructor
    · rintro ⟨p, q, h1, h2 | h2⟩
      · omega
      · exact ⟨p, q, h1, h2.2⟩
    · rintro ⟨p, q, h1, h2⟩
      exact ⟨p, q, h1, .inr ⟨by omega, h2⟩⟩

/-- The colour of step `i` of `n` if the brightness is not made an integer. -/
def StepF (b : Bytes) (bits : Nat) (lum : Int × Int) (f : ℚ × ℚ × ℚ) (n i : Int) (k : Nat) : Prop :=
  ∃ p, Mixed f (level lum.1 lum.2 i n) p ∧ Shown b bits p k

/-- C132: points with a gradient. -/
theorem C132_gradvert_partial (h : Valid b W H bits) {v : List (Int × Int)} {pen : Int} (hok : pen ≤ 1 ∨ ∀ p ∈ v, PenOK W bits p.1)
    {lum : Int × Int} (hl : Lum lum) {f : ℚ × ℚ × ℚ} (hf : Unit f) :
    ∃ b', gradvert lerpF b v pen lum f = .ok b' ∧
      Graded b b' W H bits pen (fun i px py => ∃ p ∈ v, PenSet W bits i p.1 p.2 px py) (StepF b bits lum f pen) := by
  apply graded h
  intro i h1 h2 b' hv hh
  obtain ⟨p, ep, hp⟩ := colormix_mixed hf (level_range hl.q.1 hl.q.2 (show 0 ≤ i by omega) h2 (by omega))
    (blend_near hl (by omega) h2 (by omega))
  obtain ⟨k, ek, hk, hs⟩ := palColour_ok hv (mixed_byte hp)
  obtain ⟨b'', e', hb'⟩ := C92_pointlist_partial hv hk (vlist := v) (pen := i) (by
    rcases hok with g | g
    · left; omega
    · right; exact g)
  exact ⟨b'', k, by rw [ep, ek, ok_bind]; exact e', ⟨p, hp, shown_header hh hs⟩, by simpa using hb'⟩

example : (do let b ← newBMP 9 9 24; let b ← gradthickroundline b (2, 4) (6, 4) 2 (255, 55) (1, 1 / 2, 0)
              pure (← getxybit b 4 4, ← getxybit b 4 5, ← getxybit b 4 6, ← getxybit b 4 7)) =
    .ok (0x9b4d00, 0x9b4d00, 0x371b00, 0) := by decide +kernel
example : (do let b ← newBMP 9 9 24; let b ← gradvert lerpF b [(4, 4)] 3 (255, 55) (1, 1 / 2, 0)
              pure (← getxybit b 4 4, ← getxybit b 4 5, ← getxybit b 4 6, ← getxybit b 4 7, ← getxybit b 4 8)) =
    .ok (12344832, 7945216, 7945216, 3611392, 0) := by decide +kernel

/-! ### C131: rectangles -/

/-- The colour at the place `t` of `n` on the way from `p` to `q`. -/
def Tint (b : Bytes) (bits : Nat) (p q : ℚ × ℚ × ℚ) (t n : Int) (k : Nat) : Prop :=
  ∃ c : RGB, (Round (level p.1 q.1 t n) c.1 ∧ Round (level p.2.1 q.2.1 t n) c.2.1 ∧ Round (level p.2.2 q.2.2 t n) c.2.2) ∧
    Shown b bits c k

/-- The shares `f` of a brightness. -/
def times (f : ℚ × ℚ × ℚ) (l : Int) : ℚ × ℚ × ℚ := (f.1 * l, f.2.1 * l, f.2.2 * l)

/-- A float close to a value between 0 and 255. -/
def Close (x y : ℚ) : Prop := (0 ≤ x ∧ x ≤ 255) ∧ (0 ≤ y ∧ y ≤ 255) ∧ |y - x| ≤ 255 / 2 ^ 53

theorem close_times {g : ℚ} (hg : 0 ≤ g ∧ g ≤ 1) {l : Int} (hl : 0 ≤ l ∧ l ≤ 255) : Close (g * l) (fl (g * l)) := by
  have l0 : (0 : ℚ) ≤ l := by exact_mod_cast hl.1
  have l1 : (l : ℚ) ≤ 255 := by exact_mod_cast hl.2
  have h0 : 0 ≤ g * l := mul_nonneg hg.1 l0
  have h1 : g * l ≤ 255 := by nlinarith [hg.1, hg.2]
  refine ⟨⟨h0, h1⟩, ⟨fl_nonneg h0, ?_⟩, fl_close (by rw [abs_of_nonneg h0]; exact h1)⟩
  have := fl_le_of_int (k := 255) (by norm_num) h0 (by exact_mod_cast h1)
  simpa using this

theorem close_int {l : Int} (hl : 0 ≤ l ∧ l ≤ 255) : Close l l := by
  have l0 : (0 : ℚ) ≤ l := by exact_mod_cast hl.1
  have l1 : (l : ℚ) ≤ 255 := by exact_mod_cast hl.2
  exact ⟨⟨l0, l1⟩, ⟨l0, l1⟩, by rw [sub_self, abs_zero]; positivity⟩

theorem tint_channel {a a' c c' : ℚ} (ha : Close a a') (hc : Close c c') {i n : Int} (h0 : 0 ≤ i) (h1 : i ≤ n) (hn : 0 < n) {s : ℚ}
    (hs : (0 ≤ s ∧ s ≤ 1) ∧ |s - (i : ℚ) / n| ≤ 1 / 2 ^ 53) : Round (level a c i n) (rnd (lerpF a' c' s)) := by
  obtain ⟨ha1, ha2, ha3⟩ := ha
  obtain ⟨hc1, hc2, hc3⟩ := hc
  have r := level_range ha1 hc1 h0 h1 hn
  refine round_near r.1 r.2 ?_
  have := lerp_near ha2 hc2 hs.1 hs.2
  have hq : (0 : ℚ) < n := by exact_mod_cast hn
  have a0 : (0 : ℚ) ≤ (i : ℚ) / n := div_nonneg (by exact_mod_cast h0) hq.le
  have a1 : (i : ℚ) / n ≤ 1 := by rw [div_le_one hq]; exact_mod_cast h1
  unfold level
  rw [mul_div_assoc]
  generalize (i : ℚ) / n = t at *
  rw [abs_le] at *
  have e : a' + (c' - a') * t - (a + (c - a) * t) = (a' - a) * (1 - t) + (c' - c) * t := by ring
  have k1 : (a' - a) * (1 - t) + (c' - c) * t ≤ 255 / 2 ^ 53 := by nlinarith
  have k2 : -(255 / 2 ^ 53) ≤ (a' - a) * (1 - t) + (c' - c) * t := by nlinarith
  have hN : (1 : ℚ) / 2 ^ 40 + 255 / 2 ^ 53 ≤ 1 / 2 ^ 38 := by norm_num
  constructor <;> linarith

/-- Three channels. -/
def Close3 (p p' : ℚ × ℚ × ℚ) : Prop := Close p.1 p'.1 ∧ Close p.2.1 p'.2.1 ∧ Close p.2.2 p'.2.2

theorem blend_tint {p p' q q' : ℚ × ℚ × ℚ} (hp : Close3 p p') (hq : Close3 q q') {i n : Int} (h0 : 0 ≤ i) (h1 : i ≤ n) (hn : 0 < n)
    {s : ℚ} (hs : (0 ≤ s ∧ s ≤ 1) ∧ |s - (i : ℚ) / n| ≤ 1 / 2 ^ 53) :
    ∃ c : RGB, Verif.ByteRGB c ∧ blendInt lerpF p' q' s = RGB2int c.1 c.2.1 c.2.2 ∧
      Round (level p.1 q.1 i n) c.1 ∧ Round (level p.2.1 q.2.1 i n) c.2.1 ∧ Round (level p.2.2 q.2.2 i n) c.2.2 := by
  have r1 := tint_channel hp.1 hq.1 h0 h1 hn hs
  have r2 := tint_channel hp.2.1 hq.2.1 h0 h1 hn hs
  have r3 := tint_channel hp.2.2 hq.2.2 h0 h1 hn hs
  have lt : ∀ {m : ℚ} {k : Int}, Round m k → 0 ≤ k ∧ k < 256 := fun hr => ⟨hr.1, by have := hr.2.1; omega⟩
  exact ⟨(_, _, _), ⟨lt r1, lt r2, lt r3⟩, rfl, r1, r2, r3⟩

theorem share_clamped {a d : Int} (h0 : 0 ≤ a) (hd : 0 < d) :
    (0 ≤ share a d ∧ share a d ≤ 1) ∧ |share a d - ((min a d : Int) : ℚ) / d| ≤ 1 / 2 ^ 53 := by
  unfold share
  dsimp only
  have hq : (0 : ℚ) < d := by exact_mod_cast hd
  by_cases h : a ≤ d
  · obtain ⟨⟨s0, s1⟩, s2⟩ := share_near h0 h hd
    rw [if_neg (not_lt.mpr s1), if_neg (not_lt.mpr s0), min_eq_left h]
    exact ⟨⟨s0, s1⟩, s2⟩
  · have h1 : (1 : ℚ) ≤ fl ((a : ℚ) / d) := by
      have := le_fl_of_int (k := 1) (q := (a : ℚ) / d) (by norm_num) (by
        rw [Nat.cast_one, le_div_iff₀ hq, one_mul]; exact_mod_cast (by omega : d ≤ a))
      simpa using this
    have e : (if fl ((a : ℚ) / d) > 1 then (1 : ℚ) else fl ((a : ℚ) / d)) = 1 := by
      split_ifs with g
      · rfl
      · exact le_antisymm (not_lt.mp g) h1
    rw [e, if_neg (by norm_num), min_eq_right (by omega), div_self hq.ne']
    norm_num

theorem unit_close {f : ℚ × ℚ × ℚ} (hf : Unit f) {l : Int} (hl : 0 ≤ l ∧ l ≤ 255) : Close3 (times f l) (scale3 f l) :=
  ⟨close_times hf.1 hl, close_times hf.2.1 hl, close_times hf.2.2 hl⟩

/-- The red, green and blue parts of a colour of 24 bits. -/
def parts (c : Int) : ℚ × ℚ × ℚ := (((c / 65536 : Int) : ℚ), ((c / 256 % 256 : Int) : ℚ), ((c % 256 : Int) : ℚ))

theorem colour_close {c : Int} (hc : IsColour 24 c) : Close3 (parts c) (floats (int2RGB c)) := by
  obtain ⟨r, g, bl, hr, hg, hb, e1, e2, e3⟩ := (C41_arrays _).1 hc
  have := C41_unpack_pack (r := (r : Int)) (g := (g : Int)) (b := (bl : Int)) ⟨by omega, by omega⟩ ⟨by omega, by omega⟩ ⟨by omega, by omega⟩
  rw [RGB2int_eq, ← e1] at this
  rw [this.1]
  unfold rgbValue at e1
  have k1 : c / 65536 = r := by omega
  have k2 : c / 256 % 256 = g := by omega
  have k3 : c % 256 = bl := by omega
  unfold parts floats Close3
  rw [k1, k2, k3]
  exact ⟨close_int ⟨by omega, by omega⟩, close_int ⟨by omega, by omega⟩, close_int ⟨by omega, by omega⟩⟩

/-- The image `b'` is `b` with the rectangle in the colours `C t`, where `t` is the column for direction 0 and the row
otherwise. -/
structure Ramp (b b' : Bytes) (W H bits : Nat) (x1 y1 x2 y2 direction : Int) (C : Int → Nat → Prop) : Prop where
  valid : Valid b' W H bits
  header : SameHeader b b' bits
  outside : ∀ x y, x < W → y < H → ¬ RectSet x1 y1 x2 y2 x y → pix b' W H bits x y = pix b W H bits x y
  inside : ∀ x y, x < W → y < H → RectSet x1 y1 x2 y2 x y →
    C (if direction = 0 then (x : Int) else (y : Int)) (pix b' W H bits x y)

/-- Columns or rows in changing colours. -/
theorem ramp (h : Valid b W H bits) (hb : bits = 8 ∨ bits = 24) {x1 y1 x2 y2 : Int} (hin : InImage W H x1 y1 x2 y2) (direction : Int)
    {C : Int → Nat → Prop} {col : Bytes → Int → Py Int}
    (hcol : ∀ t, 0 ≤ t → ∀ b', Valid b' W H bits → SameHeader b b' bits →
      ∃ k : Nat, col b' t = .ok (k : Int) ∧ IsColour bits (k : Int) ∧ C t k) :
    ∃ b', (if direction = 0 then
        (pyRange (min x1 x2) (max x1 x2 + 1)).foldlM (fun bmp x => do let c ← col bmp x; vertline bmp x (min y1 y2) (max y1 y2) c) b
      else
        (pyRange (min y1 y2) (max y1 y2 + 1)).foldlM (fun bmp y => do let c ← col bmp y; horiline bmp y (min x1 x2) (max x1 x2) c) b)
        = .ok b' ∧ Ramp b b' W H bits x1 y1 x2 y2 direction C := by
  unfold InImage at hin
  by_cases hd : direction = 0
  · rw [if_pos hd]
    obtain ⟨b', e, hv, hh, hp⟩ := layers (b₀ := b) (W := W) (H := H) (bits := bits)
      (fun bmp x => do let c ← col bmp x; vertline bmp x (min y1 y2) (max y1 y2) c)
      (fun i => VSeg i (min y1 y2) (max y1 y2)) C (· ≠ ·) (pyRange (min x1 x2) (max x1 x2 + 1)) (by
        intro i hi b' hv hh
        rw [mem_pyRange] at hi
        obtain ⟨k, ek, hk, hC⟩ := hcol i (by omega) b' hv hh
        obtain ⟨b'', e', hb'⟩ := C20_vertline_partial hv hk (x := i) (y1 := min y1 y2) (y2 := max y1 y2) (by omega)
        exact ⟨b'', k, by rw [ek, ok_bind, e'], hC, by simpa using hb'⟩) h (sameHeader_refl b bits) (pyRange_ne _ _)
    refine ⟨b', e, hv, hh, ?_, ?_⟩
    · intro x y hx hy hn
      refine (hp x y hx hy).1 ?_
      intro i hi hS
      rw [mem_pyRange] at hi
      apply hn
      unfold VSeg at hS
      unfold RectSet
      omega
    · intro x y hx hy hr
      rw [if_pos hd]
      unfold RectSet at hr
      refine (hp x y hx hy).2 x (by rw [mem_pyRange]; omega) (by unfold VSeg; omega) ?_
      intro j _ hne hS
      exact hne hS.1
  · rw [if_neg hd]
    obtain ⟨b', e, hv, hh, hp⟩ := layers (b₀ := b) (W := W) (H := H) (bits := bits)
      (fun bmp y => do let c ← col bmp y; horiline bmp y (min x1 x2) (max x1 x2) c)
      (fun i => HSeg i (min x1 x2) (max x1 x2)) C (· ≠ ·) (pyRange (min y1 y2) (max y1 y2 + 1)) (by
        intro i hi b' hv hh
        rw [mem_pyRange] at hi
        obtain ⟨k, ek, hk, hC⟩ := hcol i (by omega) b' hv hh
        obtain ⟨b'', e', hb'⟩ := C19_horiline_partial hv hk (y := i) (x1 := min x1 x2) (x2 := max x1 x2)
          (.inr (.inl ⟨hb, by omega⟩))
        exact ⟨b'', k, by rw [ek, ok_bind, e'], hC, by simpa using hb'⟩) h (sameHeader_refl b bits) (pyRange_ne _ _)
    refine ⟨b', e, hv, hh, ?_, ?_⟩
    · intro x y hx hy hn
      refine (hp x y hx hy).1 ?_
      intro i hi hS
      rw [mem_pyRange] at hi
      apply hn
      unfold HSeg at hS
      unfold RectSet
      omega
    · intro x y hx hy hr
      rw [if_neg hd]
      unfold RectSet at hr
      refine (hp x y hx hy).2 y (by rw [mem_pyRange]; omega) (by unfold HSeg; omega) ?_
      intro j _ hne hS
      exact hne hS.1

/-- The extent of the rectangle in the direction of the gradient. -/
def extent (x1 y1 x2 y2 direction : Int) : Int :=
  if direction = 0 then max x1 x2 - min x1 x2 + 1 else max y1 y2 - min y1 y2 + 1

/-- C131, what `filledgradrect` does: the column (or row) `t` of the image, not of the rectangle, has the colour `t / n`
of the way from the first to the second colour, or the second colour from `n` on, where `n` is the extent of the rectangle. -/
theorem C131_gradrect_exact (h : Valid b W H bits) (hb : bits = 8 ∨ bits = 24) {x1 y1 x2 y2 : Int} (hin : InImage W H x1 y1 x2 y2)
    {lum : Int × Int} (hl : Lum lum) {f : ℚ × ℚ × ℚ} (hf : Unit f) (direction : Int) :
    ∃ b', filledgradrect lerpF b x1 y1 x2 y2 lum f direction = .ok b' ∧
      Ramp b b' W H bits x1 y1 x2 y2 direction (fun t => Tint b bits (times f lum.1) (times f lum.2)
        (min t (extent x1 y1 x2 y2 direction)) (extent x1 y1 x2 y2 direction)) := by
  unfold filledgradrect
  rw [(C44_rect_guards h _ x1 y1 x2 y2).2.2.1 ⟨hb, hin⟩]
  unfold filledgradrectCore
  rw [sortrec_eq]
  have hn : 0 < extent x1 y1 x2 y2 direction := by unfold extent; split_ifs <;> omega
  obtain ⟨b', e, hR⟩ := ramp h hb hin direction
    (C := fun t => Tint b bits (times f lum.1) (times f lum.2)
        (min t (extent x1 y1 x2 y2 direction)) (extent x1 y1 x2 y2 direction))
    (col := fun bmp t => palColour bmp (blendInt lerpF (scale3 f lum.1) (scale3 f lum.2) (share t (extent x1 y1 x2 y2 direction))))
    (by
      intro t ht b' hv hh
      obtain ⟨c, hc, ec, hr⟩ := blend_tint (unit_close hf hl.1) (unit_close hf hl.2)
        (i := min t (extent x1 y1 x2 y2 direction)) (by omega) (by omega) hn (share_clamped ht hn)
      obtain ⟨k, ek, hk, hs⟩ := palColour_ok hv hc
      exact ⟨k, by rw [ec]; exact ek, hk, c, hr, shown_header hh hs⟩)
  refine ⟨b', ?_, hR⟩
  have e' : (if direction = 0 then
        (pyRange (min x1 x2) (max x1 x2 + 1)).foldlM (fun bmp x => do
          let c ← palColour bmp (blendInt lerpF (scale3 f lum.1) (scale3 f lum.2) (share x (max x1 x2 - min x1 x2 + 1)))
          vertline bmp x (min y1 y2) (max y1 y2) c) b
      else
        (pyRange (min y1 y2) (max y1 y2 + 1)).foldlM (fun bmp y => do
          let c ← palColour bmp (blendInt lerpF (scale3 f lum.1) (scale3 f lum.2) (share y (max y1 y2 - min y1 y2 + 1)))
          horiline bmp y (min x1 x2) (max x1 x2) c) b) = .ok b' := by
    rw [← e]
    unfold extent
    by_cases hd : direction = 0
    · simp only [if_pos hd]
    · simp only [if_neg hd]
  dsimp only
  rw [e']
  rfl

/-- C131: outside the image, and at other depths, nothing is drawn. -/
theorem C131_rejected (h : Valid b W H bits) {x1 y1 x2 y2 : Int} (hno : ¬ ((bits = 8 ∨ bits = 24) ∧ InImage W H x1 y1 x2 y2))
    (fn : Blend) (lum : Int × Int) (f : ℚ × ℚ × ℚ) (direction : Int) :
    filledgradrect fn b x1 y1 x2 y2 lum f direction = .ok b := by
  unfold filledgradrect
  rw [(C44_rect_guards h _ x1 y1 x2 y2).2.2.2 hno]
  rfl

/-- C131: over the whole image the gradient goes from the first colour at the left (or bottom) to the second. -/
theorem C131_background (h : Valid b W H bits) (hb : bits = 8 ∨ bits = 24) (hW : 0 < W) (hH : 0 < H)
    {lum : Int × Int} (hl : Lum lum) {f : ℚ × ℚ × ℚ} (hf : Unit f) (direction : Int) :
    ∃ b', fillbackgroundwithgrad b lum f direction = .ok b' ∧ Valid b' W H bits ∧ SameHeader b b' bits ∧
      ∀ x y, x < W → y < H → if direction = 0
        then Tint b bits (times f lum.1) (times f lum.2) x W (pix b' W H bits x y)
        else Tint b bits (times f lum.1) (times f lum.2) y H (pix b' W H bits x y) := by
  unfold fillbackgroundwithgrad
  unfold getmaxx getmaxy
  rw [h.getmaxx_eq, h.getmaxy_eq]
  simp only [ok_bind]
  obtain ⟨b', e, hR⟩ := C131_gradrect_exact h hb (x1 := 0) (y1 := 0) (x2 := (W : Int) - 1) (y2 := (H : Int) - 1)
    (by unfold InImage; omega) hl hf direction
  refine ⟨b', e, hR.valid, hR.header, ?_⟩
  intro x y hx hy
  have := hR.inside x y hx hy (by unfold RectSet; omega)
  unfold extent at this
  split_ifs at this ⊢ with hd
  · rwa [max_eq_right (by omega), min_eq_left (by omega : (0 : Int) ≤ (W : Int) - 1), sub_zero, sub_add_cancel,
      min_eq_left (by omega)] at this
  · rwa [max_eq_right (by omega), min_eq_left (by omega : (0 : Int) ≤ (H : Int) - 1), sub_zero, sub_add_cancel,
      min_eq_left (by omega)] at this

/-- C131: the same between two colours, for true colour only. -/
theorem C131_dichromatic_exact (h : Valid b W H 24) {x1 y1 x2 y2 : Int} (hin : InImage W H x1 y1 x2 y2)
    {c1 c2 : Int} (h1 : IsColour 24 c1) (h2 : IsColour 24 c2) (direction : Int) :
    ∃ b', filleddichromaticgradrect lerpF b x1 y1 x2 y2 c1 c2 direction = .ok b' ∧
      Ramp b b' W H 24 x1 y1 x2 y2 direction (fun t => Tint b 24 (parts c1) (parts c2)
        (min t (extent x1 y1 x2 y2 direction)) (extent x1 y1 x2 y2 direction)) := by
  unfold filleddichromaticgradrect
  rw [(C44_rect_guards h _ x1 y1 x2 y2).2.1.1 ⟨rfl, hin⟩]
  unfold filleddichromaticgradrectCore
  rw [sortrec_eq]
  have hn : 0 < extent x1 y1 x2 y2 direction := by unfold extent; split_ifs <;> omega
  obtain ⟨b', e, hR⟩ := ramp h (.inr rfl) hin direction
    (C := fun t => Tint b 24 (parts c1) (parts c2) (min t (extent x1 y1 x2 y2 direction)) (extent x1 y1 x2 y2 direction))
    (col := fun _ t => .ok (blendInt lerpF (floats (int2RGB c1)) (floats (int2RGB c2)) (share t (extent x1 y1 x2 y2 direction))))
    (by
      intro t ht b' hv hh
      obtain ⟨c, hc, ec, hr⟩ := blend_tint (colour_close h1) (colour_close h2)
        (i := min t (extent x1 y1 x2 y2 direction)) (by omega) (by omega) hn (share_clamped ht hn)
      obtain ⟨e, hk⟩ := rgb_colour hc
      refine ⟨(RGB2int c.1 c.2.1 c.2.2).toNat, by rw [ec, Int.toNat_of_nonneg hk.1], ?_, c, hr, .inl ⟨rfl, ?_⟩⟩
      · rw [Int.toNat_of_nonneg hk.1]; exact hk
      · rw [Int.toNat_of_nonneg hk.1, e])
  refine ⟨b', ?_, hR⟩
  have e' : (if direction = 0 then
        (pyRange (min x1 x2) (max x1 x2 + 1)).foldlM (fun bmp x => vertline bmp x (min y1 y2) (max y1 y2)
          (blendInt lerpF (floats (int2RGB c1)) (floats (int2RGB c2)) (share x (max x1 x2 - min x1 x2 + 1)))) b
      else
        (pyRange (min y1 y2) (max y1 y2 + 1)).foldlM (fun bmp y => horiline bmp y (min x1 x2) (max x1 x2)
          (blendInt lerpF (floats (int2RGB c1)) (floats (int2RGB c2)) (share y (max y1 y2 - min y1 y2 + 1)))) b) = .ok b' := by
    rw [← e]
    unfold extent
    by_cases hd : direction = 0
    · simp only [if_pos hd, ok_bind]
    · simp only [if_neg hd, ok_bind]
  dsimp only
  rw [e']
  rfl

/-- C131: outside the image, and at other depths, nothing is drawn. -/
theorem C131_dichromatic_rejected (h : Valid b W H bits) {x1 y1 x2 y2 : Int} (hno : ¬ (bits = 24 ∧ InImage W H x1 y1 x2 y2))
    (fn : Blend) (c1 c2 direction : Int) : filleddichromaticgradrect fn b x1 y1 x2 y2 c1 c2 direction = .ok b := by
  unfold filleddichromaticgradrect
  rw [(C44_rect_guards h _ x1 y1 x2 y2).2.1.2 hno]
  rfl

/-- C131: over the whole image the gradient goes from the first colour at the left (or in row 0) to the second. -/
theorem C131_dichromatic_background (h : Valid b W H 24) (hW : 0 < W) (hH : 0 < H)
    {c1 c2 : Int} (h1 : IsColour 24 c1) (h2 : IsColour 24 c2) (direction : Int) :
    ∃ b', fillbackgroundwithdichromaticgrad b c1 c2 direction = .ok b' ∧ Valid b' W H 24 ∧ SameHeader b b' 24 ∧
      ∀ x y, x < W → y < H → if direction = 0
        then Tint b 24 (parts c1) (parts c2) x W (pix b' W H 24 x y)
        else Tint b 24 (parts c1) (parts c2) y H (pix b' W H 24 x y) := by
  unfold fillbackgroundwithdichromaticgrad
  unfold getmaxx getmaxy
  rw [h.getmaxx_eq, h.getmaxy_eq]
  simp only [ok_bind]
  obtain ⟨b', e, hR⟩ := C131_dichromatic_exact h (x1 := 0) (y1 := 0) (x2 := (W : Int) - 1) (y2 := (H : Int) - 1)
    (by unfold InImage; omega) h1 h2 direction
  refine ⟨b', e, hR.valid, hR.header, ?_⟩
  intro x y hx hy
  have := hR.inside x y hx hy (by unfold RectSet; omega)
  unfold extent at this
  split_ifs at this ⊢ with hd
  · rwa [max_eq_right (by omega), min_eq_left (by omega : (0 : Int) ≤ (W : Int) - 1), sub_zero, sub_add_cancel,
      min_eq_left (by omega)] at this
  · rwa [max_eq_right (by omega), min_eq_left (by omega : (0 : Int) ≤ (H : Int) - 1), sub_zero, sub_add_cancel,
      min_eq_left (by omega)] at this

/-- C131: the first colour of a rectangle is not at its edge: a rectangle at least its own width from the left is
painted in the second colour only. -/
theorem C131_plain (h : Valid b W H 24) {x1 y1 x2 y2 : Int} (hin : InImage W H x1 y1 x2 y2)
    {c1 c2 : Int} (h1 : IsColour 24 c1) (h2 : IsColour 24 c2) (hfar : max x1 x2 - min x1 x2 < min x1 x2) :
    ∃ b', filleddichromaticgradrect lerpF b x1 y1 x2 y2 c1 c2 0 = .ok b' ∧
      Paints b b' W H 24 (RectSet x1 y1 x2 y2) c2.toNat := by
  obtain ⟨b', e, hR⟩ := C131_dichromatic_exact h hin h1 h2 0
  refine ⟨b', e, hR.valid, hR.header, ?_, hR.outside⟩
  intro x y hx hy hr
  have := hR.inside x y hx hy hr
  unfold extent at this
  rw [if_pos rfl, if_pos rfl] at this
  unfold RectSet at hr
  rw [min_eq_right (by omega)] at this
  have hn : ((max x1 x2 - min x1 x2 + 1 : Int) : ℚ) ≠ 0 := by
    have : max x1 x2 - min x1 x2 + 1 ≠ 0 := by omega
    exact_mod_cast this
  have ex : ∀ p q : ℚ, level p q (max x1 x2 - min x1 x2 + 1) (max x1 x2 - min x1 x2 + 1) = q := by
    intro p q
    unfold level
    rw [mul_div_assoc, div_self hn]; ring
  obtain ⟨c, ⟨r1, r2, r3⟩, s⟩ := this
  rw [ex] at r1 r2 r3
  have near : ∀ {m k : Int}, Round (m : ℚ) k → k = m := by
    intro m k ⟨_, _, hk⟩
    rw [abs_le] at hk
    have he : (1 : ℚ) / 2 + 1 / 2 ^ 38 < 1 := by norm_num
    have k1 : (k : ℚ) < m + 1 := by linarith
    have k2 : (m : ℚ) < k + 1 := by linarith
    have k1 : k < m + 1 := by exact_mod_cast k1
    have k2 : m < k + 1 := by exact_mod_cast k2
    omega
  have e1 := near r1
  have e2 := near r2
  have e3 := near r3
  rcases s with ⟨-, s⟩ | ⟨s, -⟩
  · unfold IsColour at h2
    omega
  · exact absurd rfl s

/-- C131: a rectangle need not begin in its first colour, and need not have a gradient at all. -/
theorem C131_false : (do
      let b ← newBMP 4 1 24
      let b ← filleddichromaticgradrect lerpF b 2 0 3 0 0xff0000 0x0000ff 0
      pure (← getxybit b 2 0, ← getxybit b 3 0)) = .ok (0x0000ff, 0x0000ff) ∧
    (do let b ← newBMP 4 1 24
        let b ← filledgradrect lerpF b 1 0 2 0 (0, 200) (1, 1 / 2, 0) 0
        pure (← getxybit b 1 0, ← getxybit b 2 0)) = .ok (0x643200, 0xc86400) := by
  constructor <;> decide +kernel

example : (do let b ← newBMP 4 1 24; let b ← fillbackgroundwithdichromaticgrad b 0xff0000 0x0000ff 0
              pure (← getxybit b 0 0, ← getxybit b 1 0, ← getxybit b 3 0)) = .ok (0xff0000, 0xbf0040, 0x4000bf) := by decide +kernel
example : (do let b ← newBMP 1 4 24; let b ← fillbackgroundwithgrad b (0, 200) (1, 1 / 2, 0) 1
              pure (← getxybit b 0 0, ← getxybit b 0 1, ← getxybit b 0 3)) = .ok (0, 0x321900, 0x964b00) := by decide +kernel

variable {fs : Files} {ex nw : String}

/-- C131: the versions for files. -/
theorem C131_files (h : Stored fs ex b W H bits) (hb : bits = 8 ∨ bits = 24) {x1 y1 x2 y2 : Int} (hin : InImage W H x1 y1 x2 y2)
    {lum : Int × Int} (hl : Lum lum) {f : ℚ × ℚ × ℚ} (hf : Unit f) (direction : Int) :
    ∃ fs', filledgradrect2file lerpF fs ex nw x1 y1 x2 y2 lum f direction = .ok fs' ∧ Saved fs fs' nw (fun b' =>
      Ramp b b' W H bits x1 y1 x2 y2 direction (fun t => Tint b bits (times f lum.1) (times f lum.2)
        (min t (extent x1 y1 x2 y2 direction)) (extent x1 y1 x2 y2 direction))) :=
  applysave_saved h (C131_gradrect_exact h.valid hb hin hl hf direction)

theorem C131_dichromatic_files (h : Stored fs ex b W H 24) {x1 y1 x2 y2 : Int} (hin : InImage W H x1 y1 x2 y2)
    {c1 c2 : Int} (h1 : IsColour 24 c1) (h2 : IsColour 24 c2) (direction : Int) :
    ∃ fs', filleddichromaticgradrect2file lerpF fs ex nw x1 y1 x2 y2 c1 c2 direction = .ok fs' ∧ Saved fs fs' nw (fun b' =>
      Ramp b b' W H 24 x1 y1 x2 y2 direction (fun t => Tint b 24 (parts c1) (parts c2)
        (min t (extent x1 y1 x2 y2 direction)) (extent x1 y1 x2 y2 direction))) :=
  applysave_saved h (C131_dichromatic_exact h.valid hin h1 h2 direction)

/-! ### C133: discs, spheres and ellipses -/

/-- A circle drawn with a pen of radius 2. -/
def RingSet (W bits : Nat) (x y i : Int) (px py : Nat) : Prop := ∃ u v, OnCircle i |u - x| |v - y| ∧ Mark W bits u v 2 px py

/-- C133: a disc with a gradient from the centre to the edge. -/
theorem C133_gradcircle_partial (h : Valid b W H bits) {x y r : Int} (hx : PenOK W bits (x - (r - 1))) (hxr : bits = 4 → x + (r - 1) < 2 * rowLen W 4)
    {lum : Int × Int} (hl : Lum lum) {f : ℚ × ℚ × ℚ} (hf : Unit f) :
    ∃ b', gradcircle lerpF b x y r lum f = .ok b' ∧ Graded b b' W H bits (r - 1) (RingSet W bits x y) (Step b bits lum f r) := by
  apply graded h
  intro i h1 h2 b' hv hh
  exact layer_ok hv hh hf (lumBlend_part hl (by omega) (by omega) (by omega))
    (fun c hc => C95_thickcircle_partial hv hc (by unfold PenOK at *; omega) (by omega))

/-- C133: a disc with a gradient between two colours, in true colour. -/
theorem C133_graddichromiccircle_partial (h : Valid b W H 24) {x y r : Int} (hx : -19 ≤ x - (r - 1))
    {c1 c2 : Int} (h1 : IsColour 24 c1) (h2 : IsColour 24 c2) :
    ∃ b', graddichromiccircle lerpF b x y r c1 c2 = .ok b' ∧
      Graded b b' W H 24 (r - 1) (RingSet W 24 x y) (fun i => Tint b 24 (parts c1) (parts c2) i r) := by
  unfold graddichromiccircle
  rw [(C44_depth h _).1.1 rfl]
  obtain ⟨b', e, hG⟩ := graded h (N := r - 1) (S := RingSet W 24 x y) (C := fun i => Tint b 24 (parts c1) (parts c2) i r)
    (f := fun bmp (i : Int) =>
      thickcircle bmp x y i 2 (blendInt lerpF (floats (int2RGB c1)) (floats (int2RGB c2)) (fl ((i : ℚ) / r)))) (by
    intro i i1 i2 b' hv hh
    obtain ⟨c, hc, ec, hr⟩ := blend_tint (colour_close h1) (colour_close h2) (i := i) (n := r) (by omega) (by omega) (by omega)
      (share_near (by omega) (by omega) (by omega))
    obtain ⟨e, hk⟩ := rgb_colour hc
    obtain ⟨b'', e'', hb''⟩ := C95_thickcircle_partial hv hk (x := x) (y := y) (r := i) (pen := 2) (.inr (.inr ⟨.inr rfl, by omega⟩)) (by omega)
    refine ⟨b'', (RGB2int c.1 c.2.1 c.2.2).toNat, by rw [ec]; exact e'', ⟨c, hr, .inl ⟨rfl, ?_⟩⟩, hb''⟩
    rw [Int.toNat_of_nonneg hk.1, e])
  refine ⟨b', ?_, hG⟩
  rw [e]
  rfl

/-- C133: the other depths are rejected. -/
theorem C133_graddichromiccircle_rejected (h : Valid b W H bits) (hb : bits ≠ 24) (fn : Blend) (x y r c1 c2 : Int) :
    graddichromiccircle fn b x y r c1 c2 = .ok b := by
  unfold graddichromiccircle
  rw [(C44_depth h _).1.2 hb]
  rfl

/-- C133: a sphere is white (or the first colour) in the middle and black (or the second colour) at the edge. -/
theorem C133_sphere_partial (h : Valid b W H 24) {x y r : Int} (hx : -19 ≤ x - (r - 1)) :
    (∀ f, Unit f → ∃ b', sphere lerpF b x y r (.factors f) = .ok b' ∧
      Graded b b' W H 24 (r - 1) (RingSet W 24 x y) (Step b 24 (255, 0) f r)) ∧
    (∀ c1 c2, IsColour 24 c1 → IsColour 24 c2 → ∃ b', sphere lerpF b x y r (.two c1 c2) = .ok b' ∧
      Graded b b' W H 24 (r - 1) (RingSet W 24 x y) (fun i => Tint b 24 (parts c1) (parts c2) i r)) ∧
    sphere lerpF b x y r .other = .ok b :=
  ⟨fun _ hf => C133_gradcircle_partial h (.inr (.inr ⟨.inr rfl, hx⟩)) (by omega) ⟨by norm_num, by norm_num⟩ hf,
    fun _ _ h1 h2 => C133_graddichromiccircle_partial h hx h1 h2, rfl⟩

/-- C133: the version of `sphere` for files. -/
theorem C133_sphere2file_partial (h : Stored fs ex b W H 24) {x y r : Int} (hx : -19 ≤ x - (r - 1)) :
    (∀ f, Unit f → ∃ fs', sphere2file lerpF fs ex nw x y r (.factors f) = .ok fs' ∧ Saved fs fs' nw (fun b' =>
      Graded b b' W H 24 (r - 1) (RingSet W 24 x y) (Step b 24 (255, 0) f r))) ∧
    (∀ c1 c2, IsColour 24 c1 → IsColour 24 c2 → ∃ fs', sphere2file lerpF fs ex nw x y r (.two c1 c2) = .ok fs' ∧
      Saved fs fs' nw (fun b' => Graded b b' W H 24 (r - 1) (RingSet W 24 x y) (fun i => Tint b 24 (parts c1) (parts c2) i r))) :=
  ⟨fun f hf => applysave24_saved h ((C133_sphere_partial h.valid hx).1 f hf),
    fun c1 c2 h1 h2 => applysave24_saved h ((C133_sphere_partial h.valid hx).2.1 c1 c2 h1 h2)⟩

/-- The colour of a brightness. -/
def Lit (b : Bytes) (bits : Nat) (f : ℚ × ℚ × ℚ) (q : ℚ) (k : Nat) : Prop := ∃ l p, Part q l ∧ Mixed f l p ∧ Shown b bits p k

/-- `orb` if its disc and its rings are painted. -/
theorem orb_of (h : Valid b W H bits) {x y r : Int}
    (hdisc : ∀ c : Int, IsColour bits c → ∃ b', filledcircle b x y (r / 2) c = .ok b' ∧ Paints b b' W H bits (Mark W bits x y (r / 2)) c.toNat)
    (hring : ∀ i, r / 2 < i → i < r → ∀ b, Valid b W H bits → ∀ c : Int, IsColour bits c →
      ∃ b', thickcircle b x y i 2 c = .ok b' ∧ Paints b b' W H bits (RingSet W bits x y i) c.toNat)
    {f : ℚ × ℚ × ℚ} (hf : Unit f) :
    ∃ b', orb b x y r f = .ok b' ∧ Valid b' W H bits ∧ SameHeader b b' bits ∧
      ∀ px py, px < W → py < H →
        (∀ i, r / 2 < i → i < r → RingSet W bits x y i px py → (∀ j, r / 2 < j → j < i → ¬ RingSet W bits x y j px py) →
          Lit b bits f (255 * (r - i) / ((r / 2 : Int) : ℚ)) (pix b' W H bits px py)) ∧
        ((∀ i, r / 2 < i → i < r → ¬ RingSet W bits x y i px py) → Mark W bits x y (r / 2) px py →
          Lit b bits f 255 (pix b' W H bits px py)) ∧
        ((∀ i, r / 2 < i → i < r → ¬ RingSet W bits x y i px py) → ¬ Mark W bits x y (r / 2) px py →
          pix b' W H bits px py = pix b W H bits px py) := by
  unfold orb
  have hj : pyShr r 1 = r / 2 := by unfold pyShr; norm_num
  rw [hj]
  obtain ⟨p, ep, hp⟩ := colormix_mixed hf (l := 255) (m := 255) (by norm_num) (by simp)
  obtain ⟨k, ek, hk, hs⟩ := palColour_ok h (mixed_byte hp)
  obtain ⟨b1, e1, p1⟩ := hdisc k hk
  dsimp only
  rw [ep, ek, ok_bind, e1, ok_bind]
  obtain ⟨b', e, hv, hh, hq⟩ := layers (b₀ := b) (W := W) (H := H) (bits := bits)
    (fun bmp (i : Int) => do
      if r / 2 = 0 then .error .zeroDivision
      else do
        let c ← palColour bmp (colormixF (trunc (fl (((255 * (r - i) : Int) : ℚ) / (r / 2 : Int)))) f)
        thickcircle bmp x y i 2 c) (RingSet W bits x y) (fun i => Lit b bits f (255 * (r - i) / ((r / 2 : Int) : ℚ))) (· > ·)
    ((countdown (r - 1 - r / 2)).map (· + r / 2)) (by
      intro i hi b' hv hh
      rw [List.mem_map] at hi
      obtain ⟨i', hi', rfl⟩ := hi
      rw [mem_countdown] at hi'
      rw [if_neg (by omega)]
      have hl : Part (255 * ((r : ℚ) - ((i' + r / 2 : Int) : ℚ)) / ((r / 2 : Int) : ℚ))
          (trunc (fl (((255 * (r - (i' + r / 2)) : Int) : ℚ) / (r / 2 : Int)))) := by
        have hd : (0 : ℚ) < ((r / 2 : Int) : ℚ) := by exact_mod_cast (by omega : 0 < r / 2)
        have q0 : (0 : ℚ) ≤ ((255 * (r - (i' + r / 2)) : Int) : ℚ) / (r / 2 : Int) :=
          div_nonneg (by exact_mod_cast (by omega : 0 ≤ 255 * (r - (i' + r / 2)))) hd.le
        have q1 : ((255 * (r - (i' + r / 2)) : Int) : ℚ) / (r / 2 : Int) ≤ 255 := by
          rw [div_le_iff₀ hd]; exact_mod_cast (by omega : 255 * (r - (i' + r / 2)) ≤ 255 * (r / 2))
        have := trunc_near q0 q1 ((fl_close (M := 255) (by rw [abs_of_nonneg q0]; exact q1)).trans (by norm_num))
        convert this using 2
        push_cast; ring
      have ⟨l0, l1, _⟩ := hl
      obtain ⟨p', ep', hp'⟩ := colormix_mixed hf (l := (trunc (fl (((255 * (r - (i' + r / 2)) : Int) : ℚ) / (r / 2 : Int))) : Int))
        (m := (trunc (fl (((255 * (r - (i' + r / 2)) : Int) : ℚ) / (r / 2 : Int))) : Int))
        ⟨by exact_mod_cast l0, by exact_mod_cast l1⟩ (by simp)
      obtain ⟨k', ek', hk', hs'⟩ := palColour_ok hv (mixed_byte hp')
      obtain ⟨b'', e'', hb''⟩ := hring (i' + r / 2) (by omega) (by omega) b' hv k' hk'
      exact ⟨b'', k', by rw [ep', ek', ok_bind, e''], ⟨_, p', hl, hp', shown_header hh hs'⟩, by rw [Int.toNat_natCast] at hb''; exact hb''⟩)
    p1.valid p1.header (by
      rw [List.pairwise_map]
      exact (countdown_pairwise _).imp (by intro a c hac; omega))
  refine ⟨b', e, hv, hh, ?_⟩
  have hm : ∀ i, i ∈ (countdown (r - 1 - r / 2)).map (· + r / 2) ↔ r / 2 < i ∧ i < r := by
    intro i
    rw [List.mem_map]
    constructor
    · rintro ⟨a, ha, rfl⟩; rw [mem_countdown] at ha; omega
    · rintro ⟨h1, h2⟩; exact ⟨i - r / 2, by rw [mem_countdown]; omega, by omega⟩
  intro px py hpx hpy
  obtain ⟨q1, q2⟩ := hq px py hpx hpy
  refine ⟨?_, ?_, ?_⟩
  · intro i i1 i2 hS hno
    exact q2 i ((hm i).mpr ⟨i1, i2⟩) hS (fun j hj hlt => hno j ((hm j).mp hj).1 hlt)
  · intro hno hD
    rw [q1 (fun i hi => hno i ((hm i).mp hi).1 ((hm i).mp hi).2), p1.inside px py hpx hpy hD]
    refine ⟨255, p, ⟨by norm_num, by norm_num, by norm_num⟩, by exact_mod_cast hp, ?_⟩
    simpa using hs
  · intro hno hD
    rw [q1 (fun i hi => hno i ((hm i).mp hi).1 ((hm i).mp hi).2), p1.outside px py hpx hpy hD]

/-- C133: `orb` is a disc of half the radius in full brightness, with rings around it that go dark. -/
theorem C133_orb_partial (h : Valid b W H bits) {x y r : Int} (hx : PenOK W bits (x - (r - 1))) (hxr : bits = 4 → x + (r - 1) < 2 * rowLen W 4) (hx' : PenOK W bits x)
    {f : ℚ × ℚ × ℚ} (hf : Unit f) :
    ∃ b', orb b x y r f = .ok b' ∧ Valid b' W H bits ∧ SameHeader b b' bits ∧
      ∀ px py, px < W → py < H →
        (∀ i, r / 2 < i → i < r → RingSet W bits x y i px py → (∀ j, r / 2 < j → j < i → ¬ RingSet W bits x y j px py) →
          Lit b bits f (255 * (r - i) / ((r / 2 : Int) : ℚ)) (pix b' W H bits px py)) ∧
        ((∀ i, r / 2 < i → i < r → ¬ RingSet W bits x y i px py) → Mark W bits x y (r / 2) px py →
          Lit b bits f 255 (pix b' W H bits px py)) ∧
        ((∀ i, r / 2 < i → i < r → ¬ RingSet W bits x y i px py) → ¬ Mark W bits x y (r / 2) px py →
          pix b' W H bits px py = pix b W H bits px py) :=
  orb_of h (fun c hc => C27_filledcircle_depths h hc hx')
    (fun i h1 h2 b hb c hc => C95_thickcircle_partial hb hc (by unfold PenOK at *; omega) (by omega)) hf

/-- `iterellipsepart` gives no point with a negative coordinate, unless both axes are 0 or one is and the other negative. -/
theorem part_nonneg {b₀ a₀ : Int} (h : 1 ≤ b₀ ∨ a₀ ≠ 0) : ∀ v ∈ iterellipsepart b₀ a₀, 0 ≤ v.1 ∧ 0 ≤ v.2 := by
  by_cases hb : 1 ≤ b₀
  · by_cases ha : a₀ = 0
    · subst ha
      intro v hv
      unfold iterellipsepart at hv
      have hB : 0 < b₀ * b₀ := by positivity
      have hd : (0 : Int) ≤ pyShl (0 * 0) 1 * ((b₀ - 1) * b₀) + 0 * 0 + pyShl (b₀ * b₀) 1 * (1 - 0 * 0) := by
        rw [shl1, shl1]; nlinarith
      have e : ∀ d, 0 ≤ d → ellLoop1 (0 * 0) (b₀ * b₀) ((0 * 0) * (b₀.natAbs : Int) + 2).toNat b₀ 0 d = ([(0, b₀)], (b₀ - 1, 1)) := by
        intro d hd
        have : ((0 * 0) * (b₀.natAbs : Int) + 2).toNat = 2 := by simp
        rw [this, ellLoop1, if_pos (by simp)]
        simp only [ge_iff_le, hd, if_true]
        rw [ellLoop1, if_neg (by push Not; nlinarith)]
        rfl
      dsimp only at hv
      rw [e _ hd] at hv
      rw [List.mem_append] at hv
      rcases hv with hv | hv
      · have : v = (0, b₀) := by simpa using hv
        rw [this]; exact ⟨le_rfl, by show 0 ≤ b₀; omega⟩
      · obtain ⟨g1, g2, _⟩ := (loop2_spec (A := 0 * 0) (B := b₀ * b₀) _ _ _ _ rfl).1 v hv
        exact ⟨by have : (1 : Int) ≤ v.1 := g1; omega, g2⟩
    · intro v hv
      exact ⟨((C97_rows hb ha).1 v hv).1, ((C97_rows hb ha).1 v hv).2.1⟩
  · have ha : a₀ ≠ 0 := by omega
    have hA : 0 < a₀ * a₀ := mul_self_pos.mpr ha
    intro v hv
    unfold iterellipsepart at hv
    dsimp only at hv
    obtain ⟨n, hn⟩ : ∃ n, (a₀ * a₀ * (b₀.natAbs : Int) + 2).toNat = n + 2 := ⟨(a₀ * a₀ * (b₀.natAbs : Int)).toNat, by
      have : 0 ≤ a₀ * a₀ * (b₀.natAbs : Int) := by positivity
      omega⟩
    rw [hn] at hv
    by_cases h0 : b₀ = 0
    · subst h0
      have e : ∀ d, 0 ≤ d → ellLoop1 (a₀ * a₀) (0 * 0) (n + 2) 0 0 d = ([(0, 0)], (-1, 1)) := by
        intro d hd
        rw [ellLoop1, if_pos (by simp)]
        simp only [ge_iff_le, hd, if_true]
        rw [ellLoop1, if_neg (by push Not; nlinarith)]
        rfl
      rw [e _ (by rw [shl1, shl1]; nlinarith)] at hv
      simp [ellLoop2] at hv
      rw [hv]; exact ⟨le_rfl, le_rfl⟩
    · have e : ∀ d, ellLoop1 (a₀ * a₀) (b₀ * b₀) (n + 2) b₀ 0 d = ([], (b₀, 0)) := by
        intro d
        have : b₀ * (a₀ * a₀) < 0 := mul_neg_of_neg_of_pos (by omega) hA
        rw [ellLoop1, if_neg (by omega)]
      rw [e] at hv
      have : (b₀ + 1).toNat = 0 := by omega
      simp [this, ellLoop2] at hv

/-- C133, what `gradellipse` does: it paints `max a b` ellipses over each other, each with both axes one smaller than the
one before. Missing: centres more than 19 pixels left of the image, and on 4-bit images beyond the padding on the right, as in C98. -/
theorem C133_gradellipse_partial (h : Valid b W H bits) {x y b₀ a₀ : Int} (hx : PenOK W bits x)
    {lum : Int × Int} (hl : Lum lum) {f : ℚ × ℚ × ℚ} (hf : Unit f) :
    ∃ b', gradellipse lerpF b x y b₀ a₀ lum f = .ok b' ∧
      Graded b b' W H bits (max a₀ b₀) (fun i => EllipseFill W bits x y (b₀ - max a₀ b₀ + i) (a₀ - max a₀ b₀ + i))
        (Step b bits lum f (max a₀ b₀)) := by
  apply graded h
  intro i h1 h2 b' hv hh
  exact layer_ok hv hh hf (lumBlend_part hl (by omega) h2 (by omega))
    (fun c hc => filledellipse_nonneg hv (part_nonneg (by omega)) hc hx)

/-- C133: for equal axes the layers are concentric. -/
theorem C133_gradellipse_round_partial (h : Valid b W H bits) {x y a₀ : Int} (hx : PenOK W bits x)
    {lum : Int × Int} (hl : Lum lum) {f : ℚ × ℚ × ℚ} (hf : Unit f) :
    ∃ b', gradellipse lerpF b x y a₀ a₀ lum f = .ok b' ∧
      Graded b b' W H bits a₀ (fun i => EllipseFill W bits x y i i) (Step b bits lum f a₀) := by
  obtain ⟨b', e, hG⟩ := C133_gradellipse_partial h (b₀ := a₀) (a₀ := a₀) (y := y) hx hl hf
  refine ⟨b', e, ?_⟩
  simpa using hG

/-- C133: for other ellipses the gradient does not go from the centre to the edge. With the half axes 3 (upright) and 1
the edge on the side is as bright as the middle; with 1 and 3 the middle is only half as bright as it should be. -/
theorem C133_gradellipse_wrong :
    (do let b ← newBMP 5 1 24; let b ← gradellipse lerpF b 2 0 3 1 (240, 60) (0, 0, 1)
        pure (← getxybit b 2 0, ← getxybit b 3 0, ← getxybit b 4 0)) = .ok (180, 180, 120) ∧
    (do let b ← newBMP 7 1 24; let b ← gradellipse lerpF b 3 0 1 3 (240, 60) (0, 0, 1)
        pure (← getxybit b 3 0)) = .ok 120 := by
  constructor <;> decide +kernel

/-- C133: the pen makes discs and orbs of radius 4 reach 5 pixels from the centre. -/
theorem C133_wider_wrong :
    (do let b ← newBMP 11 1 24; let b ← gradcircle lerpF b 5 0 4 (255, 55) (0, 0, 1)
        pure (← getxybit b 5 0, ← getxybit b 9 0, ← getxybit b 10 0)) = .ok (205, 155, 105) ∧
    (do let b ← newBMP 11 1 24; let b ← orb b 5 0 4 (0, 0, 1)
        pure (← getxybit b 5 0, ← getxybit b 9 0, ← getxybit b 10 0)) = .ok (255, 127, 127) := by
  constructor <;> decide +kernel

example : (do let b ← newBMP 9 1 24; let b ← sphere lerpF b 4 0 3 (.two 0xff0000 0x0000ff)
              pure (← getxybit b 4 0, ← getxybit b 8 0)) = .ok (0xaa0055, 0x5500aa) := by decide +kernel

end Verif.Props.Gradient
