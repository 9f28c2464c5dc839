import Verif.Lemmas.Basic
import Verif.Model.Colors
import Mathlib.Tactic.Linarith
/-! C41 and C42: colour integers, and matching a colour to a palette. -/

namespace Verif.Props
open Verif Model

/-- A value that fits in one byte. -/
def IsByte (v : Int) : Prop := 0 ≤ v ∧ v < 256

instance (v : Int) : Decidable (IsByte v) := inferInstanceAs (Decidable (_ ∧ _))

/-- The value of a byte triple in base 256, red first: the specification of a colour integer. -/
def rgbValue (r g b : Int) : Int := r * 65536 + g * 256 + b

theorem RGB2int_eq (r g b : Int) : RGB2int r g b = rgbValue r g b := by
  unfold RGB2int rgbValue pyShl; ring

/-- C41: packing and unpacking a byte triple gives the triple back. -/
theorem C41_unpack_pack {r g b : Int} (hr : IsByte r) (hg : IsByte g) (hb : IsByte b) :
    int2RGB (RGB2int r g b) = (r, g, b) ∧ 0 ≤ RGB2int r g b ∧ RGB2int r g b < 2 ^ 24 := by
  unfold IsByte at *
  rw [RGB2int_eq]
  unfold rgbValue int2RGB
  rw [pyShr_16, pyShr_8, pyAnd_255, pyAnd_255]
  refine ⟨?_, by omega, by omega⟩
  rw [Prod.mk.injEq, Prod.mk.injEq]
  refine ⟨?_, ?_, ?_⟩ <;> omega

/-- C41: unpacking and packing an integer gives it back; the parts are bytes exactly for the
integers below `2^24`. -/
theorem C41_pack_unpack (i : Int) : RGB2int (int2RGB i).1 (int2RGB i).2.1 (int2RGB i).2.2 = i ∧
    ((0 ≤ i ∧ i < 2 ^ 24) ↔ IsByte (int2RGB i).1 ∧ IsByte (int2RGB i).2.1 ∧ IsByte (int2RGB i).2.2) := by
  rw [RGB2int_eq]
  unfold int2RGB rgbValue IsByte
  rw [pyShr_16, pyShr_8, pyAnd_255, pyAnd_255]
  dsimp only
  constructor <;> omega

theorem mkArray_three (a b c : Int) : mkArray [a, b, c] =
    if IsByte a ∧ IsByte b ∧ IsByte c then .ok [a.toNat, b.toNat, c.toNat] else .error .overflowError := by
  unfold mkArray IsByte
  simp only [List.all_cons, List.all_nil, Bool.and_true, Bool.and_eq_true, decide_eq_true_eq, List.map_cons, List.map_nil]
  congr

/-- C41: the array forms hold the bytes of the colour in the stated order, and raise outside the range. -/
theorem C41_arrays (i : Int) :
    (0 ≤ i ∧ i < 2 ^ 24 → ∃ r g b : Nat, (r : Int) < 256 ∧ (g : Int) < 256 ∧ (b : Int) < 256 ∧
      i = rgbValue r g b ∧ int2RGBarr i = .ok [r, g, b] ∧ int2BGRarr i = .ok [b, g, r] ∧ RGB2BGRarr r g b = .ok [b, g, r]) ∧
    (¬ (0 ≤ i ∧ i < 2 ^ 24) → int2RGBarr i = .error .overflowError ∧ int2BGRarr i = .error .overflowError) := by
  unfold int2RGBarr int2BGRarr RGB2BGRarr
  simp only [mkArray_three, pyShr_16, pyShr_8, pyAnd_255]
  constructor
  · intro hi
    refine ⟨(i / 65536).toNat, (i / 256 % 256).toNat, (i % 256).toNat, by omega, by omega, by omega, ?_, ?_, ?_, ?_⟩
    · unfold rgbValue; omega
    · rw [if_pos (by unfold IsByte; omega)]
    · rw [if_pos (by unfold IsByte; omega)]
    · rw [if_pos (by unfold IsByte; omega)]; simp only [Int.toNat_natCast]
  · intro hi
    rw [if_neg (by unfold IsByte; omega), if_neg (by unfold IsByte; omega)]
    exact ⟨rfl, rfl⟩

/-- C41: different byte triples have different integers. -/
theorem C41_injective {r g b r' g' b' : Int} (hr : IsByte r) (hg : IsByte g) (hb : IsByte b)
    (hr' : IsByte r') (hg' : IsByte g') (hb' : IsByte b') (h : RGB2int r g b = RGB2int r' g' b') :
    (r, g, b) = (r', g', b') := by
  rw [← (C41_unpack_pack hr hg hb).1, h, (C41_unpack_pack hr' hg' hb').1]

/-- C41: triples outside the byte range are rejected by `RGB2BGRarr`. -/
theorem C41_RGB2BGRarr_rejects (r g b : Int) (h : ¬ (IsByte r ∧ IsByte g ∧ IsByte b)) :
    RGB2BGRarr r g b = .error .overflowError := by
  unfold RGB2BGRarr
  rw [mkArray_three, if_neg (by tauto)]

example : int2RGB 0x123456 = (0x12, 0x34, 0x56) ∧ RGB2int 0x12 0x34 0x56 = 0x123456 := by decide +kernel
example : int2BGRarr 0x1000000 = .error .overflowError := by decide +kernel

/-- The squared Euclidean distance of two colours. -/
def sqDist (p q : RGB) : Int :=
  (p.1 - q.1) * (p.1 - q.1) + (p.2.1 - q.2.1) * (p.2.1 - q.2.1) + (p.2.2 - q.2.2) * (p.2.2 - q.2.2)

theorem dist2_eq (p q : RGB) : dist2 p q = sqDist p q := by unfold dist2 sqDist; ring

/-- Entries that take part in the search. -/
def Eligible (rgb p : RGB) : Prop := p ≠ (0, 0, 0) ∧ rgb ≠ (0, 0, 0)

theorem matchLoop_spec (rgb : RGB) (ps : List RGB) (i c d : Int) :
    (matchLoop rgb true ps i c d = c ∧ ∀ p ∈ ps, Eligible rgb p → d ≤ sqDist rgb p) ∨
    ∃ (k : Nat) (hk : k < ps.length), matchLoop rgb true ps i c d = i + k ∧ Eligible rgb ps[k] ∧ sqDist rgb ps[k] < d ∧
      (∀ p ∈ ps, Eligible rgb p → sqDist rgb ps[k] ≤ sqDist rgb p) ∧
      (∀ (j : Nat) (hj : j < k), Eligible rgb (ps[j]'(by omega)) → sqDist rgb ps[k] < sqDist rgb (ps[j]'(by omega))) := by
  induction ps generalizing i c d with
  | nil => left; exact ⟨rfl, by simp⟩
  | cons p ps ih =>
    unfold matchLoop
    simp only [Bool.true_eq_false, false_or]
    by_cases he : p ≠ (0, 0, 0) ∧ rgb ≠ (0, 0, 0)
    · rw [if_pos he, dist2_eq]
      by_cases hd : sqDist rgb p < d
      · rw [if_pos hd]
        right
        rcases ih (i + 1) i (sqDist rgb p) with ⟨h1, h2⟩ | ⟨k, hk, h1, h2, h3, h4, h5⟩
        · refine ⟨0, by simp, by simpa using h1, he, hd, ?_, by simp⟩
          intro q hq hqe
          rcases List.mem_cons.mp hq with rfl | hq
          · exact le_refl _
          · exact h2 q hq hqe
        · refine ⟨k + 1, by simpa using hk, by rw [h1]; push_cast; ring, h2, lt_trans h3 hd, ?_, ?_⟩
          · intro q hq hqe
            rcases List.mem_cons.mp hq with rfl | hq
            · exact le_of_lt h3
            · exact h4 q hq hqe
          · intro j hj hje
            cases j with
            | zero => exact h3
            | succ j => exact h5 j (by omega) hje
      · rw [if_neg hd]
        rcases ih (i + 1) c d with ⟨h1, h2⟩ | ⟨k, hk, h1, h2, h3, h4, h5⟩
        · left
          refine ⟨h1, ?_⟩
          intro q hq hqe
          rcases List.mem_cons.mp hq with rfl | hq
          · exact not_lt.mp hd
          · exact h2 q hq hqe
        · right
          refine ⟨k + 1, by simpa using hk, by rw [h1]; push_cast; ring, h2, h3, ?_, ?_⟩
          · intro q hq hqe
            rcases List.mem_cons.mp hq with rfl | hq
            · exact le_trans (le_of_lt h3) (not_lt.mp hd)
            · exact h4 q hq hqe
          · intro j hj hje
            cases j with
            | zero => exact lt_of_lt_of_le h3 (not_lt.mp hd)
            | succ j => exact h5 j (by omega) hje
    · rw [if_neg he]
      rcases ih (i + 1) c d with ⟨h1, h2⟩ | ⟨k, hk, h1, h2, h3, h4, h5⟩
      · left
        refine ⟨h1, ?_⟩
        intro q hq hqe
        rcases List.mem_cons.mp hq with rfl | hq
        · exact absurd hqe he
        · exact h2 q hq hqe
      · right
        refine ⟨k + 1, by simpa using hk, by rw [h1]; push_cast; ring, h2, h3, ?_, ?_⟩
        · intro q hq hqe
          rcases List.mem_cons.mp hq with rfl | hq
          · exact absurd hqe he
          · exact h4 q hq hqe
        · intro j hj hje
          cases j with
          | zero => exact absurd hje he
          | succ j => exact h5 j (by omega) hje

/-- A colour whose parts are bytes. -/
def ByteRGB (p : RGB) : Prop := IsByte p.1 ∧ IsByte p.2.1 ∧ IsByte p.2.2

theorem sqDist_lt {p q : RGB} (hp : ByteRGB p) (hq : ByteRGB q) : sqDist p q < 442 ^ 2 := by
  have key : ∀ a b : Int, IsByte a → IsByte b → (a - b) * (a - b) ≤ 255 * 255 := by
    intro a b ha hb
    unfold IsByte at *
    nlinarith
  obtain ⟨h1, h2, h3⟩ := hp
  obtain ⟨g1, g2, g3⟩ := hq
  have := key _ _ h1 g1
  have := key _ _ h2 g2
  have := key _ _ h3 g3
  unfold sqDist
  omega

/-- C42, colours of the palette: their first position is returned. -/
theorem C42_exact_match {rgb : RGB} {pal : List RGB} (h : rgb ∈ pal) :
    ∃ (k : Nat) (hk : k < pal.length), matchRGBtopal rgb true pal = k ∧ pal[k] = rgb ∧
      ∀ (j : Nat) (hj : j < k), pal[j]'(by omega) ≠ rgb := by
  unfold matchRGBtopal
  rw [if_pos ⟨rfl, h⟩]
  have hk : pal.idxOf rgb < pal.length := List.idxOf_lt_length_iff.mpr h
  refine ⟨pal.idxOf rgb, hk, rfl, List.getElem_idxOf hk, ?_⟩
  intro j hj
  have := List.not_of_lt_findIdx (p := (· == rgb)) (xs := pal) (by simpa [List.idxOf] using hj)
  simpa using this

/-- C42 for the other colours: the first of the nearest among the entries that are not black. Black
itself, and a palette of black entries only, give 0. -/
theorem C42_nearest_partial {rgb : RGB} {pal : List RGB} (h : rgb ∉ pal) (hb : ByteRGB rgb) (hp : ∀ p ∈ pal, ByteRGB p) :
    ((rgb = (0, 0, 0) ∨ ∀ p ∈ pal, p = (0, 0, 0)) → matchRGBtopal rgb true pal = 0) ∧
    (¬ (rgb = (0, 0, 0) ∨ ∀ p ∈ pal, p = (0, 0, 0)) → ∃ (k : Nat) (hk : k < pal.length), matchRGBtopal rgb true pal = k ∧
      pal[k] ≠ (0, 0, 0) ∧ (∀ p ∈ pal, p ≠ (0, 0, 0) → sqDist rgb pal[k] ≤ sqDist rgb p) ∧
      ∀ (j : Nat) (hj : j < k), pal[j]'(by omega) ≠ (0, 0, 0) → sqDist rgb pal[k] < sqDist rgb (pal[j]'(by omega))) := by
  unfold matchRGBtopal
  rw [if_neg (by tauto)]
  rcases matchLoop_spec rgb pal 0 0 (442 ^ 2) with ⟨h1, h2⟩ | ⟨k, hk, h1, h2, h3, h4, h5⟩
  · refine ⟨fun _ => h1, fun hc => ?_⟩
    exfalso
    apply hc
    by_cases hz : rgb = (0, 0, 0)
    · left; exact hz
    · right
      intro p hpp
      by_contra hpz
      have := h2 p hpp ⟨hpz, hz⟩
      have := sqDist_lt hb (hp p hpp)
      omega
  · refine ⟨fun hc => ?_, fun _ => ⟨k, hk, by rw [h1]; omega, h2.1, fun p hpp hpz => h4 p hpp ⟨hpz, h2.2⟩,
      fun j hj hjz => h5 j hj ⟨hjz, h2.2⟩⟩⟩
    rcases hc with hc | hc
    · exact absurd hc h2.2
    · exact absurd (hc _ (List.getElem_mem hk)) h2.1

/-- C42: a valid position is returned for every palette with entries. -/
theorem C42_valid_index {rgb : RGB} {pal : List RGB} (hne : pal ≠ []) :
    0 ≤ matchRGBtopal rgb true pal ∧ matchRGBtopal rgb true pal < pal.length := by
  by_cases h : rgb ∈ pal
  · obtain ⟨k, hk, e, _⟩ := C42_exact_match h
    rw [e]; omega
  · unfold matchRGBtopal
    rw [if_neg (by tauto)]
    have := List.length_pos_iff.mpr hne
    rcases matchLoop_spec rgb pal 0 0 (442 ^ 2) with ⟨h1, _⟩ | ⟨k, hk, h1, _⟩
    · rw [h1]; omega
    · rw [h1]; omega

/-- C42 is false as stated: a dark grey is matched to white although black is in the palette. -/
theorem C42_false : ¬ ∀ (rgb : RGB) (pal : List RGB), pal ≠ [] → ByteRGB rgb → (∀ p ∈ pal, ByteRGB p) →
    ∃ (k : Nat) (hk : k < pal.length), matchRGBtopal rgb true pal = k ∧ ∀ p ∈ pal, sqDist rgb pal[k] ≤ sqDist rgb p := by
  intro hall
  obtain ⟨k, hk, e, hm⟩ := hall (1, 1, 1) [(0, 0, 0), (255, 255, 255)] (by simp) (by simp [ByteRGB, IsByte])
    (by intro p hp; simp at hp; rcases hp with rfl | rfl <;> simp [ByteRGB, IsByte])
  have e1 : matchRGBtopal (1, 1, 1) true [(0, 0, 0), (255, 255, 255)] = 1 := by decide +kernel
  rw [e1] at e
  obtain rfl : k = 1 := by omega
  have := hm (0, 0, 0) (by simp)
  simp [sqDist] at this

example : matchRGBtopal (250, 10, 10) true [(0, 0, 0), (0, 255, 0), (255, 0, 0), (255, 1, 0)] = 3 := by decide +kernel
example : matchRGBtopal (0, 255, 0) true [(0, 0, 0), (0, 255, 0), (0, 255, 0)] = 1 := by decide +kernel

end Verif.Props
