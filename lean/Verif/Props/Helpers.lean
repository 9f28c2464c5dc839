import Verif.Model.Helpers
import Verif.Lemmas.NewImage
import Verif.Props.Horizontal
import Verif.Props.Paste
/-! C43, C46, C47 and C52: byte reversal, bounds predicates, clamps and neighbours. -/

namespace Verif.Props
open Verif Spec Model

/-! ### C43 -/

/-- Exchange of the two nibbles of a byte. -/
def swapNibbles (v : Nat) : Nat := v / 16 + v % 16 * 16

/-- C43, nibbles: every byte has its nibbles exchanged, and doing it twice gives the buffer back. -/
theorem C43_nibbles {buf : Bytes} (hb : ∀ v ∈ buf, v < 256) :
    flipnibbleinbuf buf = .ok (buf.map swapNibbles) ∧ flipnibbleinbuf (buf.map swapNibbles) = .ok buf := by
  have key : ∀ l : Bytes, (∀ v ∈ l, v < 256) → flipnibbleinbuf l = .ok (l.map swapNibbles) := by
    intro l hl
    unfold flipnibbleinbuf
    apply mkArray_ok
    · rw [List.map_map]
      apply List.map_congr_left
      intro v hv
      simp only [Function.comp, nibble_eq v (hl v hv)]
      rfl
    · intro w hw
      obtain ⟨v, hv, rfl⟩ := List.mem_map.mp hw
      have := hl v hv
      unfold swapNibbles
      omega
  refine ⟨key buf hb, ?_⟩
  rw [key _ (by
    intro w hw
    obtain ⟨v, hv, rfl⟩ := List.mem_map.mp hw
    have := hb v hv
    unfold swapNibbles
    omega), List.map_map]
  congr 1
  rw [List.map_congr_left (g := id)]
  · simp
  · intro v hv
    have := hb v hv
    simp only [Function.comp, swapNibbles, id]
    omega

/-- C43, bits: bit `i` of the result is bit `7 - i` of the byte, but bit 7 is always 0. -/
theorem C43_rotatebits_exact {v i : Nat} (hv : v < 256) (hi : i < 8) :
    rotatebits v < 256 ∧ rotatebits v / 2 ^ i % 2 = if i = 7 then 0 else v / 2 ^ (7 - i) % 2 :=
  ⟨rotatebits_lt v hv, rotatebits_bit v hv i hi⟩

/-- C43, bits: for even bytes the bits are reversed; doing it twice clears bits 0 and 7. Missing: odd bytes. -/
theorem C43_rotatebits_partial : ∀ v, v < 256 →
    rotatebits (rotatebits v) = v / 2 % 64 * 2 ∧
    (v % 2 = 0 → ∀ i, i < 8 → rotatebits v / 2 ^ i % 2 = v / 2 ^ (7 - i) % 2) := by decide +kernel

/-- C43 is false for the bits: `rotatebits` is not an involution, and 1 does not become 128. -/
theorem C43_false : rotatebits 1 = 0 ∧ ¬ ∀ v, v < 256 → rotatebits (rotatebits v) = v := by
  refine ⟨by decide +kernel, fun h => ?_⟩
  have := h 1 (by omega)
  revert this
  decide +kernel

theorem byte_reverse {b : Bytes} {i : Nat} (hi : i < b.length) : byte b.reverse i = byte b (b.length - 1 - i) := by
  rw [byte_eq_getElem _ _ (by simpa using hi), List.getElem_reverse, byte_eq_getElem _ _ (by omega)]

theorem byte_map {b : Bytes} {f : Nat → Nat} {i : Nat} (hi : i < b.length) : byte (b.map f) i = f (byte b i) := by
  rw [byte_eq_getElem _ _ (by simpa using hi), List.getElem_map, byte_eq_getElem _ _ hi]

/-- Every pixel of three bytes has its first and third byte exchanged. -/
theorem RGB2BGRbuf_eq {buf : Bytes} {n : Nat} (hn : buf.length = 3 * n) :
    ∃ out, RGB2BGRbuf buf = .ok out ∧ out.length = 3 * n ∧
      ∀ i, i < n → byte out (3 * i) = byte buf (3 * i + 2) ∧ byte out (3 * i + 1) = byte buf (3 * i + 1) ∧
        byte out (3 * i + 2) = byte buf (3 * i) := by
  rcases Nat.eq_zero_or_pos n with rfl | hn0
  · have : buf = [] := List.eq_nil_of_length_eq_zero (by omega)
    subst this
    exact ⟨[], by decide +kernel, rfl, by intro i hi; omega⟩
  · have e1 : sliceStep buf 2 (buf.length : Int) 3 = .ok ((List.range n).map fun j => byte buf (2 + j * 3)) :=
      sliceStep_ok (n := 2) (eN := buf.length) rfl rfl (by omega) hn0 (by omega) (by omega) (by omega)
    have e2 : sliceStep buf 0 ((buf.length : Int) - 2) 3 = .ok ((List.range n).map fun j => byte buf (0 + j * 3)) :=
      sliceStep_ok (n := 0) (eN := buf.length - 2) rfl (by omega) (by omega) hn0 (by omega) (by omega) (by omega)
    have e3 : ∀ l : Bytes, l.length = n → setSliceStep buf 0 ((buf.length : Int) - 2) 3 l = .ok (writeStride buf 0 3 l) :=
      fun l hl => setSliceStep_ok (n := 0) (eN := buf.length - 2) rfl (by omega) (by omega) (by omega) (by omega)
        (by omega) (by omega)
    have e4 : ∀ b' l : Bytes, b'.length = buf.length → l.length = n →
        setSliceStep b' 2 (buf.length : Int) 3 l = .ok (writeStride b' 2 3 l) :=
      fun b' l hb' hl => setSliceStep_ok (n := 2) (eN := buf.length) rfl rfl (by omega) (by omega) (by omega)
        (by omega) (by omega)
    unfold RGB2BGRbuf
    dsimp only
    rw [e1, ok_bind, e2, ok_bind, e3 _ (by simp), ok_bind, e4 _ _ (by simp [length_writeStride]) (by simp)]
    refine ⟨_, rfl, by simp [length_writeStride, hn], ?_⟩
    intro i hi
    have get : ∀ (f : Nat → Nat), byte ((List.range n).map f) i = f i := by
      intro f
      rw [byte_eq_getElem _ _ (by simpa using hi)]
      simp
    refine ⟨?_, ?_, ?_⟩
    · rw [byte_writeStride_out _ _ _ _ _ (by intro j _; omega)]
      have := byte_writeStride_in buf 0 3 ((List.range n).map fun j => byte buf (2 + j * 3)) (by omega)
        (by simp; omega) i (by simpa using hi)
      rw [show 3 * i = 0 + i * 3 by omega, this, get]
      congr 1; omega
    · rw [byte_writeStride_out _ _ _ _ _ (by intro j _; omega), byte_writeStride_out _ _ _ _ _ (by intro j _; omega)]
    · have := byte_writeStride_in (writeStride buf 0 3 ((List.range n).map fun j => byte buf (2 + j * 3))) 2 3
        ((List.range n).map fun j => byte buf (0 + j * 3)) (by omega) (by simp [length_writeStride]; omega) i (by simpa using hi)
      rw [show 3 * i + 2 = 2 + i * 3 by omega, this, get]
      congr 1; omega

/-- C43, rows: `flipbuf` reverses the order of the `n` pixels of a full buffer; in one-bit buffers
the first pixel of each byte of the result is 0 instead. -/
theorem C43_flipbuf_exact {buf : Bytes} {n bits : Nat} (hd : Depth bits) (hb : ∀ v ∈ buf, v < 256)
    (hn : buf.length * 8 = n * bits) :
    ∃ out, flipbuf buf bits = .ok out ∧ out.length = buf.length ∧
      ∀ i, i < n → bufPx bits out i = if bits = 1 ∧ i % 8 = 0 then 0 else bufPx bits buf (n - 1 - i) := by
  have hbr : ∀ v ∈ buf.reverse, v < 256 := by intro v hv; exact hb v (by simpa using hv)
  have r1 : flipbuf buf ((1 : Nat) : Int) = rotatebitsinbuf buf.reverse := by simp [flipbuf]
  have r4 : flipbuf buf ((4 : Nat) : Int) = flipnibbleinbuf buf.reverse := by
    simp [flipbuf]
    cases flipnibbleinbuf buf.reverse <;> rfl
  have r8 : flipbuf buf ((8 : Nat) : Int) = .ok buf.reverse := by simp [flipbuf, pure_eq_ok]
  have r24 : flipbuf buf ((24 : Nat) : Int) = RGB2BGRbuf buf.reverse := by
    simp [flipbuf, flip24bitbuf]
    cases RGB2BGRbuf buf.reverse <;> rfl
  unfold bufPx shiftOf
  rcases hd with rfl | rfl | rfl | rfl
  · refine ⟨_, r1.trans (mapOK_1 _ hbr), by simp, ?_⟩
    intro i hi
    rw [if_neg (by decide), byte_map (by simp; omega), byte_reverse (by omega)]
    have hlt : byte buf (buf.length - 1 - i * 1 / 8) < 256 := byte_lt_of_mem hb _
    have hr := rotatebits_bit _ hlt (7 - i % 8) (by omega)
    simp only [blockByte]
    rw [if_neg (by decide), if_pos trivial, show 8 - 1 - i * 1 % 8 = 7 - i % 8 by omega, pow_one, hr]
    by_cases h8 : i % 8 = 0
    · rw [if_pos (by omega), if_pos ⟨trivial, h8⟩]
    · rw [if_neg (by omega), if_neg (by omega), if_neg (by decide), show buf.length - 1 - i * 1 / 8 = (n - 1 - i) * 1 / 8 by omega,
        show 7 - (7 - i % 8) = 8 - 1 - (n - 1 - i) * 1 % 8 by omega]
  · refine ⟨_, r4.trans (mapOK_4 _ hbr), by simp, ?_⟩
    intro i hi
    rw [if_neg (by omega), if_neg (by omega), if_neg (by omega), byte_map (by simp; omega), byte_reverse (by omega)]
    have hlt : byte buf (buf.length - 1 - i * 4 / 8) < 256 := byte_lt_of_mem hb _
    simp only [blockByte, if_true]
    rw [show (n - 1 - i) * 4 / 8 = buf.length - 1 - i * 4 / 8 by omega]
    generalize byte buf (buf.length - 1 - i * 4 / 8) = v at hlt
    have q1 : (v / 16 + v % 16 * 16) / 16 = v % 16 := by omega
    have q2 : (v / 16 + v % 16 * 16) % 16 = v / 16 := by omega
    have h2 : i % 2 = 0 ∨ i % 2 = 1 := by omega
    rcases h2 with h2 | h2
    · rw [show 8 - 4 - i * 4 % 8 = 4 by omega, show 8 - 4 - (n - 1 - i) * 4 % 8 = 0 by omega, Nat.pow_zero, Nat.div_one,
        show (2 : Nat) ^ 4 = 16 by rfl, q1]; omega
    · rw [show 8 - 4 - i * 4 % 8 = 0 by omega, show 8 - 4 - (n - 1 - i) * 4 % 8 = 4 by omega, Nat.pow_zero, Nat.div_one,
        show (2 : Nat) ^ 4 = 16 by rfl, q2]; omega
  · refine ⟨_, r8, by simp, ?_⟩
    intro i hi
    rw [if_neg (by omega), if_neg (by omega), if_neg (by omega), byte_reverse (by omega),
      show buf.length - 1 - i * 8 / 8 = (n - 1 - i) * 8 / 8 by omega,
      show 8 - 8 - i * 8 % 8 = 8 - 8 - (n - 1 - i) * 8 % 8 by omega]
  · obtain ⟨out, e, hl, hp⟩ := RGB2BGRbuf_eq (buf := buf.reverse) (n := n) (by simp; omega)
    refine ⟨out, r24.trans e, by omega, ?_⟩
    intro i hi
    obtain ⟨p0, p1, p2⟩ := hp i hi
    rw [if_pos rfl, if_neg (by omega), if_pos rfl, p0, p1, p2, byte_reverse (by omega), byte_reverse (by omega),
      byte_reverse (by omega), show buf.length - 1 - (3 * i + 2) = 3 * (n - 1 - i) by omega,
      show buf.length - 1 - (3 * i + 1) = 3 * (n - 1 - i) + 1 by omega,
      show buf.length - 1 - 3 * i = 3 * (n - 1 - i) + 2 by omega]

example : flipbuf [1, 2, 3, 4, 5, 6] 24 = .ok [4, 5, 6, 1, 2, 3] ∧ flipbuf [0x12, 0x34] 4 = .ok [0x43, 0x21] ∧
    flipbuf [0b10110000, 0b00000010] 1 = .ok [0b01000000, 0b00001101] := by decide +kernel

/-! ### C46 -/

/-- C46: `isinrectbnd` is the strict test on all four sides. -/
theorem C46_isinrectbnd (x y xmin ymin xmax ymax : Int) :
    isinrectbnd x y xmin ymin xmax ymax = true ↔ (xmin < x ∧ x < xmax) ∧ (ymin < y ∧ y < ymax) := by
  unfold isinrectbnd
  simp only [Bool.and_eq_true, decide_eq_true_eq]
  omega

theorem listinrecbnd_true (xmin ymin xmax ymax : Int) (l : List (Int × Int)) :
    listinrecbnd xmin ymin xmax ymax l = true := by
  induction l with
  | nil => rfl
  | cons p ps ih => unfold listinrecbnd; rw [ih]; split_ifs <;> rfl

/-- C46: both list predicates answer True for every list. -/
theorem C46_exact {b : Bytes} {W H bits : Nat} (h : Valid b W H bits) (l : List (Int × Int)) (xmin ymin xmax ymax : Int) :
    listinBMPrecbnd b l = .ok true ∧ listinrecbnd xmin ymin xmax ymax l = true :=
  ⟨listinBMPrecbnd_true h l, listinrecbnd_true _ _ _ _ l⟩

/-- C46, the half that holds: when all points are inside, the answer is True. Missing: the converse. -/
theorem C46_partial {b : Bytes} {W H bits : Nat} (h : Valid b W H bits) (l : List (Int × Int)) (xmin ymin xmax ymax : Int) :
    ((∀ p ∈ l, 0 ≤ p.1 ∧ p.1 < W ∧ 0 ≤ p.2 ∧ p.2 < H) → listinBMPrecbnd b l = .ok true) ∧
    ((∀ p ∈ l, (xmin < p.1 ∧ p.1 < xmax) ∧ (ymin < p.2 ∧ p.2 < ymax)) → listinrecbnd xmin ymin xmax ymax l = true) :=
  ⟨fun _ => (C46_exact h l 0 0 0 0).1, fun _ => listinrecbnd_true _ _ _ _ l⟩

/-- C46 is false for both predicates. -/
theorem C46_false :
    (¬ ∀ l : List (Int × Int), listinBMPrecbnd sample8 l = .ok true ↔ ∀ p ∈ l, 0 ≤ p.1 ∧ p.1 < 3 ∧ 0 ≤ p.2 ∧ p.2 < 4) ∧
    (¬ ∀ l : List (Int × Int), listinrecbnd (-1) (-1) 3 4 l = true ↔ ∀ p ∈ l, (-1 < p.1 ∧ p.1 < 3) ∧ (-1 < p.2 ∧ p.2 < 4)) := by
  constructor
  · intro hc
    have := (hc [(7, 7)]).mp (C46_exact sample8_valid [(7, 7)] 0 0 0 0).1 (7, 7) (by simp)
    omega
  · intro hc
    have := (hc [(7, 7)]).mp (listinrecbnd_true _ _ _ _ _) (7, 7) (by simp)
    omega

/-! ### C47 -/

/-- `r` is the point of the interval nearest to `v`. -/
def Nearest (v r lo hi : Int) : Prop :=
  (lo ≤ r ∧ r ≤ hi) ∧ ∀ w, lo ≤ w → w ≤ hi → (r - v).natAbs ≤ (w - v).natAbs

/-- C47: clamping to one side. -/
theorem C47_one_sided (v m : Int) :
    (setmax v m ≤ m ∧ (v ≤ m → setmax v m = v) ∧ (m < v → setmax v m = m) ∧ setmax (setmax v m) m = setmax v m) ∧
    (m ≤ setmin v m ∧ (m ≤ v → setmin v m = v) ∧ (v < m → setmin v m = m) ∧ setmin (setmin v m) m = setmin v m) := by
  unfold setmax setmin
  refine ⟨⟨?_, ?_, ?_, ?_⟩, ?_, ?_, ?_, ?_⟩ <;> (repeat' split) <;> omega

/-- C47: the two-sided clamps return the nearest value of the interval and are idempotent. -/
theorem C47_clamps {lo hi : Int} (h : lo ≤ hi) (v : Int) :
    (Nearest v (setminmax v lo hi) lo hi ∧ setminmax (setminmax v lo hi) lo hi = setminmax v lo hi) ∧
    (Nearest v (intsetminmax v lo hi) lo hi ∧ intsetminmax (intsetminmax v lo hi) lo hi = intsetminmax v lo hi) ∧
    (Nearest v (clamp v lo hi) lo hi ∧ clamp (clamp v lo hi) lo hi = clamp v lo hi) := by
  have key : ∀ r : Int, r = (if v < lo then lo else if hi < v then hi else v) → Nearest v r lo hi := by
    intro r hr
    unfold Nearest
    refine ⟨?_, fun w h1 h2 => ?_⟩ <;> (split_ifs at hr <;> omega)
  refine ⟨⟨key _ ?_, ?_⟩, ⟨key _ ?_, ?_⟩, ⟨key _ ?_, ?_⟩⟩
  all_goals
    first | unfold setminmax | unfold intsetminmax | unfold clamp
    try dsimp only
    try split_ifs
    all_goals omega

/-- C47: a nearest value is unique, so the three clamps agree. -/
theorem C47_agree {lo hi : Int} (h : lo ≤ hi) (v : Int) :
    setminmax v lo hi = intsetminmax v lo hi ∧ setminmax v lo hi = clamp v lo hi := by
  unfold setminmax intsetminmax clamp
  dsimp only
  constructor <;> (split_ifs <;> omega)

/-- C47: `isinrange` is the open interval. -/
theorem C47_isinrange (v lo hi : Int) : isinrange v hi lo = true ↔ lo < v ∧ v < hi := by
  unfold isinrange
  simp only [Bool.and_eq_true, decide_eq_true_eq]

/-- C47: `sortrecpoints` gives the corners of the same rectangle in order. -/
theorem C47_sortrecpoints (x1 y1 x2 y2 : Int) :
    ∃ a b c d, sortrecpoints x1 y1 x2 y2 = (a, b, c, d) ∧ a ≤ c ∧ b ≤ d ∧
      ((a = x1 ∧ c = x2) ∨ (a = x2 ∧ c = x1)) ∧ ((b = y1 ∧ d = y2) ∨ (b = y2 ∧ d = y1)) ∧
      sortrecpoints a b c d = (a, b, c, d) := by
  rw [sortrec_eq]
  refine ⟨_, _, _, _, rfl, by omega, by omega, by omega, by omega, ?_⟩
  rw [sortrec_eq]
  simp only [Prod.mk.injEq]
  omega

example : clamp 300 0 255 = 255 ∧ setminmax (-4) 0 255 = 0 ∧ intsetminmax 17 0 255 = 17 := by decide +kernel
example : sortrecpoints 9 1 3 5 = (3, 1, 9, 5) := by decide +kernel

/-! ### C52 -/

theorem mem_if {α : Type} (c : Prop) [Decidable c] (l : List α) (a : α) : a ∈ (if c then l else []) ↔ c ∧ a ∈ l := by
  split_ifs with h <;> simp [h]

/-- C52: what `itergetneighbors` yields: neighbours above need a row number above 0, neighbours to
the left a column number above 0. -/
theorem C52_exact (v : Int × Int) (mx my : Int) (inc : Bool) :
    (itergetneighbors v mx my inc).Nodup ∧ ∀ p : Int × Int, p ∈ itergetneighbors v mx my inc ↔
      (0 ≤ v.1 ∧ 0 ≤ v.2) ∧ (v.1 - 1 ≤ p.1 ∧ p.1 ≤ v.1 + 1 ∧ v.2 - 1 ≤ p.2 ∧ p.2 ≤ v.2 + 1) ∧ (p = v → inc = true) ∧
      (p.1 < v.1 → 0 < p.1) ∧ (p.2 < v.2 → 0 < p.2) ∧ (v.1 < p.1 → p.1 < mx) ∧ (v.2 < p.2 → p.2 < my) := by
  obtain ⟨x, y⟩ := v
  unfold itergetneighbors
  dsimp only
  by_cases h0 : x > -1 ∧ y > -1
  · rw [if_pos h0]
    constructor
    · by_cases h1 : y - 1 > 0 <;> by_cases h2 : y + 1 < my <;> by_cases h3 : x - 1 > 0 <;> by_cases h4 : x + 1 < mx <;>
        cases inc <;>
        simp only [h1, h2, h3, h4, if_true, if_false, Bool.false_eq_true, List.append_nil, List.nil_append, List.cons_append,
          List.nodup_cons, List.mem_cons, List.not_mem_nil, Prod.mk.injEq, List.nodup_nil, or_false, not_false_eq_true, and_true] <;>
        omega
    · rintro ⟨px, py⟩
      cases inc <;>
        simp only [List.mem_append, mem_if, List.mem_cons, List.not_mem_nil, or_false, Prod.mk.injEq, Bool.false_eq_true,
          false_and, imp_false, true_and, implies_true]
      all_goals
        constructor
        · intro hm
          first
            | (rcases hm with (((hm | hm) | hm) | ⟨_, (hm | hm) | hm⟩) | ⟨_, (hm | hm) | hm⟩ <;> omega)
            | (rcases hm with ((hm | hm) | ⟨_, (hm | hm) | hm⟩) | ⟨_, (hm | hm) | hm⟩ <;> omega)
        · rintro ⟨_, hn, hm⟩
          obtain rfl | rfl | rfl : px = x - 1 ∨ px = x ∨ px = x + 1 := by omega
          all_goals obtain rfl | rfl | rfl : py = y - 1 ∨ py = y ∨ py = y + 1 := by omega
          all_goals simp <;> omega
  · rw [if_neg h0]
    refine ⟨List.nodup_nil, ?_⟩
    intro p
    simp
    omega

/-- C52 for points of the image that are neither in row 1 nor in column 1: exactly the neighbours
inside the image, each once, and the point itself on request. Missing: row 1 and column 1. -/
theorem C52_partial {v : Int × Int} {mx my : Int} (inc : Bool) (hx : 0 ≤ v.1 ∧ v.1 < mx ∧ v.1 ≠ 1) (hy : 0 ≤ v.2 ∧ v.2 < my ∧ v.2 ≠ 1) :
    (itergetneighbors v mx my inc).Nodup ∧ ∀ p : Int × Int, p ∈ itergetneighbors v mx my inc ↔
      ((p.1 - v.1).natAbs ≤ 1 ∧ (p.2 - v.2).natAbs ≤ 1) ∧ (p = v → inc = true) ∧
      (0 ≤ p.1 ∧ p.1 < mx ∧ 0 ≤ p.2 ∧ p.2 < my) := by
  refine ⟨(C52_exact v mx my inc).1, fun p => ?_⟩
  rw [(C52_exact v mx my inc).2 p]
  constructor
  · rintro ⟨h1, h2, h3, h4, h5, h6, h7⟩
    exact ⟨by omega, h3, by omega⟩
  · rintro ⟨h1, h2, h3⟩
    exact ⟨by omega, by omega, h2, by omega, by omega, by omega, by omega⟩

/-- C52 is false: the neighbours of `(1, 1)` in row 0 and column 0 are left out. -/
theorem C52_false : ¬ ∀ (v : Int × Int) (mx my : Int), 0 ≤ v.1 ∧ v.1 < mx → 0 ≤ v.2 ∧ v.2 < my →
    ∀ p : Int × Int, p ∈ itergetneighbors v mx my false ↔
      ((p.1 - v.1).natAbs ≤ 1 ∧ (p.2 - v.2).natAbs ≤ 1) ∧ p ≠ v ∧ (0 ≤ p.1 ∧ p.1 < mx ∧ 0 ≤ p.2 ∧ p.2 < my) := by
  intro hc
  have := (hc (1, 1) 3 3 (by omega) (by omega) (0, 0)).mpr (by decide)
  revert this
  decide +kernel

example : itergetneighbors (3, 3) 5 4 true = [(3, 2), (3, 3), (2, 2), (2, 3), (4, 2), (4, 3)] := by decide +kernel

end Verif.Props
