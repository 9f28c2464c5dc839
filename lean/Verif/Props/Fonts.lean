import Verif.Model.Fonts
import Verif.Props.Text
import Mathlib.Data.List.Nodup
import Mathlib.Tactic.Linarith
/-! Properties C169 and C170: the fonts, and that drawn texts can be read. -/

namespace Verif.Props.Fonts
open Verif Spec Model Lemmas Props

/-- The fonts of the library. -/
def shipped : List Bytes := [font8x8, font8x8thin, font8x14, font8x14thin, font8x8sanserif, font8x14sanserif]

/-- The codes of the blank characters. -/
def Blank (c : Nat) : Prop := c = 0 ∨ c = 32 ∨ c = 255

instance (c : Nat) : Decidable (Blank c) := by unfold Blank; infer_instance

/-- `n` parts of `h` bytes. -/
def cells (h : Nat) : Nat → List Nat → List (List Nat)
  | 0, _ => []
  | n + 1, l => l.take h :: cells h n (l.drop h)

theorem cells_get (h : Nat) : ∀ (n : Nat) (l : List Nat) (c : Nat), c < n → (cells h n l)[c]? = some ((l.drop (c * h)).take h) := by
  intro n
  induction n with
  | zero => intro l c hc; omega
  | succ n ih =>
    intro l c hc
    cases c with
    | zero => simp [cells]
    | succ c =>
      rw [cells, List.getElem?_cons_succ, ih _ _ (by omega), List.drop_drop, show h + c * h = (c + 1) * h by ring]

theorem glyph_part {font : Bytes} {c : Nat} (hl : (c + 1) * byte font 0 < font.length) :
    glyph font c = (font.tail.drop (c * byte font 0)).take (byte font 0) := by
  have hm : (c + 1) * byte font 0 = c * byte font 0 + byte font 0 := by ring
  apply List.ext_getElem?
  intro i
  unfold glyph
  by_cases hi : i < byte font 0
  · rw [List.getElem?_map, List.getElem?_range hi, List.getElem?_take_of_lt hi, List.getElem?_drop, ← List.drop_one, List.getElem?_drop]
    have : c * byte font 0 + 1 + i < font.length := by omega
    rw [show 1 + (c * byte font 0 + i) = c * byte font 0 + 1 + i by omega, Option.map_some]
    unfold byte at this ⊢
    rw [List.getD_eq_getElem?_getD, List.getElem?_eq_getElem this]
    rfl
  · rw [List.getElem?_eq_none (by simp; omega), List.getElem?_eq_none (by simp; omega)]

theorem byte_bits {u v : Nat} (hu : u < 256) (hv : v < 256) (h : ∀ j < 8, u / 2 ^ (7 - j) % 2 = 1 ↔ v / 2 ^ (7 - j) % 2 = 1) : u = v := by
  have key : ∀ j < 8, u / 2 ^ (7 - j) % 2 = v / 2 ^ (7 - j) % 2 := fun j hj => by have := h j hj; omega
  have h0 := key 0 (by norm_num)
  have h1 := key 1 (by norm_num)
  have h2 := key 2 (by norm_num)
  have h3 := key 3 (by norm_num)
  have h4 := key 4 (by norm_num)
  have h5 := key 5 (by norm_num)
  have h6 := key 6 (by norm_num)
  have h7 := key 7 (by norm_num)
  clear h key
  norm_num at h0 h1 h2 h3 h4 h5 h6 h7
  omega

theorem byte_zero {u : Nat} (hu : u < 256) (h : ∀ j < 8, ¬ u / 2 ^ (7 - j) % 2 = 1) : u = 0 :=
  byte_bits hu (by norm_num) (fun j hj => ⟨fun g => absurd g (h j hj), fun g => by simp at g⟩)

/-- C169: each font has 256 glyphs of 8 or 14 rows and nothing else. -/
theorem C169_tables : ∀ f ∈ shipped, (byte f 0 = 8 ∨ byte f 0 = 14) ∧ f.length = 1 + 256 * byte f 0 ∧ ∀ v ∈ f, v < 256 := by
  decide +kernel

/-- C169: every character has its glyph. -/
theorem C169_glyphs : ∀ f ∈ shipped, ∀ c < 256, getcharfont f c = .ok (glyph f c) ∧ (glyph f c).length = byte f 0 ∧ ∀ v ∈ glyph f c, v < 256 := by
  intro f hf c hc
  obtain ⟨hh, hl, hb⟩ := C169_tables f hf
  have hin : (c + 1) * byte f 0 < f.length := by rw [hl]; rcases hh with h | h <;> rw [h] <;> omega
  refine ⟨?_, by simp [glyph], ?_⟩
  · exact getcharfont_ok (by rintro rfl; rw [List.length_nil] at hl; omega) hin
  · intro v hv
    rw [glyph_part hin] at hv
    exact hb v (List.mem_of_mem_tail (List.mem_of_mem_drop (List.mem_of_mem_take hv)))

/-- A number for the rows of a glyph. -/
def code (l : List Nat) : Nat := l.foldl (fun a v => a * 256 + v) 0

/-- A quick test for repeated numbers. -/
def noDup : List Nat → Bool
  | [] => true
  | a :: l => !(l.any (Nat.beq a)) && noDup l

theorem nodup_of_noDup : ∀ {l : List Nat}, noDup l = true → l.Nodup
  | [], _ => List.nodup_nil
  | a :: l, h => by
    rw [noDup, Bool.and_eq_true, Bool.not_eq_true', List.any_eq_false] at h
    refine List.nodup_cons.mpr ⟨fun ha => ?_, nodup_of_noDup h.2⟩
    exact h.1 a ha (by rw [Nat.beq_eq])

/-- The numbers of the glyphs between the first and the last one. -/
def codes (f : Bytes) : List Nat := (((cells (byte f 0) 256 f.tail).drop 1).take 254).map code

theorem cells_nodup : ∀ f ∈ shipped, noDup (codes f) = true := by
  decide +kernel

theorem cells_blank : ∀ f ∈ shipped, (cells (byte f 0) 256 f.tail)[0]? = (cells (byte f 0) 256 f.tail)[32]? ∧
    (cells (byte f 0) 256 f.tail)[255]? = (cells (byte f 0) 256 f.tail)[32]? := by
  decide +kernel

theorem cells_distinct : ∀ f ∈ shipped, (((cells (byte f 0) 256 f.tail).drop 1).take 254).Nodup ∧
    (cells (byte f 0) 256 f.tail)[0]? = (cells (byte f 0) 256 f.tail)[32]? ∧ (cells (byte f 0) 256 f.tail)[255]? = (cells (byte f 0) 256 f.tail)[32]? :=
  fun f hf => ⟨List.Nodup.of_map _ (nodup_of_noDup (cells_nodup f hf)), cells_blank f hf⟩

theorem glyph_cell {f : Bytes} (hf : f ∈ shipped) {c : Nat} (hc : c < 256) : (cells (byte f 0) 256 f.tail)[c]? = some (glyph f c) := by
  obtain ⟨hh, hl, -⟩ := C169_tables f hf
  rw [cells_get _ _ _ _ hc, glyph_part (by rw [hl]; rcases hh with h | h <;> rw [h] <;> omega)]

/-- C169: different characters have different glyphs, except for the three blank characters. -/
theorem C169_distinct : ∀ f ∈ shipped, ∀ a < 256, ∀ c < 256, glyph f a = glyph f c ↔ a = c ∨ (Blank a ∧ Blank c) := by
  intro f hf
  obtain ⟨hn, h0, h255⟩ := cells_distinct f hf
  rw [glyph_cell hf (by norm_num), glyph_cell hf (by norm_num), Option.some.injEq] at h0 h255
  have key : ∀ a c, 1 ≤ a → a < 255 → 1 ≤ c → c < 255 → glyph f a = glyph f c → a = c := by
    intro a c a1 a2 c1 c2 e
    have g : ∀ k, 1 ≤ k → k < 255 → (((cells (byte f 0) 256 f.tail).drop 1).take 254)[k - 1]? = some (glyph f k) := by
      intro k k1 k2
      rw [List.getElem?_take_of_lt (by omega), List.getElem?_drop, show 1 + (k - 1) = k by omega]
      exact glyph_cell hf (by omega)
    have ga := g a a1 a2
    have gc := g c c1 c2
    rw [e] at ga
    obtain ⟨la, ea⟩ := List.getElem?_eq_some_iff.mp ga
    obtain ⟨lc, ec⟩ := List.getElem?_eq_some_iff.mp gc
    have := (List.Nodup.getElem_inj_iff hn (hi := la) (hj := lc)).mp (ea.trans ec.symm)
    omega
  have rep : ∀ a < 256, ∃ a', 1 ≤ a' ∧ a' < 255 ∧ glyph f a = glyph f a' ∧ (a' = a ∨ (Blank a ∧ a' = 32)) := by
    intro a ha
    by_cases e0 : a = 0
    · exact ⟨32, by norm_num, by norm_num, by rw [e0, h0], .inr ⟨.inl e0, rfl⟩⟩
    by_cases e1 : a = 255
    · exact ⟨32, by norm_num, by norm_num, by rw [e1, h255], .inr ⟨.inr (.inr e1), rfl⟩⟩
    · exact ⟨a, by omega, by omega, rfl, .inl rfl⟩
  intro a ha c hc
  obtain ⟨a', a1, a2, ea, oa⟩ := rep a ha
  obtain ⟨c', c1, c2, ec, oc⟩ := rep c hc
  constructor
  · intro e
    have := key a' c' a1 a2 c1 c2 (by rw [← ea, ← ec, e])
    unfold Blank at *
    omega
  · rintro (rfl | ⟨ba, bc⟩)
    · rfl
    · have g : ∀ k, Blank k → glyph f k = glyph f 32 := by
        rintro k (rfl | rfl | rfl)
        · exact h0
        · rfl
        · exact h255
      rw [g a ba, g c bc]

/-- C169: the blank characters have no dots, all others have. -/
theorem C169_blank : ∀ f ∈ shipped, ∀ c < 256, (∃ i j, i < byte f 0 ∧ j < 8 ∧ Lit (glyph f c) i j) ↔ ¬ Blank c := by
  have h32 : ∀ f ∈ shipped, (cells (byte f 0) 256 f.tail)[32]? = some (List.replicate (byte f 0) 0) := by decide +kernel
  intro f hf c hc
  have e32 : glyph f 32 = List.replicate (byte f 0) 0 := by
    have := h32 f hf
    rwa [glyph_cell hf (by norm_num), Option.some.injEq] at this
  have d := C169_distinct f hf c hc 32 (by norm_num)
  obtain ⟨-, hlen, hb⟩ := C169_glyphs f hf c hc
  constructor
  · rintro ⟨i, j, hi, hj, hl⟩ bc
    rw [d.mpr (.inr ⟨bc, .inr (.inl rfl)⟩), e32] at hl
    unfold Lit at hl
    rw [List.getD_replicate _ hi] at hl
    simp at hl
  · intro nb
    by_contra hno
    refine nb ?_
    have : glyph f c = glyph f 32 := by
      rw [e32]
      refine List.eq_replicate_iff.mpr ⟨hlen, ?_⟩
      intro v hv
      obtain ⟨i, hi, ei⟩ := List.getElem_of_mem hv
      refine byte_zero (hb v hv) ?_
      intro j hj h1
      refine hno ⟨i, j, by omega, hj, ?_⟩
      unfold Lit
      rw [List.getD_eq_getElem _ _ hi, ei]
      exact h1
    rcases d.mp this with e | ⟨e, -⟩
    · exact .inr (.inl e)
    · exact e

/-- The letter `A` of the first font. -/
example : getcharfont font8x8 65 = .ok [48, 120, 204, 204, 252, 204, 204, 0] := by decide +kernel

/-- `O` and the digit 0 are different in every font. -/
example : ∀ f ∈ shipped, glyph f 79 ≠ glyph f 48 := fun f hf e => by
  rcases (C169_distinct f hf 79 (by norm_num) 48 (by norm_num)).mp e with g | ⟨g, -⟩
  · omega
  · unfold Blank at g; omega

/-- There is no glyph for the Euro sign. -/
example : getcharfont font8x8 8364 = .error .indexError := by decide +kernel

/-! ### Programs that make fonts -/

theorem fold_parts {n : Nat} (g : Nat → List Nat) (hg : ∀ i, (g i).length = n) (a : List Nat) : ∀ m, let b := (List.range m).foldl (fun b i => b ++ g i) a
    b.length = a.length + m * n ∧ (∀ i < a.length, b[i]? = a[i]?) ∧ ∀ c < m, ∀ i < n, b[a.length + c * n + i]? = (g c)[i]? := by
  intro m
  induction m with
  | zero => simp
  | succ m ih =>
    obtain ⟨h1, h2, h3⟩ := ih
    dsimp only at h1 h2 h3 ⊢
    rw [List.range_succ, List.foldl_append, List.foldl_cons, List.foldl_nil]
    refine ⟨by rw [List.length_append, h1, hg]; ring, ?_, ?_⟩
    · intro i hi
      rw [List.getElem?_append_left (by rw [h1]; omega), h2 i hi]
    · intro c hc i hi
      rcases Nat.lt_succ_iff_lt_or_eq.mp hc with g | rfl
      · have : (c + 1) * n ≤ m * n := Nat.mul_le_mul_right n g
        rw [add_mul, one_mul] at this
        rw [List.getElem?_append_left (by rw [h1]; omega), h3 c g i hi]
      · rw [List.getElem?_append_right (by rw [h1]; omega), h1]
        congr 1
        omega

/-- C169: the font made from a dictionary of glyphs has the glyphs of the dictionary, and blanks for the characters that are not
in it, provided that all glyphs have the height of the digit 0. -/
theorem C169_makecharbuf {dict : Nat → Option (List Nat)} {zero : List Nat} (h0 : dict 48 = some zero) (hlen : ∀ c g, dict c = some g → g.length = zero.length) :
    ∃ f, makecharbuf dict = .ok f ∧ byte f 0 = zero.length ∧ f.length = 1 + 256 * zero.length ∧
      ∀ c < 256, getcharfont f c = .ok ((dict c).getD (List.replicate zero.length 0)) := by
  have hg : ∀ i, ((dict i).getD (List.replicate zero.length 0)).length = zero.length := by
    intro i
    cases e : dict i with
    | none => simp
    | some g => simpa using hlen i g e
  obtain ⟨l1, l2, l3⟩ := fold_parts (fun i => (dict i).getD (List.replicate zero.length 0)) hg [zero.length] 256
  unfold makecharbuf
  rw [h0]
  dsimp only at l1 l2 l3 ⊢
  generalize (List.range 256).foldl (fun b i => b ++ (dict i).getD (List.replicate zero.length 0)) [zero.length] = f at l1 l2 l3
  rw [List.length_singleton] at l1 l2 l3
  have b0 : byte f 0 = zero.length := by
    have := l2 0 (by norm_num)
    unfold byte
    rw [List.getD_eq_getElem?_getD, this]; rfl
  refine ⟨f, rfl, b0, l1, ?_⟩
  intro c hc
  have hm : (c + 1) * zero.length ≤ 256 * zero.length := Nat.mul_le_mul_right _ hc
  rw [getcharfont_ok (by rintro rfl; rw [List.length_nil] at l1; omega) (by rw [b0, l1]; omega)]
  congr 1
  apply List.ext_getElem?
  intro i
  unfold glyph
  rw [b0]
  by_cases hi : i < zero.length
  · rw [List.getElem?_map, List.getElem?_range hi, Option.map_some, ← l3 c hc i hi]
    rw [add_mul, one_mul] at hm
    have hlt : 1 + c * zero.length + i < f.length := by omega
    unfold byte
    rw [List.getD_eq_getElem?_getD, show c * zero.length + 1 + i = 1 + c * zero.length + i by omega, List.getElem?_eq_getElem hlt]
    rfl
  · rw [List.getElem?_eq_none (by simp; omega), List.getElem?_eq_none (by rw [hg]; omega)]

/-- C169: without a glyph for the digit 0 no font is made. -/
theorem C169_makecharbuf_zero {dict : Nat → Option (List Nat)} (h0 : dict 48 = none) : makecharbuf dict = .error .keyError := by
  unfold makecharbuf; rw [h0]

/-- C169: with glyphs of different heights the characters after the first wrong one are shifted. -/
theorem C169_makecharbuf_wrong : ∃ dict f, dict 48 = some [1, 2] ∧ dict 49 = some [3] ∧ makecharbuf dict = .ok f ∧
    getcharfont f 49 = .ok [3, 4] ∧ dict 50 = some [4, 5] ∧ getcharfont f 50 = .ok [5, 0] :=
  ⟨fun c => if c = 48 then some [1, 2] else if c = 49 then some [3] else if c = 50 then some [4, 5] else none, _, by rfl, by rfl, rfl, by decide +kernel⟩

/-- C169: the glyph read from a font file is the glyph of the whole table read from it. -/
theorem C169_getcharset {data : Bytes} {ptr n ch : Nat} (hc : ch < 256) (hl : ptr + 256 * n ≤ data.length) :
    getcharfont (n :: getcharset data ptr n) ch = .ok (getcharbmp data ch n ptr) := by
  have hm : (ch + 1) * n ≤ 256 * n := Nat.mul_le_mul_right _ hc
  have b0 : byte (n :: getcharset data ptr n) 0 = n := rfl
  have ll : (n :: getcharset data ptr n).length = 1 + 256 * n := by
    unfold getcharset; simp; omega
  rw [getcharfont_ok (by simp) (by rw [b0, ll]; omega), glyph_part (by rw [b0, ll]; omega), b0, List.tail_cons]
  congr 1
  unfold getcharset getcharbmp
  rw [add_mul, one_mul] at hm
  rw [List.drop_take, List.take_take, List.drop_drop, Nat.min_eq_left (by rw [Nat.mul_comm n 256]; omega), Nat.mul_comm ch n]

/-! ### Texts can be read -/

/-- The character `ch` of the text stands in column `col` of line `l`. -/
def At (str : List Nat) (l col ch : Nat) : Prop := ∃ k, Stands str k ch ∧ lineNo (str.take k) = l ∧ columnNo (str.take k) = col

theorem place_grows {str : List Nat} {k ch : Nat} (h : Stands str k ch) : ∀ m, k + 1 + m ≤ str.length →
    lineNo (str.take k) < lineNo (str.take (k + 1 + m)) ∨
      (lineNo (str.take k) = lineNo (str.take (k + 1 + m)) ∧ columnNo (str.take k) < columnNo (str.take (k + 1 + m))) := by
  have step : ∀ n c, str[n]? = some c → str.take (n + 1) = str.take n ++ [c] := by
    intro n c e
    rw [List.take_add_one, e]; rfl
  have line1 : ∀ (u : List Nat) (c : Nat), lineNo (u ++ [c]) = lineNo u + if c = 10 then 1 else 0 := by
    intro u c; unfold lineNo; rw [List.count_append]
    by_cases hc : c = 10
    · subst hc; simp
    · simp [hc]
  have col1 : ∀ (u : List Nat) (c : Nat), columnNo (u ++ [c]) = if c = 10 then 0 else if c = 9 then columnNo u + 4 else columnNo u + 1 := by
    intro u c; unfold columnNo; rw [List.foldl_append]; rfl
  intro m
  induction m with
  | zero =>
    intro _
    right
    rw [add_zero, step k ch h.1, line1, col1, if_neg h.2.1, if_neg h.2.1, if_neg h.2.2]
    omega
  | succ m ih =>
    intro hm
    have ih := ih (by omega)
    have hlt : k + 1 + m < str.length := by omega
    rw [show k + 1 + (m + 1) = k + 1 + m + 1 by omega, step _ _ (List.getElem?_eq_getElem hlt), line1, col1]
    split_ifs <;> omega

theorem place_lt {str : List Nat} {k m ch : Nat} (h : Stands str k ch) (hkm : k < m) (hm : m ≤ str.length)
    (hl : lineNo (str.take k) = lineNo (str.take m)) (hc : columnNo (str.take k) = columnNo (str.take m)) : False := by
  have := place_grows h (m - (k + 1)) (by omega)
  rw [show k + 1 + (m - (k + 1)) = m by omega] at this
  omega

/-- No two characters of a text stand in the same place. -/
theorem at_unique {str : List Nat} {l col ch ch' : Nat} (h : At str l col ch) (h' : At str l col ch') : ch = ch' := by
  obtain ⟨k, s, hl, hc⟩ := h
  obtain ⟨k', s', hl', hc'⟩ := h'
  have lk : k < str.length := (List.getElem?_eq_some_iff.mp s.1).1
  have lk' : k' < str.length := (List.getElem?_eq_some_iff.mp s'.1).1
  rcases Nat.lt_trichotomy k k' with g | g | g
  · exact (place_lt s g lk'.le (by omega) (by omega)).elim
  · subst g
    have := s.1.symm.trans s'.1
    simpa using this
  · exact (place_lt s' g lk.le (by omega) (by omega)).elim

/-- Positions in a row of cells of `n` dots, `step` apart: a dot of side at most `scale` that meets the corner of another one is that one. -/
theorem cell_unique {n a a' j j' : Nat} {scale step side p x : Int} (hs : 1 ≤ scale) (hside : side ≤ scale) (hstep : n * scale + 1 ≤ step)
    (hj : j < n) (hj' : j' < n) (hp : p = x + a * step + j * scale) (h1 : x + a' * step + j' * scale ≤ p)
    (h2 : p < x + a' * step + j' * scale + side) : a = a' ∧ j = j' := by
  have e0 : (j : Int) * scale ≤ (n - 1) * scale := by
    apply mul_le_mul_of_nonneg_right _ (by omega); omega
  have e0' : (j' : Int) * scale ≤ (n - 1) * scale := by
    apply mul_le_mul_of_nonneg_right _ (by omega); omega
  have f0 : 0 ≤ (j : Int) * scale := by positivity
  have f0' : 0 ≤ (j' : Int) * scale := by positivity
  have hn : ((n : Int) - 1) * scale = n * scale - scale := by ring
  have hst : 0 ≤ step := by
    have : 0 ≤ (n : Int) * scale := by positivity
    omega
  have ha : a = a' := by
    rcases Nat.lt_trichotomy a a' with g | g | g
    · exfalso
      have : ((a : Int) + 1) * step ≤ a' * step := mul_le_mul_of_nonneg_right (by exact_mod_cast g) hst
      rw [add_mul, one_mul] at this
      omega
    · exact g
    · exfalso
      have : ((a' : Int) + 1) * step ≤ a * step := mul_le_mul_of_nonneg_right (by exact_mod_cast g) hst
      rw [add_mul, one_mul] at this
      omega
  refine ⟨ha, ?_⟩
  subst ha
  rcases Nat.lt_trichotomy j j' with g | g | g
  · exfalso
    have : ((j : Int) + 1) * scale ≤ j' * scale := mul_le_mul_of_nonneg_right (by exact_mod_cast g) (by omega)
    rw [add_mul, one_mul] at this
    omega
  · exact g
  · exfalso
    have : ((j' : Int) + 1) * scale ≤ j * scale := mul_le_mul_of_nonneg_right (by exact_mod_cast g) (by omega)
    rw [add_mul, one_mul] at this
    omega

/-- The text lies inside the image. -/
def Fits (W H : Nat) (font : Bytes) (scale space x y : Int) (str : List Nat) : Prop :=
  ∀ l col ch, At str l col ch → 0 ≤ x ∧ x + col * colStep scale space + 8 * scale ≤ W ∧
    0 ≤ y ∧ y + l * lineStep font scale space + byte font 0 * scale ≤ H

/-- What a text shows at the corner of a dot: a dot of the character in this place. -/
theorem seen {W H : Nat} {font : Bytes} {scale pixspace space x y : Int} (hs : 1 ≤ scale) (hps : 0 ≤ pixspace) (hsp : 0 ≤ space)
    {str : List Nat} (hfit : Fits W H font scale space x y str) {l col i j px py : Nat} (hi : i < byte font 0) (hj : j < 8)
    (hx : (px : Int) = x + col * colStep scale space + j * scale) (hy : (py : Int) = y + l * lineStep font scale space + i * scale) :
    (∃ k ch i j : Nat, Stands str k ch ∧ i < byte font 0 ∧ j < 8 ∧ Lit (glyph font ch) i j ∧
        Square W H (dotSide scale pixspace) (x + columnNo (str.take k) * colStep scale space + j * scale)
          (y + lineNo (str.take k) * lineStep font scale space + i * scale) px py) ↔ ∃ ch, At str l col ch ∧ Lit (glyph font ch) i j := by
  have side := dotSide_le hs hps
  have side1 : 1 ≤ dotSide scale pixspace := by unfold dotSide; split_ifs <;> omega
  have cs : ((8 : Nat) : Int) * scale + 1 ≤ colStep scale space := by unfold colStep; split_ifs <;> push_cast <;> omega
  have ls : (byte font 0 : Int) * scale + 1 ≤ lineStep font scale space := by unfold lineStep; split_ifs <;> omega
  constructor
  · rintro ⟨k, ch, i', j', hk, hi', hj', hl, -, q1, q2, q3, q4⟩
    obtain ⟨e1, e2⟩ := cell_unique hs side cs hj hj' hx q1 q2
    obtain ⟨e3, e4⟩ := cell_unique hs side ls hi hi' hy q3 q4
    subst e2 e4
    exact ⟨ch, ⟨k, hk, e3.symm, e1.symm⟩, hl⟩
  · rintro ⟨ch, ⟨k, hk, rfl, rfl⟩, hl⟩
    obtain ⟨f1, f2, f3, f4⟩ := hfit _ _ _ ⟨k, hk, rfl, rfl⟩
    refine ⟨k, ch, i, j, hk, hi, hj, hl, ?_⟩
    have a1 : ((j : Int) + 1) * scale ≤ 8 * scale := mul_le_mul_of_nonneg_right (by exact_mod_cast hj) (by omega)
    have a2 : ((i : Int) + 1) * scale ≤ byte font 0 * scale := mul_le_mul_of_nonneg_right (by exact_mod_cast hi) (by omega)
    rw [add_mul, one_mul] at a1 a2
    unfold Square
    rw [← hx, ← hy]
    omega

/-- C170: texts can be read: if two texts, drawn in one of the fonts of the library, give the same picture, then the same visible
characters stand in the same places. -/
theorem C170_legible_partial {b b1 b2 : Bytes} {W H bits : Nat} (h : Valid b W H bits) {font : Bytes} (hf : font ∈ shipped) {x y : Int} {s t : List Nat}
    (h1 : ∀ c ∈ s, c < 256) (h2 : ∀ c ∈ t, c < 256) {scale pixspace space c : Int} (hs : 1 ≤ scale) (hps : 0 ≤ pixspace) (hsp : 0 ≤ space)
    (hd : DotOK bits scale pixspace c) (f1 : Fits W H font scale space x y s) (f2 : Fits W H font scale space x y t)
    (hbg : ∀ px py, px < W → py < H → pix b W H bits px py ≠ reduce bits c)
    (e1 : plotstring b x y s scale pixspace space (.one c) font = .ok b1) (e2 : plotstring b x y t scale pixspace space (.one c) font = .ok b2)
    (same : ∀ px py, px < W → py < H → pix b1 W H bits px py = pix b2 W H bits px py) :
    ∀ l col ch, ¬ Blank ch → (At s l col ch ↔ At t l col ch) := by
  obtain ⟨hh, hlen, -⟩ := C169_tables font hf
  have hne : font ≠ [] := by rintro rfl; rw [List.length_nil] at hlen; omega
  have inF : ∀ {u : List Nat}, (∀ c ∈ u, c < 256) → InFont font u := by
    intro u hu c hc _ _
    have := hu c hc
    rw [hlen]; rcases hh with g | g <;> rw [g] <;> omega
  -- one direction
  have key : ∀ {s t : List Nat} {b1 b2 : Bytes}, (∀ c ∈ s, c < 256) → (∀ c ∈ t, c < 256) → Fits W H font scale space x y s → Fits W H font scale space x y t →
      plotstring b x y s scale pixspace space (.one c) font = .ok b1 → plotstring b x y t scale pixspace space (.one c) font = .ok b2 →
      (∀ px py, px < W → py < H → pix b1 W H bits px py = pix b2 W H bits px py) →
      ∀ l col ch, ¬ Blank ch → At s l col ch → At t l col ch := by
    intro s t b1 b2 h1 h2 f1 f2 e1 e2 same l col ch nb hat
    obtain ⟨b1', e1', p1⟩ := C66_plotstring_partial h x y hne (inF h1) space hd
    obtain ⟨b2', e2', p2⟩ := C66_plotstring_partial h x y hne (inF h2) space hd
    rw [e1] at e1'; rw [e2] at e2'
    obtain rfl := Except.ok.inj e1'
    obtain rfl := Except.ok.inj e2'
    have c256 : ∀ {u : List Nat}, (∀ c ∈ u, c < 256) → ∀ {ch}, At u l col ch → ch < 256 := by
      rintro u hu ch ⟨k, hk, -⟩
      exact hu ch (List.mem_of_getElem? hk.1)
    have hc := c256 h1 hat
    -- the two pictures agree in every dot of the cell
    have dots : ∀ i j, i < byte font 0 → j < 8 → (Lit (glyph font ch) i j ↔ ∃ ch', At t l col ch' ∧ Lit (glyph font ch') i j) := by
      intro i j hi hj
      obtain ⟨g1, g2, g3, g4⟩ := f1 _ _ _ hat
      have a1 : ((j : Int) + 1) * scale ≤ 8 * scale := mul_le_mul_of_nonneg_right (by exact_mod_cast hj) (by omega)
      have a2 : ((i : Int) + 1) * scale ≤ byte font 0 * scale := mul_le_mul_of_nonneg_right (by exact_mod_cast hi) (by omega)
      rw [add_mul, one_mul] at a1 a2
      have n1 : 0 ≤ (j : Int) * scale := by positivity
      have n2 : 0 ≤ (i : Int) * scale := by positivity
      have n3 : 0 ≤ (col : Int) * colStep scale space := by
        have : 0 ≤ colStep scale space := by unfold colStep; split_ifs <;> omega
        positivity
      have n4 : 0 ≤ (l : Int) * lineStep font scale space := by
        have : 0 ≤ (byte font 0 : Int) * scale := by positivity
        have : 0 ≤ lineStep font scale space := by unfold lineStep; split_ifs <;> omega
        positivity
      obtain ⟨px, hpx⟩ := Int.eq_ofNat_of_zero_le (a := x + col * colStep scale space + j * scale) (by omega)
      obtain ⟨py, hpy⟩ := Int.eq_ofNat_of_zero_le (a := y + l * lineStep font scale space + i * scale) (by omega)
      have hpW : px < W := by omega
      have hpH : py < H := by omega
      have s1 := seen (pixspace := pixspace) hs hps hsp f1 hi hj hpx.symm hpy.symm
      have s2 := seen (pixspace := pixspace) hs hps hsp f2 hi hj hpx.symm hpy.symm
      have sm := same px py hpW hpH
      have v1 : (∃ ch, At s l col ch ∧ Lit (glyph font ch) i j) ↔ pix b1 W H bits px py = reduce bits c := by
        rw [← s1]
        constructor
        · exact p1.inside px py hpW hpH
        · intro e; by_contra g
          exact hbg px py hpW hpH ((p1.outside px py hpW hpH g).symm.trans e)
      have v2 : (∃ ch, At t l col ch ∧ Lit (glyph font ch) i j) ↔ pix b2 W H bits px py = reduce bits c := by
        rw [← s2]
        constructor
        · exact p2.inside px py hpW hpH
        · intro e; by_contra g
          exact hbg px py hpW hpH ((p2.outside px py hpW hpH g).symm.trans e)
      rw [sm, ← v2] at v1
      rw [← v1]
      constructor
      · intro g; exact ⟨ch, hat, g⟩
      · rintro ⟨ch', hat', g⟩
        rwa [at_unique hat hat']
    obtain ⟨i0, j0, hi0, hj0, hl0⟩ := (C169_blank font hf ch hc).mpr nb
    obtain ⟨ch', hat', -⟩ := (dots i0 j0 hi0 hj0).mp hl0
    have hc' := c256 h2 hat'
    have eg : glyph font ch = glyph font ch' := by
      obtain ⟨-, n1, m1⟩ := C169_glyphs font hf ch hc
      obtain ⟨-, n2, m2⟩ := C169_glyphs font hf ch' hc'
      apply List.ext_getElem (by rw [n1, n2])
      intro i hi hi'
      apply byte_bits (m1 _ (List.getElem_mem _)) (m2 _ (List.getElem_mem _))
      intro j hj
      have := dots i j (by omega) hj
      unfold Lit at this
      rw [List.getD_eq_getElem _ _ hi] at this
      rw [this]
      constructor
      · rintro ⟨ch2, hat2, g⟩
        rw [at_unique hat2 hat', List.getD_eq_getElem _ _ hi'] at g
        exact g
      · intro g
        exact ⟨ch', hat', by rwa [List.getD_eq_getElem _ _ hi']⟩
    rcases (C169_distinct font hf ch hc ch' hc').mp eg with e | ⟨e, -⟩
    · rwa [e]
    · exact absurd e nb
  intro l col ch nb
  exact ⟨key h1 h2 f1 f2 e1 e2 same l col ch nb, key h2 h1 f2 f1 e2 e1 (fun px py hx hy => (same px py hx hy).symm) l col ch nb⟩

/-- C170: the picture of a text depends on its visible characters only. -/
theorem C170_same {b b1 b2 : Bytes} {W H bits : Nat} (h : Valid b W H bits) {font : Bytes} (hf : font ∈ shipped) {x y : Int} {s t : List Nat}
    (h1 : ∀ c ∈ s, c < 256) (h2 : ∀ c ∈ t, c < 256) {scale pixspace space c : Int} (hd : DotOK bits scale pixspace c)
    (e1 : plotstring b x y s scale pixspace space (.one c) font = .ok b1) (e2 : plotstring b x y t scale pixspace space (.one c) font = .ok b2)
    (same : ∀ l col ch, ¬ Blank ch → (At s l col ch ↔ At t l col ch)) :
    ∀ px py, px < W → py < H → pix b1 W H bits px py = pix b2 W H bits px py := by
  obtain ⟨hh, hlen, -⟩ := C169_tables font hf
  have hne : font ≠ [] := by rintro rfl; rw [List.length_nil] at hlen; omega
  have inF : ∀ {u : List Nat}, (∀ c ∈ u, c < 256) → InFont font u := by
    intro u hu c hc _ _
    have := hu c hc
    rw [hlen]; rcases hh with g | g <;> rw [g] <;> omega
  obtain ⟨b1', e1', p1⟩ := C66_plotstring_partial h x y hne (inF h1) space hd
  obtain ⟨b2', e2', p2⟩ := C66_plotstring_partial h x y hne (inF h2) space hd
  rw [e1] at e1'; rw [e2] at e2'
  obtain rfl := Except.ok.inj e1'
  obtain rfl := Except.ok.inj e2'
  -- the sets of the two pictures
  have key : ∀ {s t : List Nat} {px py : Nat}, (∀ c ∈ s, c < 256) → (∀ l col ch, ¬ Blank ch → (At s l col ch ↔ At t l col ch)) →
      (∃ k ch i j : Nat, Stands s k ch ∧ i < byte font 0 ∧ j < 8 ∧ Lit (glyph font ch) i j ∧
        Square W H (dotSide scale pixspace) (x + columnNo (s.take k) * colStep scale space + j * scale)
          (y + lineNo (s.take k) * lineStep font scale space + i * scale) px py) →
      ∃ k ch i j : Nat, Stands t k ch ∧ i < byte font 0 ∧ j < 8 ∧ Lit (glyph font ch) i j ∧
        Square W H (dotSide scale pixspace) (x + columnNo (t.take k) * colStep scale space + j * scale)
          (y + lineNo (t.take k) * lineStep font scale space + i * scale) px py := by
    rintro s t px py h1 same ⟨k, ch, i, j, hk, hi, hj, hl, q⟩
    have nb : ¬ Blank ch := (C169_blank font hf ch (h1 ch (List.mem_of_getElem? hk.1))).mp ⟨i, j, hi, hj, hl⟩
    obtain ⟨k', hk', el, ec⟩ := (same _ _ ch nb).mp ⟨k, hk, rfl, rfl⟩
    exact ⟨k', ch, i, j, hk', hi, hj, hl, by rwa [el, ec]⟩
  intro px py hx hy
  by_cases g : ∃ k ch i j : Nat, Stands s k ch ∧ i < byte font 0 ∧ j < 8 ∧ Lit (glyph font ch) i j ∧
        Square W H (dotSide scale pixspace) (x + columnNo (s.take k) * colStep scale space + j * scale)
          (y + lineNo (s.take k) * lineStep font scale space + i * scale) px py
  · rw [p1.inside px py hx hy g, p2.inside px py hx hy (key h1 same g)]
  · rw [p1.outside px py hx hy g, p2.outside px py hx hy (fun g' => g (key h2 (fun l col ch nb => (same l col ch nb).symm) g'))]

/-- The hypotheses can be met: `I` and `l` give different pictures on a 1-bit image of 8 by 8 pixels. -/
example : (do let b ← newBMP 8 8 1; let b1 ← plotstring b 0 0 [73] 1 0 0 (.one 1) font8x8; let b2 ← plotstring b 0 0 [108] 1 0 0 (.one 1) font8x8
              pure (pix b1 8 8 1 1 0, pix b2 8 8 1 1 0) : Py (Nat × Nat)) = .ok (1, 1) ∧
    (do let b ← newBMP 8 8 1; let b1 ← plotstring b 0 0 [73] 1 0 0 (.one 1) font8x8; let b2 ← plotstring b 0 0 [108] 1 0 0 (.one 1) font8x8
        pure (pix b1 8 8 1 4 0, pix b2 8 8 1 4 0) : Py (Nat × Nat)) = .ok (1, 0) := by decide +kernel

example : Fits 8 8 font8x8 1 0 0 0 [73] := by
  rintro l col ch ⟨k, ⟨hk, -, -⟩, rfl, rfl⟩
  have : k = 0 := by
    have := (List.getElem?_eq_some_iff.mp hk).1
    simpa using this
  subst this
  have : byte font8x8 0 = 8 := rfl
  simp [lineNo, columnNo, this]

end Verif.Props.Fonts
