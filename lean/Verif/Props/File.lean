import Verif.Lemmas.NewBMP
/-! Properties C15 and C16: writing and reading files. -/

namespace Verif.Props
open Verif Spec Model

theorem char2int_aux (s : List Nat) (a : Int) (k : Nat) :
    s.foldl (fun (st : Int × Nat) (c : Nat) => (st.1 + (c : Int) * 256 ^ st.2, st.2 + 1)) (a, k)
      = (a + 256 ^ k * (le s 0 s.length : Int), k + s.length) := by
  induction s generalizing a k with
  | nil => simp [le]
  | cons c s ih =>
    rw [List.foldl_cons, ih]
    have h1 : le (c :: s) 0 (c :: s).length = c + 256 * le s 0 s.length := by
      rw [List.length_cons, le, le_cons]
      rfl
    rw [h1]
    simp only [List.length_cons, Prod.mk.injEq]
    constructor
    · push_cast; ring
    · omega

theorem char2int_eq (s : List Nat) : char2int s = (le s 0 s.length : Int) := by
  unfold char2int; rw [char2int_aux]; simp

theorem le_take_drop (b : Bytes) (off n : Nat) :
    le ((b.drop off).take n) 0 ((b.drop off).take n).length = le b off n := by
  -- bytes beyond the end are zero on both sides
  have key : ∀ k m, k + m ≤ n → le ((b.drop off).take n) k m = le b (off + k) m := by
    intro k m
    induction m generalizing k with
    | zero => intro _; rfl
    | succ m ih =>
      intro hk
      rw [le, le, ih (k + 1) (by omega), byte_take, if_pos (by omega), byte_drop]
      rfl
  by_cases hn : off + n ≤ b.length
  · have : ((b.drop off).take n).length = n := by simp; omega
    rw [this, key 0 n (by omega)]; rfl
  · have hl : ((b.drop off).take n).length = b.length - off := by simp; omega
    rw [hl, key 0 _ (by omega), Nat.add_zero]
    have z : ∀ m k, b.length ≤ k → le b k m = 0 := by
      intro m
      induction m with
      | zero => intro k _; rfl
      | succ m ih => intro k hk; rw [le, byte_of_ge _ _ hk, ih _ (by omega)]
    have split : ∀ m k j, m ≤ j → b.length ≤ k + m → le b k m = le b k j := by
      intro m
      induction m with
      | zero => intro k j _ h; rw [z j k (by omega)]; rfl
      | succ m ih =>
        intro k j hj h
        obtain ⟨j', rfl⟩ : ∃ j', j = j' + 1 := ⟨j - 1, by omega⟩
        rw [le, le, ih (k + 1) j' (by omega) (by omega)]
    exact split _ _ _ (by omega) (by omega)

/-- C16: what loading does with any file content whatsoever. The first two bytes must be "BM" and
the little-endian number in the eight bytes after them must exceed 54; then the result is the
prefix of that length (the whole content if it is shorter). -/
theorem C16_load (c : Bytes) :
    (¬ (2 ≤ c.length ∧ byte c 0 = 66 ∧ byte c 1 = 77) → loadBMP c = .ok []) ∧
    (le c 2 8 ≤ 54 → loadBMP c = .ok []) ∧
    (2 ≤ c.length → byte c 0 = 66 → byte c 1 = 77 → 54 < le c 2 8 → le c 2 8 < 2 ^ 63 →
      ∃ r, loadBMP c = .ok r ∧ r.length = min (le c 2 8) c.length ∧
        ∀ i, i < r.length → byte r i = byte c i) := by
  have hsize : char2int ((c.drop 2).take 8) = (le c 2 8 : Int) := by
    rw [char2int_eq, le_take_drop]
  have hmag : c.take 2 = [66, 77] ↔ (2 ≤ c.length ∧ byte c 0 = 66 ∧ byte c 1 = 77) := by
    match c with
    | [] => simp
    | [a] => simp
    | a :: b :: t => simp [byte]
  unfold loadBMP
  simp only [hsize, pure_eq_ok]
  refine ⟨fun h => ?_, fun h => ?_, fun h1 h2 h3 h4 h5 => ?_⟩
  · rw [if_pos (fun e => h (hmag.mp e))]
  · split_ifs <;> first | rfl | omega
  · rw [if_neg (not_not.mpr (hmag.mpr ⟨h1, h2, h3⟩)), if_pos (by omega), if_neg (by omega)]
    refine ⟨_, rfl, by simp, ?_⟩
    intro i hi
    simp at hi
    rw [byte_take, if_pos (by omega)]

/-- C15: saving and loading is lossless. -/
theorem C15_save_load {b : Bytes} {W H bits : Nat} (h : Valid b W H bits) (hne : 54 < b.length) :
    loadBMP (saveBMP b) = .ok b := by
  obtain ⟨r, h1, h2, h3⟩ := (C16_load b).2.2 (by have := h.len54; omega) h.magic.1 h.magic.2
    (by rw [h.size]; exact hne) (by rw [h.size]; have := h.len_lt; omega)
  rw [saveBMP, h1]
  congr 1
  rw [h.size, min_self] at h2
  exact bytes_ext h2 h3

/-- A true-colour image without pixels is only a header of 54 bytes; it is the one kind of file
that cannot be loaded back. -/
theorem C15_empty_truecolour {b : Bytes} {W H bits : Nat} (h : Valid b W H bits) (he : b.length = 54) :
    loadBMP (saveBMP b) = .ok [] :=
  (C16_load b).2.1 (by rw [h.size, he])

/-- Every image with at least one pixel, and every image with a palette, is longer than 54 bytes. -/
theorem C15_longer {b : Bytes} {W H bits : Nat} (h : Valid b W H bits)
    (hn : (0 < W ∧ 0 < H) ∨ bits ≠ 24) : 54 < b.length := by
  have hl := h.len
  unfold dataOff palSize at hl
  split_ifs at hl with h24
  · subst h24
    rcases hn with ⟨hW, hH⟩ | hn
    · have h1 := rel_lt hW hH h.depth
      rw [if_pos rfl] at h1
      omega
    · omega
  · have := Nat.two_pow_pos bits
    omega

example : (do let b ← newBMP 3 2 4; let b ← plotxybit b 1 1 9; let r ← loadBMP (saveBMP b)
              getxybit r 1 1) = .ok 9 := by decide +kernel
example : loadBMP [66, 77, 56, 0, 0, 0, 0, 0, 0, 0, 1, 2] = .ok [66, 77, 56, 0, 0, 0, 0, 0, 0, 0, 1, 2] := by
  decide +kernel
example : loadBMP [66, 78, 56, 0, 0, 0, 0, 0, 0, 0, 1, 2] = .ok [] := by decide +kernel

end Verif.Props
