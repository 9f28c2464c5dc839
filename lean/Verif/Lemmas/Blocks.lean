import Verif.Lemmas.NewImage
import Verif.Props.Iterate
/-! Buffers built from blocks of equal size, repeated elements, packed nibbles and bits. -/

namespace Verif
open Spec Model Props

theorem length_flatMap_const {α : Type} (l : List α) (f : α → Bytes) {m : Nat} (hm : ∀ a ∈ l, (f a).length = m) :
    (l.flatMap f).length = m * l.length := by
  induction l with
  | nil => simp
  | cons a l ih =>
    rw [List.flatMap_cons, List.length_append, hm a (by simp), ih (fun a ha => hm a (by simp [ha])), List.length_cons]
    ring

/-- A byte of a concatenation of blocks of equal size. -/
theorem byte_flatMap {α : Type} (l : List α) (f : α → Bytes) {m : Nat} (hm : ∀ a ∈ l, (f a).length = m)
    {i t : Nat} (hi : i < l.length) (ht : t < m) : byte (l.flatMap f) (m * i + t) = byte (f l[i]) t := by
  induction l generalizing i with
  | nil => simp at hi
  | cons a l ih =>
    rw [List.flatMap_cons, byte_append, hm a (by simp)]
    cases i with
    | zero => rw [if_pos (by omega)]; simp
    | succ i =>
      rw [if_neg (by rw [Nat.mul_add]; omega), show m * (i + 1) + t - m = m * i + t by rw [Nat.mul_add]; omega,
        ih (fun a ha => hm a (by simp [ha])) (by simpa using hi)]
      simp

theorem pyRepeat_one (a n : Nat) : pyRepeat [a] (n : Int) = List.replicate n a := by
  unfold pyRepeat
  rw [Int.toNat_natCast]
  induction n with
  | zero => rfl
  | succ n ih => rw [List.replicate_succ, List.flatten_cons, ih]; rfl

theorem byte_rangeMap (n : Nat) (f : Nat → Nat) {i : Nat} (hi : i < n) : byte ((List.range n).map f) i = f i := by
  rw [byte_eq_getElem _ _ (by simpa using hi)]; simp

theorem byte_rep {n a i : Nat} (hi : i < n) : byte (List.replicate n a) i = a := by
  rw [byte_eq_getElem _ _ (by simpa using hi)]; simp

/-- Every element repeated `n` times. -/
theorem rep_eq (l : Bytes) {n : Nat} (hn : 0 < n) :
    (l.flatMap fun a => pyRepeat [a] (n : Int)) = (List.range (n * l.length)).map fun i => byte l (i / n) := by
  have hm : ∀ a ∈ l, (pyRepeat [a] (n : Int)).length = n := by intro a _; rw [pyRepeat_one]; simp
  apply bytes_ext
  · rw [length_flatMap_const _ _ hm]; simp
  · intro i hi
    rw [length_flatMap_const _ _ hm] at hi
    have hq : i / n < l.length := Nat.div_lt_of_lt_mul hi
    rw [byte_rangeMap _ _ hi]
    conv => lhs; rw [← Nat.div_add_mod i n]
    rw [byte_flatMap _ _ hm hq (Nat.mod_lt _ hn), pyRepeat_one, byte_rep (Nat.mod_lt _ hn),
      ← byte_eq_getElem _ _ hq]

/-- `[f 0, f 1, ..]` starts with `f 0`. -/
theorem rangeMap_succ {α : Type} (n : Nat) (f : Nat → α) :
    (List.range (n + 1)).map f = f 0 :: (List.range n).map fun i => f (i + 1) := by
  rw [List.range_succ_eq_map, List.map_cons, List.map_map]; rfl

theorem pack4_eq (m : Nat) (f : Nat → Nat) :
    pack4bitbuf ((List.range (2 * m)).map f) = (List.range m).map fun j => f (2 * j) * 16 + f (2 * j + 1) := by
  induction m generalizing f with
  | zero => rfl
  | succ m ih =>
    rw [show 2 * (m + 1) = 2 * m + 1 + 1 by ring, rangeMap_succ, rangeMap_succ, rangeMap_succ, pack4bitbuf, ih,
      Nat.shiftLeft_eq]
    simp only [Nat.reducePow, Nat.mul_zero, Nat.zero_add]
    congr 1

/-- The byte that `packbitlisttobuf` makes of eight bits: the last one goes to the front. -/
def packed8 (f : Nat → Nat) : Nat :=
  f 7 * 128 + f 0 * 64 + f 1 * 32 + f 2 * 16 + f 3 * 8 + f 4 * 4 + f 5 * 2 + f 6

theorem packbit_eq (m i : Nat) (hi : i % 8 = 1) (f : Nat → Nat) :
    packbitLoop ((List.range (8 * m)).map f) i 0 = (List.range m).map fun j => packed8 fun t => f (8 * j + t) := by
  induction m generalizing f i with
  | zero => rfl
  | succ m ih =>
    rw [show 8 * (m + 1) = 8 * m + 1 + 1 + 1 + 1 + 1 + 1 + 1 + 1 by ring]
    iterate 8 rw [rangeMap_succ]
    simp only [packbitLoop]
    rw [if_neg (by omega), if_neg (by omega), if_neg (by omega), if_neg (by omega), if_neg (by omega),
      if_neg (by omega), if_neg (by omega), if_pos (by omega), rangeMap_succ]
    congr 1
    · rw [show (i + 1) % 8 = 2 by omega, show (i + 1 + 1) % 8 = 3 by omega, show (i + 1 + 1 + 1) % 8 = 4 by omega,
        show (i + 1 + 1 + 1 + 1) % 8 = 5 by omega, show (i + 1 + 1 + 1 + 1 + 1) % 8 = 6 by omega,
        show (i + 1 + 1 + 1 + 1 + 1 + 1) % 8 = 7 by omega, show (i + 1 + 1 + 1 + 1 + 1 + 1 + 1) % 8 = 0 by omega, hi]
      simp only [Nat.shiftLeft_eq, packed8]
      simp only [Nat.zero_add, Nat.mul_zero]
      norm_num
      omega
    · rw [ih _ (by omega)]
      rfl

/-- An empty buffer changes nothing at any position. -/
theorem put_nil_any {b : Bytes} {W H bits : Nat} (h : Valid b W H bits) (k : Nat) :
    BMPbitBLTput b (k : Int) [] = .ok b := by
  unfold BMPbitBLTput
  rw [h.hdsz_eq, h.flsz_eq]
  simp only [ok_bind, List.length_nil]
  rw [if_pos (by omega)]
  split_ifs
  · rw [setSlice_empty (by omega) (by omega)]; rfl
  · rfl

end Verif
