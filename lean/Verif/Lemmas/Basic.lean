import Verif.Spec
import Mathlib.Tactic.Ring
import Mathlib.Tactic.Linarith
import Mathlib.Tactic.SplitIfs
/-! Lemmas about the Python primitives. -/

namespace Verif
open Spec

theorem byte_eq_getElem (b : Bytes) (i : Nat) (h : i < b.length) : byte b i = b[i] := by
  simp [byte, List.getD, List.getElem?_eq_getElem h]

theorem byte_of_ge (b : Bytes) (i : Nat) (h : b.length ≤ i) : byte b i = 0 := by
  simp [byte, List.getD, List.getElem?_eq_none h]

theorem byte_append (a b : Bytes) (i : Nat) :
    byte (a ++ b) i = if i < a.length then byte a i else byte b (i - a.length) := by
  unfold byte List.getD
  split
  · rename_i h; rw [List.getElem?_append_left h]
  · rename_i h; rw [List.getElem?_append_right (by omega)]

theorem byte_take (b : Bytes) (n i : Nat) : byte (b.take n) i = if i < n then byte b i else 0 := by
  unfold byte List.getD
  rw [List.getElem?_take]
  split <;> simp_all

theorem byte_drop (b : Bytes) (n i : Nat) : byte (b.drop n) i = byte b (n + i) := by
  unfold byte List.getD
  rw [List.getElem?_drop]

theorem byte_set (b : Bytes) (n v i : Nat) :
    byte (b.set n v) i = if i = n ∧ n < b.length then v else byte b i := by
  unfold byte List.getD
  rw [List.getElem?_set]
  by_cases h : n = i
  · subst h
    by_cases h2 : n < b.length
    · simp [h2]
    · simp [h2]
  · have : ¬ (i = n) := fun e => h e.symm
    simp [h, this]

theorem byte_replicate (n v i : Nat) : byte (List.replicate n v) i = if i < n then v else 0 := by
  unfold byte List.getD
  rw [List.getElem?_replicate]
  split <;> simp

theorem bytes_ext {a b : Bytes} (hl : a.length = b.length)
    (h : ∀ i, i < a.length → byte a i = byte b i) : a = b := by
  apply List.ext_getElem hl
  intro i h1 h2
  have := h i h1
  rwa [byte_eq_getElem _ _ h1, byte_eq_getElem _ _ h2] at this

theorem byte_lt_of_mem {b : Bytes} (h : ∀ v ∈ b, v < 256) (i : Nat) : byte b i < 256 := by
  by_cases hi : i < b.length
  · rw [byte_eq_getElem _ _ hi]; exact h _ (List.getElem_mem hi)
  · rw [byte_of_ge _ _ (by omega)]; omega

theorem mem_lt_of_byte {b : Bytes} (h : ∀ i, i < b.length → byte b i < 256) : ∀ v ∈ b, v < 256 := by
  intro v hv
  obtain ⟨i, hi, rfl⟩ := List.mem_iff_getElem.mp hv
  have := h i hi
  rwa [byte_eq_getElem _ _ hi] at this

/-! ### Subscripts -/

theorem resolveIdx_ok {len : Nat} {i : Int} {n : Nat} (hi : i = n) (h : n < len) :
    resolveIdx len i = some n := by
  subst hi
  unfold resolveIdx
  rw [if_pos (by omega), if_pos (by omega)]
  simp

theorem getItem_ok {b : Bytes} {i : Int} {n : Nat} (hi : i = n) (h : n < b.length) :
    getItem b i = .ok (byte b n) := by
  unfold getItem
  rw [resolveIdx_ok hi h]
  rfl

theorem setItem_ok {b : Bytes} {i v : Int} {n w : Nat} (hi : i = n) (h : n < b.length)
    (hv : v = w) (hw : w < 256) : setItem b i v = .ok (b.set n w) := by
  unfold setItem
  rw [resolveIdx_ok hi h]
  subst hv
  simp only
  rw [if_pos (by omega)]
  simp

theorem getItem_ge {b : Bytes} {i : Int} (h : (b.length : Int) ≤ i) :
    getItem b i = .error .indexError := by
  unfold getItem resolveIdx
  rw [if_pos (by omega), if_neg (by omega)]

theorem setItem_ge {b : Bytes} {i v : Int} (h : (b.length : Int) ≤ i) :
    setItem b i v = .error .indexError := by
  unfold setItem resolveIdx
  rw [if_pos (by omega), if_neg (by omega)]

theorem mkArray_ok {l : List Int} {m : Bytes} (h : l = m.map Int.ofNat) (hb : ∀ v ∈ m, v < 256) :
    mkArray l = .ok m := by
  unfold mkArray
  subst h
  rw [if_pos]
  · congr 1
    rw [List.map_map]
    conv => rhs; rw [← List.map_id m]
    apply List.map_congr_left
    intro a _; simp
  · simp only [List.all_map, List.all_eq_true, Function.comp, decide_eq_true_eq]
    intro v hv
    have := hb v hv
    constructor
    · exact Int.natCast_nonneg v
    · show (v : Int) < 256; omega

theorem mkArray_err {l : List Int} {v : Int} (hv : v ∈ l) (h : v < 0 ∨ 256 ≤ v) :
    mkArray l = .error .overflowError := by
  unfold mkArray
  rw [if_neg]
  simp only [List.all_eq_true, decide_eq_true_eq]
  intro h2
  have := h2 v hv
  omega

theorem mkArray3_ok {a b c : Int} {x y z : Nat} (ha : a = x) (hb : b = y) (hc : c = z)
    (hx : x < 256) (hy : y < 256) (hz : z < 256) : mkArray [a, b, c] = .ok [x, y, z] := by
  apply mkArray_ok
  · subst ha hb hc; rfl
  · intro v hv; simp at hv; omega

/-! ### Overwriting a block -/

/-- Overwrite the bytes from `s` on by `buf`. -/
def ow (b : Bytes) (s : Nat) (buf : Bytes) : Bytes := b.take s ++ buf ++ b.drop (s + buf.length)

theorem length_ow {b : Bytes} {s : Nat} {buf : Bytes} (h : s + buf.length ≤ b.length) :
    (ow b s buf).length = b.length := by
  simp [ow]; omega

theorem byte_ow {b : Bytes} {s : Nat} {buf : Bytes} (h : s + buf.length ≤ b.length) (i : Nat) :
    byte (ow b s buf) i = if s ≤ i ∧ i < s + buf.length then byte buf (i - s) else byte b i := by
  have h1 : (b.take s).length = s := by simp; omega
  have h2 : (b.take s ++ buf).length = s + buf.length := by simp; omega
  unfold ow
  rw [byte_append, byte_append, h1, h2, byte_take, byte_drop]
  by_cases c1 : i < s
  · rw [if_pos (by omega), if_pos c1, if_pos c1, if_neg (by omega)]
  · by_cases c2 : i < s + buf.length
    · rw [if_pos c2, if_neg c1, if_pos (by omega)]
    · rw [if_neg c2, if_neg (by omega)]
      congr 1; omega

theorem ow_nil (b : Bytes) (s : Nat) : ow b s [] = b := by simp [ow]

theorem set_eq_ow {b : Bytes} {n v : Nat} (h : n < b.length) : b.set n v = ow b n [v] := by
  apply bytes_ext
  · rw [length_ow (by simp; omega)]; simp
  · intro i _
    rw [byte_set, byte_ow (by simp; omega)]
    by_cases c : i = n
    · subst c; simp [h, byte]
    · rw [if_neg (by omega), if_neg (by simp; omega)]

theorem ow_bytes {b : Bytes} {s : Nat} {buf : Bytes} (hb : ∀ v ∈ b, v < 256) (h2 : ∀ v ∈ buf, v < 256) :
    ∀ v ∈ ow b s buf, v < 256 := by
  intro v hv
  simp only [ow, List.mem_append] at hv
  rcases hv with (hv | hv) | hv
  · exact hb v (List.mem_of_mem_take hv)
  · exact h2 v hv
  · exact hb v (List.mem_of_mem_drop hv)

theorem clampIdx_ok {len n : Nat} {i : Int} (hi : i = n) (h : n ≤ len) : clampIdx len i = n := by
  subst hi; unfold clampIdx; rw [if_neg (by omega)]; simp; omega

theorem setSlice_ok {b : Bytes} {s e : Int} {buf : Bytes} {n : Nat} (hs : s = n)
    (he : e = n + buf.length) (h : n + buf.length ≤ b.length) : setSlice b s e buf = ow b n buf := by
  unfold setSlice
  rw [clampIdx_ok hs (by omega), clampIdx_ok (n := n + buf.length) (by omega) h]
  simp only
  rw [show max n (n + buf.length) = n + buf.length from by omega]
  rfl

theorem slice_ok {α : Type} {b : List α} {s e : Int} {n m : Nat} (hs : s = n) (he : e = m) (h : m ≤ b.length)
    (hnm : n ≤ m) : slice b s e = (b.take m).drop n := by
  unfold slice
  rw [clampIdx_ok hs (by omega), clampIdx_ok he h]

theorem length_slice_ok {α : Type} {b : List α} {s e : Int} {n m : Nat} (hs : s = n) (he : e = m) (h : m ≤ b.length)
    (hnm : n ≤ m) : (slice b s e).length = m - n := by
  rw [slice_ok hs he h hnm]; simp; omega

theorem byte_slice_ok {b : Bytes} {s e : Int} {n m : Nat} (hs : s = n) (he : e = m) (h : m ≤ b.length)
    (hnm : n ≤ m) (i : Nat) : byte (slice b s e) i = if i < m - n then byte b (n + i) else 0 := by
  rw [slice_ok hs he h hnm, byte_drop, byte_take]
  by_cases c : i < m - n
  · rw [if_pos c, if_pos (by omega)]
  · rw [if_neg c, if_neg (by omega)]

theorem pyRepeat_nat (v : Nat) (n : Int) : pyRepeat [v] n = List.replicate n.toNat v := by
  unfold pyRepeat
  induction n.toNat with
  | zero => rfl
  | succ k ih => simp [List.replicate_succ, ih]

/-! ### Bit operations -/

theorem pyAnd_mask (k : Nat) (a : Int) : pyAnd a ((2 ^ k - 1 : Nat) : Int) = a % (2 ^ k : Int) := by
  have hpos : 0 < 2 ^ k := Nat.two_pow_pos k
  cases a with
  | ofNat m =>
    show ((m &&& (2 ^ k - 1) : Nat) : Int) = _
    rw [Nat.and_two_pow_sub_one_eq_mod]
    push_cast; rfl
  | negSucc m =>
    show (((2 ^ k - 1) - ((2 ^ k - 1) &&& m) : Nat) : Int) = _
    rw [Nat.and_comm, Nat.and_two_pow_sub_one_eq_mod]
    have h1 : m % 2 ^ k < 2 ^ k := Nat.mod_lt _ hpos
    rw [Int.negSucc_emod _ (by exact_mod_cast hpos)]
    push_cast [Nat.cast_sub, show m % 2 ^ k ≤ 2 ^ k - 1 by omega, show 1 ≤ 2 ^ k from hpos]
    ring

theorem pyAnd_255 (a : Int) : pyAnd a 255 = a % 256 := pyAnd_mask 8 a
theorem pyAnd_15 (a : Int) : pyAnd a 15 = a % 16 := pyAnd_mask 4 a
theorem pyAnd_3 (a : Int) : pyAnd a 3 = a % 4 := pyAnd_mask 2 a
theorem pyAnd_1 (a : Int) : pyAnd a 1 = a % 2 := pyAnd_mask 1 a

theorem pyShr_1 (a : Int) : pyShr a 1 = a / 2 := rfl
theorem pyShr_3 (a : Int) : pyShr a 3 = a / 8 := rfl
theorem pyShr_8 (a : Int) : pyShr a 8 = a / 256 := rfl
theorem pyShr_16 (a : Int) : pyShr a 16 = a / 65536 := rfl

@[simp] theorem ok_bind {α β : Type} (a : α) (f : α → Py β) : ((Except.ok a : Py α) >>= f) = f a := rfl
@[simp] theorem err_bind {α β : Type} (e : PyErr) (f : α → Py β) :
    ((Except.error e : Py α) >>= f) = .error e := rfl
@[simp] theorem pure_eq_ok {α : Type} (a : α) : (pure a : Py α) = .ok a := rfl

theorem mapM_ok {α β : Type} (l : List α) (f : α → Py β) (g : α → β) (h : ∀ a ∈ l, f a = .ok (g a)) :
    l.mapM f = .ok (l.map g) := by
  induction l with
  | nil => rfl
  | cons a l ih =>
    rw [List.mapM_cons, h a (by simp), ih (fun a' h' => h a' (by simp [h']))]
    rfl

/-- A row-major index decomposition helper. -/
theorem row_lt {a b S : Nat} (h : a < b) : a * S + S ≤ b * S := by
  calc a * S + S = (a + 1) * S := by ring
    _ ≤ b * S := Nat.mul_le_mul_right S h

end Verif
