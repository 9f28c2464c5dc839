import Verif.Model.Smaller
import Verif.Props.Resize
/-! C101, C102: splitting buffers, and making images smaller. -/

namespace Verif.Props
open Verif Spec Model

variable {b : Bytes} {W H bits : Nat}

theorem stepCount_zero {s e k : Nat} (h : e ≤ s) : stepCount s e k = 0 := by
  unfold stepCount; rw [if_neg (by omega)]

theorem sliceStep_nil {b : Bytes} {s e k : Nat} (hk : 0 < k) (h : e ≤ s) :
    sliceStep b (s : Int) (e : Int) k = .ok [] := by
  unfold sliceStep
  rw [if_neg (by omega), clampIdx_min rfl, clampIdx_min rfl]
  dsimp only
  rw [stepCount_zero (by omega)]
  rfl

/-- The number of complete groups of `n` elements that are kept: one is lost when the length is an odd
multiple of `n`. -/
def groups (m n : Nat) : Nat := if m % n = 0 ∧ m % 2 = 1 then m / n - 1 else m / n

/-- A slice of every `n`-th element from `i` on. -/
theorem nth_slice (buf : Bytes) {n i q : Nat} {e : Int} (hn : 0 < n) (hi : i < n) (hq : q * n ≤ buf.length)
    (h0 : 0 ≤ e) (h1 : ((i + q * n : Nat) : Int) < e + n) (h2 : e ≤ ((i + q * n : Nat) : Int)) :
    sliceStep buf (i : Int) e n = .ok ((List.range q).map fun j => byte buf (i + j * n)) := by
  obtain ⟨eN, rfl⟩ : ∃ eN : Nat, e = eN := ⟨e.toNat, by omega⟩
  rcases Nat.eq_zero_or_pos q with rfl | hq0
  · rw [Nat.zero_mul, Nat.add_zero] at h2
    rw [sliceStep_nil hn (by omega)]; rfl
  · obtain ⟨r, rfl⟩ : ∃ r, q = r + 1 := ⟨q - 1, by omega⟩
    have e1 : (r + 1) * n = r * n + n := by ring
    rw [e1] at hq h1 h2
    push_cast at h1 h2
    rw [sliceStep_ok (n := i) (m := r + 1) (eN := eN) rfl rfl hn (by omega)]
    · rw [Nat.add_sub_cancel]
      have : ((r * n : Nat) : Int) = (r : Int) * n := by push_cast; rfl
      omega
    · rw [e1]
      have : ((r * n : Nat) : Int) = (r : Int) * n := by push_cast; rfl
      omega
    · rw [Nat.add_sub_cancel]; omega

/-- C101: with at least one complete group, the `i`-th list holds the elements number `i` of the
groups, in order. -/
theorem C101_nway_exact (buf : Bytes) {n : Nat} (hn : 0 < n) (hm : n ≤ buf.length) :
    altsplitbufnway buf n = .ok ((List.range n).map fun i =>
      (List.range (groups buf.length n)).map fun j => byte buf (i + j * n)) := by
  unfold altsplitbufnway
  rw [if_neg (by omega)]
  apply mapM_ok
  intro i hi
  rw [List.mem_range] at hi
  have hd := Nat.div_add_mod buf.length n
  have hlt := Nat.mod_lt buf.length hn
  have hdiv : 0 < buf.length / n := Nat.div_pos hm hn
  have hmod : ((buf.length : Int)) % (n : Int) = ((buf.length % n : Nat) : Int) := by push_cast; rfl
  rw [hmod]
  have hc : n * (buf.length / n) = buf.length / n * n := Nat.mul_comm _ _
  have hg : groups buf.length n * n + (if buf.length % n = 0 ∧ buf.length % 2 = 1 then n else 0) + buf.length % n = buf.length := by
    unfold groups
    split_ifs with h
    · have : (buf.length / n - 1) * n + n = buf.length / n * n := by
        conv_rhs => rw [show buf.length / n = (buf.length / n - 1) + 1 by omega]
        ring
      omega
    · omega
  apply nth_slice buf hn hi
  · omega
  · split_ifs at hg ⊢ <;> omega
  · split_ifs at hg ⊢ <;> push_cast <;> omega
  · split_ifs at hg ⊢ <;> push_cast <;> omega

/-- C101: nothing is lost when the length is an even multiple of `n`. -/
theorem C101_nway_partial (buf : Bytes) {n q : Nat} (hn : 0 < n) (hq : 0 < q) (hl : buf.length = q * n)
    (heven : buf.length % 2 = 0) :
    altsplitbufnway buf n = .ok ((List.range n).map fun i => (List.range q).map fun j => byte buf (i + j * n)) := by
  have : n ≤ buf.length := by rw [hl]; exact Nat.le_mul_of_pos_left n hq
  rw [C101_nway_exact buf hn this]
  have : groups buf.length n = q := by
    unfold groups
    rw [if_neg (by omega), hl, Nat.mul_div_cancel _ hn]
  rw [this]

example : altsplitbufnway [1, 2, 3, 4, 5, 6] 3 = .ok [[1, 4], [2, 5], [3, 6]] := by decide

/-- C101 is false as stated: with nine elements in three groups the last group is lost. -/
theorem C101_nway_false : altsplitbufnway [1, 2, 3, 4, 5, 6, 7, 8, 9] 3 = .ok [[1, 4], [2, 5], [3, 6]] := by decide

/-- C101: fewer than `n` elements are split wrongly as well: the first list has an element although
there is no complete group, because the end of the slice is negative. -/
theorem C101_short_false : altsplitbufnway [1, 2, 3] 5 = .ok [[1], [], [], [], []] := by decide

/-- C101: splitting in two gives the elements at even and at odd positions; a single last element is
dropped. -/
theorem C101_two (buf : Bytes) :
    altsplitbuf buf = .ok ((List.range (buf.length / 2)).map (fun j => byte buf (2 * j)),
      (List.range (buf.length / 2)).map (fun j => byte buf (2 * j + 1))) := by
  unfold altsplitbuf
  dsimp only
  have hm : (if (buf.length : Int) % 2 = 0 then (buf.length : Int) - (buf.length : Int) % 2 else (buf.length : Int)) = buf.length := by
    split_ifs <;> omega
  rw [hm]
  rcases Nat.eq_zero_or_pos buf.length with h0 | h0
  · have : buf = [] := List.length_eq_zero_iff.mp h0
    subst this
    rfl
  · have e0 := nth_slice buf (n := 2) (i := 0) (q := buf.length / 2) (e := (buf.length : Int) - 1) (by omega) (by omega) (by omega)
      (by omega) (by push_cast; omega) (by push_cast; omega)
    rcases Nat.mod_two_eq_zero_or_one buf.length with h2 | h2
    · have e1 := nth_slice buf (n := 2) (i := 1) (q := buf.length / 2) (e := (buf.length : Int)) (by omega) (by omega) (by omega)
        (by omega) (by push_cast; omega) (by push_cast; omega)
      simp only [Nat.cast_zero, Nat.cast_one] at e0 e1
      rw [e0, e1]
      simp only [ok_bind, Nat.zero_add, Nat.mul_comm _ 2, Nat.add_comm 1]
      rfl
    · have e1 := nth_slice buf (n := 2) (i := 1) (q := buf.length / 2) (e := (buf.length : Int)) (by omega) (by omega) (by omega)
        (by omega) (by push_cast; omega) (by push_cast; omega)
      simp only [Nat.cast_zero, Nat.cast_one] at e0 e1
      rw [e0, e1]
      simp only [ok_bind, Nat.zero_add, Nat.mul_comm _ 2, Nat.add_comm 1]
      rfl

example : altsplitbuf [1, 2, 3, 4, 5] = .ok ([1, 3], [2, 4]) := by decide

/-- C101: splitting whole 24-bit pixels into channels; with an odd number of pixels the last pixel is
lost. -/
theorem C101_three {s : Bytes} {W : Nat} (hsl : s.length = 3 * W) :
    altsplitbuf3way s = .ok ((List.range (W / 2 * 2)).map (fun j => byte s (0 + j * 3)),
      (List.range (W / 2 * 2)).map (fun j => byte s (1 + j * 3)), (List.range (W / 2 * 2)).map (fun j => byte s (2 + j * 3))) := by
  unfold altsplitbuf3way
  dsimp only
  rw [hsl, if_pos (by omega)]
  by_cases hW : W / 2 * 2 = 0
  · rw [hW]
    have hW' : W = 0 ∨ W = 1 := by omega
    rcases hW' with rfl | rfl
    · have : s = [] := by simpa using hsl
      subst this
      decide
    · match s, hsl with
      | [a, b, c], _ => rfl
  · have hm : ((3 * W : Nat) : Int) - ((3 * W : Nat) : Int) % 2 = ((3 * W - W % 2 : Nat) : Int) := by omega
    rw [hm]
    rw [show ((3 * W - W % 2 : Nat) : Int) - 2 = ((3 * W - W % 2 - 2 : Nat) : Int) by omega,
      show ((3 * W - W % 2 : Nat) : Int) - 1 = ((3 * W - W % 2 - 1 : Nat) : Int) by omega,
      show sliceStep s 0 _ 3 = _ from sliceStep_ok (b := s) (n := 0) (k := 3) (m := W / 2 * 2) rfl rfl (by omega) (by omega) (by omega) (by omega) (by omega),
      show sliceStep s 1 _ 3 = _ from sliceStep_ok (b := s) (n := 1) (k := 3) (m := W / 2 * 2) rfl rfl (by omega) (by omega) (by omega) (by omega) (by omega),
      show sliceStep s 2 _ 3 = _ from sliceStep_ok (b := s) (n := 2) (k := 3) (m := W / 2 * 2) rfl rfl (by omega) (by omega) (by omega) (by omega) (by omega)]
    rfl

example : altsplitbuf3way [1, 2, 3, 4, 5, 6] = .ok ([1, 4], [2, 5], [3, 6]) := by decide

/-- C101 is false for a single pixel: all three channels are empty. -/
theorem C101_three_false : altsplitbuf3way [1, 2, 3] = .ok ([], [], []) := by decide

/-! ## Making an image smaller -/

theorem zipWith_rangeMap (L : Nat) (f g : Nat → Nat) :
    addvectN ((List.range L).map f) ((List.range L).map g) = (List.range L).map fun i => f i + g i := by
  unfold addvectN
  rw [List.zipWith_map_left, List.zipWith_map_right, List.zipWith_self]

theorem foldl_addvect (L : Nat) (rows : List (List Nat)) (hr : ∀ r ∈ rows, r.length = L) (f : Nat → Nat) :
    rows.foldl addvectN ((List.range L).map f) = (List.range L).map fun i => f i + (rows.map fun r => byte r i).sum := by
  induction rows generalizing f with
  | nil => simp
  | cons r rows ih =>
    have hrl := hr r (by simp)
    have e : r = (List.range L).map (byte r) := by
      apply bytes_ext
      · simp [hrl]
      · intro i hi; rw [byte_rangeMap _ _ (by omega)]
    rw [List.foldl_cons]
    conv_lhs => rw [e, zipWith_rangeMap, ih (fun r' h' => hr r' (by simp [h']))]
    apply List.map_congr_left
    intro i _
    simp only [List.map_cons, List.sum_cons]
    omega

/-- The sum of rows of equal length, column by column. -/
theorem addvectinlist_eq {L : Nat} {rows : List (List Nat)} (h0 : rows ≠ []) (hr : ∀ r ∈ rows, r.length = L) :
    addvectinlist rows = .ok ((List.range L).map fun i => (rows.map fun r => byte r i).sum) := by
  match rows, h0 with
  | r :: rows, _ =>
    have hrl := hr r (by simp)
    have e : r = (List.range L).map (byte r) := by
      apply bytes_ext
      · simp [hrl]
      · intro i hi; rw [byte_rangeMap _ _ (by omega)]
    show Except.ok (rows.foldl addvectN r) = _
    conv_lhs => rw [e, foldl_addvect L rows (fun r' h' => hr r' (by simp [h']))]
    rfl

theorem foldl_addvect_nil (rows : List (List Nat)) (v : List Nat) (h : v = [] ∨ [] ∈ rows) :
    rows.foldl addvectN v = [] := by
  induction rows generalizing v with
  | nil => simpa using h
  | cons r rows ih =>
    rw [List.foldl_cons]
    apply ih
    rcases h with rfl | h
    · left; simp [addvectN]
    · rcases List.mem_cons.mp h with h | h
      · left; rw [← h]; simp [addvectN]
      · right; exact h

/-- Sums of groups of `n` neighbours. -/
theorem nway_sum (s : Bytes) {n : Nat} (hn : 0 < n) (heven : s.length % 2 = 0) :
    ∃ ls, altsplitbufnway s n = .ok ls ∧
      addvectinlist ls = .ok ((List.range (s.length / n)).map fun j => ((List.range n).map fun i => byte s (i + j * n)).sum) := by
  by_cases hm : n ≤ s.length
  · refine ⟨_, C101_nway_exact s hn hm, ?_⟩
    have : groups s.length n = s.length / n := by unfold groups; rw [if_neg (by omega)]
    rw [this, addvectinlist_eq (L := s.length / n)]
    · congr 1
      apply List.map_congr_left
      intro j hj
      rw [List.mem_range] at hj
      rw [List.map_map]
      congr 1
      apply List.map_congr_left
      intro i _
      exact byte_rangeMap _ _ hj
    · intro h
      have := congrArg List.length h
      simp at this; omega
    · intro r hr
      obtain ⟨i, _, rfl⟩ := List.mem_map.mp hr
      simp
  · rw [Nat.div_eq_of_lt (by omega)]
    unfold altsplitbufnway
    rw [if_neg (by omega)]
    refine ⟨_, mapM_ok _ _ (fun (i : Nat) => (List.range (stepCount (clampIdx s.length (i : Int)) (clampIdx s.length
      ((if (s.length : Int) % (n : Int) = 0 then (s.length : Int) - (s.length : Int) % 2 else (s.length : Int)) -
        ((n : Int) - 1 - (i : Int)))) n)).map fun j => s.getD (clampIdx s.length (i : Int) + j * n) 0) ?_, ?_⟩
    · intro i _
      unfold sliceStep
      rw [if_neg (by omega)]
    · obtain ⟨k, rfl⟩ : ∃ k, n = k + 1 := ⟨n - 1, by omega⟩
      set g : Nat → List Nat := fun i => (List.range (stepCount (clampIdx s.length (i : Int)) (clampIdx s.length
        ((if (s.length : Int) % ((k + 1 : Nat) : Int) = 0 then (s.length : Int) - (s.length : Int) % 2 else (s.length : Int)) -
        (((k + 1 : Nat) : Int) - 1 - (i : Int)))) (k + 1))).map fun j => s.getD (clampIdx s.length (i : Int) + j * (k + 1)) 0 with hg
      have hlast : g k = [] := by
        have e1 : clampIdx s.length (k : Int) = s.length := by rw [clampIdx_min rfl]; omega
        have e2 : ∀ z, z ≤ (s.length : Int) → clampIdx s.length z ≤ s.length := by
          intro z hz; unfold clampIdx; split_ifs <;> omega
        rw [hg]
        dsimp only
        rw [e1, stepCount_zero (e2 _ (by split_ifs <;> omega))]
        rfl
      have hmem : ([] : List Nat) ∈ (List.range (k + 1)).map g :=
        List.mem_map.mpr ⟨k, by simp, hlast⟩
      match (List.range (k + 1)).map g, hmem with
      | v :: vs, hmem =>
        show Except.ok (vs.foldl addvectN v) = _
        rw [foldl_addvect_nil]
        · rfl
        · rcases List.mem_cons.mp hmem with h | h
          · left; exact h.symm
          · right; exact h

/-- One row of the result from `n` rows of the source. -/
theorem smaller_row {scale : Nat → Nat → Int} {rows : List Bytes} {n W : Nat} (hn : 0 < n) (hl : rows.length = n)
    (hr : ∀ r ∈ rows, r.length = 3 * W) (f : Nat → Nat → Nat)
    (hf : ∀ k, k < 3 → ∀ j, j < W → f k j = (rows.map fun r => byte r (3 * j + k)).sum)
    (sc : Nat → Nat) (hsc : ∀ k, k < 3 → ∀ j, j < W / 2 * 2 / n →
      scale n ((List.range n).map fun i => f k (j * n + i)).sum = sc ((List.range n).map fun i => f k (j * n + i)).sum ∧
      sc ((List.range n).map fun i => f k (j * n + i)).sum < 256) :
    resizesmaller24bitbuf scale rows = .ok ((List.range (W / 2 * 2 / n)).flatMap fun j =>
      [sc ((List.range n).map fun i => f 0 (j * n + i)).sum, sc ((List.range n).map fun i => f 1 (j * n + i)).sum,
        sc ((List.range n).map fun i => f 2 (j * n + i)).sum]) := by
  unfold resizesmaller24bitbuf
  rw [hl, addvectinlist_eq (by rintro rfl; simp at hl; omega) hr]
  simp only [ok_bind]
  rw [C101_three (W := W) (by simp)]
  simp only [ok_bind]
  set M := W / 2 * 2 with hM
  have hMW : M ≤ W := by omega
  have hch : ∀ k, k < 3 → ∃ ls, altsplitbufnway ((List.range M).map fun j =>
      byte ((List.range (3 * W)).map fun i => (rows.map fun r => byte r i).sum) (k + j * 3)) n = .ok ls ∧
      ∃ v, addvectinlist ls = .ok v ∧ mkArray (v.map (scale n)) =
        .ok ((List.range (M / n)).map fun j => sc ((List.range n).map fun i => f k (j * n + i)).sum) := by
    intro k hk
    obtain ⟨ls, e1, e2⟩ := nway_sum ((List.range M).map fun j =>
      byte ((List.range (3 * W)).map fun i => (rows.map fun r => byte r i).sum) (k + j * 3)) hn (by simp; omega)
    refine ⟨ls, e1, _, e2, ?_⟩
    rw [List.length_map, List.length_range]
    have hsum : ∀ j, j < M / n → ((List.range n).map fun i => byte ((List.range M).map fun j =>
        byte ((List.range (3 * W)).map fun i => (rows.map fun r => byte r i).sum) (k + j * 3)) (i + j * n)).sum
        = ((List.range n).map fun i => f k (j * n + i)).sum := by
      intro j hj
      congr 1
      apply List.map_congr_left
      intro i hi
      rw [List.mem_range] at hi
      have hb : j * n + i < M := by
        have : (j + 1) * n ≤ M / n * n := Nat.mul_le_mul_right n hj
        have := Nat.div_mul_le_self M n
        have : (j + 1) * n = j * n + n := by ring
        omega
      rw [byte_rangeMap _ _ (by omega), byte_rangeMap _ _ (by omega), hf _ hk _ (by omega),
        show k + (i + j * n) * 3 = 3 * (j * n + i) + k by ring]
    apply mkArray_ok
    · rw [List.map_map, List.map_map]
      apply List.map_congr_left
      intro j hj
      rw [List.mem_range] at hj
      simp only [Function.comp]
      rw [hsum j hj]
      exact (hsc k hk j hj).1
    · intro v hv
      obtain ⟨j, hj, rfl⟩ := List.mem_map.mp hv
      rw [List.mem_range] at hj
      exact (hsc k hk j hj).2
  obtain ⟨l0, a0, v0, c0, d0⟩ := hch 0 (by omega)
  obtain ⟨l1, a1, v1, c1, d1⟩ := hch 1 (by omega)
  obtain ⟨l2, a2, v2, c2, d2⟩ := hch 2 (by omega)
  simp only [a0, a1, a2, c0, c1, c2, d0, d1, d2, ok_bind]
  rw [makeBGRbuf_range, ← List.flatMap_def]
  rfl

/-! The specification of the result. -/

/-- Channel `k` of a 24-bit colour: 0 is blue, 1 green, 2 red. -/
def chan (k c : Nat) : Nat := c / 256 ^ k % 256

/-- The sum of `f` over the `n` by `n` square whose upper left corner is `(x, y)`. -/
def areaSum (n : Nat) (f : Nat → Nat → Nat) (x y : Nat) : Nat :=
  ((List.range n).map fun dx => ((List.range n).map fun dy => f (x + dx) (y + dy)).sum).sum

/-- The colour whose channels are the averages over an `n` by `n` square, where `sc` turns a sum over
the square into an average. -/
def areaColour (n : Nat) (sc : Nat → Nat) (f : Nat → Nat → Nat) (x y : Nat) : Nat :=
  sc (areaSum n (fun x y => chan 0 (f x y)) x y) + 256 * sc (areaSum n (fun x y => chan 1 (f x y)) x y)
    + 65536 * sc (areaSum n (fun x y => chan 2 (f x y)) x y)

theorem sum_range_rev (n : Nat) (f : Nat → Nat) :
    ((List.range n).map fun j => f (n - 1 - j)).sum = ((List.range n).map f).sum := by
  have : ((List.range n).map fun j => f (n - 1 - j)) = ((List.range n).map f).reverse := by
    apply List.ext_getElem
    · simp
    · intro i h1 h2
      simp [List.getElem_reverse]
  rw [this, List.sum_reverse]

theorem sum_range_le (n m : Nat) (f : Nat → Nat) (hf : ∀ i, i < n → f i ≤ m) : ((List.range n).map f).sum ≤ n * m := by
  induction n with
  | zero => simp
  | succ n ih =>
    rw [List.range_succ, List.map_append, List.sum_append, Nat.succ_mul]
    have := ih (fun i hi => hf i (by omega))
    have := hf n (by omega)
    simp
    omega

theorem chan_pix (h : Valid b W H 24) (x y : Nat) {k : Nat} (hk : k < 3) :
    chan k (pix b W H 24 x y) = byte b (cell W H 24 y (3 * x + k)) := by
  have := byte_lt_of_mem h.bytes (cell W H 24 y (3 * x))
  have := byte_lt_of_mem h.bytes (cell W H 24 y (3 * x + 1))
  have := byte_lt_of_mem h.bytes (cell W H 24 y (3 * x + 2))
  rw [pix_cell, if_pos rfl]
  unfold chan
  interval_cases k <;> norm_num <;> omega

theorem areaSum_le (n : Nat) (f : Nat → Nat → Nat) (hf : ∀ x y, f x y ≤ 255) (x y : Nat) :
    areaSum n f x y ≤ n * (n * 255) :=
  sum_range_le _ _ _ fun _ _ => sum_range_le _ _ _ fun _ _ => hf _ _

/-- C102 and what happens otherwise: the result has `W / n` by `H / n` pixels. Pixel `(x, y)` averages the
`n` by `n` square of the source that starts at column `x * n` and row `H % n + y * n`, so left-over
columns are at the right and left-over rows at the top. When the width is an odd multiple of `n` the
last column is black. `sc` is the averaging function on the sums that can occur. -/
theorem C102_smaller_exact {scale : Nat → Nat → Int} {sc : Nat → Nat} (h : Valid b W H 24) (hW : 0 < W) {n : Nat} (hn : 0 < n)
    (hnH : n ≤ H) (hWl : W < 2 ^ 24) (hHl : H < 2 ^ 24)
    (hsc : ∀ s, s ≤ n * (n * 255) → scale n s = sc s ∧ sc s < 256) :
    ∃ b', resizeNtimessmaller scale b (n : Int) = .ok (some b') ∧
      Shows b' (W / n) (H / n) 24 (palRGB b) (fun x y =>
        if x < W / 2 * 2 / n then areaColour n sc (pix b W H 24) (x * n) (H % n + y * n) else 0) := by
  unfold resizeNtimessmaller guard24 getmaxxy
  rw [h.bits_eq, h.getmaxx_eq, h.getmaxy_eq]
  simp only [ok_bind, pure_bind]
  rw [if_neg (by simp), if_neg (by omega)]
  have hfx : ((W : Int)).fdiv (n : Int) = ((W / n : Nat) : Int) := by rw [Int.fdiv_eq_ediv_of_nonneg _ (by omega)]; push_cast; rfl
  have hfy : ((H : Int)).fdiv (n : Int) = ((H / n : Nat) : Int) := by rw [Int.fdiv_eq_ediv_of_nonneg _ (by omega)]; push_cast; rfl
  have hq : 0 < H / n := Nat.div_pos hnH hn
  have hWn : W / n ≤ W := Nat.div_le_self _ _
  have hHn : H / n ≤ H := Nat.div_le_self _ _
  obtain ⟨n0, e0, v0, _, _, _, _, hz0, _⟩ := C01_newBMP_valid (W / n) (H / n) 24 h.depth (by omega) (by omega)
  rw [hfx, hfy, e0]
  simp only [ok_bind]
  have hof : bmof24 n0 0 (((H / n : Nat) : Int) - 1) = .ok (((0 * rowLen (W / n) 24 : Nat)) : Int) := by
    unfold bmof24
    have := v0.rowoff_eq (((H / n : Nat) : Int) - 1)
    rw [show rowoff n0 (((H / n : Nat) : Int) - 1) 24 = _ from this]
    simp
  rw [hof, v0.xchrcnt_eq]
  simp only [ok_bind]
  set g : Nat → Nat → Nat := fun x y =>
    if x < W / 2 * 2 / n then areaColour n sc (pix b W H 24) (x * n) (H % n + y * n) else 0 with hg
  have hHd := Nat.div_add_mod H n
  have hcm : n * (H / n) = H / n * n := Nat.mul_comm _ _
  obtain ⟨s, e, P⟩ := itercopyimage_rule (src := fun _ : SmallSt => b) (st := ⟨n0, ((0 * rowLen (W / n) 24 : Nat) : Int), 1, [], 0, false⟩)
    h hW (by omega) (body := smallBody scale n (((H / n : Nat) : Int) - 1) (rowLen (W / n) 24 : Int))
    (P := fun k st => (k < H / n * n ∧ st.done = false ∧ st.i = k + 1 ∧ st.y = ((k / n : Nat) : Int) ∧
        st.offset = ((k / n * rowLen (W / n) 24 : Nat) : Int) ∧
        st.bufl = ((List.range (k % n)).map fun j => seg b W H 24 (H - 1 - (k / n * n + j)) 0 (W * 24 / 8)) ∧
        RowsDone n0 st.nbmp (W / n) (H / n) 24 (k / n) g) ∨
      (H / n * n ≤ k ∧ st.done = true ∧ RowsDone n0 st.nbmp (W / n) (H / n) 24 (H / n) g))
    (by
      left
      refine ⟨Nat.mul_pos hq hn, rfl, rfl, ?_, ?_, ?_, ?_⟩
      · simp
      · simp
      · simp
      · rw [Nat.zero_div]; exact RowsDone.start v0 g)
    (by
      rintro k ⟨nb, off, i, bufl, y, done⟩ hk hP
      refine ⟨h, ?_⟩
      dsimp only at hP ⊢
      rcases hP with ⟨hkq, rfl, rfl, rfl, rfl, rfl, hrd⟩ | ⟨hkq, rfl, hrd⟩
      · have hkd := Nat.div_add_mod k n
        have hkm := Nat.mod_lt k hn
        have hck : n * (k / n) = k / n * n := Nat.mul_comm _ _
        have hfm : ((k : Int) + 1).fmod (n : Int) = (((k + 1) % n : Nat) : Int) := by
          rw [Int.fmod_eq_emod_of_nonneg _ (by omega)]; push_cast; rfl
        have hbl : ((List.range (k % n)).map fun j => seg b W H 24 (H - 1 - (k / n * n + j)) 0 (W * 24 / 8)) ++
            [seg b W H 24 (H - 1 - k) 0 (W * 24 / 8)]
            = (List.range (k % n + 1)).map fun j => seg b W H 24 (H - 1 - (k / n * n + j)) 0 (W * 24 / 8) := by
          rw [List.range_succ, List.map_append, List.map_cons, List.map_nil, show k / n * n + k % n = k by omega]
        unfold smallBody
        rw [if_neg (by simp)]
        dsimp only
        rw [hbl, hfm]
        by_cases hz : k % n + 1 = n
        · -- a complete group of rows
          have hk1 : (k + 1) % n = 0 := by
            have : k + 1 = n * (k / n + 1) := by rw [Nat.mul_add]; omega
            rw [this, Nat.mul_mod_right]
          have hk2 : (k + 1) / n = k / n + 1 := by
            have : k + 1 = n * (k / n + 1) := by rw [Nat.mul_add]; omega
            rw [this, Nat.mul_div_cancel_left _ hn]
          have hlt : k / n < H / n := by
            by_contra hc
            have : H / n * n ≤ k / n * n := Nat.mul_le_mul_right n (by omega)
            omega
          rw [if_pos (by omega), hz]
          set Y := H / n - 1 - k / n with hY
          have hsplit : H / n * n = k / n * n + n + Y * n := by
            have : H / n = k / n + 1 + Y := by omega
            rw [this]; ring
          have hrow := smaller_row (scale := scale) (rows := (List.range n).map fun j =>
              seg b W H 24 (H - 1 - (k / n * n + j)) 0 (W * 24 / 8)) (n := n) (W := W) hn (by simp)
            (by
              intro r hr
              obtain ⟨j, _, rfl⟩ := List.mem_map.mp hr
              rw [length_seg]; omega)
            (fun c j => ((List.range n).map fun dy => chan c (pix b W H 24 j (H % n + Y * n + dy))).sum)
            (by
              intro c hc j hj
              rw [List.map_map, ← sum_range_rev]
              congr 1
              apply List.map_congr_left
              intro t ht
              rw [List.mem_range] at ht
              simp only [Function.comp]
              rw [chan_pix h _ _ hc, byte_seg _ _ _ _ _ _ (by omega), Nat.zero_add]
              congr 2
              omega)
            sc
            (by
              intro c hc j hj
              apply hsc
              apply sum_range_le
              intro t _
              apply sum_range_le
              intro t' _
              unfold chan
              have := Nat.mod_lt (pix b W H 24 (j * n + t) (H % n + Y * n + t') / 256 ^ c) (show 0 < 256 by omega)
              omega)
          rw [hrow]
          simp only [ok_bind]
          have hQ : W / 2 * 2 / n ≤ W / n := Nat.div_le_div_right (by omega)
          have hQW : 3 * (W / 2 * 2 / n) ≤ rowLen (W / n) 24 := by unfold rowLen; omega
          set cf : Nat → Bytes := fun j =>
            [sc ((List.range n).map fun i => ((List.range n).map fun dy => chan 0 (pix b W H 24 (j * n + i) (H % n + Y * n + dy))).sum).sum,
              sc ((List.range n).map fun i => ((List.range n).map fun dy => chan 1 (pix b W H 24 (j * n + i) (H % n + Y * n + dy))).sum).sum,
              sc ((List.range n).map fun i => ((List.range n).map fun dy => chan 2 (pix b W H 24 (j * n + i) (H % n + Y * n + dy))).sum).sum] with hcf
          have hl3 : ∀ j ∈ List.range (W / 2 * 2 / n), (cf j).length = 3 := fun _ _ => rfl
          have hlen : ((List.range (W / 2 * 2 / n)).flatMap cf).length = 3 * (W / 2 * 2 / n) := by
            rw [length_flatMap_const _ _ hl3, List.length_range]
          have hle : ∀ c j, areaSum n (fun x y => chan c (pix b W H 24 x y)) (j * n) (H % n + Y * n) ≤ n * (n * 255) := by
            intro c j
            apply areaSum_le
            intro x y
            unfold chan
            have := Nat.mod_lt (pix b W H 24 x y / 256 ^ c) (show 0 < 256 by omega)
            omega
          obtain ⟨nb', e2, r2⟩ := hrd.step_part (n := W / 2 * 2 / n) (buf := (List.range (W / 2 * 2 / n)).flatMap cf) hlt
            (by
              intro v hv
              obtain ⟨j, _, hv⟩ := List.mem_flatMap.mp hv
              simp only [hcf, List.mem_cons, List.not_mem_nil, or_false] at hv
              rcases hv with rfl | rfl | rfl
              · exact (hsc _ (hle 0 j)).2
              · exact (hsc _ (hle 1 j)).2
              · exact (hsc _ (hle 2 j)).2)
            (by rw [hlen]; exact hQW)
            (by intro x _ hx; rw [hlen]; unfold bpp; norm_num; omega)
            (by intro x _ hx; rw [hlen]; omega)
            (by
              intro x _ hx
              have hxl : x < (List.range (W / 2 * 2 / n)).length := by rw [List.length_range]; exact hx
              have g0 := byte_flatMap _ _ hl3 hxl (t := 0) (by omega)
              have g1 := byte_flatMap _ _ hl3 hxl (t := 1) (by omega)
              have g2 := byte_flatMap _ _ hl3 hxl (t := 2) (by omega)
              rw [Nat.add_zero] at g0
              unfold bufPx
              rw [if_pos rfl, g0, g1, g2, List.getElem_range, hg]
              dsimp only
              rw [if_pos hx]
              rfl)
            (by
              intro x hx hxn
              rw [hz0 x _ hx (show Y < H / n from lt_of_le_of_lt (Nat.sub_le _ _) (Nat.sub_lt hq Nat.one_pos)), hg]
              dsimp only
              rw [if_neg (by omega)])
          rw [e2]
          simp only [ok_bind]
          refine ⟨_, rfl, ?_⟩
          by_cases hend : k / n + 1 = H / n
          · right
            refine ⟨?_, ?_, by rw [hend] at r2; exact r2⟩
            · rw [← hend, Nat.add_mul]; omega
            · dsimp only
              rw [decide_eq_true_eq, ← hend]; push_cast; omega
          · left
            refine ⟨?_, ?_, by push_cast; rfl, by dsimp only; rw [hk2]; push_cast; rfl, ?_, ?_, by rw [hk2]; exact r2⟩
            · have : (k / n + 1) * n < H / n * n := Nat.mul_lt_mul_of_pos_right (by omega) hn
              rw [Nat.add_mul] at this; omega
            · dsimp only
              rw [decide_eq_false_iff_not]; push_cast
              have : ((k / n : Nat) : Int) + 1 ≤ ((H / n : Nat) : Int) - 1 := by omega
              omega
            · dsimp only
              rw [hk2]; push_cast; ring
            · dsimp only
              rw [hk1]; rfl
        · -- not yet
          have hk1 : (k + 1) % n = k % n + 1 := by
            have : k + 1 = n * (k / n) + (k % n + 1) := by omega
            rw [this, Nat.mul_add_mod, Nat.mod_eq_of_lt (by omega)]
          have hk2 : (k + 1) / n = k / n := by
            have : k + 1 = n * (k / n) + (k % n + 1) := by omega
            rw [this, Nat.mul_add_div hn, Nat.div_eq_of_lt (show k % n + 1 < n by omega)]; rfl
          have hlt : k + 1 < H / n * n := by
            by_contra hc
            have : k + 1 = n * (H / n) := by omega
            rw [this, Nat.mul_mod_right] at hk1
            omega
          rw [if_neg (by omega)]
          refine ⟨_, rfl, Or.inl ⟨hlt, rfl, by push_cast; rfl, by rw [hk2], by rw [hk2], by rw [hk1, hk2], by rw [hk2]; exact hrd⟩⟩
      · refine ⟨_, by unfold smallBody; rw [if_pos rfl]; rfl, Or.inr ⟨by omega, rfl, hrd⟩⟩)
    (by intro hodd; omega)
  rw [e]
  have hfin : RowsDone n0 s.nbmp (W / n) (H / n) 24 (H / n) g := by
    rcases P with ⟨hc, _⟩ | ⟨_, _, hr⟩
    · rw [if_pos (by omega)] at hc
      have := Nat.div_mul_le_self H n
      omega
    · exact hr
  refine ⟨s.nbmp, rfl, hfin.valid, fun h24 => absurd rfl h24, ?_⟩
  intro x y hx hy
  exact hfin.rows x y hx hy (by omega)

/-- C102: every pixel of the result is the average of its own square, whenever the width is even or not
a multiple of `n`. -/
theorem C102_smaller_partial {scale : Nat → Nat → Int} {sc : Nat → Nat} (h : Valid b W H 24) (hW : 0 < W) {n : Nat} (hn : 0 < n)
    (hnH : n ≤ H) (hWl : W < 2 ^ 24) (hHl : H < 2 ^ 24) (hok : W % 2 = 0 ∨ W % n ≠ 0)
    (hsc : ∀ s, s ≤ n * (n * 255) → scale n s = sc s ∧ sc s < 256) :
    ∃ b', resizeNtimessmaller scale b (n : Int) = .ok (some b') ∧
      Shows b' (W / n) (H / n) 24 (palRGB b) (fun x y => areaColour n sc (pix b W H 24) (x * n) (H % n + y * n)) := by
  obtain ⟨b', e, s⟩ := C102_smaller_exact h hW hn hnH hWl hHl hsc
  refine ⟨b', e, s.valid, s.palette, ?_⟩
  intro x y hx hy
  rw [s.pixels x y hx hy, if_pos]
  refine lt_of_lt_of_eq hx ?_
  rcases hok with hok | hok
  · rw [show W / 2 * 2 = W by omega]
  · have hd := Nat.div_add_mod W n
    have hm := Nat.mod_lt W hn
    symm
    apply Nat.div_eq_of_lt_le
    · have : W / n * n = n * (W / n) := Nat.mul_comm _ _
      omega
    · rw [Nat.succ_mul]
      have : W / n * n = n * (W / n) := Nat.mul_comm _ _
      omega

/-- C102: images of other depths are not changed and give no result. -/
theorem C102_depth (scale : Nat → Nat → Int) (h : Valid b W H bits) (h24 : bits ≠ 24) (n : Int) :
    resizeNtimessmaller scale b n = .ok none ∧ pixelizenxn scale b n = .error .typeError := by
  have e : resizeNtimessmaller scale b n = .ok none := by
    unfold resizeNtimessmaller guard24
    rw [h.bits_eq]
    simp only [ok_bind]
    rw [if_pos (by omega)]; rfl
  refine ⟨e, ?_⟩
  unfold pixelizenxn
  rw [e]; rfl

/-- C102: `pixelizenxn` paints every `n` by `n` square with its average, for images whose sides are
multiples of `n` and whose number of squares per row is even. -/
theorem C102_pixelize_partial {scale : Nat → Nat → Int} {sc : Nat → Nat} {p q n : Nat} (h : Valid b (p * n) (q * n) 24)
    (hp : 0 < p) (hq : 0 < q) (hn : 0 < n) (heven : p % 2 = 0)
    (hWl : p * n < 2 ^ 24) (hHl : q * n < 2 ^ 24)
    (hsc : ∀ s, s ≤ n * (n * 255) → scale n s = sc s ∧ sc s < 256) :
    ∃ b', pixelizenxn scale b (n : Int) = .ok b' ∧ Shows b' (p * n) (q * n) 24 (palRGB b) (fun x y =>
      areaColour n sc (pix b (p * n) (q * n) 24) (x / n * n) (y / n * n)) := by
  obtain ⟨b1, e1, s1⟩ := C102_smaller_partial h (Nat.mul_pos hp hn) hn (Nat.le_mul_of_pos_left n hq) hWl hHl
    (Or.inl (by
      obtain ⟨r, rfl⟩ : ∃ r, p = 2 * r := ⟨p / 2, by omega⟩
      rw [Nat.mul_assoc]; omega)) hsc
  rw [Nat.mul_div_cancel _ hn, Nat.mul_div_cancel _ hn, Nat.mul_mod_left] at s1
  obtain ⟨b2, e2, s2⟩ := C40_resize_partial s1.valid hp hq hn hWl hHl (Or.inr ⟨Or.inr rfl, heven⟩)
  refine ⟨b2, ?_, s2.valid, fun h24 => absurd rfl h24, ?_⟩
  · unfold pixelizenxn
    rw [e1]; exact e2
  · intro x y hx hy
    rw [s2.pixels x y hx hy, s1.pixels _ _ (Nat.div_lt_of_lt_mul (by rw [Nat.mul_comm]; exact hx))
      (Nat.div_lt_of_lt_mul (by rw [Nat.mul_comm]; exact hy)), Nat.zero_add]

end Verif.Props
