import Verif.Lemmas.Basic
import Verif.Model.Pixel
/-! Evaluation of the header functions on well-formed files. -/

namespace Verif
open Spec Model

theorem pyRange_zero (k : Nat) : pyRange 0 (k : Int) = (List.range k).map (fun (i : Nat) => (i : Int)) := by
  simp [pyRange]

theorem pyRange_nat (a n : Nat) :
    pyRange (a : Int) ((a + n : Nat) : Int) = (List.range n).map (fun (i : Nat) => ((a + i : Nat) : Int)) := by
  unfold pyRange
  rw [show (((a + n : Nat) : Int) - (a : Int)).toNat = n by omega]
  apply List.map_congr_left
  intro i _; push_cast; rfl

theorem le_last (b : Bytes) (off n : Nat) :
    le b off (n + 1) = le b off n + 256 ^ n * byte b (off + n) := by
  induction n generalizing off with
  | zero => simp [le]
  | succ n ih =>
    rw [le, ih (off + 1)]
    rw [show le b off (n + 1) = byte b off + 256 * le b (off + 1) n from rfl]
    rw [show off + 1 + n = off + (n + 1) by omega, pow_succ]
    ring

theorem le_lt {b : Bytes} (h : ∀ v ∈ b, v < 256) (off n : Nat) : le b off n < 256 ^ n := by
  induction n generalizing off with
  | zero => simp [le]
  | succ n ih =>
    have h1 := byte_lt_of_mem h off
    have h2 := ih (off + 1)
    rw [le, pow_succ]; omega

theorem readint_eq {b : Bytes} (off k : Nat) (h : off + k ≤ b.length) :
    readint (off : Int) ((k : Int) + 1) b = .ok ((le b off k : Nat) : Int) := by
  unfold readint
  rw [show (k : Int) + 1 - 1 = (k : Int) by omega, pyRange_zero]
  induction k with
  | zero => simp [le]
  | succ k ih =>
    rw [List.range_succ, List.map_append, List.foldlM_append, ih (by omega)]
    simp only [ok_bind, List.map_cons, List.map_nil, List.foldlM_cons, List.foldlM_nil]
    rw [getItem_ok (n := off + k) (by push_cast; rfl) (by omega)]
    simp only [ok_bind, pure_eq_ok, le_last]
    congr 1
    unfold pyShl
    rw [show ((k : Int) * 8).toNat = 8 * k by omega, pow_mul]
    push_cast
    ring

/-- Little-endian digits of an integer (two's complement for negative ones). -/
def digits (v : Int) : Nat → Bytes
  | 0 => []
  | n + 1 => (v % 256).toNat :: digits (v / 256) n

theorem length_digits (v : Int) (n : Nat) : (digits v n).length = n := by
  induction n generalizing v with
  | zero => rfl
  | succ n ih => simp [digits, ih]

theorem digits_bytes (v : Int) (n : Nat) : ∀ w ∈ digits v n, w < 256 := by
  induction n generalizing v with
  | zero => simp [digits]
  | succ n ih =>
    intro w hw
    simp only [digits, List.mem_cons] at hw
    rcases hw with rfl | hw
    · omega
    · exact ih _ w hw

theorem digits_last (v : Int) (n : Nat) :
    digits v (n + 1) = digits v n ++ [(v / 256 ^ n % 256).toNat] := by
  induction n generalizing v with
  | zero => simp [digits]
  | succ n ih =>
    rw [digits, ih]
    rw [show digits v (n + 1) = (v % 256).toNat :: digits (v / 256) n from rfl]
    rw [Int.ediv_ediv_of_nonneg (by norm_num), pow_succ' (256 : Int) n]
    simp

theorem ow_append {b : Bytes} {s : Nat} {u v : Bytes} (h : s + u.length + v.length ≤ b.length) :
    ow (ow b s u) (s + u.length) v = ow b s (u ++ v) := by
  have h1 : s + u.length ≤ b.length := by omega
  have h2 : (s + u.length) + v.length ≤ (ow b s u).length := by rw [length_ow h1]; omega
  have h3 : s + (u ++ v).length ≤ b.length := by simp; omega
  apply bytes_ext
  · rw [length_ow h2, length_ow h1, length_ow h3]
  · intro i _
    rw [byte_ow h2, byte_ow h1, byte_ow h3, byte_append]
    simp only [List.length_append]
    by_cases c1 : s + u.length ≤ i ∧ i < s + u.length + v.length
    · rw [if_pos c1, if_pos (by omega), if_neg (by omega)]; congr 1; omega
    · rw [if_neg c1]
      by_cases c2 : s ≤ i ∧ i < s + u.length
      · rw [if_pos c2, if_pos (by omega), if_pos (by omega)]
      · rw [if_neg c2, if_neg (by omega)]

theorem writeint_eq {b : Bytes} (off k : Nat) (v : Int) (h : off + k ≤ b.length) :
    writeint (off : Int) ((k : Int) + 1) b v = .ok (ow b off (digits v k)) := by
  unfold writeint
  rw [show (k : Int) + 1 - 1 = (k : Int) by omega, pyRange_zero]
  suffices hs : List.foldlM (m := Except PyErr) (fun (st : Bytes × Int) (i : Int) => do
        let arr ← setItem st.1 ((off : Int) + i) (pyAnd st.2 0xff)
        pure (arr, pyShr st.2 8)) (b, v) ((List.range k).map (fun (i : Nat) => (i : Int))) =
      .ok (ow b off (digits v k), v / 256 ^ k) by
    rw [hs]; rfl
  induction k with
  | zero => simp [digits, ow_nil]
  | succ k ih =>
    have hlen : (ow b off (digits v k)).length = b.length := length_ow (by rw [length_digits]; omega)
    rw [List.range_succ, List.map_append, List.foldlM_append, ih (by omega)]
    simp only [ok_bind, List.map_cons, List.map_nil, List.foldlM_cons, List.foldlM_nil]
    rw [setItem_ok (n := off + k) (w := (v / 256 ^ k % 256).toNat) (by push_cast; rfl) (by omega)
      (by rw [pyAnd_255]; omega) (by omega)]
    simp only [ok_bind, pure_eq_ok]
    rw [set_eq_ow (by omega), digits_last, pyShr_8, Int.ediv_ediv_of_nonneg (by positivity), ← pow_succ]
    congr 2
    have := ow_append (b := b) (s := off) (u := digits v k) (v := [(v / 256 ^ k % 256).toNat])
      (by rw [length_digits]; simp; omega)
    rw [length_digits] at this
    exact this

/-! ### Row length -/

theorem xbytes_eq {bits : Nat} (hd : Depth bits) (W : Nat) :
    xbytes (W : Int) (bits : Int) = .ok ((rowLen W bits : Nat) : Int) := by
  unfold xbytes pyDiv pyMod
  rcases hd with rfl | rfl | rfl | rfl <;>
    simp [pyAnd_3, rowLen, Int.fdiv_eq_ediv_of_nonneg, Int.fmod_eq_emod_of_nonneg] <;>
    split_ifs <;> omega

theorem xbytes_24 (W : Nat) : xbytes (W : Int) 24 = .ok ((rowLen W 24 : Nat) : Int) :=
  xbytes_eq (bits := 24) (by simp [Depth]) W
theorem xbytes_8 (W : Nat) : xbytes (W : Int) 8 = .ok ((rowLen W 8 : Nat) : Int) :=
  xbytes_eq (bits := 8) (by simp [Depth]) W
theorem xbytes_4 (W : Nat) : xbytes (W : Int) 4 = .ok ((rowLen W 4 : Nat) : Int) :=
  xbytes_eq (bits := 4) (by simp [Depth]) W
theorem xbytes_1 (W : Nat) : xbytes (W : Int) 1 = .ok ((rowLen W 1 : Nat) : Int) :=
  xbytes_eq (bits := 1) (by simp [Depth]) W

/-! ### Header fields of a well-formed file -/

theorem dataOff_ge (bits : Nat) : 54 ≤ dataOff bits := by unfold dataOff; omega

namespace Spec.Valid
variable {b : Bytes} {W H bits : Nat}

theorem len54 (h : Valid b W H bits) : 54 ≤ b.length := by
  have := dataOff_ge bits; have := h.len; omega

theorem getmaxx_eq (h : Valid b W H bits) : readint bmpx 4 b = .ok (W : Int) := by
  have := readint_eq (b := b) 18 3 (by have := h.len54; omega)
  rw [show bmpx = ((18 : Nat) : Int) from rfl, show (4 : Int) = ((3 : Nat) : Int) + 1 from rfl, this]
  have h1 := h.width; have h2 := h.wlt
  rw [le_last] at h1
  have : byte b (18 + 3) = 0 := by omega
  congr 2; rw [this] at h1; omega

theorem getmaxy_eq (h : Valid b W H bits) : readint bmpy 4 b = .ok (H : Int) := by
  have := readint_eq (b := b) 22 3 (by have := h.len54; omega)
  rw [show bmpy = ((22 : Nat) : Int) from rfl, show (4 : Int) = ((3 : Nat) : Int) + 1 from rfl, this]
  have h1 := h.height; have h2 := h.hlt
  rw [le_last] at h1
  have : byte b (22 + 3) = 0 := by omega
  congr 2; rw [this] at h1; omega

theorem rowLen_le (h : Valid b W H bits) : rowLen W bits < 2 ^ 26 := by
  have := h.wlt
  unfold rowLen
  rcases h.depth with rfl | rfl | rfl | rfl <;> omega

theorem len_lt (h : Valid b W H bits) : b.length < 2 ^ 51 := by
  have h1 := h.rowLen_le
  have h2 := h.hlt
  have h3 := h.len
  have h4 : H * rowLen W bits ≤ 2 ^ 24 * 2 ^ 26 := Nat.mul_le_mul (by omega) (by omega)
  have h5 : dataOff bits ≤ 1078 := by
    unfold dataOff palSize
    rcases h.depth with rfl | rfl | rfl | rfl <;> norm_num
  omega

theorem flsz_eq (h : Valid b W H bits) : flsz b = .ok (b.length : Int) := by
  have := readint_eq (b := b) 2 7 (by have := h.len54; omega)
  unfold flsz
  rw [show bmpfilesize = ((2 : Nat) : Int) from rfl, show (8 : Int) = ((7 : Nat) : Int) + 1 from rfl, this]
  have h1 := h.size; have h2 := h.len_lt
  rw [le_last] at h1
  have : byte b (2 + 7) = 0 := by
    by_contra hc
    have : 1 ≤ byte b (2 + 7) := by omega
    have := Nat.mul_le_mul_left (256 ^ 7) this
    omega
  congr 2; rw [this] at h1; omega

theorem dataOff_le (h : Valid b W H bits) : dataOff bits ≤ 1078 := by
  unfold dataOff palSize
  rcases h.depth with rfl | rfl | rfl | rfl <;> norm_num

theorem hdsz_eq (h : Valid b W H bits) : hdsz b = .ok (dataOff bits : Int) := by
  have := readint_eq (b := b) 10 3 (by have := h.len54; omega)
  unfold hdsz
  rw [show bmphdrsize = ((10 : Nat) : Int) from rfl, show (4 : Int) = ((3 : Nat) : Int) + 1 from rfl, this]
  have h1 := h.off; have h2 := h.dataOff_le
  rw [le_last] at h1
  have : byte b (10 + 3) = 0 := by omega
  congr 2; rw [this] at h1; omega

theorem byte28 (h : Valid b W H bits) : byte b 28 = bits := by
  have h1 := h.bitcount
  have h3 := byte_lt_of_mem h.bytes 28
  have h4 : bits ≤ 24 := by rcases h.depth with rfl | rfl | rfl | rfl <;> norm_num
  simp only [le] at h1
  omega

theorem bits_eq (h : Valid b W H bits) : getItem b bmpcolorbits = .ok bits := by
  rw [getItem_ok (i := bmpcolorbits) (n := 28) rfl (by have := h.len54; omega), h.byte28]

theorem clrbits_eq (h : Valid b W H bits) : getclrbits b = .ok (bits : Int) := by
  simp [getclrbits, h.bits_eq]

theorem getmaxcolors_eq (h : Valid b W H bits) : getmaxcolors b = .ok ((2 ^ bits : Nat) : Int) := by
  simp [getmaxcolors, h.bits_eq, pyShl]

theorem xchrcnt_eq (h : Valid b W H bits) : xchrcnt b = .ok (rowLen W bits : Int) := by
  simp [xchrcnt, h.getmaxx_eq, h.clrbits_eq, xbytes_eq h.depth]

theorem inb_eq (h : Valid b W H bits) (x y : Int) :
    isinBMPrectbnd b x y = .ok (decide (0 ≤ x ∧ x < W ∧ 0 ≤ y ∧ y < H)) := by
  unfold isinBMPrectbnd
  rw [h.getmaxx_eq, h.getmaxy_eq]
  simp only [ok_bind, pure_eq_ok]
  split_ifs
  · congr 1
    rw [← Bool.decide_and]
    apply decide_eq_decide.mpr
    omega
  · congr 1; symm; simp; omega
  · congr 1; symm; simp; omega

theorem inb_true (h : Valid b W H bits) {x y : Nat} (hx : x < W) (hy : y < H) :
    isinBMPrectbnd b (x : Int) (y : Int) = .ok true := by
  rw [h.inb_eq]; congr 1; simp; omega

theorem rowoff_eq (h : Valid b W H bits) (y : Int) :
    rowoff b y (bits : Int) = .ok (((H : Int) - y - 1) * (rowLen W bits : Int)) := by
  simp [rowoff, h.getmaxx_eq, h.getmaxy_eq, xbytes_eq h.depth]

end Spec.Valid

/-- Byte position of pixel `(x,y)` relative to the pixel data. -/
def rel (W H bits x y : Nat) : Nat := (H - 1 - y) * rowLen W bits + x * bits / 8

/-- Byte position of pixel `(x,y)` in the file. -/
def addr (W H bits x y : Nat) : Nat := dataOff bits + rel W H bits x y

theorem xoff_lt {W bits x : Nat} (hx : x < W) (hd : Depth bits) :
    x * bits / 8 + (if bits = 24 then 3 else 1) ≤ rowLen W bits := by
  unfold rowLen
  rcases hd with rfl | rfl | rfl | rfl <;> simp <;> omega

theorem rel_lt {W H bits x y : Nat} (hx : x < W) (hy : y < H) (hd : Depth bits) :
    rel W H bits x y + (if bits = 24 then 3 else 1) ≤ H * rowLen W bits := by
  have h1 := xoff_lt hx hd
  have h2 : H - 1 - y < H := by omega
  have h3 := row_lt (S := rowLen W bits) h2
  unfold rel
  omega

theorem addr_lt {b : Bytes} {W H bits x y : Nat} (h : Valid b W H bits) (hx : x < W) (hy : y < H) :
    addr W H bits x y + (if bits = 24 then 3 else 1) ≤ b.length := by
  have := rel_lt hx hy h.depth
  have := h.len
  unfold addr; omega

theorem row_cast {H y : Nat} (hy : y < H) (S : Nat) :
    ((H : Int) - (y : Int) - 1) * (S : Int) = (((H - 1 - y) * S : Nat) : Int) := by
  push_cast
  congr 1
  omega

namespace Spec.Valid
variable {b : Bytes} {W H bits : Nat}

theorem BMoffsethd_eq (h : Valid b W H bits) (x y : Nat) (hy : y < H) :
    BMoffsethd b (x : Int) (y : Int) = .ok (addr W H bits x y : Int) := by
  have hr := h.rowoff_eq (y : Int)
  rw [row_cast hy] at hr
  unfold BMoffsethd
  rw [h.bits_eq]
  simp only [ok_bind]
  rcases h.depth with rfl | rfl | rfl | rfl
  all_goals
    simp only [Nat.cast_ofNat, Nat.cast_one] at hr
    norm_num [bmofhd24, bmofhd8, bmofhd4, bmofhd1, hr, addr, rel, dataOff, palSize, pyShr]
    omega

theorem BMoffset_eq (h : Valid b W H bits) (x y : Nat) (hy : y < H) :
    BMoffset b (x : Int) (y : Int) = .ok (rel W H bits x y : Int) := by
  have hr := h.rowoff_eq (y : Int)
  rw [row_cast hy] at hr
  unfold BMoffset
  rw [h.bits_eq]
  simp only [ok_bind]
  rcases h.depth with rfl | rfl | rfl | rfl
  all_goals
    simp only [Nat.cast_ofNat, Nat.cast_one] at hr
    norm_num [bmof24, bmof8, bmof4, bmof1, hr, rel, pyShr]
    omega

end Spec.Valid

/-! ### Keeping a file well-formed -/

theorem le_congr {b b' : Bytes} {off n : Nat} (h : ∀ i, off ≤ i → i < off + n → byte b' i = byte b i) :
    le b' off n = le b off n := by
  induction n generalizing off with
  | zero => rfl
  | succ n ih =>
    rw [le, le, h off (by omega) (by omega), ih (fun i h1 h2 => h i (by omega) (by omega))]

theorem valid_congr {b b' : Bytes} {W H bits : Nat} (h : Valid b W H bits) (hl : b'.length = b.length)
    (hb : ∀ v ∈ b', v < 256) (hh : ∀ i, i < 54 → byte b' i = byte b i) : Valid b' W H bits where
  depth := h.depth
  wlt := h.wlt
  hlt := h.hlt
  bytes := hb
  len := by rw [hl, h.len]
  magic := by rw [hh 0 (by omega), hh 1 (by omega)]; exact h.magic
  size := by rw [le_congr (b := b) (fun i _ _ => hh i (by omega)), hl, h.size]
  off := by rw [le_congr (b := b) (fun i _ _ => hh i (by omega)), h.off]
  info := by rw [le_congr (b := b) (fun i _ _ => hh i (by omega)), h.info]
  width := by rw [le_congr (b := b) (fun i _ _ => hh i (by omega)), h.width]
  height := by rw [le_congr (b := b) (fun i _ _ => hh i (by omega)), h.height]
  bitcount := by rw [le_congr (b := b) (fun i _ _ => hh i (by omega)), h.bitcount]

theorem valid_ow {b : Bytes} {W H bits s : Nat} {buf : Bytes} (h : Valid b W H bits)
    (hs : 54 ≤ s) (hl : s + buf.length ≤ b.length) (hb : ∀ v ∈ buf, v < 256) :
    Valid (ow b s buf) W H bits := by
  apply valid_congr h (length_ow hl) (ow_bytes h.bytes hb)
  intro i hi
  rw [byte_ow hl, if_neg (by omega)]

end Verif
