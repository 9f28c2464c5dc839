import Verif.Props.Invert
import Verif.Props.Vertical
import Verif.Props.File
import Verif.Props.Create
/-! Property C198: BMP files made by other programs. The specification is the file format: the pixel data may begin anywhere behind the
headers and the rows may be stored from the top. -/

namespace Verif.Props
open Verif Spec Model

/-- Colour of the pixel in column `x` of the stored row `k`, if the data begin at `off`. -/
def pixAt (b : Bytes) (off W bits x k : Nat) : Nat :=
  let row := off + k * rowLen W bits
  if bits = 24 then
    byte b (row + 3 * x) + 256 * byte b (row + 3 * x + 1) + 65536 * byte b (row + 3 * x + 2)
  else
    byte b (row + x * bits / 8) / 2 ^ (8 - bits - x * bits % 8) % 2 ^ bits

/-- `b` is an uncompressed BMP file whose pixel data begin at `off`. `top` says that the rows are stored from the top, which the file
format marks by a negative height. -/
structure Bitmap (b : Bytes) (W H bits off : Nat) (top : Bool) : Prop where
  depth : Depth bits
  wlt : W < 2 ^ 24
  hlt : H < 2 ^ 24
  bytes : ∀ v ∈ b, v < 256
  room : 54 ≤ off
  offlt : off < 2 ^ 24
  len : b.length = off + H * rowLen W bits
  magic : byte b 0 = 66 ∧ byte b 1 = 77
  size : le b 2 8 = b.length
  offset : le b 10 4 = off
  width : le b 18 4 = W
  height : le b 22 4 = if top then (2 ^ 32 - H) % 2 ^ 32 else H
  bitcount : le b 28 2 = bits

/-- Colour of pixel `(x, y)` of such a file, `y` counted from the top. -/
def seen (b : Bytes) (W H bits off : Nat) (top : Bool) (x y : Nat) : Nat :=
  pixAt b off W bits x (if top then y else H - 1 - y)

/-- The files of the library are those with the data right behind the palette, rows from the bottom, and the old info header. -/
theorem bitmap_valid {b : Bytes} {W H bits : Nat} :
    Valid b W H bits ↔ Bitmap b W H bits (dataOff bits) false ∧ le b 14 4 = 40 := by
  constructor
  · intro h
    have := h.dataOff_le
    exact ⟨⟨h.depth, h.wlt, h.hlt, h.bytes, dataOff_ge bits, by omega, h.len, h.magic, h.size, h.off, h.width, by simpa using h.height,
      h.bitcount⟩, h.info⟩
  · rintro ⟨h, hi⟩
    exact ⟨h.depth, h.wlt, h.hlt, h.bytes, h.len, h.magic, h.size, h.offset, hi, h.width, by simpa using h.height, h.bitcount⟩

theorem seen_pix (b : Bytes) (W H bits x y : Nat) : seen b W H bits (dataOff bits) false x y = pix b W H bits x y := rfl

/-- What reading and plotting needs of a header. -/
structure Fields (b : Bytes) (W H bits : Nat) : Prop where
  depth : Depth bits
  bytes : ∀ v ∈ b, v < 256
  x_eq : readint bmpx 4 b = .ok (W : Int)
  y_eq : readint bmpy 4 b = .ok (H : Int)
  bits_eq : getItem b bmpcolorbits = .ok bits

namespace Fields
variable {b : Bytes} {W H bits : Nat}

theorem inside (h : Fields b W H bits) {x y : Nat} (hx : x < W) (hy : y < H) : isinBMPrectbnd b (x : Int) (y : Int) = .ok true := by
  unfold isinBMPrectbnd
  rw [h.x_eq, h.y_eq]
  simp only [ok_bind, pure_eq_ok]
  rw [if_pos (by omega), if_pos (by omega)]
  congr 1

theorem row (h : Fields b W H bits) {y : Nat} (hy : y < H) :
    rowoff b (y : Int) (bits : Int) = .ok (((H - 1 - y) * rowLen W bits : Nat) : Int) := by
  rw [← row_cast hy]
  simp [rowoff, h.x_eq, h.y_eq, xbytes_eq h.depth]

theorem place (h : Fields b W H bits) (x y : Nat) (hy : y < H) :
    BMoffsethd b (x : Int) (y : Int) = .ok (addr W H bits x y : Int) := by
  have hr := h.row hy
  unfold BMoffsethd
  rw [h.bits_eq]
  simp only [ok_bind]
  rcases h.depth with rfl | rfl | rfl | rfl
  all_goals
    simp only [Nat.cast_ofNat, Nat.cast_one] at hr
    norm_num [bmofhd24, bmofhd8, bmofhd4, bmofhd1, hr, addr, rel, dataOff, palSize, pyShr]
    omega

theorem read (h : Fields b W H bits) {x y : Nat} (hx : x < W) (hy : y < H) :
    getmaxxy b = .ok ((W : Int), (H : Int)) ∧
    (addr W H bits x y + bpp bits ≤ b.length → getxybit b x y = .ok (pix b W H bits x y : Int)) ∧
    (b.length < addr W H bits x y + bpp bits → getxybit b x y = .error .indexError) := by
  refine ⟨by simp [getmaxxy, h.x_eq, h.y_eq], fun ha => ?_, fun ha => ?_⟩
  · have hv := byte_lt_of_mem h.bytes (addr W H bits x y)
    unfold getxybit
    rw [h.inside hx hy, h.bits_eq, h.place x y hy]
    simp only [ok_bind, if_true]
    unfold bpp at ha
    rw [pix_eq]
    rcases h.depth with rfl | rfl | rfl | rfl
    · norm_num only [ite_false, ite_true, if_true, if_false] at ha ⊢
      have hm : pyMod (x : Int) 8 = .ok ((x % 8 : Nat) : Int) := by
        simp [pyMod, Int.fmod_eq_emod_of_nonneg]
      have hs : (7 - ((x % 8 : Nat) : Int)).toNat = shiftOf 1 x := by unfold shiftOf; omega
      have hs8 : shiftOf 1 x < 8 := by unfold shiftOf; omega
      simp only [ok_bind, hm]
      rw [getItem_ok rfl (by omega)]
      simp only [ok_bind, pure_eq_ok]
      rw [hs, get_bit _ hs8 _ hv]
    · norm_num only [ite_false, ite_true, if_true, if_false] at ha ⊢
      rw [getItem_ok rfl (by omega)]
      simp only [ok_bind, pure_eq_ok, pyAnd_1]
      split_ifs with h1
      · rw [and_0f, show shiftOf 4 x = 0 by unfold shiftOf; omega]; norm_num
      · rw [and_f0_shr _ hv, show shiftOf 4 x = 4 by unfold shiftOf; omega]; norm_num; omega
    · norm_num only [ite_false, ite_true, if_true, if_false] at ha ⊢
      rw [getItem_ok rfl (by omega), show shiftOf 8 x = 0 by unfold shiftOf; omega]
      simp only [ok_bind, pure_eq_ok]
      norm_num; omega
    · norm_num only [ite_false, ite_true, if_true, if_false] at ha ⊢
      rw [getItem_ok (n := addr W H 24 x y + 2) (by push_cast; rfl) (by omega),
        getItem_ok (n := addr W H 24 x y + 1) (by push_cast; rfl) (by omega), getItem_ok rfl (by omega)]
      simp only [ok_bind, pure_eq_ok, RGB2int, pyShl]
      congr 1; push_cast; ring
  · unfold getxybit
    rw [h.inside hx hy, h.bits_eq, h.place x y hy]
    simp only [ok_bind, if_true]
    unfold bpp at ha
    rcases h.depth with rfl | rfl | rfl | rfl
    · norm_num only [ite_false, ite_true, if_true, if_false] at ha ⊢
      have hm : pyMod (x : Int) 8 = .ok ((x % 8 : Nat) : Int) := by
        simp [pyMod, Int.fmod_eq_emod_of_nonneg]
      simp only [ok_bind, hm]
      rw [getItem_ge (by omega)]; rfl
    · norm_num only [ite_false, ite_true, if_true, if_false] at ha ⊢
      rw [getItem_ge (by omega)]; rfl
    · norm_num only [ite_false, ite_true, if_true, if_false] at ha ⊢
      rw [getItem_ge (by omega)]; rfl
    · norm_num only [ite_false, ite_true, if_true, if_false] at ha ⊢
      rw [getItem_ge (by omega)]; rfl

end Fields

namespace Bitmap
variable {b : Bytes} {W H bits off : Nat} {top : Bool}

theorem len54 (h : Bitmap b W H bits off top) : 54 ≤ b.length := by have := h.len; have := h.room; omega

theorem bits_le (h : Bitmap b W H bits off top) : bits ≤ 24 := by rcases h.depth with rfl | rfl | rfl | rfl <;> norm_num

theorem len_lt (h : Bitmap b W H bits off top) : b.length < 2 ^ 51 := by
  have h1 : rowLen W bits < 2 ^ 26 := by
    have := h.wlt
    unfold rowLen
    rcases h.depth with rfl | rfl | rfl | rfl <;> omega
  have h2 := h.hlt
  have h3 := h.len
  have h4 : H * rowLen W bits ≤ 2 ^ 24 * 2 ^ 26 := Nat.mul_le_mul (by omega) (by omega)
  have := h.offlt
  omega

theorem x_eq (h : Bitmap b W H bits off top) : readint bmpx 4 b = .ok (W : Int) := by
  have := readint_eq (b := b) 18 3 (by have := h.len54; omega)
  rw [show bmpx = ((18 : Nat) : Int) from rfl, show (4 : Int) = ((3 : Nat) : Int) + 1 from rfl, this]
  have h1 := h.width; have h2 := h.wlt
  rw [le_last] at h1
  have : byte b (18 + 3) = 0 := by omega
  congr 2; rw [this] at h1; omega

/-- The height is read without its last byte. -/
theorem y_eq (h : Bitmap b W H bits off top) : readint bmpy 4 b = .ok (((if top then (2 ^ 24 - H) % 2 ^ 24 else H : Nat)) : Int) := by
  have := readint_eq (b := b) 22 3 (by have := h.len54; omega)
  rw [show bmpy = ((22 : Nat) : Int) from rfl, show (4 : Int) = ((3 : Nat) : Int) + 1 from rfl, this]
  have h1 := h.height; have h2 := h.hlt
  rw [le_last] at h1
  have h3 := byte_lt_of_mem h.bytes (22 + 3)
  have h4 : le b 22 3 < 256 ^ 3 := by
    have a := byte_lt_of_mem h.bytes 22
    have c := byte_lt_of_mem h.bytes (22 + 1)
    have d := byte_lt_of_mem h.bytes (22 + 1 + 1)
    simp only [le]; omega
  congr 2
  cases top <;> simp only [if_true, if_false, Bool.false_eq_true] at h1 ⊢ <;> omega

theorem off_eq (h : Bitmap b W H bits off top) : hdsz b = .ok (off : Int) := by
  have := readint_eq (b := b) 10 3 (by have := h.len54; omega)
  unfold hdsz
  rw [show bmphdrsize = ((10 : Nat) : Int) from rfl, show (4 : Int) = ((3 : Nat) : Int) + 1 from rfl, this]
  have h1 := h.offset; have h2 := h.offlt
  rw [le_last] at h1
  have : byte b (10 + 3) = 0 := by omega
  congr 2; rw [this] at h1; omega

theorem size_eq (h : Bitmap b W H bits off top) : flsz b = .ok (b.length : Int) := by
  have := readint_eq (b := b) 2 7 (by have := h.len54; omega)
  unfold flsz
  rw [show bmpfilesize = ((2 : Nat) : Int) from rfl, show (8 : Int) = ((7 : Nat) : Int) + 1 from rfl, this]
  have h1 := h.size; have h2 := h.len_lt
  rw [le_last] at h1
  have : byte b (2 + 7) = 0 := by
    by_contra hc
    have : 1 ≤ byte b (2 + 7) := by omega
    have := Nat.mul_le_mul_left (256 ^ 7) this
    omega
  congr 2; rw [this] at h1; omega

theorem bits_eq (h : Bitmap b W H bits off top) : getItem b bmpcolorbits = .ok bits := by
  rw [getItem_ok (i := bmpcolorbits) (n := 28) rfl (by have := h.len54; omega)]
  have h1 := h.bitcount
  have h3 := byte_lt_of_mem h.bytes 28
  have h4 := h.bits_le
  simp only [le] at h1
  congr 1; omega

theorem row_eq (h : Bitmap b W H bits off top) : xchrcnt b = .ok (rowLen W bits : Int) := by
  simp [xchrcnt, getclrbits, h.x_eq, h.bits_eq, xbytes_eq h.depth]

theorem fields (h : Bitmap b W H bits off false) : Fields b W H bits :=
  ⟨h.depth, h.bytes, h.x_eq, by simpa using h.y_eq, h.bits_eq⟩

end Bitmap

variable {b : Bytes} {W H bits off : Nat} {top : Bool}

/-- **C198**: `loadBMP` loads every such file as it is. -/
theorem C198_load (h : Bitmap b W H bits off top) (hn : 54 < b.length) : loadBMP b = .ok b := by
  obtain ⟨r, h1, h2, h3⟩ := (C16_load b).2.2 (by omega) h.magic.1 h.magic.2 (by rw [h.size]; exact hn)
    (by rw [h.size]; have := h.len_lt; omega)
  rw [h1]
  congr 1
  rw [h.size, min_self] at h2
  exact bytes_ext h2 h3

/-- **C198**, exactly: with rows from the bottom, the pixels are read from the place at which the library puts them, wherever the header
says that they begin. If there are no bytes at this place, reading fails. -/
theorem C198_read_exact (h : Bitmap b W H bits off false) {x y : Nat} (hx : x < W) (hy : y < H) :
    getmaxxy b = .ok ((W : Int), (H : Int)) ∧
    (addr W H bits x y + bpp bits ≤ b.length → getxybit b x y = .ok (pixAt b (dataOff bits) W bits x (H - 1 - y) : Int)) ∧
    (b.length < addr W H bits x y + bpp bits → getxybit b x y = .error .indexError) :=
  h.fields.read hx hy

/-- **C198**, as claimed, for files whose data begin where the library puts them, with any info header. -/
theorem C198_read_partial (h : Bitmap b W H bits (dataOff bits) false) {x y : Nat} (hx : x < W) (hy : y < H) :
    getxybit b x y = .ok (seen b W H bits (dataOff bits) false x y : Int) := by
  refine (C198_read_exact h hx hy).2.1 ?_
  have := rel_lt hx hy h.depth
  have := h.len
  unfold addr bpp; omega

/-- C198: files with the rows from the top have a wrong height, and none of their pixels can be read. -/
theorem C198_top_exact (h : Bitmap b W H bits off true) (h0 : 0 < H) (hH : H ≤ 2 ^ 22) {x y : Nat} (hx : x < W) (hy : y < H) :
    getmaxxy b = .ok ((W : Int), ((2 ^ 24 - H : Nat) : Int)) ∧ getxybit b x y = .error .indexError := by
  have ey : readint bmpy 4 b = .ok ((2 ^ 24 - H : Nat) : Int) := by
    have := h.y_eq
    rw [if_pos rfl, Nat.mod_eq_of_lt (by omega)] at this
    exact this
  refine ⟨by simp [getmaxxy, h.x_eq, ey], ?_⟩
  have hin : isinBMPrectbnd b (x : Int) (y : Int) = .ok true := by
    unfold isinBMPrectbnd
    rw [h.x_eq, ey]
    simp only [ok_bind, pure_eq_ok]
    rw [if_pos (by omega), if_pos (by omega)]
    congr 1
  have hr : rowoff b (y : Int) (bits : Int) = .ok (((2 ^ 24 - H - 1 - y) * rowLen W bits : Nat) : Int) := by
    simp only [rowoff, h.x_eq, ey, xbytes_eq h.depth, ok_bind, pure_eq_ok]
    congr 1
    push_cast
    congr 1
    omega
  have hp : BMoffsethd b (x : Int) (y : Int) = .ok ((dataOff bits + (2 ^ 24 - H - 1 - y) * rowLen W bits + x * bits / 8 : Nat) : Int) := by
    unfold BMoffsethd
    rw [h.bits_eq]
    simp only [ok_bind]
    generalize (2 ^ 24 - H - 1 - y) * rowLen W bits = k at hr
    rcases h.depth with rfl | rfl | rfl | rfl
    all_goals
      simp only [Nat.cast_ofNat, Nat.cast_one] at hr
      norm_num [bmofhd24, bmofhd8, bmofhd4, bmofhd1, hr, dataOff, palSize, pyShr]
      omega
  have hbig : b.length ≤ dataOff bits + (2 ^ 24 - H - 1 - y) * rowLen W bits + x * bits / 8 := by
    have hR : 4 ≤ rowLen W bits := by
      have := xoff_lt hx h.depth
      have : 0 < rowLen W bits := by split_ifs at this <;> omega
      have : rowLen W bits % 4 = 0 := by unfold rowLen; omega
      omega
    have e : 2 ^ 24 - H - 1 - y = H + (2 ^ 24 - 2 * H - 1 - y) := by omega
    have h1 := h.len
    have h2 := h.offlt
    have h3 : (2 ^ 24 - 2 * H - 1 - y) * 4 ≤ (2 ^ 24 - 2 * H - 1 - y) * rowLen W bits := Nat.mul_le_mul_left _ hR
    rw [e, Nat.add_mul]
    omega
  unfold getxybit
  rw [hin, h.bits_eq, hp]
  simp only [ok_bind, if_true]
  rcases h.depth with rfl | rfl | rfl | rfl
  · norm_num only [ite_false, ite_true, if_true, if_false] at hbig ⊢
    have hm : pyMod (x : Int) 8 = .ok ((x % 8 : Nat) : Int) := by
      simp [pyMod, Int.fmod_eq_emod_of_nonneg]
    simp only [ok_bind, hm]
    rw [getItem_ge (by omega)]; rfl
  · norm_num only [ite_false, ite_true, if_true, if_false] at hbig ⊢
    rw [getItem_ge (by omega)]; rfl
  · norm_num only [ite_false, ite_true, if_true, if_false] at hbig ⊢
    rw [getItem_ge (by omega)]; rfl
  · norm_num only [ite_false, ite_true, if_true, if_false] at hbig ⊢
    rw [getItem_ge (by omega)]; rfl

/-- C198: files with other depths, such as 16 or 32 bits, are loaded, but their pixels raise a KeyError. -/
theorem C198_depth_exact {x y : Int} {n : Nat} (hb : getItem b bmpcolorbits = .ok n) (hn : ¬ Depth n) (hin : isinBMPrectbnd b x y = .ok true) :
    getxybit b x y = .error .keyError := by
  unfold Depth at hn
  unfold getxybit BMoffsethd
  rw [hin, hb]
  simp only [ok_bind, if_true]
  rw [if_neg (by tauto), if_neg (by tauto), if_neg (by tauto), if_neg (by tauto)]
  rfl

/-- Entry `c` of the palette, which the file format puts behind the info header, whose length is in the file: red, green, blue -/
def entry (b : Bytes) (c : Nat) : Int × Int × Int :=
  let i := 14 + le b 14 4 + 4 * c
  (byte b (i + 2), byte b (i + 1), byte b i)

/-- C198: palettes are right behind the old info header of 40 bytes, and are read from there behind a longer one too. -/
theorem C198_palette_exact {c : Nat} (hc : 54 + 4 * c + 2 < b.length) :
    getRGBpal b c = .ok ((byte b (54 + 4 * c + 2) : Int), (byte b (54 + 4 * c + 1) : Int), (byte b (54 + 4 * c) : Int)) ∧
    (le b 14 4 = 40 → getRGBpal b c = .ok (entry b c)) := by
  have e : getRGBpal b c = .ok ((byte b (54 + 4 * c + 2) : Int), (byte b (54 + 4 * c + 1) : Int), (byte b (54 + 4 * c) : Int)) := by
    have hi : bmppal + pyShl (c : Int) 2 = ((54 + 4 * c : Nat) : Int) := by
      simp [bmppal, pyShl]; ring
    unfold getRGBpal
    rw [hi]
    dsimp only
    rw [getItem_ok (n := 54 + 4 * c + 2) (by push_cast; ring) hc, getItem_ok (n := 54 + 4 * c + 1) (by push_cast; ring) (by omega),
      getItem_ok (n := 54 + 4 * c) rfl (by omega)]
    rfl
  refine ⟨e, fun h => e.trans ?_⟩
  unfold entry
  rw [h]

/-! ### Functions that ask the header where the data begin -/

theorem clamp_append {n d : Nat} {s : Int} (hs : 0 ≤ s) : clampIdx (d + n) ((d : Int) + s) = d + clampIdx n s := by
  unfold clampIdx
  rw [if_neg (by omega), if_neg (by omega)]
  omega

theorem slice_append (u p : Bytes) {s e : Int} (hs : 0 ≤ s) (he : 0 ≤ e) : slice (u ++ p) ((u.length : Int) + s) ((u.length : Int) + e) = slice p s e := by
  unfold slice
  rw [List.length_append, clamp_append hs, clamp_append he, List.take_length_add_append, List.drop_length_add_append]

theorem setSlice_append (u p v : Bytes) {s e : Int} (hs : 0 ≤ s) (he : 0 ≤ e) :
    setSlice (u ++ p) ((u.length : Int) + s) ((u.length : Int) + e) v = u ++ setSlice p s e v := by
  unfold setSlice
  simp only [List.length_append, clamp_append hs, clamp_append he]
  rw [show max (u.length + clampIdx p.length s) (u.length + clampIdx p.length e) = u.length + max (clampIdx p.length s) (clampIdx p.length e) by omega,
    List.take_length_add_append, List.drop_length_add_append]
  simp

theorem vertLoop_append (t : VTrans) {L R : Int} (hL : 0 ≤ L) (hR : 0 ≤ R) (u : Bytes) (n : Nat) : ∀ (p : Bytes) (s1 s2 : Int), 0 ≤ s1 →
    vertLoop t L R n (u ++ p) ((u.length : Int) + s1) ((u.length : Int) + s2) = u ++ vertLoop t L R n p s1 s2 := by
  induction n with
  | zero => intros; rfl
  | succ n ih =>
    intro p s1 s2 h1
    rw [vertLoop, vertLoop]
    by_cases c : s1 < s2
    · rw [if_pos (by omega), if_pos c]
      have e : vertOp t (u ++ p) ((u.length : Int) + s1) ((u.length : Int) + s2) L = u ++ vertOp t p s1 s2 L := by
        unfold vertOp
        simp only [add_assoc]
        cases t <;> dsimp only
        · rw [slice_append u p (by omega) (by omega), slice_append u p (by omega) (by omega), setSlice_append u _ _ (by omega) (by omega),
            setSlice_append u _ _ (by omega) (by omega)]
        · rw [slice_append u p (by omega) (by omega), setSlice_append u _ _ (by omega) (by omega)]
        · rw [slice_append u p (by omega) (by omega), setSlice_append u _ _ (by omega) (by omega)]
      rw [e, add_assoc, add_sub_assoc]
      exact ih _ _ _ (by omega)
    · rw [if_neg (by omega), if_neg c]

theorem pixAt_append (u p : Bytes) (W bits x k : Nat) : pixAt (u ++ p) u.length W bits x k = pixAt p 0 W bits x k := by
  have e : ∀ i, byte (u ++ p) (u.length + i) = byte p i := by
    intro i; rw [byte_append, if_neg (by omega)]; congr 1; omega
  unfold pixAt
  simp only [add_assoc, e, zero_add]

theorem bitmap_congr {b' : Bytes} (h : Bitmap b W H bits off top) (hl : b'.length = b.length) (hb : ∀ v ∈ b', v < 256)
    (hh : ∀ i, i < 54 → byte b' i = byte b i) : Bitmap b' W H bits off top := by
  have le' : ∀ {o n : Nat}, o + n ≤ 54 → le b' o n = le b o n := fun ho => le_congr fun i _ h2 => hh i (by omega)
  refine ⟨h.depth, h.wlt, h.hlt, hb, h.room, h.offlt, by rw [hl, h.len], ?_, ?_, ?_, ?_, ?_, ?_⟩
  · rw [hh 0 (by omega), hh 1 (by omega)]; exact h.magic
  · rw [le' (by omega), hl, h.size]
  · rw [le' (by omega), h.offset]
  · rw [le' (by omega), h.width]
  · rw [le' (by omega), h.height]
  · rw [le' (by omega), h.bitcount]

/-- A header of the library for the same geometry. -/
theorem twin_header (h : Bitmap b W H bits off top) : ∃ hd : Bytes, hd.length = dataOff bits ∧
    ∀ p : Bytes, p.length = H * rowLen W bits → (∀ v ∈ p, v < 256) → Valid (hd ++ p) W H bits := by
  obtain ⟨b0, -, v0, -⟩ := C01_newBMP_valid W H bits h.depth h.wlt h.hlt
  have hl : (b0.take (dataOff bits)).length = dataOff bits := by
    rw [List.length_take, v0.len]; omega
  refine ⟨b0.take (dataOff bits), hl, fun p hp hb => valid_congr v0 (by rw [List.length_append, hl, hp, v0.len]) ?_ ?_⟩
  · intro v hv
    rcases List.mem_append.mp hv with hv | hv
    · exact v0.bytes v (List.mem_of_mem_take hv)
    · exact hb v hv
  · intro i hi
    have := dataOff_ge bits
    rw [byte_append, if_pos (by omega), byte_take, if_pos (by omega)]

/-- Functions that work on the bytes behind the header alone do the same for files of other programs. -/
theorem twin {f : Bytes → Py Bytes} (h : Bitmap b W H bits off top) {P : Bytes} (eb : f b = .ok (b.take off ++ P))
    (ev : ∀ hd : Bytes, Valid (hd ++ b.drop off) W H bits → hd.length = dataOff bits → f (hd ++ b.drop off) = .ok (hd ++ P))
    {g : (Nat → Nat → Nat) → Nat → Nat → Nat}
    (hg : ∀ v, Valid v W H bits → ∃ v', f v = .ok v' ∧ Redraws v v' W H bits (g (pix v W H bits))) :
    ∃ b', f b = .ok b' ∧ Bitmap b' W H bits off top ∧ b'.take off = b.take off ∧
      ∀ x y, x < W → y < H → pixAt b' off W bits x (H - 1 - y) = g (fun x y => pixAt b off W bits x (H - 1 - y)) x y := by
  obtain ⟨hd, hl, hv⟩ := twin_header h
  have hlen := h.len
  have hu : (b.take off).length = off := by rw [List.length_take]; omega
  have V := hv (b.drop off) (by rw [List.length_drop]; omega) fun v hm => h.bytes v (List.mem_of_mem_drop hm)
  obtain ⟨v', e, r⟩ := hg _ V
  rw [ev hd V hl] at e
  cases e
  have hP : P.length = H * rowLen W bits := by
    have := r.valid.len
    rw [List.length_append] at this; omega
  refine ⟨_, eb, bitmap_congr h (by rw [List.length_append, hu, hP, hlen]) ?_ ?_, ?_, ?_⟩
  · intro v hm
    rcases List.mem_append.mp hm with hm | hm
    · exact h.bytes v (List.mem_of_mem_take hm)
    · exact r.valid.bytes v (List.mem_append_right _ hm)
  · intro i hi
    have := h.room
    rw [byte_append, if_pos (by omega), byte_take, if_pos (by omega)]
  · rw [List.take_append_of_le_length (by omega), List.take_of_length_le (by omega)]
  · intro x y hx hy
    have e1 : ∀ p : Bytes, pixAt (b.take off ++ p) off W bits x (H - 1 - y) = pixAt p 0 W bits x (H - 1 - y) := fun p => by
      have := pixAt_append (b.take off) p W bits x (H - 1 - y)
      rwa [hu] at this
    have e2 : ∀ (p : Bytes) x y, pix (hd ++ p) W H bits x y = pixAt p 0 W bits x (H - 1 - y) := fun p x y => by
      have := pixAt_append hd p W bits x (H - 1 - y)
      rw [hl] at this
      exact this
    have e3 : pix (hd ++ b.drop off) W H bits = fun x y => pixAt b off W bits x (H - 1 - y) := by
      funext x y
      rw [e2]
      have := pixAt_append (b.take off) (b.drop off) W bits x (H - 1 - y)
      rw [List.take_append_drop, hu] at this
      exact this.symm
    rw [e1, ← e2, r.pixels x y hx hy, e3]

theorem twin_vert (h : Bitmap b W H bits off top) (t : VTrans) {g : (Nat → Nat → Nat) → Nat → Nat → Nat}
    (hg : ∀ v, Valid v W H bits → ∃ v', verttrans v t = .ok v' ∧ Redraws v v' W H bits (g (pix v W H bits))) :
    ∃ b', verttrans b t = .ok b' ∧ Bitmap b' W H bits off top ∧ b'.take off = b.take off ∧
      ∀ x y, x < W → y < H → pixAt b' off W bits x (H - 1 - y) = g (fun x y => pixAt b off W bits x (H - 1 - y)) x y := by
  have hlen := h.len
  have hu : (b.take off).length = off := by rw [List.length_take]; omega
  refine twin (P := vertLoop t (rowLen W bits : Int) (rowLen W bits : Int) (((b.drop off).length : Int) - (rowLen W bits : Int)).toNat
    (b.drop off) 0 (((b.drop off).length : Int) - (rowLen W bits : Int))) h ?_ ?_ hg
  · unfold verttrans
    rw [h.row_eq, h.off_eq, h.size_eq]
    simp only [ok_bind, pure_eq_ok]
    congr 1
    have := vertLoop_append t (L := (rowLen W bits : Int)) (R := (rowLen W bits : Int)) (by omega) (by omega) (b.take off)
      (((b.drop off).length : Int) - (rowLen W bits : Int)).toNat (b.drop off) 0 (((b.drop off).length : Int) - (rowLen W bits : Int)) le_rfl
    rw [List.take_append_drop, hu] at this
    rw [← this]
    have e : (b.drop off).length = b.length - off := List.length_drop
    congr 1 <;> omega
  · intro hd V hl
    unfold verttrans
    rw [V.xchrcnt_eq, V.hdsz_eq, V.flsz_eq]
    simp only [ok_bind, pure_eq_ok]
    congr 1
    have := vertLoop_append t (L := (rowLen W bits : Int)) (R := (rowLen W bits : Int)) (by omega) (by omega) hd
      (((b.drop off).length : Int) - (rowLen W bits : Int)).toNat (b.drop off) 0 (((b.drop off).length : Int) - (rowLen W bits : Int)) le_rfl
    rw [hl] at this
    rw [← this]
    have e := List.length_append (as := hd) (bs := b.drop off)
    congr 1 <;> omega

theorem invertLoop_append (u : Bytes) (m : Int) (n : Nat) : ∀ (p : Bytes) (s : Int), 0 ≤ s →
    invertLoop ((u.length : Int) + m) n (u ++ p) ((u.length : Int) + s) = (invertLoop m n p s).map (u ++ ·) := by
  induction n with
  | zero => intros; rfl
  | succ n ih =>
    intro p s hs
    obtain ⟨k, rfl⟩ := Int.eq_ofNat_of_zero_le hs
    rw [invertLoop, invertLoop]
    by_cases c : (k : Int) < m
    · rw [if_pos (by omega), if_pos c]
      by_cases hk : k < p.length
      · rw [getItem_ok (n := u.length + k) (by push_cast; rfl) (by simp; omega), getItem_ok (n := k) rfl hk, byte_append, if_neg (by omega),
          Nat.add_sub_cancel_left]
        simp only [ok_bind]
        have hset : ∀ v : Int, setItem (u ++ p) ((u.length : Int) + k) v = (setItem p k v).map (u ++ ·) := by
          intro v
          unfold setItem
          rw [resolveIdx_ok (n := u.length + k) (by push_cast; rfl) (by simp; omega), resolveIdx_ok (n := k) rfl hk]
          dsimp only
          split_ifs
          · simp [Except.map, List.set_append_right]
          · rfl
        rw [hset]
        cases hi : setItem p k ((byte p k ^^^ 255 : Nat) : Int) with
        | error _ => rfl
        | ok q =>
          have := ih q (k + 1) (by omega)
          rw [← add_assoc] at this
          exact this
      · rw [getItem_ge (by simp; omega), getItem_ge (by omega)]; rfl
    · rw [if_neg (by omega), if_neg c]; rfl

/-- **C198**: the functions that move or invert whole rows ask the header where the data begin; they are right for files of other programs
too, wherever the data begin and in both orders of the rows, and keep everything before the data. Only `mirrortop` and `mirrorbottom`
change their parts if the rows are stored from the top. -/
theorem C198_rows (h : Bitmap b W H bits off top) :
    (∃ b', flipvertical b = .ok b' ∧ Bitmap b' W H bits off top ∧ b'.take off = b.take off ∧
      ∀ x y, x < W → y < H → seen b' W H bits off top x y = seen b W H bits off top x (H - 1 - y)) ∧
    (∃ b', mirrortop b = .ok b' ∧ Bitmap b' W H bits off top ∧ b'.take off = b.take off ∧
      ∀ x y, x < W → y < H → seen b' W H bits off top x y =
        seen b W H bits off top x (if top then max y (H - 1 - y) else min y (H - 1 - y))) ∧
    (∃ b', mirrorbottom b = .ok b' ∧ Bitmap b' W H bits off top ∧ b'.take off = b.take off ∧
      ∀ x y, x < W → y < H → seen b' W H bits off top x y =
        seen b W H bits off top x (if top then min y (H - 1 - y) else max y (H - 1 - y))) ∧
    ∃ b', invertimagebits b = .ok b' ∧ Bitmap b' W H bits off top ∧ b'.take off = b.take off ∧
      ∀ x y, x < W → y < H → seen b' W H bits off top x y = 2 ^ bits - 1 - seen b W H bits off top x y := by
  have hlen := h.len
  have hu : (b.take off).length = off := by rw [List.length_take]; omega
  refine ⟨?_, ?_, ?_, ?_⟩
  · obtain ⟨b', e, B, k, p⟩ := twin_vert h .F (g := fun q x y => q x (H - 1 - y)) fun v hv => by
      obtain ⟨v', e, r, -⟩ := C28_flipvertical hv
      exact ⟨v', e, r⟩
    refine ⟨b', e, B, k, fun x y hx hy => ?_⟩
    cases top with
    | false => exact p x y hx hy
    | true =>
      have := p x (H - 1 - y) hx (by omega)
      rw [show H - 1 - (H - 1 - y) = y by omega] at this
      exact this
  · obtain ⟨b', e, B, k, p⟩ := twin_vert h .T (g := fun q x y => q x (min y (H - 1 - y))) fun v hv => by
      obtain ⟨v', e, r, -⟩ := C29_mirrortop hv
      exact ⟨v', e, r⟩
    refine ⟨b', e, B, k, fun x y hx hy => ?_⟩
    cases top with
    | false => exact p x y hx hy
    | true =>
      have := p x (H - 1 - y) hx (by omega)
      dsimp only at this
      rw [show H - 1 - (H - 1 - y) = y by omega] at this
      refine this.trans ?_
      show pixAt _ _ _ _ _ _ = pixAt _ _ _ _ _ _
      congr 1
      simp only [if_true]; omega
  · obtain ⟨b', e, B, k, p⟩ := twin_vert h .B (g := fun q x y => q x (max y (H - 1 - y))) fun v hv => by
      obtain ⟨v', e, r, -⟩ := C29_mirrorbottom hv
      exact ⟨v', e, r⟩
    refine ⟨b', e, B, k, fun x y hx hy => ?_⟩
    cases top with
    | false => exact p x y hx hy
    | true =>
      have := p x (H - 1 - y) hx (by omega)
      dsimp only at this
      rw [show H - 1 - (H - 1 - y) = y by omega] at this
      refine this.trans ?_
      show pixAt _ _ _ _ _ _ = pixAt _ _ _ _ _ _
      congr 1
      simp only [if_true]; omega
  · have key : ∀ hd : Bytes, hdsz (hd ++ b.drop off) = .ok (hd.length : Int) → flsz (hd ++ b.drop off) = .ok ((hd ++ b.drop off).length : Int) →
        invertimagebits (hd ++ b.drop off) = (invertLoop ((b.drop off).length : Int) (b.drop off).length (b.drop off) 0).map (hd ++ ·) := by
      intro hd e1 e2
      unfold invertimagebits
      rw [e1, e2]
      simp only [ok_bind]
      have := invertLoop_append hd ((b.drop off).length : Int) (b.drop off).length (b.drop off) 0 le_rfl
      rw [← this]
      have e := List.length_append (as := hd) (bs := b.drop off)
      congr 1 <;> omega
    obtain ⟨hd, hl, hv⟩ := twin_header h
    have V := hv (b.drop off) (by rw [List.length_drop]; omega) fun v hm => h.bytes v (List.mem_of_mem_drop hm)
    obtain ⟨v', ev, -, -⟩ := C32_invertimagebits V
    rw [key hd (by rw [V.hdsz_eq, hl]) V.flsz_eq] at ev
    cases hq : invertLoop ((b.drop off).length : Int) (b.drop off).length (b.drop off) 0 with
    | error _ => rw [hq] at ev; cases ev
    | ok P =>
      obtain ⟨b', e, B, k, p⟩ := twin (P := P) (f := invertimagebits) h
        (by
          have := key (b.take off) (by rw [List.take_append_drop, hu]; exact h.off_eq) (by rw [List.take_append_drop]; exact h.size_eq)
          rw [List.take_append_drop, hq] at this
          exact this)
        (fun hd V hl => by rw [key hd (by rw [V.hdsz_eq, hl]) V.flsz_eq, hq]; rfl)
        (g := fun q x y => 2 ^ bits - 1 - q x y) fun v hv => by
          obtain ⟨v', e, r, -⟩ := C32_invertimagebits hv
          exact ⟨v', e, r⟩
      refine ⟨b', e, B, k, fun x y hx hy => ?_⟩
      cases top with
      | false => exact p x y hx hy
      | true =>
        have := p x (H - 1 - y) hx (by omega)
        dsimp only at this
        rw [show H - 1 - (H - 1 - y) = y by omega] at this
        exact this

/-! ### Concrete files -/

/-- A file of one 24-bit pixel with four unused bytes before its data, written as its bytes -/
def gapFile : Bytes :=
  [66, 77, 62, 0, 0, 0, 0, 0, 0, 0, 58, 0, 0, 0, 40, 0, 0, 0, 1, 0, 0, 0, 1, 0, 0, 0, 1, 0, 24, 0] ++ List.replicate 24 0 ++
    [9, 8, 7, 6, 1, 2, 3, 0]

/-- The same picture of two rows, stored from the top -/
def topFile : Bytes :=
  [66, 77, 62, 0, 0, 0, 0, 0, 0, 0, 54, 0, 0, 0, 40, 0, 0, 0, 1, 0, 0, 0, 254, 255, 255, 255, 1, 0, 24, 0] ++ List.replicate 24 0 ++
    [1, 2, 3, 0, 4, 5, 6, 0]

/-- A 4-bit file with a palette of two colours only, as the file format allows -/
def shortFile : Bytes :=
  [66, 77, 66, 0, 0, 0, 0, 0, 0, 0, 62, 0, 0, 0, 40, 0, 0, 0, 1, 0, 0, 0, 1, 0, 0, 0, 1, 0, 4, 0] ++ List.replicate 16 0 ++
    [2, 0, 0, 0, 0, 0, 0, 0] ++ [0, 0, 0, 0, 255, 255, 255, 0] ++ [16, 0, 0, 0]

theorem gapFile_bitmap : Bitmap gapFile 1 1 24 58 false :=
  ⟨by simp [Depth], by norm_num, by norm_num, by decide, by norm_num, by norm_num, by decide, by decide, by decide, by decide, by decide,
    by decide, by decide⟩

theorem topFile_bitmap : Bitmap topFile 1 2 24 54 true :=
  ⟨by simp [Depth], by norm_num, by norm_num, by decide, by norm_num, by norm_num, by decide, by decide, by decide, by decide, by decide,
    by decide +kernel, by decide⟩

theorem shortFile_bitmap : Bitmap shortFile 1 1 4 62 false :=
  ⟨by simp [Depth], by norm_num, by norm_num, by decide, by norm_num, by norm_num, by decide, by decide, by decide, by decide, by decide,
    by decide, by decide⟩

/-- **C198 is false** for each of the three: bytes that belong to no pixel are shown, or reading fails. -/
theorem C198_false :
    (seen gapFile 1 1 24 58 false 0 0 = 0x030201 ∧ loadBMP gapFile = .ok gapFile ∧ getxybit gapFile 0 0 = .ok 0x070809) ∧
    (seen topFile 1 2 24 54 true 0 0 = 0x030201 ∧ getmaxxy topFile = .ok (1, 16777214) ∧ getxybit topFile 0 0 = .error .indexError) ∧
    (seen shortFile 1 1 4 62 false 0 0 = 1 ∧ getmaxxy shortFile = .ok (1, 1) ∧ getxybit shortFile 0 0 = .error .indexError) := by
  decide +kernel

/-- C198: with an info header of 44 bytes the first entries of the palette are not those of the file. -/
theorem C198_palette_wrong : (fun b => (entry b 0, getRGBpal b 0)) ((shortFile.set 14 44).set 54 77) = ((255, 255, 255), .ok (0, 0, 77)) := by
  decide +kernel

/-- C198: two functions disagree about the same file. Inverting changes the pixel that a viewer shows; `getxybit` does not see it. -/
theorem C198_disagree : (do let b ← invertimagebits gapFile; pure (seen b 1 1 24 58 false 0 0, ← getxybit b 0 0)) = .ok (0xfcfdfe, 0x070809) := by
  decide +kernel

/-- C198: a pixel that is plotted reads back, but in the file it has the old colour, and bytes before the data are changed. -/
theorem C198_plot_wrong : (do
    let b ← plotxybit gapFile 0 0 0x0a0b0c
    pure (← getxybit b 0 0, seen b 1 1 24 58 false 0 0, byte b 54)) = .ok (0x0a0b0c, 0x030201, 12) := by decide +kernel

-- Rows are exchanged rightly in a file that is stored from the top
example : (do let b ← flipvertical topFile; pure (seen b 1 2 24 54 true 0 0, seen b 1 2 24 54 true 0 1)) = .ok (0x060504, 0x030201) := by
  decide +kernel
-- `mirrortop` keeps the lower row of such a file
example : (do let b ← mirrortop topFile; pure (seen b 1 2 24 54 true 0 0, seen b 1 2 24 54 true 0 1)) = .ok (0x060504, 0x060504) := by
  decide +kernel
-- Rows from the bottom and data right behind the header: the claim holds
example : (fun b => (getxybit b 0 0, seen b 1 2 24 54 false 0 0)) ((((topFile.set 22 2).set 23 0).set 24 0).set 25 0) = (.ok 0x060504, 0x060504) := by
  decide +kernel
-- A file of 32 bits
example : loadBMP (gapFile.set 28 32) = .ok (gapFile.set 28 32) ∧ getxybit (gapFile.set 28 32) 0 0 = .error .keyError := by decide +kernel

end Verif.Props
