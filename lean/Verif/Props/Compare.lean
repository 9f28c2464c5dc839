import Verif.Model.Compare
import Verif.Props.Crop
import Verif.Props.Iterate
/-! Comparison of two images. -/

namespace Verif.Props
open Spec Model

/-- What is needed of a bitwise operation on bytes to act on the pixels. -/
structure BitOp (op : Nat → Nat → Nat) : Prop where
  small : ∀ a b, a < 256 → b < 256 → op a b < 256
  div : ∀ a b n, op a b / 2 ^ n = op (a / 2 ^ n) (b / 2 ^ n)
  mod : ∀ a b n, op a b % 2 ^ n = op (a % 2 ^ n) (b % 2 ^ n)

theorem bitop_xor : BitOp (· ^^^ ·) where
  small a b ha hb := by
    have := Nat.xor_lt_two_pow (n := 8) (x := a) (y := b) (by omega) (by omega)
    simpa using this
  div a b n := Nat.xor_div_two_pow
  mod a b n := Nat.xor_mod_two_pow

theorem bitop_and : BitOp (· &&& ·) where
  small a b ha hb := by
    have := Nat.and_lt_two_pow (n := 8) a (y := b) (by omega)
    simpa using this
  div a b n := Nat.and_div_two_pow
  mod a b n := Nat.and_mod_two_pow

theorem BitOp.join {op : Nat → Nat → Nat} (h : BitOp op) {a a' b b' : Nat} (ha : a < 256) (hb : b < 256) :
    op (a + 256 * a') (b + 256 * b') = op a b + 256 * op a' b' := by
  have h1 := h.div (a + 256 * a') (b + 256 * b') 8
  have h2 := h.mod (a + 256 * a') (b + 256 * b') 8
  rw [show (2 : Nat) ^ 8 = 256 from rfl] at h1 h2
  rw [show (a + 256 * a') / 256 = a' by omega, show (b + 256 * b') / 256 = b' by omega] at h1
  rw [show (a + 256 * a') % 256 = a by omega, show (b + 256 * b') % 256 = b by omega] at h2
  omega

theorem bitop_pix {op : Nat → Nat → Nat} (hop : BitOp op) {b b1 b2 : Bytes} {W H bits : Nat}
    (h1 : Valid b1 W H bits) (h2 : Valid b2 W H bits) {x y : Nat} (hx : x < W)
    (hg : ∀ j, j < rowLen W bits → byte b (cell W H bits y j)
      = op (byte b1 (cell W H bits y j)) (byte b2 (cell W H bits y j))) :
    pix b W H bits x y = op (pix b1 W H bits x y) (pix b2 W H bits x y) := by
  have hxc := xcell_lt h1.depth hx
  rw [pix_cell, pix_cell, pix_cell]
  unfold bpp at hxc
  by_cases c : bits = 24
  · subst c
    rw [if_pos rfl] at hxc
    rw [if_pos rfl, if_pos rfl, if_pos rfl, hg _ (by omega), hg _ (by omega), hg _ (by omega)]
    have e : ∀ p q r : Nat, p + 256 * q + 65536 * r = p + 256 * (q + 256 * r) := by intros; omega
    rw [e, e, e, hop.join (byte_lt_of_mem h1.bytes _) (byte_lt_of_mem h2.bytes _),
      hop.join (byte_lt_of_mem h1.bytes _) (byte_lt_of_mem h2.bytes _)]
  · rw [if_neg c] at hxc
    rw [if_neg c, if_neg c, if_neg c, hg _ (by omega), hop.div, hop.mod]

theorem xor_zero {a b : Nat} (h : 0 = a ^^^ b) : a = b := by
  apply Nat.eq_of_testBit_eq
  intro i
  have := congrArg (fun n => Nat.testBit n i) h
  simp at this
  exact this

theorem size_eq {b : Bytes} {W H bits : Nat} (h : Valid b W H bits) :
    getmaxxyandbits b = .ok (((W : Int), (H : Int)), (bits : Int)) := by
  simp [getmaxxyandbits, h.getmaxx_eq, h.getmaxy_eq, h.clrbits_eq]

theorem setimg {n buf : Bytes} {W H bits : Nat} (h : Valid n W H bits) (hb : ∀ v ∈ buf, v < 256)
    (hl : buf.length = H * rowLen W bits) :
    ∃ n', setBMPimgbytes n buf = .ok n' ∧
      Grid n n' W H bits (fun y j => byte buf ((H - 1 - y) * rowLen W bits + j)) := by
  have hlen := h.len
  refine ⟨ow n (dataOff bits) buf, ?_, ?_⟩
  · unfold setBMPimgbytes
    rw [h.hdsz_eq, h.flsz_eq]
    simp only [ok_bind, pure_eq_ok]
    rw [setSlice_ok rfl (by omega) (by omega)]
  · apply grid_of_bytes h
    · exact length_ow (by omega)
    · intro i hi
      rw [byte_ow (by omega), if_neg (by omega)]
    · intro y j _ _
      exact byte_lt_of_mem hb _
    · intro y j hy hj
      have := row_lt (S := rowLen W bits) (show H - 1 - y < H by omega)
      rw [byte_ow (by omega)]
      unfold cell
      rw [if_pos (by omega)]
      congr 1
      omega

/-- The saved image: the bytes of the pixel areas combined. -/
theorem imagecomp_eq {op : Nat → Nat → Nat} (hop : BitOp op) {f : Bytes → Bytes → List Int}
    (hf : ∀ u v, f u v = (u.zip v).map fun p => ((op p.1 p.2 : Nat) : Int))
    {b1 b2 : Bytes} {W H bits : Nat} (h1 : Valid b1 W H bits) (h2 : Valid b2 W H bits) :
    ∃ n, imagecomp f b1 b2 = .ok (some n) ∧
      Shows n W H bits (palRGB b1) (fun x y => op (pix b1 W H bits x y) (pix b2 W H bits x y)) ∧
      ∀ y j, y < H → j < rowLen W bits → byte n (cell W H bits y j)
        = op (byte b1 (cell W H bits y j)) (byte b2 (cell W H bits y j)) := by
  obtain ⟨n0, e0, v0, _⟩ := C01_newBMP_valid W H bits h1.depth h1.wlt h1.hlt
  obtain ⟨n1, e1, v1, pal1, _⟩ := copyPal h1 v0
  obtain ⟨I1, ei1, li1, bi1, gi1⟩ := imgbytes h1
  obtain ⟨I2, ei2, li2, bi2, gi2⟩ := imgbytes h2
  have hz : ∀ i, i < H * rowLen W bits →
      byte ((I1.zip I2).map fun p => op p.1 p.2) i = op (byte b1 (dataOff bits + i)) (byte b2 (dataOff bits + i)) := by
    intro i hi
    rw [byte_eq_getElem _ _ (by simp; omega), List.getElem_map, List.getElem_zip]
    dsimp only
    rw [← byte_eq_getElem _ _ (by omega), ← byte_eq_getElem _ _ (by omega), gi1 i hi, gi2 i hi]
  have hzb : ∀ v ∈ (I1.zip I2).map fun p => op p.1 p.2, v < 256 := by
    intro v hv
    obtain ⟨⟨p, q⟩, hp, rfl⟩ := List.mem_map.mp hv
    exact hop.small p q (bi1 p (List.of_mem_zip hp).1) (bi2 q (List.of_mem_zip hp).2)
  have hzl : ((I1.zip I2).map fun p => op p.1 p.2).length = H * rowLen W bits := by
    simp [li1, li2]
  have em : mkArray (f I1 I2) = .ok ((I1.zip I2).map fun p => op p.1 p.2) := by
    apply mkArray_ok _ hzb
    rw [hf, List.map_map]
    rfl
  obtain ⟨m, vm, pm, em'⟩ : ∃ m, Valid m W H bits ∧ (bits ≠ 24 → ∀ c < 2 ^ bits, palRGB m c = palRGB b1 c) ∧
      (if (bits : Int) < 24 then do
        let _ ← getallRGBpal b1
        let _ ← getallRGBpal b2
        copyRGBpal b1 n0
      else pure n0 : Py Bytes) = .ok m := by
    by_cases c : bits = 24
    · exact ⟨n0, v0, fun h => absurd c h, by rw [if_neg (by omega)]; rfl⟩
    · refine ⟨n1, v1, pal1, ?_⟩
      rw [if_pos (by rcases h1.depth with e | e | e | e <;> omega), h1.getallRGBpal_eq c, h2.getallRGBpal_eq c]
      exact e1
  obtain ⟨n, en, gn⟩ := setimg vm hzb hzl
  have hbytes : ∀ y j, y < H → j < rowLen W bits → byte n (cell W H bits y j)
      = op (byte b1 (cell W H bits y j)) (byte b2 (cell W H bits y j)) := by
    intro y j hy hj
    have := row_lt (S := rowLen W bits) (show H - 1 - y < H by omega)
    rw [gn.cells y j hy hj, hz _ (by omega)]
    unfold cell
    rw [Nat.add_assoc]
  refine ⟨n, ?_, ⟨gn.valid, ?_, ?_⟩, hbytes⟩
  · unfold imagecomp
    rw [size_eq h1, size_eq h2]
    simp only [ok_bind]
    rw [if_neg (by simp)]
    unfold CopyBMPxydim2newBMP getmaxx getmaxy
    rw [h1.getmaxx_eq, h1.getmaxy_eq]
    simp only [ok_bind]
    rw [e0]
    simp only [ok_bind]
    rw [em', ei1, ei2]
    simp only [ok_bind]
    rw [em]
    simp only [ok_bind]
    rw [en]
    rfl
  · intro c k hk
    rw [samePal gn.header c hk, pm c k hk]
  · intro x y hx hy
    exact bitop_pix hop h1 h2 hx (fun j hj => hbytes y j hy hj)

/-- C49: the difference image has the exclusive or of the pixels, and the palette of the first image. -/
theorem C49_imagediff {b1 b2 : Bytes} {W H bits : Nat} (h1 : Valid b1 W H bits) (h2 : Valid b2 W H bits) :
    ∃ n, imagediff b1 b2 = .ok (some n) ∧
      Shows n W H bits (palRGB b1) (fun x y => pix b1 W H bits x y ^^^ pix b2 W H bits x y) := by
  obtain ⟨n, e, s, _⟩ := imagecomp_eq bitop_xor (f := xorvect) (fun _ _ => rfl) h1 h2
  exact ⟨n, e, s⟩

/-- C49: the similarity image has the bitwise conjunction of the pixels. -/
theorem C49_showsimilarparts {b1 b2 : Bytes} {W H bits : Nat} (h1 : Valid b1 W H bits) (h2 : Valid b2 W H bits) :
    ∃ n, showsimilarparts b1 b2 = .ok (some n) ∧
      Shows n W H bits (palRGB b1) (fun x y => pix b1 W H bits x y &&& pix b2 W H bits x y) := by
  obtain ⟨n, e, s, _⟩ := imagecomp_eq bitop_and (f := andvect) (fun _ _ => rfl) h1 h2
  exact ⟨n, e, s⟩

/-- C49: the difference is blank exactly when the pictures have the same pixels, and its pixel area
consists of zero bytes exactly when the pixel areas agree, padding included. -/
theorem C49_zero_iff {b1 b2 : Bytes} {W H bits : Nat} (h1 : Valid b1 W H bits) (h2 : Valid b2 W H bits) :
    ∃ n, imagediff b1 b2 = .ok (some n) ∧
      ((∀ x y, x < W → y < H → pix n W H bits x y = 0) ↔
        ∀ x y, x < W → y < H → pix b1 W H bits x y = pix b2 W H bits x y) ∧
      ((∀ i, dataOff bits ≤ i → byte n i = 0) ↔ ∀ i, dataOff bits ≤ i → byte b1 i = byte b2 i) := by
  obtain ⟨n, e, s, hb⟩ := imagecomp_eq bitop_xor (f := xorvect) (fun _ _ => rfl) h1 h2
  refine ⟨n, e, ⟨?_, ?_⟩, ?_, ?_⟩
  · intro hz x y hx hy
    have := s.pixels x y hx hy
    rw [hz x y hx hy] at this
    exact xor_zero this
  · intro hz x y hx hy
    rw [s.pixels x y hx hy, hz x y hx hy, Nat.xor_self]
  · intro hz i hi
    by_cases c : i < b1.length
    · obtain ⟨y, j, hy, hj, rfl⟩ := cell_exists h1 hi c
      have := hb y j hy hj
      rw [hz _ hi] at this
      exact xor_zero this
    · have l1 := h1.len
      have l2 := h2.len
      rw [byte_of_ge _ _ (by omega), byte_of_ge _ _ (by omega)]
  · intro hz i hi
    by_cases c : i < n.length
    · obtain ⟨y, j, hy, hj, rfl⟩ := cell_exists s.valid hi c
      rw [hb y j hy hj, hz _ hi, Nat.xor_self]
    · rw [byte_of_ge _ _ (by omega)]

/-- C49: exchanging the images changes at most the palette of the result. -/
theorem C49_symmetric {b1 b2 : Bytes} {W H bits : Nat} (h1 : Valid b1 W H bits) (h2 : Valid b2 W H bits) :
    ∃ n m, imagediff b1 b2 = .ok (some n) ∧ imagediff b2 b1 = .ok (some m) ∧ m.length = n.length ∧
      ∀ i, dataOff bits ≤ i → byte n i = byte m i := by
  obtain ⟨n, e, s, hb⟩ := imagecomp_eq bitop_xor (f := xorvect) (fun _ _ => rfl) h1 h2
  obtain ⟨m, e', s', hb'⟩ := imagecomp_eq bitop_xor (f := xorvect) (fun _ _ => rfl) h2 h1
  have l1 := s.valid.len
  have l2 := s'.valid.len
  refine ⟨n, m, e, e', by omega, ?_⟩
  intro i hi
  by_cases c : i < n.length
  · obtain ⟨y, j, hy, hj, rfl⟩ := cell_exists s.valid hi c
    rw [hb y j hy hj, hb' y j hy hj, Nat.xor_comm]
  · rw [byte_of_ge _ _ (by omega), byte_of_ge _ _ (by omega)]

/-- C49: an image compared with itself shows itself. -/
theorem C49_self {b : Bytes} {W H bits : Nat} (h : Valid b W H bits) :
    ∃ n, showsimilarparts b b = .ok (some n) ∧ Shows n W H bits (palRGB b) (pix b W H bits) := by
  obtain ⟨n, e, s⟩ := C49_showsimilarparts h h
  exact ⟨n, e, s.valid, s.palette, fun x y hx hy => by rw [s.pixels x y hx hy, Nat.and_self]⟩

/-- C49: nothing is saved when the geometry differs. -/
theorem C49_geometry {b1 b2 : Bytes} {W H bits W' H' bits' : Nat} (h1 : Valid b1 W H bits)
    (h2 : Valid b2 W' H' bits') (hne : ¬ (W = W' ∧ H = H' ∧ bits = bits')) :
    imagediff b1 b2 = .ok none ∧ showsimilarparts b1 b2 = .ok none := by
  have key : ∀ f, imagecomp f b1 b2 = .ok none := by
    intro f
    unfold imagecomp
    rw [size_eq h1, size_eq h2]
    simp only [ok_bind]
    rw [if_pos]
    · rfl
    · intro e
      simp only [Prod.mk.injEq, Int.natCast_inj] at e
      exact hne ⟨e.1.1, e.1.2, e.2⟩
  exact ⟨key _, key _⟩

example : (do let a ← newBMP 3 2 4; let a ← plotxybit a 1 0 9; let b ← newBMP 3 2 4; let b ← plotxybit b 1 0 12
              let b ← plotxybit b 2 1 7
              let d ← imagediff a b; let d ← orTypeError d
              let s ← showsimilarparts a b; let s ← orTypeError s
              pure (← getxybit d 1 0, ← getxybit d 2 1, ← getxybit d 0 0, ← getxybit s 1 0, ← getxybit s 2 1)) =
    .ok (5, 7, 0, 8, 0) := by decide +kernel
example : (do let a ← newBMP 3 2 4; let b ← newBMP 2 3 4; imagediff a b) = .ok none := by decide +kernel

end Verif.Props
