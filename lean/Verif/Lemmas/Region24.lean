import Verif.Model.Filters
import Verif.Props.Guards
import Verif.Props.Invert
import Verif.Lemmas.NewImage
/-! Filters applied to the rows of a rectangle of a 24-bit image. -/

namespace Verif
open Spec Model Props

/-- A buffer of `n` 24-bit pixels written into row `y` from column `xa` on. -/
theorem put_px24 {b : Bytes} {W H : Nat} (h : Valid b W H 24) {y xa n : Nat} {buf : Bytes} (hy : y < H)
    (hb : ∀ v ∈ buf, v < 256) (hl : buf.length = 3 * n) (hx : xa + n ≤ W) :
    ∃ b', BMPbitBLTput b (((H - 1 - y) * rowLen W 24 + 3 * xa : Nat) : Int) buf = .ok b' ∧
      Redraws b b' W H 24 (fun x' y' =>
        if y' = y ∧ xa ≤ x' ∧ x' < xa + n then bufPx 24 buf (x' - xa) else pix b W H 24 x' y') := by
  have hr : 3 * W ≤ rowLen W 24 := by unfold rowLen; omega
  obtain ⟨b', e, g⟩ := put_seg h (y := y) (j := 3 * xa) (buf := buf) hy hb (by omega)
  refine ⟨b', e, g.valid, g.header, ?_⟩
  intro x' y' hx' hy'
  rw [pix_cell, pix_cell]
  simp only [if_true]
  rw [g.cells y' _ hy' (by omega), g.cells y' _ hy' (by omega), g.cells y' _ hy' (by omega)]
  by_cases c : y' = y ∧ xa ≤ x' ∧ x' < xa + n
  · rw [if_pos c, if_pos (by omega), if_pos (by omega), if_pos (by omega)]
    unfold bufPx
    rw [if_pos rfl]
    congr 3 <;> (first | omega | (congr 1; omega) | skip)
  · rw [if_neg c, if_neg (by omega), if_neg (by omega), if_neg (by omega)]

/-- What a row filter does to a buffer of `n` pixels: pixel `i` becomes `φ i (old pixel)`. -/
def MapsPx (f : Bytes → Py Bytes) (n : Nat) (φ : Nat → Nat → Nat) : Prop :=
  ∀ buf : Bytes, (∀ v ∈ buf, v < 256) → buf.length = 3 * n →
    ∃ out, f buf = .ok out ∧ out.length = 3 * n ∧ (∀ v ∈ out, v < 256) ∧
      ∀ i, i < n → bufPx 24 out i = φ i (bufPx 24 buf i)

theorem region24_core {b : Bytes} {W H : Nat} (h : Valid b W H 24) {f : Nat → Bytes → Py Bytes}
    {φ : Nat → Nat → Nat → Nat}
    {x1 y1 x2 y2 : Int} {xa xb ya yb : Nat} (hxa : (xa : Int) = min x1 x2) (hxb : (xb : Int) = max x1 x2)
    (hya : (ya : Int) = min y1 y2) (hyb : (yb : Int) = max y1 y2) (hW : xb < W) (hH : yb < H)
    (hf : ∀ k, k ≤ yb - ya → MapsPx (f k) (xb - xa + 1) (φ k)) :
    ∃ b', filterregion24Core f b x1 y1 x2 y2 = .ok b' ∧ Redraws b b' W H 24 (fun x y =>
      if (xa ≤ x ∧ x ≤ xb) ∧ (ya ≤ y ∧ y ≤ yb) then φ (yb - y) (x - xa) (pix b W H 24 x y)
      else pix b W H 24 x y) := by
  have ha : Aligned 24 xa xb := by constructor <;> omega
  have hr : 3 * W ≤ rowLen W 24 := by unfold rowLen; omega
  unfold filterregion24Core
  rw [sortrec_eq, ← hxa, ← hxb, ← hya, ← hyb]
  dsimp only
  have e24 : bmof24 b (xa : Int) (yb : Int) = .ok (((H - 1 - yb) * rowLen W 24 + 3 * xa : Nat) : Int) := by
    unfold bmof24
    rw [show ((24 : Int)) = ((24 : Nat) : Int) from rfl, rowoff_other h _ (by simp [Depth]), row_cast hH]
    simp only [ok_bind, pure_eq_ok]
    congr 1
    omega
  rw [e24, h.xchrcnt_eq]
  simp only [ok_bind]
  obtain ⟨s', e, hP⟩ := itercopyrect_rule (src := fun st : Bytes × Int × Nat => st.1)
    (st := (b, (((H - 1 - yb) * rowLen W 24 + 3 * xa : Nat) : Int), 0)) (W := W) (H := H) (bits := 24) h
    (x1 := (xa : Int)) (y1 := (ya : Int)) (x2 := (xb : Int)) (y2 := (yb : Int))
    (xa := xa) (xb := xb) (ya := ya) (yb := yb) (by omega) (by omega) (by omega) (by omega) hW hH ha
    (body := fun st buf => do
      let buf ← f st.2.2 buf
      let bmp ← BMPbitBLTput st.1 st.2.1 buf
      pure (bmp, st.2.1 + (rowLen W 24 : Int), st.2.2 + 1))
    (P := fun k s => s.2.1 = (((H - 1 - yb) * rowLen W 24 + k * rowLen W 24 + 3 * xa : Nat) : Int) ∧ s.2.2 = k ∧
      Redraws b s.1 W H 24 (fun x y =>
        if (xa ≤ x ∧ x ≤ xb) ∧ (yb < y + k ∧ y ≤ yb) then φ (yb - y) (x - xa) (pix b W H 24 x y)
        else pix b W H 24 x y))
    (by
      refine ⟨by simp, rfl, h, ⟨rfl, fun _ _ => rfl⟩, ?_⟩
      intro x y _ _
      rw [if_neg (by omega)])
    (by
      intro k s hk ⟨hoffk, hk2, g⟩
      refine ⟨g.valid, ?_⟩
      obtain ⟨out, eo, lo, bo, po⟩ := hf k hk
        (seg s.1 W H 24 (yb - k) (xa * 24 / 8) ((xb - xa + 1) * 24 / 8)) (seg_bytes g.valid _ _ _)
        (by rw [length_seg]; omega)
      have hrow : (H - 1 - (yb - k)) * rowLen W 24 = (H - 1 - yb) * rowLen W 24 + k * rowLen W 24 := by
        rw [show H - 1 - (yb - k) = (H - 1 - yb) + k by omega, Nat.add_mul]
      obtain ⟨b1, e1, g1⟩ := put_px24 g.valid (y := yb - k) (xa := xa) (n := xb - xa + 1) (buf := out)
        (by omega) bo lo (by omega)
      rw [hrow] at e1
      rw [hk2, eo, hoffk]
      simp only [ok_bind]
      rw [e1]
      refine ⟨_, rfl, ?_, rfl, g1.valid, ⟨g1.header.1.trans g.header.1,
        fun i hi => (g1.header.2 i hi).trans (g.header.2 i hi)⟩, ?_⟩
      · dsimp only
        rw [Nat.add_mul k 1]; push_cast; ring
      · intro x y hx hy
        dsimp only
        rw [g1.pixels x y hx hy]
        by_cases c : y = yb - k ∧ xa ≤ x ∧ x < xa + (xb - xa + 1)
        · rw [if_pos c, if_pos (by omega), po _ (by omega),
            bufPx_seg (by simp [Depth]) (by omega) (by unfold bpp; rw [if_pos rfl]; omega)]
          rw [show xa + (x - xa) = x by omega, ← c.1, g.pixels x y hx hy, if_neg (by omega),
            show yb - y = k by omega]
        · rw [if_neg c, g.pixels x y hx hy]
          by_cases c2 : (xa ≤ x ∧ x ≤ xb) ∧ (yb < y + k ∧ y ≤ yb)
          · rw [if_pos c2, if_pos (by omega)]
          · rw [if_neg c2, if_neg (by omega)])
  rw [e]
  refine ⟨s'.1, rfl, hP.2.2.valid, hP.2.2.header, ?_⟩
  intro x y hx hy
  rw [hP.2.2.pixels x y hx hy]
  have : (yb < y + (yb - ya + 1) ∧ y ≤ yb) ↔ (ya ≤ y ∧ y ≤ yb) := by omega
  simp only [this]

/-- A row filter applied to a rectangle, corners in any order. -/
theorem region24 {b : Bytes} {W H : Nat} (h : Valid b W H 24) {f : Nat → Bytes → Py Bytes}
    {φ : Nat → Nat → Nat → Nat} {x1 y1 x2 y2 : Int} (hi : InImage W H x1 y1 x2 y2)
    (hf : ∀ k : Nat, (k : Int) ≤ max y1 y2 - min y1 y2 → MapsPx (f k) (max x1 x2 - min x1 x2 + 1).toNat (φ k)) :
    ∃ b', filterregion24Core f b x1 y1 x2 y2 = .ok b' ∧ Redraws b b' W H 24 (fun x y =>
      if inRect x1 y1 x2 y2 x y then
        φ (max y1 y2 - y).toNat ((x : Int) - min x1 x2).toNat (pix b W H 24 x y)
      else pix b W H 24 x y) := by
  obtain ⟨xa, xb, ya, yb, hxa, hxb, hya, hyb, hW, hH⟩ := corners hi
  obtain ⟨b', e, r⟩ := region24_core h (φ := φ) hxa hxb hya hyb hW hH (f := f) (by
    intro k hk
    have := hf k (by omega)
    rwa [show (max x1 x2 - min x1 x2 + 1).toNat = xb - xa + 1 by omega] at this)
  refine ⟨b', e, r.valid, r.header, ?_⟩
  intro x y hx hy
  rw [r.pixels x y hx hy]
  have hiff : ((xa ≤ x ∧ x ≤ xb) ∧ (ya ≤ y ∧ y ≤ yb)) ↔ inRect x1 y1 x2 y2 x y = true := by
    unfold inRect
    rw [decide_eq_true_eq]
    omega
  simp only [hiff]
  by_cases c : inRect x1 y1 x2 y2 x y = true
  · rw [if_pos c, if_pos c, show (max y1 y2 - (y : Int)).toNat = yb - y by omega,
      show ((x : Int) - min x1 x2).toNat = x - xa by omega]
  · rw [if_neg c, if_neg c]

theorem filterregion24_run {b : Bytes} {W H : Nat} (h : Valid b W H 24) (f : Nat → Bytes → Py Bytes)
    {x1 y1 x2 y2 : Int} (hi : InImage W H x1 y1 x2 y2) :
    filterregion24 f b x1 y1 x2 y2 = filterregion24Core f b x1 y1 x2 y2 := by
  unfold filterregion24
  rw [(C44_rect_guards h _ x1 y1 x2 y2).2.1.1 ⟨rfl, hi⟩]
  cases filterregion24Core f b x1 y1 x2 y2 <;> rfl

theorem filterregion24_reject {b : Bytes} {W H bits : Nat} (h : Valid b W H bits) (f : Nat → Bytes → Py Bytes)
    {x1 y1 x2 y2 : Int} (hi : ¬ (bits = 24 ∧ InImage W H x1 y1 x2 y2)) :
    filterregion24 f b x1 y1 x2 y2 = .ok b := by
  unfold filterregion24
  rw [(C44_rect_guards h _ x1 y1 x2 y2).2.1.2 hi]
  rfl

/-- Three interleaved stride-3 writes of `k` values each into a buffer of `n` pixels. -/
theorem three_strides {buf A B C : Bytes} {n k : Nat} (hl : buf.length = 3 * n) (hk : k ≤ n)
    (hA : A.length = k) (hB : B.length = k) (hC : C.length = k) :
    (writeStride (writeStride (writeStride buf 0 3 A) 1 3 B) 2 3 C).length = 3 * n ∧
    ∀ i, i < n →
      byte (writeStride (writeStride (writeStride buf 0 3 A) 1 3 B) 2 3 C) (3 * i)
        = (if i < k then byte A i else byte buf (3 * i)) ∧
      byte (writeStride (writeStride (writeStride buf 0 3 A) 1 3 B) 2 3 C) (3 * i + 1)
        = (if i < k then byte B i else byte buf (3 * i + 1)) ∧
      byte (writeStride (writeStride (writeStride buf 0 3 A) 1 3 B) 2 3 C) (3 * i + 2)
        = (if i < k then byte C i else byte buf (3 * i + 2)) := by
  refine ⟨by simp only [length_writeStride]; exact hl, ?_⟩
  intro i hi
  refine ⟨?_, ?_, ?_⟩
  · rw [byte_writeStride_out _ _ _ _ _ (by intro j _; omega), byte_writeStride_out _ _ _ _ _ (by intro j _; omega)]
    by_cases c : i < k
    · rw [if_pos c]
      have := byte_writeStride_in buf 0 3 A (by omega) (by omega) i (by omega)
      rwa [show 0 + i * 3 = 3 * i by omega] at this
    · rw [if_neg c, byte_writeStride_out _ _ _ _ _ (by intro j hj; omega)]
  · rw [byte_writeStride_out _ _ _ _ _ (by intro j _; omega)]
    by_cases c : i < k
    · rw [if_pos c]
      have := byte_writeStride_in (writeStride buf 0 3 A) 1 3 B (by omega)
        (by rw [length_writeStride]; omega) i (by omega)
      rwa [show 1 + i * 3 = 3 * i + 1 by omega] at this
    · rw [if_neg c, byte_writeStride_out _ _ _ _ _ (by intro j hj; omega),
        byte_writeStride_out _ _ _ _ _ (by intro j hj; omega)]
  · by_cases c : i < k
    · rw [if_pos c]
      have := byte_writeStride_in (writeStride (writeStride buf 0 3 A) 1 3 B) 2 3 C (by omega)
        (by rw [length_writeStride, length_writeStride]; omega) i (by omega)
      rwa [show 2 + i * 3 = 3 * i + 2 by omega] at this
    · rw [if_neg c, byte_writeStride_out _ _ _ _ _ (by intro j hj; omega),
        byte_writeStride_out _ _ _ _ _ (by intro j hj; omega),
        byte_writeStride_out _ _ _ _ _ (by intro j hj; omega)]

end Verif
