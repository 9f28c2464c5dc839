import Verif.Props.Region
/-! Copying rows of a rectangle: `BMPbitBLTget`, `BMPbitBLTput` and the generator `itercopyrect`. -/

namespace Verif
open Spec Model Props

/-- Bytes `j .. j+L-1` of row `y`. -/
def seg (b : Bytes) (W H bits y j L : Nat) : Bytes := (List.range L).map fun i => byte b (cell W H bits y (j + i))

theorem length_seg (b : Bytes) (W H bits y j L : Nat) : (seg b W H bits y j L).length = L := by simp [seg]

theorem byte_seg (b : Bytes) (W H bits y j : Nat) {L i : Nat} (hi : i < L) :
    byte (seg b W H bits y j L) i = byte b (cell W H bits y (j + i)) := by
  rw [byte_eq_getElem _ _ (by rw [length_seg]; exact hi)]
  simp [seg]

theorem seg_bytes {b : Bytes} {W H bits : Nat} (h : Valid b W H bits) (y j L : Nat) :
    ∀ v ∈ seg b W H bits y j L, v < 256 := by
  intro v hv
  obtain ⟨i, _, rfl⟩ := List.mem_map.mp hv
  exact byte_lt_of_mem h.bytes _

theorem get_seg {b : Bytes} {W H bits : Nat} (h : Valid b W H bits) {y j L : Nat} (hy : y < H)
    (hj : j + L ≤ rowLen W bits) (h0 : 0 < L) :
    BMPbitBLTget b (((H - 1 - y) * rowLen W bits + j : Nat) : Int) (L : Int) = .ok (seg b W H bits y j L) := by
  have hr := row_lt (S := rowLen W bits) (show H - 1 - y < H by omega)
  have hl := h.len
  unfold BMPbitBLTget
  rw [h.hdsz_eq, h.flsz_eq]
  simp only [ok_bind]
  rw [if_pos (by omega), if_pos (by omega), pure_eq_ok]
  congr 1
  have e1 : (dataOff bits : Int) + (((H - 1 - y) * rowLen W bits + j : Nat) : Int)
      = ((cell W H bits y j : Nat) : Int) := by unfold cell; push_cast; ring
  have hf : cell W H bits y j + L ≤ b.length := by unfold cell; omega
  rw [e1, show ((cell W H bits y j : Nat) : Int) + (L : Int) = ((cell W H bits y j + L : Nat) : Int) by push_cast; rfl]
  apply bytes_ext
  · rw [length_slice_ok rfl rfl hf (by omega), length_seg]; omega
  · intro i hi
    rw [length_slice_ok rfl rfl hf (by omega)] at hi
    rw [byte_slice_ok rfl rfl hf (by omega), if_pos hi, byte_seg _ _ _ _ _ _ (by omega), cell_add]

theorem put_seg {b : Bytes} {W H bits : Nat} (h : Valid b W H bits) {y j : Nat} {buf : Bytes} (hy : y < H)
    (hb : ∀ v ∈ buf, v < 256) (hj : j + buf.length ≤ rowLen W bits) :
    ∃ b', BMPbitBLTput b (((H - 1 - y) * rowLen W bits + j : Nat) : Int) buf = .ok b' ∧
      Grid b b' W H bits (fun y' j' =>
        if y' = y ∧ j ≤ j' ∧ j' < j + buf.length then byte buf (j' - j) else byte b (cell W H bits y' j')) := by
  have hr := row_lt (S := rowLen W bits) (show H - 1 - y < H by omega)
  have hl := h.len
  obtain ⟨hf, g⟩ := row_ow h hy hb hj
  refine ⟨_, ?_, g⟩
  unfold BMPbitBLTput
  rw [h.hdsz_eq, h.flsz_eq]
  simp only [ok_bind]
  have e1 : (dataOff bits : Int) + (((H - 1 - y) * rowLen W bits + j : Nat) : Int)
      = ((cell W H bits y j : Nat) : Int) := by unfold cell; push_cast; ring
  rw [if_pos (by omega), if_pos (by omega), e1, setSlice_ok rfl rfl hf]
  rfl

theorem rectinboundary_eq {α : Type} {b : Bytes} {W H bits : Nat} (h : Valid b W H bits)
    (f : Bytes → Int → Int → Int → Int → Py α) (x1 y1 x2 y2 : Int) :
    rectinboundary f b x1 y1 x2 y2 =
      if (0 ≤ x1 ∧ x1 < W ∧ 0 ≤ y1 ∧ y1 < H) ∧ (0 ≤ x2 ∧ x2 < W ∧ 0 ≤ y2 ∧ y2 < H)
      then some <$> f b x1 y1 x2 y2 else .ok none := by
  unfold rectinboundary
  rw [h.inb_eq, h.inb_eq]
  simp only [ok_bind, pure_eq_ok]
  by_cases c1 : 0 ≤ x1 ∧ x1 < W ∧ 0 ≤ y1 ∧ y1 < H
  · by_cases c2 : 0 ≤ x2 ∧ x2 < W ∧ 0 ≤ y2 ∧ y2 < H
    · simp [c1, c2]
    · simp [c1, c2]
  · simp [c1]

/-- The `for` loop over `itercopyrect` for columns made of whole bytes: one round for each row of
the rectangle, from the bottom up, each with the bytes the file has at that time. -/
theorem itercopyrect_rule {σ : Type} {src : σ → Bytes} {st : σ} {W H bits : Nat} (h : Valid (src st) W H bits)
    {x1 y1 x2 y2 : Int} {xa xb ya yb : Nat} (hxa : (xa : Int) = min x1 x2) (hxb : (xb : Int) = max x1 x2)
    (hya : (ya : Int) = min y1 y2) (hyb : (yb : Int) = max y1 y2) (hW : xb < W) (hH : yb < H)
    (ha : Aligned bits xa xb) {body : σ → Bytes → Py σ} {P : Nat → σ → Prop} (h0 : P 0 st)
    (step : ∀ k s, k ≤ yb - ya → P k s → Valid (src s) W H bits ∧
      ∃ s', body s (seg (src s) W H bits (yb - k) (xa * bits / 8) ((xb - xa + 1) * bits / 8)) = .ok s' ∧
        P (k + 1) s') :
    ∃ s', foritercopyrect src st x1 y1 x2 y2 body = .ok s' ∧ P (yb - ya + 1) s' := by
  unfold foritercopyrect
  rw [rectinboundary_eq h, if_pos (by omega), sortrec_eq, ← hxa, ← hxb, ← hya, ← hyb]
  dsimp only
  rw [adjustx h (by omega), h.xchrcnt_eq, h.BMoffset_eq _ _ hH, h.BMoffset_eq _ _ (show ya < H by omega)]
  simp only [ok_bind]
  have hx1 := xcell_lt h.depth hW
  have hRp : 0 < rowLen W bits := by have := rowLen_pos (show 0 < W by omega) h.depth; omega
  have hseg : xa * bits / 8 + (xb - xa + 1) * bits / 8 = xb * bits / 8 + bpp bits := by
    obtain ⟨h1, h2⟩ := ha
    unfold bpp
    rcases h.depth with rfl | rfl | rfl | rfl <;> norm_num at * <;> omega
  have hfit : xa * bits / 8 + (xb - xa + 1) * bits / 8 ≤ rowLen W bits := by omega
  have hbp : 0 < bpp bits := bpp_pos bits
  have hLp : 0 < (xb - xa + 1) * bits / 8 := by
    have : xa * bits / 8 ≤ xb * bits / 8 := Nat.div_le_div_right (Nat.mul_le_mul_right _ (by omega))
    omega
  generalize hL : (xb - xa + 1) * bits / 8 = L at *
  generalize hJ : xa * bits / 8 = j at *
  have hrow : ∀ k, k ≤ yb - ya → (H - 1 - (yb - k)) * rowLen W bits
      = (H - 1 - yb) * rowLen W bits + k * rowLen W bits := by
    intro k hk
    rw [show H - 1 - (yb - k) = (H - 1 - yb) + k by omega, Nat.add_mul]
  have hlast := hrow (yb - ya) (le_refl _)
  rw [show yb - (yb - ya) = ya by omega] at hlast
  -- the loop from round k on
  have key : ∀ m k s n, m + k = yb - ya + 1 → m ≤ n → P k s →
      ∃ s', copyrectLoop src body (L : Int) ((rel W H bits xb ya : Int) + (rowLen W bits : Int)) (rowLen W bits : Int) n s
        (((H - 1 - yb) * rowLen W bits + k * rowLen W bits + j : Nat) : Int) = .ok s' ∧ P (yb - ya + 1) s' := by
    intro m
    induction m with
    | zero =>
      intro k s n hk _ hp
      have hk' : k = yb - ya + 1 := by omega
      subst hk'
      refine ⟨s, ?_, hp⟩
      cases n with
      | zero => rfl
      | succ n =>
        rw [copyrectLoop, if_neg]
        · rfl
        · unfold rel
          rw [Nat.add_mul (yb - ya) 1, Nat.one_mul]
          push_cast
          omega
    | succ m ih =>
      intro k s n hk hn hp
      obtain ⟨n, rfl⟩ : ∃ n', n = n' + 1 := ⟨n - 1, by omega⟩
      have hkr : k * rowLen W bits ≤ (yb - ya) * rowLen W bits := Nat.mul_le_mul_right _ (by omega)
      rw [copyrectLoop, if_pos (by unfold rel; push_cast; omega)]
      obtain ⟨hv, s', e, hp'⟩ := step k s (by omega) hp
      have hg := get_seg hv (y := yb - k) (j := j) (L := L) (by omega) hfit hLp
      rw [hrow k (by omega)] at hg
      rw [hg]
      simp only [ok_bind]
      rw [e]
      simp only [ok_bind]
      obtain ⟨s2, e2, hp2⟩ := ih (k + 1) s' n (by omega) (by omega) hp'
      refine ⟨s2, ?_, hp2⟩
      rw [← e2]
      congr 1
      rw [Nat.add_mul k 1]; push_cast; ring
  have hn : yb - ya + 1 ≤ ((rel W H bits xb ya : Int) + (rowLen W bits : Int) - (rel W H bits xa yb : Int)
      - (L : Int) + 1).toNat := by
    have hle : (yb - ya) * 1 ≤ (yb - ya) * rowLen W bits := Nat.mul_le_mul_left _ hRp
    unfold rel
    rw [hJ]
    push_cast
    omega
  obtain ⟨s', e, hp⟩ := key (yb - ya + 1) 0 st _ (by omega) hn h0
  refine ⟨s', ?_, hp⟩
  have e' : (((H - 1 - yb) * rowLen W bits + 0 * rowLen W bits + j : Nat) : Int) = (rel W H bits xa yb : Int) := by
    unfold rel
    rw [hJ]; push_cast; ring
  rw [e'] at e
  rw [e]
  rfl

/-- Changing pixels one after another, each point once. -/
theorem foldl_pixmap {W H bits : Nat} (f : Bytes → Int × Int → Py Bytes) (c : Nat → Nat) (l : List (Int × Int))
    (hn : l.Nodup) (hin : ∀ p ∈ l, ∃ x y : Nat, p = ((x : Int), (y : Int)) ∧ x < W ∧ y < H)
    (step : ∀ b, Valid b W H bits → ∀ x y : Nat, x < W → y < H → c (pix b W H bits x y) < 2 ^ bits ∧
      f b ((x : Int), (y : Int)) = .ok (plotP b W H bits x y (c (pix b W H bits x y))))
    {b : Bytes} (h : Valid b W H bits) :
    ∃ b', l.foldlM f b = .ok b' ∧ Valid b' W H bits ∧ SameHeader b b' bits ∧
      ∀ x y : Nat, x < W → y < H → pix b' W H bits x y =
        if ((x : Int), (y : Int)) ∈ l then c (pix b W H bits x y) else pix b W H bits x y := by
  induction l generalizing b with
  | nil => exact ⟨b, rfl, h, ⟨rfl, fun _ _ => rfl⟩, by simp⟩
  | cons p l ih =>
    obtain ⟨x0, y0, rfl, hx0, hy0⟩ := hin p (by simp)
    obtain ⟨hc, e⟩ := step b h x0 y0 hx0 hy0
    have hv := h.valid_plotP hx0 hy0 hc
    rw [List.nodup_cons] at hn
    obtain ⟨b', e', v', s', p'⟩ := ih hn.2 (fun q hq => hin q (by simp [hq])) hv
    refine ⟨b', ?_, v', ?_, ?_⟩
    · rw [List.foldlM_cons, e]; exact e'
    · refine ⟨s'.1.trans (h.length_plotP hx0 hy0), fun i hi => (s'.2 i hi).trans ?_⟩
      apply h.byte_plotP_outside hx0 hy0
      left
      unfold addr; omega
    · intro x y hx hy
      rw [p' x y hx hy, h.pix_plotP hx0 hy0 hx hy hc]
      by_cases e0 : x = x0 ∧ y = y0
      · obtain ⟨rfl, rfl⟩ := e0
        rw [if_neg hn.1, if_pos ⟨rfl, rfl⟩, if_pos (by simp)]
      · rw [if_neg e0]
        have : ((x : Int), (y : Int)) ≠ ((x0 : Int), (y0 : Int)) := by
          intro he; simp at he; exact e0 he
        simp only [List.mem_cons, this, false_or]

end Verif
