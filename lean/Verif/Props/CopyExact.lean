import Verif.Props.Paste
import Verif.Props.Erase
/-! Properties C36 and C81 for every rectangle: in images with several pixels in a byte the generator `itercopyrect` takes
whole bytes only, and one row more than the rectangle has. -/

namespace Verif.Props
open Verif Spec Model

variable {b : Bytes} {W H bits : Nat}

instance (bits xa xb : Nat) : Decidable (Aligned bits xa xb) := by unfold Aligned; infer_instance

/-- Number of rows that `itercopyrect` yields: one too many if the columns are not whole bytes. -/
def copyRounds (bits xa xb ya yb : Nat) : Nat := yb - ya + 1 + if Aligned bits xa xb then 0 else 1

/-- The buffer of round `k`: nothing when the row lies above the image. -/
def copyRow (b : Bytes) (W H bits yb k j L : Nat) : Bytes := if k ≤ yb then seg b W H bits (yb - k) j L else []

theorem copyRow_bytes (h : Valid b W H bits) (yb k j L : Nat) : ∀ v ∈ copyRow b W H bits yb k j L, v < 256 := by
  unfold copyRow
  split_ifs
  · exact seg_bytes h _ _ _
  · simp

theorem get_copyRow (h : Valid b W H bits) {yb k j L : Nat} (hy : yb < H) (hj : j + L ≤ rowLen W bits) :
    BMPbitBLTget b (((H - 1 - yb) * rowLen W bits + k * rowLen W bits + j : Nat) : Int) (L : Int)
      = .ok (copyRow b W H bits yb k j L) := by
  rcases Nat.eq_zero_or_pos L with rfl | hL
  · unfold BMPbitBLTget
    rw [h.hdsz_eq]
    simp only [ok_bind]
    rw [if_neg (by omega)]
    unfold copyRow
    split_ifs <;> rfl
  · unfold copyRow
    by_cases hk : k ≤ yb
    · rw [if_pos hk, ← get_seg h (y := yb - k) (by omega) hj hL, show H - 1 - (yb - k) = (H - 1 - yb) + k by omega, Nat.add_mul]
    · rw [if_neg hk]
      unfold BMPbitBLTget
      have hl := h.len
      rw [h.hdsz_eq, h.flsz_eq]
      simp only [ok_bind]
      have hm : H * rowLen W bits ≤ ((H - 1 - yb) + k) * rowLen W bits := Nat.mul_le_mul_right _ (by omega)
      rw [Nat.add_mul] at hm
      rw [if_pos (by omega), if_neg (by omega)]
      rfl

/-- The `for` loop over `itercopyrect` for any rectangle inside the image. -/
theorem itercopyrect_any {σ : Type} {src : σ → Bytes} {st : σ} (h : Valid (src st) W H bits)
    {x1 y1 x2 y2 : Int} {xa xb ya yb : Nat} (hxa : (xa : Int) = min x1 x2) (hxb : (xb : Int) = max x1 x2)
    (hya : (ya : Int) = min y1 y2) (hyb : (yb : Int) = max y1 y2) (hW : xb < W) (hH : yb < H)
    {body : σ → Bytes → Py σ} {P : Nat → σ → Prop} (h0 : P 0 st)
    (step : ∀ k s, k < copyRounds bits xa xb ya yb → P k s → Valid (src s) W H bits ∧
      ∃ s', body s (copyRow (src s) W H bits yb k (xa * bits / 8) ((xb - xa + 1) * bits / 8)) = .ok s' ∧
        P (k + 1) s') :
    xa * bits / 8 + (xb - xa + 1) * bits / 8 ≤ rowLen W bits ∧
    ∃ s', foritercopyrect src st x1 y1 x2 y2 body = .ok s' ∧ P (copyRounds bits xa xb ya yb) s' := by
  have hx1 := xcell_lt h.depth hW
  have hbp : 0 < bpp bits := bpp_pos bits
  have hRp : 0 < rowLen W bits := by omega
  have hyy : ya ≤ yb := by omega
  have hxx : xa ≤ xb := by omega
  have hseg : xa * bits / 8 + (xb - xa + 1) * bits / 8 ≤ xb * bits / 8 + bpp bits ∧
      (Aligned bits xa xb → ¬ xa * bits / 8 + (xb - xa + 1) * bits / 8 ≤ xb * bits / 8) ∧
      (¬ Aligned bits xa xb → xa * bits / 8 + (xb - xa + 1) * bits / 8 ≤ xb * bits / 8) := by
    unfold Aligned bpp
    rcases h.depth with rfl | rfl | rfl | rfl <;> norm_num <;> omega
  obtain ⟨s1, s2, s3⟩ := hseg
  have hfit : xa * bits / 8 + (xb - xa + 1) * bits / 8 ≤ rowLen W bits := by omega
  refine ⟨hfit, ?_⟩
  unfold foritercopyrect
  rw [rectinboundary_eq h, if_pos (by omega), sortrec_eq, ← hxa, ← hxb, ← hya, ← hyb]
  dsimp only
  rw [adjustx h (by omega), h.xchrcnt_eq, h.BMoffset_eq _ _ hH, h.BMoffset_eq _ _ (show ya < H by omega)]
  simp only [ok_bind]
  generalize hN : copyRounds bits xa xb ya yb = N at *
  have hN1 : (Aligned bits xa xb → N = yb - ya + 1) ∧ (¬ Aligned bits xa xb → N = yb - ya + 2) := by
    rw [← hN]
    unfold copyRounds
    constructor <;> intro c <;> simp [c]
  generalize hL : (xb - xa + 1) * bits / 8 = L at *
  generalize hJ : xa * bits / 8 = j at *
  have hlast : (H - 1 - ya) * rowLen W bits = (H - 1 - yb) * rowLen W bits + (yb - ya) * rowLen W bits := by
    rw [show H - 1 - ya = (H - 1 - yb) + (yb - ya) by omega, Nat.add_mul]
  have hstop : ∀ k, (k < N ↔ k * rowLen W bits + (j + L) ≤ (yb - ya) * rowLen W bits + rowLen W bits + xb * bits / 8) := by
    intro k
    have m0 : (yb - ya + 1) * rowLen W bits = (yb - ya) * rowLen W bits + rowLen W bits := by ring
    have m2 : (yb - ya + 2) * rowLen W bits = (yb - ya) * rowLen W bits + rowLen W bits + rowLen W bits := by ring
    constructor
    · intro hk
      by_cases ha : Aligned bits xa xb
      · have m : k * rowLen W bits ≤ (yb - ya) * rowLen W bits := Nat.mul_le_mul_right _ (by have := hN1.1 ha; omega)
        omega
      · have m : k * rowLen W bits ≤ (yb - ya + 1) * rowLen W bits := Nat.mul_le_mul_right _ (by have := hN1.2 ha; omega)
        have := s3 ha
        omega
    · intro hle
      by_contra hk
      by_cases ha : Aligned bits xa xb
      · have m : (yb - ya + 1) * rowLen W bits ≤ k * rowLen W bits := Nat.mul_le_mul_right _ (by have := hN1.1 ha; omega)
        have := s2 ha
        omega
      · have m : (yb - ya + 2) * rowLen W bits ≤ k * rowLen W bits := Nat.mul_le_mul_right _ (by have := hN1.2 ha; omega)
        omega
  -- the loop from round k on
  have key : ∀ m k s n, m + k = N → m ≤ n → P k s →
      ∃ s', copyrectLoop src body (L : Int) ((rel W H bits xb ya : Int) + (rowLen W bits : Int)) (rowLen W bits : Int) n s
        (((H - 1 - yb) * rowLen W bits + k * rowLen W bits + j : Nat) : Int) = .ok s' ∧ P N s' := by
    intro m
    induction m with
    | zero =>
      intro k s n hk _ hp
      have hk' : k = N := by omega
      subst hk'
      refine ⟨s, ?_, hp⟩
      cases n with
      | zero => rfl
      | succ n =>
        have := (hstop k).not.mp (by omega)
        rw [copyrectLoop, if_neg]
        · rfl
        · unfold rel
          push_cast
          omega
    | succ m ih =>
      intro k s n hk hn hp
      obtain ⟨n, rfl⟩ : ∃ n', n = n' + 1 := ⟨n - 1, by omega⟩
      have := (hstop k).mp (by omega)
      rw [copyrectLoop, if_pos (by unfold rel; push_cast; omega)]
      obtain ⟨hv, s', e, hp'⟩ := step k s (by omega) hp
      rw [get_copyRow hv hH hfit]
      simp only [ok_bind]
      rw [e]
      simp only [ok_bind]
      obtain ⟨s2, e2, hp2⟩ := ih (k + 1) s' n (by omega) (by omega) hp'
      refine ⟨s2, ?_, hp2⟩
      rw [← e2]
      congr 1
      rw [Nat.add_mul k 1]; push_cast; ring
  have hn : N ≤ ((rel W H bits xb ya : Int) + (rowLen W bits : Int) - (rel W H bits xa yb : Int)
      - (L : Int) + 1).toNat := by
    have hpos : 0 < N := by
      by_cases ha : Aligned bits xa xb
      · have := hN1.1 ha; omega
      · have := hN1.2 ha; omega
    have := (hstop (N - 1)).mp (by omega)
    have hle : (N - 1) * 1 ≤ (N - 1) * rowLen W bits := Nat.mul_le_mul_left _ hRp
    unfold rel
    rw [hJ]
    push_cast
    omega
  obtain ⟨s', e, hp⟩ := key N 0 st _ (by omega) hn h0
  refine ⟨s', ?_, hp⟩
  have e' : (((H - 1 - yb) * rowLen W bits + 0 * rowLen W bits + j : Nat) : Int) = (rel W H bits xa yb : Int) := by
    unfold rel
    rw [hJ]; push_cast; ring
  rw [e'] at e
  rw [e]
  rfl

/-- C36, what `copyrect` returns for every rectangle inside the image: seven bytes with depth and sizes, then the whole bytes
of the rows from the bottom up, and those of the row above the rectangle if the columns are not whole bytes. -/
theorem C36_copy_exact (h : Valid b W H bits) {x1 y1 x2 y2 : Int} {xa xb ya yb : Nat} (hxa : (xa : Int) = min x1 x2)
    (hxb : (xb : Int) = max x1 x2) (hya : (ya : Int) = min y1 y2) (hyb : (yb : Int) = max y1 y2) (hW : xb < W) (hH : yb < H) :
    copyrect b x1 y1 x2 y2 = .ok (some (selHead bits (xb - xa + 1) (yb - ya + 1) ((xb - xa + 1) * bits / 8) ++
      (List.range (copyRounds bits xa xb ya yb)).flatMap fun k =>
        copyRow b W H bits yb k (xa * bits / 8) ((xb - xa + 1) * bits / 8))) := by
  unfold copyrect
  rw [rectinboundary_eq h, if_pos (by omega), h.bits_eq]
  simp only [ok_bind]
  have hm : mkArray [(bits : Int)] = .ok [bits] := mkArray_ok rfl (by
    intro v hv
    rw [List.mem_singleton] at hv
    rcases h.depth with h | h | h | h <;> omega)
  rw [hm, sortrec_eq, ← hxa, ← hxb, ← hya, ← hyb]
  dsimp only
  simp only [ok_bind]
  rw [show (xb : Int) - (xa : Int) + 2 = ((xb - xa + 1 + 1 : Nat) : Int) by omega,
    show (yb : Int) - (ya : Int) + 1 = ((yb - ya + 1 : Nat) : Int) by omega, adjustx h (by omega), int2buf_two, int2buf_two]
  simp only [ok_bind]
  rw [int2buf_two]
  simp only [ok_bind]
  obtain ⟨_, s, e, P⟩ := itercopyrect_any (src := fun _ : Bytes => b)
    (st := selHead bits (xb - xa + 1) (yb - ya + 1) ((xb - xa + 1) * bits / 8)) h
    (x1 := xa) (y1 := ya) (x2 := xb) (y2 := yb) (xa := xa) (xb := xb) (ya := ya) (yb := yb)
    (by omega) (by omega) (by omega) (by omega) hW hH
    (body := fun retval buf => pure (retval ++ buf))
    (P := fun k s => s = selHead bits (xb - xa + 1) (yb - ya + 1) ((xb - xa + 1) * bits / 8) ++
      (List.range k).flatMap fun k => copyRow b W H bits yb k (xa * bits / 8) ((xb - xa + 1) * bits / 8))
    (by simp)
    (by
      intro k s _ hs
      refine ⟨h, _, rfl, ?_⟩
      rw [hs, List.range_succ, List.flatMap_append, List.append_assoc]
      simp)
  subst P
  exact congrArg _ e

/-- Number of rows with bytes in a copied rectangle. -/
def copied (bits xa xb ya yb : Nat) : Nat := yb - ya + 1 + if Aligned bits xa xb ∨ ya = 0 then 0 else 1

theorem copiedRows_eq (b : Bytes) (W H : Nat) {bits xa xb ya yb : Nat} (hy : ya ≤ yb) (j L : Nat) :
    ((List.range (copyRounds bits xa xb ya yb)).flatMap fun k => copyRow b W H bits yb k j L) =
    (List.range (copied bits xa xb ya yb)).flatMap fun k => seg b W H bits (yb - k) j L := by
  have base : ∀ n, n ≤ yb + 1 → ((List.range n).flatMap fun k => copyRow b W H bits yb k j L) =
      (List.range n).flatMap fun k => seg b W H bits (yb - k) j L := by
    intro n hn
    apply List.flatMap_congr
    intro k hk
    rw [List.mem_range] at hk
    unfold copyRow
    rw [if_pos (by omega)]
  unfold copyRounds copied
  by_cases ha : Aligned bits xa xb
  · simp only [if_pos ha, if_pos (Or.inl ha : Aligned bits xa xb ∨ ya = 0)]
    exact base _ (by omega)
  · by_cases h0 : ya = 0
    · subst h0
      simp only [if_neg ha, or_true, if_true, Nat.add_zero, Nat.sub_zero]
      rw [List.range_succ, List.flatMap_append, base _ (by omega), List.flatMap_singleton]
      unfold copyRow
      rw [if_neg (by omega), List.append_nil]
    · have : ¬ (Aligned bits xa xb ∨ ya = 0) := by tauto
      simp only [if_neg ha, if_neg this]
      exact base _ (by omega)

/-- C36 for every rectangle and place: the copied whole bytes come to the bytes from the one of column `x` on. The bottom row
goes to row `y + h % 256` for a rectangle of `h` rows, the others above it. Rows outside the image are left out. -/
theorem C36_paste_any {b' : Bytes} {W' H' : Nat} (h : Valid b W H bits) (h' : Valid b' W' H' bits) {x1 y1 x2 y2 : Int}
    {xa xb ya yb : Nat} (hxa : (xa : Int) = min x1 x2) (hxb : (xb : Int) = max x1 x2) (hya : (ya : Int) = min y1 y2)
    (hyb : (yb : Int) = max y1 y2) (hW : xb < W) (hH : yb < H)
    (hL : (xb - xa + 1) * bits / 8 < 256) {x : Nat} (y : Int) (hxw : x + (xb - xa) < W') :
    ∃ sel n, copyrect b x1 y1 x2 y2 = .ok (some sel) ∧ pasterect b' sel (x : Int) y = .ok n ∧ Redraws b' n W' H' bits
      (fun px py =>
        let D : Int := y + ((yb - ya + 1) % 256 : Nat)
        if x / dxOf bits ≤ px / dxOf bits ∧ px / dxOf bits < x / dxOf bits + (xb - xa + 1) / dxOf bits ∧
          D - copied bits xa xb ya yb < py ∧ (py : Int) ≤ D
        then pix b W H bits (dxOf bits * (xa / dxOf bits) + (px - dxOf bits * (x / dxOf bits))) (yb - (D - py).toNat)
        else pix b' W' H' bits px py) := by
  have hxle : xa ≤ xb := by omega
  have hyle : ya ≤ yb := by omega
  rw [C36_copy_exact h hxa hxb hya hyb hW hH, copiedRows_eq b W H hyle]
  refine ⟨selHead bits (xb - xa + 1) (yb - ya + 1) ((xb - xa + 1) * bits / 8) ++
    (List.range (copied bits xa xb ya yb)).flatMap fun k => seg b W H bits (yb - k) (xa * bits / 8) ((xb - xa + 1) * bits / 8), ?_⟩
  have hd := h.depth
  generalize hnn : copied bits xa xb ya yb = nn
  have hnle : nn ≤ yb + 1 := by
    rw [← hnn]; unfold copied
    split_ifs with c
    · omega
    · have : ¬ ya = 0 := by tauto
      omega
  set L := (xb - xa + 1) * bits / 8 with hLdef
  set hh := yb - ya + 1 with hhdef
  set rows : Bytes := (List.range nn).flatMap fun k => seg b W H bits (yb - k) (xa * bits / 8) L with hrows
  have hblk : ∀ k ∈ List.range nn, (seg b W H bits (yb - k) (xa * bits / 8) L).length = L := fun k _ => length_seg _ _ _ _ _ _ _
  have hrlen : rows.length = L * nn := by rw [hrows, length_flatMap_const _ _ hblk, List.length_range]
  have hslen : (selHead bits (xb - xa + 1) hh L ++ rows).length = 7 + nn * L := by
    rw [List.length_append, hrlen, Nat.mul_comm]; rfl
  have hjL : x * bits / 8 + L ≤ rowLen W' bits := by
    unfold rowLen
    rcases hd with rfl | rfl | rfl | rfl <;> omega
  have hrow : ∀ k, k < nn → slice (selHead bits (xb - xa + 1) hh L ++ rows) ((7 + k * L : Nat) : Int) ((7 + k * L + L : Nat) : Int)
      = seg b W H bits (yb - k) (xa * bits / 8) L := by
    intro k hk
    have hkl : k * L + L ≤ nn * L := by
      calc k * L + L = (k + 1) * L := by ring
        _ ≤ nn * L := Nat.mul_le_mul_right L hk
    apply bytes_ext
    · rw [length_slice_ok rfl rfl (by omega) (by omega), length_seg]; omega
    · intro i hi
      rw [length_slice_ok rfl rfl (by omega) (by omega)] at hi
      rw [byte_slice_ok rfl rfl (by omega) (by omega), if_pos hi, byte_append, show (selHead bits (xb - xa + 1) hh L).length = 7 from rfl,
        if_neg (by omega), show 7 + k * L + i - 7 = L * k + i by rw [Nat.mul_comm]; omega, hrows,
        byte_flatMap _ _ hblk (by rw [List.length_range]; exact hk) (by omega), List.getElem_range]
  have hgrid : ∃ n, pasteLoop (selHead bits (xb - xa + 1) hh L ++ rows) (L : Int) (rowLen W' bits : Int) (7 + nn * L) b'
        (((H' : Int) - (y + ((hh % 256 : Nat) : Int)) - 1) * (rowLen W' bits : Int) + ((x * bits / 8 : Nat) : Int)) 7 ((7 + L : Nat) : Int) = .ok n ∧
      Grid b' n W' H' bits (fun y' j' => if (y + ((hh % 256 : Nat) : Int)) - nn < y' ∧ (y' : Int) ≤ y + ((hh % 256 : Nat) : Int) ∧
          x * bits / 8 ≤ j' ∧ j' < x * bits / 8 + L
        then byte (seg b W H bits (yb - (y + ((hh % 256 : Nat) : Int) - y').toNat) (xa * bits / 8) L) (j' - x * bits / 8)
        else byte b' (cell W' H' bits y' j')) := by
    rcases Nat.eq_zero_or_pos L with hL0 | hLpos
    · refine ⟨b', ?_, (Grid.refl h').congr (fun y' j' _ _ => by rw [if_neg (by omega)])⟩
      rw [show 7 + nn * L = 6 + 1 by rw [hL0]; omega]
      unfold pasteLoop
      rw [if_neg (by rw [hslen, hL0]; omega)]
      rfl
    · obtain ⟨n, en, gn⟩ := pasteLoop_rule (b := b') (W := W') (H := H') (bits := bits) (n := nn)
        (row := fun k => seg b W H bits (yb - k) (xa * bits / 8) L)
        hLpos hslen hrow (fun k hk => hblk k (by simpa using hk)) (fun k hk => seg_bytes h _ _ _)
        (D := y + ((hh % 256 : Nat) : Int)) (j := x * bits / 8) hjL nn 0 (7 + nn * L) (by omega)
        (by have := Nat.le_mul_of_pos_right nn hLpos; omega) h'
      simp only [Nat.cast_zero, Int.sub_zero, Nat.zero_mul, Nat.add_zero] at en gn
      exact ⟨n, en, gn⟩
  obtain ⟨n, en, gn⟩ := hgrid
  refine ⟨n, rfl, ?_, gn.valid, gn.header, ?_⟩
  · unfold pasterect
    rw [h'.bits_eq, show getItem (selHead bits (xb - xa + 1) hh L ++ rows) 0 = .ok bits from
      getItem_ok (n := 0) rfl (by rw [hslen]; omega)]
    simp only [ok_bind]
    rw [if_neg (by simp), show slice (selHead bits (xb - xa + 1) hh L ++ rows) 1 3 = [(xb - xa + 1 + 1) % 256, (xb - xa + 1 + 1) / 256 % 256] from ?_,
      show slice (selHead bits (xb - xa + 1) hh L ++ rows) 3 5 = [hh % 256, hh / 256 % 256] from ?_,
      show slice (selHead bits (xb - xa + 1) hh L ++ rows) 5 7 = [L % 256, L / 256 % 256] from ?_,
      buf2int_two, buf2int_two, buf2int_two, h'.xchrcnt_eq]
    · simp only [ok_bind]
      rw [listinBMPrecbnd_true h', BMoffset_any h']
      simp only [ok_bind, if_true]
      rw [hslen, Nat.mod_eq_of_lt hL]
      rw [show (L : Int) + 7 = ((7 + L : Nat) : Int) by push_cast; ring]
      exact en
    · exact head_slice (s := 5) (e := 7) (by omega) (le_refl 7)
    · exact head_slice (s := 3) (e := 5) (by omega) (show 5 ≤ 7 by omega)
    · exact head_slice (s := 1) (e := 3) (by omega) (show 3 ≤ 7 by omega)
  · intro px py hpx hpy
    dsimp only
    generalize hD : y + ((hh % 256 : Nat) : Int) = D at *
    have hcell := xcell_lt h'.depth hpx
    have hcells : ∀ j, j < rowLen W' bits → byte n (cell W' H' bits py j) =
        if D - (nn : Int) < py ∧ (py : Int) ≤ D ∧ x * bits / 8 ≤ j ∧ j < x * bits / 8 + L
        then byte b (cell W H bits (yb - (D - py).toNat) (xa * bits / 8 + (j - x * bits / 8))) else byte b' (cell W' H' bits py j) := by
      intro j hj
      rw [gn.cells py j hpy hj]
      split_ifs with hc
      · rw [byte_seg _ _ _ _ _ _ (by omega)]
      · rfl
    rw [pix_cell, pix_cell, pix_cell]
    unfold bpp at hcell
    by_cases h24 : bits = 24
    · subst h24
      rw [if_pos rfl] at hcell
      rw [show dxOf 24 = 1 from rfl]
      simp only [Nat.div_one, Nat.one_mul, if_true]
      rw [hcells _ (by omega), hcells _ (by omega), hcells _ (by omega)]
      by_cases hc : x ≤ px ∧ px < x + (xb - xa + 1) ∧ D - (nn : Int) < py ∧ (py : Int) ≤ D
      · rw [if_pos hc, if_pos (by omega), if_pos (by omega), if_pos (by omega)]
        rw [show xa * 24 / 8 + (3 * px - x * 24 / 8) = 3 * (xa + (px - x)) by omega,
          show xa * 24 / 8 + (3 * px + 1 - x * 24 / 8) = 3 * (xa + (px - x)) + 1 by omega,
          show xa * 24 / 8 + (3 * px + 2 - x * 24 / 8) = 3 * (xa + (px - x)) + 2 by omega]
      · rw [if_neg hc, if_neg (by omega), if_neg (by omega), if_neg (by omega)]
    · rw [if_neg h24] at hcell
      rw [if_neg h24, if_neg h24, if_neg h24, hcells _ (by omega)]
      by_cases hc : x / dxOf bits ≤ px / dxOf bits ∧ px / dxOf bits < x / dxOf bits + (xb - xa + 1) / dxOf bits ∧
          D - (nn : Int) < py ∧ (py : Int) ≤ D
      · rw [if_pos hc, if_pos]
        · unfold shiftOf
          rw [show xa * bits / 8 + (px * bits / 8 - x * bits / 8) =
              (dxOf bits * (xa / dxOf bits) + (px - dxOf bits * (x / dxOf bits))) * bits / 8 from ?_,
            show (dxOf bits * (xa / dxOf bits) + (px - dxOf bits * (x / dxOf bits))) * bits % 8 = px * bits % 8 from ?_]
          · rcases h.depth3 h24 with rfl | rfl | rfl <;> simp only [dxOf] at hc ⊢ <;> norm_num at hc ⊢ <;> omega
          · rcases h.depth3 h24 with rfl | rfl | rfl <;> simp only [dxOf] at hc ⊢ <;> norm_num at hc ⊢ <;> omega
        · rcases h.depth3 h24 with rfl | rfl | rfl <;> simp only [dxOf] at hc ⊢ <;> norm_num at hc ⊢ <;> omega
      · rw [if_neg hc, if_neg]
        rcases h.depth3 h24 with rfl | rfl | rfl <;> simp only [dxOf] at hc ⊢ <;> norm_num at hc ⊢ <;> omega

/-- A rectangle of whole bytes is copied as it is (`C36_paste_exact`); one of other columns is too tall by one row: after
copying pixels 1 and 2 of row 1 of a 4-bit image and pasting them, the row above the asked one changes too. -/
example : (do let b ← newBMP 6 4 4
              let b ← plotxybit b 0 0 7; let b ← plotxybit b 0 1 8; let b ← plotxybit b 1 1 9; let b ← plotxybit b 2 1 10
              let sel ← orTypeError (← copyrect b 1 1 2 1)
              let n ← pasterect b sel 4 2
              pure (sel, ← getxybit n 4 3, ← getxybit n 5 3, ← getxybit n 4 2)) =
    .ok ([4, 3, 0, 1, 0, 1, 0, 0x89, 0x70], 8, 9, 7) := by decide +kernel

/-! ### C81 -/

theorem put_empty (h : Valid b W H bits) (off : Int) : BMPbitBLTput b off [] = .ok b := by
  unfold BMPbitBLTput
  rw [h.hdsz_eq, h.flsz_eq]
  simp only [ok_bind]
  by_cases c : off ≥ 0
  · rw [if_pos c]
    by_cases c2 : (dataOff bits : Int) + off + ((([] : Bytes).length : Nat) : Int) ≤ (b.length : Int)
    · rw [if_pos c2, pure_eq_ok]
      congr 1
      simp only [List.length_nil, Nat.cast_zero, add_zero] at c2 ⊢
      obtain ⟨s, hs⟩ : ∃ s : Nat, (dataOff bits : Int) + off = (s : Int) := ⟨((dataOff bits : Int) + off).toNat, by omega⟩
      rw [hs] at c2 ⊢
      rw [setSlice_ok (b := b) (buf := []) (n := s) rfl (by simp) (by simpa using c2)]
      simp [ow]
    · rw [if_neg c2]; rfl
  · rw [if_neg c]; rfl

/-- Columns in the whole bytes that `outlineregion` treats, for corners `x1 ≤ x2`. -/
def fullCols (bits xa xb px : Nat) : Prop :=
  xa / dxOf bits ≤ px / dxOf bits ∧ px / dxOf bits < xa / dxOf bits + (xb - xa + 1) / dxOf bits

instance (bits xa xb px : Nat) : Decidable (fullCols bits xa xb px) := by unfold fullCols; infer_instance

theorem fullCols_iff (hd : Depth bits) {xa xb px t : Nat} (ht : t < bpp bits) :
    (xa * bits / 8 ≤ px * bits / 8 + t ∧ px * bits / 8 + t < xa * bits / 8 + (xb - xa + 1) * bits / 8) ↔
      fullCols bits xa xb px := by
  unfold bpp at ht
  unfold fullCols dxOf
  rcases hd with rfl | rfl | rfl | rfl <;> norm_num at ht ⊢ <;> omega

/-- C81 for every rectangle with corners in order: as `C81_outline_partial` for whole bytes. In a rectangle of other columns the
first line keeps a difference to the line above it, and it is the line above the rectangle that becomes 0; a rectangle at
the upper edge keeps its first line. The bytes are those of the left column and as many as fit in the width. -/
theorem C81_exact (h : Valid b W H bits) {xa xb ya yb : Nat} (hx : xa ≤ xb) (hy : ya ≤ yb) (hW : xb < W) (hH : yb < H) :
    ∃ b', outlineregion b xa ya xb yb = .ok b' ∧ Redraws b b' W H bits (fun px py =>
      let top : Int := if Aligned bits xa xb then (ya : Int) else (ya : Int) - 1
      if fullCols bits xa xb px ∧ top ≤ (py : Int) ∧ py ≤ yb then
        if (py : Int) = top then 0
        else if py = 0 then pix b W H bits px py
        else pix b W H bits px py ^^^ pix b W H bits px (py - 1)
      else pix b W H bits px py) := by
  have hfit : xa * bits / 8 + (xb - xa + 1) * bits / 8 ≤ rowLen W bits := by
    have := xcell_lt h.depth hW
    unfold bpp at this
    rcases h.depth with rfl | rfl | rfl | rfl <;> norm_num at * <;> omega
  unfold outlineregion cmpimglines
  rw [rect_guard h, if_pos (by omega), h.BMoffset_eq _ _ hH, h.xchrcnt_eq]
  simp only [ok_bind]
  have hseg : ∀ (s1 : Bytes) (k : Nat), Grid b s1 W H bits (fun y j =>
        if (yb < y + (k - 1) ∧ y ≤ yb ∧ 0 < y) ∧ xa * bits / 8 ≤ j ∧ j < xa * bits / 8 + (xb - xa + 1) * bits / 8
        then byte b (cell W H bits y j) ^^^ byte b (cell W H bits (y - 1) j) else byte b (cell W H bits y j)) →
      copyRow s1 W H bits yb k (xa * bits / 8) ((xb - xa + 1) * bits / 8) =
        copyRow b W H bits yb k (xa * bits / 8) ((xb - xa + 1) * bits / 8) := by
    intro s1 k g
    unfold copyRow
    split_ifs with c
    · unfold seg
      apply List.map_congr_left
      intro i hi
      rw [List.mem_range] at hi
      rw [g.cells _ _ (by omega) (by omega), if_neg (by omega)]
    · rfl
  obtain ⟨-, s', e, hP⟩ := itercopyrect_any (src := fun st : Bytes × Int × Option Bytes => st.1)
    (st := (b, (((H - 1 - yb) * rowLen W bits + xa * bits / 8 : Nat) : Int), none)) (W := W) (H := H) (bits := bits) h
    (x1 := (xa : Int)) (y1 := (ya : Int)) (x2 := (xb : Int)) (y2 := (yb : Int))
    (xa := xa) (xb := xb) (ya := ya) (yb := yb) (by omega) (by omega) (by omega) (by omega) hW hH
    (body := cmpLine xorvect (rowLen W bits : Int))
    (P := fun k s => s.2.1 = (((H - 1 - yb) * rowLen W bits + (k - 1) * rowLen W bits + xa * bits / 8 : Nat) : Int) ∧
      s.2.2 = (if k = 0 then none else some (copyRow b W H bits yb (k - 1) (xa * bits / 8) ((xb - xa + 1) * bits / 8))) ∧
      Grid b s.1 W H bits (fun y j =>
        if (yb < y + (k - 1) ∧ y ≤ yb ∧ 0 < y) ∧ xa * bits / 8 ≤ j ∧ j < xa * bits / 8 + (xb - xa + 1) * bits / 8
        then byte b (cell W H bits y j) ^^^ byte b (cell W H bits (y - 1) j) else byte b (cell W H bits y j)))
    (by
      refine ⟨by simp, by simp, (Grid.refl h).congr ?_⟩
      intro y j _ _
      rw [if_neg (by omega)])
    (by
      rintro k ⟨s1, s2, s3⟩ hk ⟨hoffk, hold, g⟩
      refine ⟨g.valid, ?_⟩
      unfold cmpLine
      dsimp only at hoffk hold g ⊢
      subst hold
      rw [hseg s1 k g]
      have hkb : k ≤ yb + 1 := by
        unfold copyRounds at hk
        split_ifs at hk <;> omega
      rcases k with _ | k
      · exact ⟨_, rfl, hoffk, rfl, g⟩
      · rw [if_neg (by omega)]
        dsimp only
        rw [Nat.add_sub_cancel] at hoffk g ⊢
        have hrow : (H - 1 - (yb - k)) * rowLen W bits = (H - 1 - yb) * rowLen W bits + k * rowLen W bits := by
          rw [show H - 1 - (yb - k) = (H - 1 - yb) + k by omega, Nat.add_mul]
        by_cases hlast : k + 1 ≤ yb
        · have u1 : copyRow b W H bits yb (k + 1) (xa * bits / 8) ((xb - xa + 1) * bits / 8) =
              seg b W H bits (yb - (k + 1)) (xa * bits / 8) ((xb - xa + 1) * bits / 8) := by
            unfold copyRow; rw [if_pos hlast]
          have u2 : copyRow b W H bits yb k (xa * bits / 8) ((xb - xa + 1) * bits / 8) =
              seg b W H bits (yb - k) (xa * bits / 8) ((xb - xa + 1) * bits / 8) := by
            unfold copyRow; rw [if_pos (by omega)]
          rw [u1, u2]
          obtain ⟨a, ea, la, ba, va⟩ := xor_array (seg_bytes h (yb - (k + 1)) (xa * bits / 8) ((xb - xa + 1) * bits / 8))
            (seg_bytes h (yb - k) (xa * bits / 8) ((xb - xa + 1) * bits / 8)) (by rw [length_seg, length_seg])
          rw [length_seg] at la va
          rw [ea, ok_bind]
          obtain ⟨b1, e1, g1⟩ := put_seg g.valid (y := yb - k) (j := xa * bits / 8) (buf := a) (by omega) ba (by omega)
          rw [hrow] at e1
          rw [hoffk, e1, ok_bind]
          refine ⟨_, rfl, ?_, ?_, (g.trans g1).congr ?_⟩
          · dsimp only
            rw [show k + 1 + 1 - 1 = k + 1 by omega, Nat.add_mul k 1]; push_cast; ring
          · simp [u1]
          · intro y j hy hj
            rw [la]
            by_cases cj : xa * bits / 8 ≤ j ∧ j < xa * bits / 8 + (xb - xa + 1) * bits / 8
            · by_cases cy : y = yb - k
              · rw [if_pos ⟨cy, cj⟩, if_pos ⟨by omega, cj⟩, va _ (by omega), byte_seg _ _ _ _ _ _ (by omega),
                  byte_seg _ _ _ _ _ _ (by omega), show xa * bits / 8 + (j - xa * bits / 8) = j by omega, ← cy,
                  show yb - (k + 1) = y - 1 by omega, Nat.xor_comm]
              · rw [if_neg (by tauto), g.cells y j hy hj]
                by_cases c2 : yb < y + k ∧ y ≤ yb ∧ 0 < y
                · rw [if_pos ⟨c2, cj⟩, if_pos ⟨by omega, cj⟩]
                · rw [if_neg (by tauto), if_neg (by omega)]
            · rw [if_neg (by tauto), g.cells y j hy hj, if_neg (by tauto), if_neg (by tauto)]
        · have u1 : copyRow b W H bits yb (k + 1) (xa * bits / 8) ((xb - xa + 1) * bits / 8) = [] := by
            unfold copyRow; rw [if_neg hlast]
          rw [u1]
          have ex : mkArray (xorvect [] (copyRow b W H bits yb k (xa * bits / 8) ((xb - xa + 1) * bits / 8))) = .ok [] := rfl
          rw [ex, ok_bind, put_empty g.valid, ok_bind]
          refine ⟨_, rfl, ?_, ?_, g.congr ?_⟩
          · dsimp only
            rw [hoffk, show k + 1 + 1 - 1 = k + 1 by omega, Nat.add_mul k 1]; push_cast; ring
          · simp [u1]
          · intro y j hy hj
            by_cases cj : xa * bits / 8 ≤ j ∧ j < xa * bits / 8 + (xb - xa + 1) * bits / 8
            · by_cases c2 : yb < y + k ∧ y ≤ yb ∧ 0 < y
              · rw [if_pos ⟨c2, cj⟩, if_pos ⟨by omega, cj⟩]
              · rw [if_neg (by tauto), if_neg (by omega)]
            · rw [if_neg (by tauto), if_neg (by tauto)])
  rw [show ((rel W H bits xa yb : Nat) : Int) = (((H - 1 - yb) * rowLen W bits + xa * bits / 8 : Nat) : Int) from rfl, e]
  obtain ⟨hoff, hold, g⟩ := hP
  obtain ⟨s1, s2, s3⟩ := s'
  dsimp only at hoff hold g
  obtain ⟨N, hN⟩ : ∃ N, copyRounds bits xa xb ya yb = N + 1 := ⟨yb - ya + if Aligned bits xa xb then 0 else 1, by
    unfold copyRounds; omega⟩
  have hNt : (yb : Int) - (N : Int) = if Aligned bits xa xb then (ya : Int) else (ya : Int) - 1 := by
    unfold copyRounds at hN
    split_ifs at hN ⊢ <;> omega
  rw [hN, if_neg (by omega)] at hold
  rw [hN] at hoff g
  subst hold
  simp only [ok_bind]
  rw [Nat.add_sub_cancel] at hoff g ⊢
  rw [← hNt]
  -- the last line
  have hfin : ∃ b1, (mkArray (xorvect (copyRow b W H bits yb N (xa * bits / 8) ((xb - xa + 1) * bits / 8))
            (copyRow b W H bits yb N (xa * bits / 8) ((xb - xa + 1) * bits / 8))) >>= fun a =>
          BMPbitBLTput s1 s2 a) = .ok b1 ∧
      Grid b b1 W H bits (fun y j => if xa * bits / 8 ≤ j ∧ j < xa * bits / 8 + (xb - xa + 1) * bits / 8 then
        if (y : Int) = (yb : Int) - (N : Int) then 0
        else if (yb < y + N ∧ y ≤ yb ∧ 0 < y) then byte b (cell W H bits y j) ^^^ byte b (cell W H bits (y - 1) j)
        else byte b (cell W H bits y j) else byte b (cell W H bits y j)) := by
    by_cases hl : N ≤ yb
    · have u : copyRow b W H bits yb N (xa * bits / 8) ((xb - xa + 1) * bits / 8) =
          seg b W H bits (yb - N) (xa * bits / 8) ((xb - xa + 1) * bits / 8) := by
        unfold copyRow; rw [if_pos hl]
      rw [u]
      obtain ⟨a, ea, la, ba, va⟩ := xor_array (seg_bytes h (yb - N) (xa * bits / 8) ((xb - xa + 1) * bits / 8))
        (seg_bytes h (yb - N) (xa * bits / 8) ((xb - xa + 1) * bits / 8)) rfl
      rw [length_seg] at la va
      rw [ea, ok_bind]
      obtain ⟨b1, e1, g1⟩ := put_seg g.valid (y := yb - N) (j := xa * bits / 8) (buf := a) (by omega) ba (by omega)
      rw [show H - 1 - (yb - N) = (H - 1 - yb) + N by omega, Nat.add_mul] at e1
      rw [hoff, e1]
      refine ⟨b1, rfl, (g.trans g1).congr ?_⟩
      intro y j hy hj
      rw [la]
      by_cases cj : xa * bits / 8 ≤ j ∧ j < xa * bits / 8 + (xb - xa + 1) * bits / 8
      · rw [if_pos cj]
        by_cases cy : y = yb - N
        · rw [if_pos ⟨cy, cj⟩, if_pos (by omega), va _ (by omega), Nat.xor_self]
        · rw [if_neg (by tauto), if_neg (by omega), g.cells y j hy hj]
          by_cases c2 : yb < y + N ∧ y ≤ yb ∧ 0 < y
          · rw [if_pos ⟨c2, cj⟩, if_pos c2]
          · rw [if_neg (by tauto), if_neg c2]
      · rw [if_neg cj, if_neg (by tauto), g.cells y j hy hj, if_neg (by tauto)]
    · have u : copyRow b W H bits yb N (xa * bits / 8) ((xb - xa + 1) * bits / 8) = [] := by
        unfold copyRow; rw [if_neg hl]
      rw [u]
      refine ⟨s1, put_empty g.valid s2, g.congr ?_⟩
      intro y j hy hj
      have hne : ¬ (y : Int) = (yb : Int) - (N : Int) := by omega
      by_cases cj : xa * bits / 8 ≤ j ∧ j < xa * bits / 8 + (xb - xa + 1) * bits / 8
      · simp only [if_pos cj, if_neg hne]
        by_cases c2 : yb < y + N ∧ y ≤ yb ∧ 0 < y
        · rw [if_pos ⟨c2, cj⟩, if_pos c2]
        · rw [if_neg (by tauto), if_neg c2]
      · rw [if_neg cj, if_neg (by tauto)]
  obtain ⟨b1, e1, gf⟩ := hfin
  refine ⟨b1, e1, gf.valid, gf.header, ?_⟩
  intro px py hpx hpy
  have hxc := xcell_lt h.depth hpx
  by_cases cb : fullCols bits xa xb px
  · have hin : ∀ t, t < bpp bits → _ := fun t ht => (fullCols_iff h.depth (xa := xa) (xb := xb) (px := px) ht).mpr cb
    by_cases c1 : (yb : Int) - (N : Int) ≤ (py : Int) ∧ py ≤ yb
    · rw [if_pos ⟨cb, c1⟩]
      by_cases c2 : (py : Int) = (yb : Int) - (N : Int)
      · rw [if_pos c2]
        have hz : pix b1 W H bits px py = pix b W H bits px py ^^^ pix b W H bits px py := by
          apply pix_xor h
          intro t ht
          rw [Nat.xor_self, gf.cells py _ hpy (by omega), if_pos (hin t ht), if_pos c2]
        rw [hz, Nat.xor_self]
      · rw [if_neg c2]
        by_cases c3 : py = 0
        · rw [if_pos c3]
          apply pix_congr rfl
          intro t ht
          rw [gf.cells py _ hpy (by omega), if_pos (hin t ht), if_neg c2, if_neg (by omega)]
        · rw [if_neg c3]
          apply pix_xor h
          intro t ht
          rw [gf.cells py _ hpy (by omega), if_pos (hin t ht), if_neg c2, if_pos (by omega)]
    · rw [if_neg (by tauto)]
      apply pix_congr rfl
      intro t ht
      rw [gf.cells py _ hpy (by omega), if_pos (hin t ht), if_neg (by omega), if_neg (by omega)]
  · rw [if_neg (by tauto)]
    apply pix_congr rfl
    intro t ht
    rw [gf.cells py _ hpy (by omega), if_neg (fun q => cb ((fullCols_iff h.depth ht).mp q))]

/-- C81 for the whole image of any width: if the rows are not whole bytes, the first line and the last byte stay. -/
theorem C81_image_exact (h : Valid b W H bits) (hW : 0 < W) (hH : 0 < H) :
    ∃ b', outline b = .ok b' ∧ Redraws b b' W H bits (fun px py =>
      if px / dxOf bits < W / dxOf bits then
        if py = 0 then (if W * bits % 8 = 0 then 0 else pix b W H bits px py)
        else pix b W H bits px py ^^^ pix b W H bits px (py - 1)
      else pix b W H bits px py) := by
  have hmx : getmaxx b = .ok (W : Int) := h.getmaxx_eq
  have hmy : getmaxy b = .ok (H : Int) := h.getmaxy_eq
  unfold outline
  rw [hmx, hmy]
  simp only [ok_bind]
  obtain ⟨b', e, r⟩ := C81_exact h (xa := 0) (xb := W - 1) (ya := 0) (yb := H - 1) (by omega) (by omega) (by omega) (by omega)
  rw [show ((W - 1 : Nat) : Int) = (W : Int) - 1 by omega, show ((H - 1 : Nat) : Int) = (H : Int) - 1 by omega] at e
  refine ⟨b', e, r.valid, r.header, ?_⟩
  intro px py hx hy
  rw [r.pixels px py hx hy]
  have hb : fullCols bits 0 (W - 1) px ↔ px / dxOf bits < W / dxOf bits := by
    unfold fullCols
    rw [Nat.zero_div, Nat.zero_add, show W - 1 - 0 + 1 = W by omega]
    exact ⟨fun q => q.2, fun q => ⟨Nat.zero_le _, q⟩⟩
  have ha : Aligned bits 0 (W - 1) ↔ W * bits % 8 = 0 := by
    unfold Aligned
    rw [show W - 1 + 1 = W by omega, Nat.zero_mul]
    simp
  dsimp only
  simp only [hb, ha]
  by_cases c : px / dxOf bits < W / dxOf bits
  · rw [if_pos c, if_pos ⟨c, by split_ifs <;> push_cast <;> omega, by omega⟩]
    by_cases cw : W * bits % 8 = 0
    · simp only [if_pos cw]
      by_cases c0 : py = 0
      · simp [c0]
      · simp only [if_neg c0, if_neg (show ¬ (py : Int) = ((0 : Nat) : Int) by omega)]
    · simp only [if_neg cw]
      by_cases c0 : py = 0
      · simp [c0]
      · simp only [if_neg c0, if_neg (show ¬ (py : Int) = ((0 : Nat) : Int) - 1 by omega)]
  · rw [if_neg c, if_neg (by tauto)]

/-- C57 for every rectangle of at most 253 columns: only whole bytes come along, counted from the byte of the left column, and if the columns are
not whole bytes the row above the rectangle as well (into the empty first row). The new image has the height of the rectangle modulo 256, and one
more; of higher rectangles only the lowest rows are in it. -/
theorem C57_any (h : Valid b W H bits) {xa xb ya yb : Nat} (hx : xa ≤ xb) (hy : ya ≤ yb) (hW : xb < W) (hH : yb < H)
    (hL : (xb - xa + 1) * bits / 8 < 256) (hw : xb - xa + 2 < 256) :
    ∃ sel n, copyrect b xa ya xb yb = .ok (some sel) ∧ convertselection2BMP sel = .ok (some n) ∧
      Shows n (xb - xa + 3) ((yb - ya + 1) % 256 + 1) bits (freshPal bits) (fun px py =>
        if px / dxOf bits < (xb - xa + 1) / dxOf bits ∧ (yb - ya + 1) % 256 < py + copied bits xa xb ya yb
        then pix b W H bits (dxOf bits * (xa / dxOf bits) + px) (yb - ((yb - ya + 1) % 256 - py)) else 0) := by
  obtain ⟨n0, e0, v0, _, _, _, _, hz0, hp0⟩ := C01_newBMP_valid (xb - xa + 3) ((yb - ya + 1) % 256 + 1) bits h.depth (by omega) (by omega)
  obtain ⟨sel, n, e1, e2, r⟩ := C36_paste_any (x1 := xa) (x2 := xb) (y1 := ya) (y2 := yb) (xa := xa) (xb := xb) (ya := ya) (yb := yb) h v0 (by omega) (by omega) (by omega) (by omega) hW hH hL
    (x := 0) 0 (by omega)
  refine ⟨sel, n, e1, ?_, r.valid, ?_, ?_⟩
  · rw [C36_copy_exact h (xa := xa) (xb := xb) (ya := ya) (yb := yb) (by omega) (by omega) (by omega) (by omega) hW hH] at e1
    obtain rfl := Option.some.inj (Except.ok.inj e1)
    rw [show ((0 : Nat) : Int) = 0 from rfl] at e2
    generalize hr : ((List.range (copyRounds bits xa xb ya yb)).flatMap fun k =>
      copyRow b W H bits yb k (xa * bits / 8) ((xb - xa + 1) * bits / 8)) = rows at *
    generalize hLe : (xb - xa + 1) * bits / 8 = L at *
    unfold convertselection2BMP
    have hbi : getItem (selHead bits (xb - xa + 1) (yb - ya + 1) L ++ rows) 0 = .ok bits :=
      getItem_ok (n := 0) rfl (by rw [List.length_append]; show 0 < 7 + _; omega)
    have s1 : slice (selHead bits (xb - xa + 1) (yb - ya + 1) L ++ rows) 1 3 = [(xb - xa + 1 + 1) % 256, (xb - xa + 1 + 1) / 256 % 256] :=
      head_slice (s := 1) (e := 3) (by omega) (show 3 ≤ 7 by omega)
    have s2 : slice (selHead bits (xb - xa + 1) (yb - ya + 1) L ++ rows) 3 5 = [(yb - ya + 1) % 256, (yb - ya + 1) / 256 % 256] :=
      head_slice (s := 3) (e := 5) (by omega) (show 5 ≤ 7 by omega)
    rw [hbi, s1, s2, buf2int_two, buf2int_two]
    simp only [ok_bind]
    rw [if_pos (by unfold isvalidcolorbit; rcases h.depth with rfl | rfl | rfl | rfl <;> simp),
      Nat.mod_eq_of_lt (show xb - xa + 1 + 1 < 256 by omega),
      show ((xb - xa + 1 + 1 : Nat) : Int) + 1 = ((xb - xa + 3 : Nat) : Int) by push_cast; ring,
      show (((yb - ya + 1) % 256 : Nat) : Int) + 1 = (((yb - ya + 1) % 256 + 1 : Nat) : Int) by push_cast; ring, e0]
    simp only [ok_bind]
    rw [e2]
    rfl
  · intro h24 c hc
    rw [samePal r.header h24 hc, newBMP_pal v0 h24 hp0 hc]
  · intro px py hpx hpy
    rw [r.pixels px py hpx hpy]
    dsimp only
    rw [Nat.zero_div, Nat.zero_add, Nat.mul_zero, Nat.sub_zero]
    by_cases hc : px / dxOf bits < (xb - xa + 1) / dxOf bits ∧ (yb - ya + 1) % 256 < py + copied bits xa xb ya yb
    · rw [if_pos hc, if_pos ⟨Nat.zero_le _, hc.1, by omega, by omega⟩]
      congr 1
      omega
    · rw [if_neg hc, if_neg (by rintro ⟨-, q1, q2, q3⟩; exact hc ⟨q1, by omega⟩), hz0 px py hpx hpy]

/-- Columns 1 and 2 of a 4-bit image: columns 0 and 1 are copied, and the row above them too. -/
example : (do let b ← newBMP 4 3 4; let b ← plotxybit b 0 0 5; let b ← plotxybit b 1 1 6; let b ← plotxybit b 2 1 7; let b ← plotxybit b 0 2 8
              let sel ← orTypeError (← copyrect b 1 1 2 2)
              let n ← orTypeError (← convertselection2BMP sel)
              pure (← getmaxxy n, ← [((0 : Int), (0 : Int)), (1, 1), (2, 1), (0, 2), (0, 1)].mapM fun (p : Int × Int) => getxybit n p.1 p.2)) =
    .ok ((4, 3), [5, 6, 0, 8, 0]) := by decide +kernel

/-- C36, rows of 256, 512, ... bytes: the length of a row is stored as 0, so that the loop of `pasterect` (BITMAPlib.py 7748-7754) comes back to
the same place of the buffer in every round and never ends. -/
theorem C36_endless (h : Valid b W H bits) {xa xb ya yb : Nat} (hx : xa ≤ xb) (hy : ya ≤ yb) (hW : xb < W) (hH : yb < H)
    (hL : 0 < (xb - xa + 1) * bits / 8) (h0 : (xb - xa + 1) * bits / 8 % 256 = 0) :
    ∃ sel, copyrect b xa ya xb yb = .ok (some sel) ∧ buf2int (slice sel 5 7) = .ok 0 ∧ (7 : Int) < sel.length ∧
      ∀ (r : Int) (n : Nat) (bmp : Bytes) (offset : Int), pasteLoop sel 0 r (n + 1) bmp offset 7 (0 + 7) =
        (BMPbitBLTput bmp offset [] >>= fun bmp => pasteLoop sel 0 r n bmp (offset + r) 7 (0 + 7)) := by
  have e := C36_copy_exact h (x1 := xa) (x2 := xb) (y1 := ya) (y2 := yb) (xa := xa) (xb := xb) (ya := ya) (yb := yb)
    (by omega) (by omega) (by omega) (by omega) hW hH
  rw [copiedRows_eq b W H hy] at e
  generalize hLe : (xb - xa + 1) * bits / 8 = L at *
  have hlen : 7 + L ≤ (selHead bits (xb - xa + 1) (yb - ya + 1) L ++
      (List.range (copied bits xa xb ya yb)).flatMap fun k => seg b W H bits (yb - k) (xa * bits / 8) L).length := by
    rw [List.length_append, length_flatMap_const (m := L) _ _ (fun k _ => length_seg _ _ _ _ _ _ _), List.length_range]
    have : 1 ≤ copied bits xa xb ya yb := by unfold copied; omega
    have := Nat.mul_le_mul_left L this
    show 7 + L ≤ 7 + _
    omega
  refine ⟨_, e, ?_, by omega, fun r n bmp offset => ?_⟩
  · rw [show slice (selHead bits (xb - xa + 1) (yb - ya + 1) L ++ (List.range (copied bits xa xb ya yb)).flatMap fun k =>
        seg b W H bits (yb - k) (xa * bits / 8) L) 5 7 = [L % 256, L / 256 % 256] from
      head_slice (s := 5) (e := 7) (by omega) (show 7 ≤ 7 by omega), buf2int_two, h0]
    rfl
  · rw [pasteLoop, if_pos (by omega)]
    have : ∀ buf : Bytes, slice buf 7 (0 + 7) = [] := by
      intro buf
      unfold slice
      simp
    rw [this]
    rfl

-- A whole 8-bit image of 256 columns
example : ∃ b sel, newBMP 256 2 8 = .ok b ∧ copyrect b 0 0 255 1 = .ok (some sel) ∧ buf2int (slice sel 5 7) = .ok 0 := by
  obtain ⟨b, e, v, -⟩ := C01_newBMP_valid 256 2 8 (by simp [Depth]) (by norm_num) (by norm_num)
  obtain ⟨sel, e1, e2, -⟩ := C36_endless v (xa := 0) (xb := 255) (ya := 0) (yb := 1) (by omega) (by omega) (by omega) (by omega) (by omega) (by omega)
  exact ⟨b, sel, e, e1, e2⟩

/-- A 4-bit rectangle of columns 1 and 2: one byte, columns 0 and 1, is treated, and the line above it is cleared. -/
example : (do let b ← newBMP 4 3 4; let b ← plotxybit b 0 0 5; let b ← plotxybit b 1 1 6; let b ← plotxybit b 2 1 7
              let b ← outlineregion b 1 1 2 2
              [((0 : Int), (0 : Int)), (0, 1), (1, 1), (2, 1), (1, 2), (2, 2)].mapM fun (p : Int × Int) => getxybit b p.1 p.2) =
    .ok [0, 5, 6, 7, 6, 0] := by decide +kernel

end Verif.Props
