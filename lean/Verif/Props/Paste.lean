import Verif.Lemmas.Blocks
import Verif.Props.Crop
/-! C36: `copyrect` and `pasterect`. -/

namespace Verif.Props
open Verif Spec Model

variable {b : Bytes} {W H bits : Nat}

theorem int2buf_two (v : Nat) : int2buf 2 (v : Int) = .ok [v % 256, v / 256 % 256] := by
  unfold int2buf
  apply mkArray_ok
  · have e : pyRange 0 2 = [0, 1] := rfl
    rw [e]
    simp only [List.map_cons, List.map_nil]
    have h1 : pyAnd (pyShr (v : Int) ((0 : Int) * 8).toNat) 255 = Int.ofNat (v % 256) := by
      rw [show pyShr (v : Int) ((0 : Int) * 8).toNat = (v : Int) by simp [pyShr], pyAnd_255, Int.ofNat_eq_natCast]; omega
    have h2 : pyAnd (pyShr (v : Int) ((1 : Int) * 8).toNat) 255 = Int.ofNat (v / 256 % 256) := by
      rw [show ((1 : Int) * 8).toNat = 8 from rfl, pyShr_8, pyAnd_255, Int.ofNat_eq_natCast]; omega
    rw [h1, h2]
  · intro x hx
    simp only [List.mem_cons, List.not_mem_nil, or_false] at hx
    omega

theorem buf2int_two (b0 b1 : Nat) : buf2int [b0, b1] = .ok (b0 : Int) := by
  unfold buf2int
  have e : pyRange 0 (([b0, b1] : Bytes).length - 1 : Int) = [0] := rfl
  rw [e]
  simp [getItem, resolveIdx, pyShl, ok_bind]

/-- The first seven bytes of a copied rectangle of `w` by `h` pixels with rows of `L` bytes. -/
def selHead (bits w h L : Nat) : Bytes :=
  [bits, (w + 1) % 256, (w + 1) / 256 % 256, h % 256, h / 256 % 256, L % 256, L / 256 % 256]

theorem head_slice {p r : Bytes} {s e : Nat} (h : s ≤ e) (he : e ≤ p.length) :
    slice (p ++ r) (s : Int) (e : Int) = (p.take e).drop s := by
  have hl : e ≤ (p ++ r).length := by rw [List.length_append]; omega
  apply bytes_ext
  · rw [length_slice_ok rfl rfl hl h]
    simp; omega
  · intro i hi
    rw [length_slice_ok rfl rfl hl h] at hi
    rw [byte_slice_ok rfl rfl hl h, if_pos hi, byte_append, if_pos (by omega), byte_drop, byte_take, if_pos (by omega)]

/-- What `copyrect` returns for columns made of whole bytes: seven bytes with depth and sizes, then
the rows from the bottom up. -/
theorem copyrect_eq (h : Valid b W H bits) {x1 y1 x2 y2 : Int} {xa xb ya yb : Nat} (hxa : (xa : Int) = min x1 x2)
    (hxb : (xb : Int) = max x1 x2) (hya : (ya : Int) = min y1 y2) (hyb : (yb : Int) = max y1 y2) (hW : xb < W) (hH : yb < H)
    (ha : Aligned bits xa xb) :
    copyrect b x1 y1 x2 y2 = .ok (some (selHead bits (xb - xa + 1) (yb - ya + 1) ((xb - xa + 1) * bits / 8) ++
      (List.range (yb - ya + 1)).flatMap fun k => seg b W H bits (yb - k) (xa * bits / 8) ((xb - xa + 1) * bits / 8))) := by
  unfold copyrect
  rw [rectinboundary_eq h, if_pos (by omega), h.bits_eq]
  simp only [ok_bind]
  have hm : mkArray [(bits : Int)] = .ok [bits] := mkArray_ok rfl (by
    intro v hv
    rw [List.mem_singleton] at hv
    rcases h.depth with h | h | h | h <;> omega)
  rw [hm, sortrec_eq, ← hxa, ← hxb, ← hya, ← hyb]
  dsimp only
  simp only [ok_bind]
  rw [show (xb : Int) - (xa : Int) + 2 = ((xb - xa + 1 + 1 : Nat) : Int) by omega,
    show (yb : Int) - (ya : Int) + 1 = ((yb - ya + 1 : Nat) : Int) by omega, adjustx h (by omega), int2buf_two, int2buf_two]
  simp only [ok_bind]
  rw [int2buf_two]
  simp only [ok_bind]
  obtain ⟨s, e, P⟩ := itercopyrect_rule (src := fun _ : Bytes => b) (st := selHead bits (xb - xa + 1) (yb - ya + 1) ((xb - xa + 1) * bits / 8)) h
    (x1 := xa) (y1 := ya) (x2 := xb) (y2 := yb) (xa := xa) (xb := xb) (ya := ya) (yb := yb)
    (by omega) (by omega) (by omega) (by omega) hW hH ha
    (body := fun retval buf => pure (retval ++ buf))
    (P := fun k s => s = selHead bits (xb - xa + 1) (yb - ya + 1) ((xb - xa + 1) * bits / 8) ++
      (List.range k).flatMap fun k => seg b W H bits (yb - k) (xa * bits / 8) ((xb - xa + 1) * bits / 8))
    (by simp)
    (by
      intro k s _ hs
      refine ⟨h, _, rfl, ?_⟩
      rw [hs, List.range_succ, List.flatMap_append, List.append_assoc]
      simp)
  subst P
  exact congrArg _ e

/-- A row written at any row number: rows outside the image are ignored. -/
theorem put_row_any (h : Valid b W H bits) {y : Int} {j : Nat} {buf : Bytes}
    (hb : ∀ v ∈ buf, v < 256) (hl : 0 < buf.length) (hj : j + buf.length ≤ rowLen W bits) :
    ∃ b', BMPbitBLTput b (((H : Int) - y - 1) * (rowLen W bits : Int) + (j : Int)) buf = .ok b' ∧
      Grid b b' W H bits (fun y' j' =>
        if (y' : Int) = y ∧ j ≤ j' ∧ j' < j + buf.length then byte buf (j' - j) else byte b (cell W H bits y' j')) := by
  by_cases hy0 : y < 0
  · refine ⟨b, ?_, (Grid.refl h).congr (fun y' j' hy' _ => by rw [if_neg (by omega)])⟩
    have hge : (H : Int) * (rowLen W bits : Int) ≤ ((H : Int) - y - 1) * (rowLen W bits : Int) :=
      Int.mul_le_mul_of_nonneg_right (by omega) (by omega)
    have hln := h.len
    unfold BMPbitBLTput
    rw [h.hdsz_eq, h.flsz_eq]
    simp only [ok_bind]
    have hl' : (b.length : Int) = (dataOff bits : Int) + (H : Int) * (rowLen W bits : Int) := by rw [hln]; push_cast; ring
    have hHr : 0 ≤ (H : Int) * (rowLen W bits : Int) := Int.mul_nonneg (by omega) (by omega)
    rw [if_pos (by omega), if_neg (by omega)]
    rfl
  · by_cases hyH : (H : Int) ≤ y
    · refine ⟨b, ?_, (Grid.refl h).congr (fun y' j' hy' _ => by rw [if_neg (by omega)])⟩
      have hle : ((H : Int) - y - 1) * (rowLen W bits : Int) ≤ (-1) * (rowLen W bits : Int) :=
        Int.mul_le_mul_of_nonneg_right (by omega) (by omega)
      unfold BMPbitBLTput
      rw [h.hdsz_eq]
      simp only [ok_bind]
      rw [if_neg (by omega)]
      rfl
    · obtain ⟨z, rfl⟩ : ∃ z : Nat, y = (z : Int) := ⟨y.toNat, by omega⟩
      obtain ⟨b', e, g⟩ := put_seg h (y := z) (j := j) (by omega) hb hj
      refine ⟨b', ?_, g.congr (fun y' j' _ _ => by simp only [Nat.cast_inj])⟩
      rw [← e]
      congr 1
      rw [show (H : Int) - (z : Int) - 1 = ((H - 1 - z : Nat) : Int) by omega]
      push_cast; ring

theorem BMoffset_any (h : Valid b W H bits) (x : Nat) (y : Int) :
    BMoffset b (x : Int) y = .ok (((H : Int) - y - 1) * (rowLen W bits : Int) + ((x * bits / 8 : Nat) : Int)) := by
  have hr := h.rowoff_eq y
  unfold BMoffset
  rw [h.bits_eq]
  simp only [ok_bind]
  rcases h.depth with rfl | rfl | rfl | rfl
  · rw [if_neg (by omega), if_neg (by omega), if_neg (by omega), if_pos rfl]
    unfold bmof1
    rw [show rowoff b y 1 = _ from hr]
    simp only [ok_bind, pure_eq_ok, pyShr_3]
    congr 1; push_cast; omega
  · rw [if_neg (by omega), if_neg (by omega), if_pos rfl]
    unfold bmof4
    rw [show rowoff b y 4 = _ from hr]
    simp only [ok_bind, pure_eq_ok, pyShr_1]
    congr 1; omega
  · rw [if_neg (by omega), if_pos rfl]
    unfold bmof8
    rw [show rowoff b y 8 = _ from hr]
    simp only [ok_bind, pure_eq_ok]
    congr 1; omega
  · rw [if_pos rfl]
    unfold bmof24
    rw [show rowoff b y 24 = _ from hr]
    simp only [ok_bind, pure_eq_ok]
    congr 1; omega

theorem listinBMPrecbnd_true (h : Valid b W H bits) (l : List (Int × Int)) : listinBMPrecbnd b l = .ok true := by
  induction l with
  | nil => rfl
  | cons p l ih =>
    unfold listinBMPrecbnd
    rw [h.inb_eq]
    simp only [ok_bind]
    split_ifs
    · rfl
    · exact ih

/-- The loop of `pasterect`, for rows of `L` bytes each. -/
theorem pasteLoop_rule {buf : Bytes} {n L : Nat} {row : Nat → Bytes} (hL : 0 < L)
    (hlen : buf.length = 7 + n * L) (hrow : ∀ k, k < n → slice buf ((7 + k * L : Nat) : Int) ((7 + k * L + L : Nat) : Int) = row k)
    (hrl : ∀ k, k < n → (row k).length = L) (hrb : ∀ k, k < n → ∀ v ∈ row k, v < 256)
    {D : Int} {j : Nat} (hj : j + L ≤ rowLen W bits) (m k fuel : Nat) (hm : m + k = n) (hf : m < fuel)
    (h : Valid b W H bits) :
    ∃ b', pasteLoop buf (L : Int) (rowLen W bits : Int) fuel b
        (((H : Int) - (D - k) - 1) * (rowLen W bits : Int) + (j : Int)) ((7 + k * L : Nat) : Int) ((7 + k * L + L : Nat) : Int) = .ok b' ∧
      Grid b b' W H bits (fun y' j' => if D - n < y' ∧ (y' : Int) ≤ D - k ∧ j ≤ j' ∧ j' < j + L
        then byte (row (D - y').toNat) (j' - j) else byte b (cell W H bits y' j')) := by
  induction m generalizing k b fuel with
  | zero =>
    obtain ⟨f, rfl⟩ : ∃ f, fuel = f + 1 := ⟨fuel - 1, by omega⟩
    have hk : k = n := by omega
    subst hk
    refine ⟨b, ?_, (Grid.refl h).congr (fun y' j' _ _ => by rw [if_neg (by omega)])⟩
    unfold pasteLoop
    rw [if_neg (by rw [hlen]; omega)]
    rfl
  | succ m ih =>
    obtain ⟨f, rfl⟩ : ∃ f, fuel = f + 1 := ⟨fuel - 1, by omega⟩
    have hkn : k < n := by omega
    have hkl : k * L + L ≤ n * L := by
      calc k * L + L = (k + 1) * L := by ring
        _ ≤ n * L := Nat.mul_le_mul_right L hkn
    obtain ⟨b1, e1, g1⟩ := put_row_any h (y := D - k) (j := j) (hrb k hkn) (by rw [hrl k hkn]; exact hL) (by rw [hrl k hkn]; exact hj)
    obtain ⟨b2, e2, g2⟩ := ih (b := b1) (k + 1) f (by omega) (by omega) g1.valid
    refine ⟨b2, ?_, (g1.trans g2).congr ?_⟩
    · unfold pasteLoop
      rw [if_pos (by rw [hlen]; omega), hrow k hkn, e1]
      simp only [ok_bind]
      rw [← e2]
      congr 1
      · push_cast; ring
      · push_cast; ring
      · push_cast; ring
    · intro y' j' hy' hj'
      rw [hrl k hkn] at g1
      have hc := g1.cells y' j' hy' hj'
      by_cases hin : j ≤ j' ∧ j' < j + L
      · by_cases hy : (y' : Int) = D - k
        · rw [if_neg (by omega), hc, if_pos ⟨hy, hin.1, hin.2⟩, if_pos (by omega)]
          congr 2; omega
        · by_cases hy2 : D - n < (y' : Int) ∧ (y' : Int) ≤ D - k
          · rw [if_pos (by push_cast; omega), if_pos (by omega)]
          · rw [if_neg (by push_cast; omega), hc, if_neg (by omega), if_neg (by omega)]
      · rw [if_neg (by omega), hc, if_neg (by omega), if_neg (by omega)]

/-- The effect of pasting a copied rectangle into an image of the same depth. The bottom row of the
rectangle goes to row `y + h % 256`, the others above it, where `h` is the height of the rectangle;
rows outside the image are left out. -/
theorem C36_paste_exact {b' : Bytes} {W' H' : Nat} (h : Valid b W H bits) (h' : Valid b' W' H' bits) {x1 y1 x2 y2 : Int}
    {xa xb ya yb : Nat} (hxa : (xa : Int) = min x1 x2) (hxb : (xb : Int) = max x1 x2) (hya : (ya : Int) = min y1 y2)
    (hyb : (yb : Int) = max y1 y2) (hW : xb < W) (hH : yb < H) (ha : Aligned bits xa xb)
    (hL : (xb - xa + 1) * bits / 8 < 256) {x : Nat} (y : Int) (hx : x * bits % 8 = 0) (hxw : x + (xb - xa) < W') :
    ∃ sel n, copyrect b x1 y1 x2 y2 = .ok (some sel) ∧ pasterect b' sel (x : Int) y = .ok n ∧ Redraws b' n W' H' bits
      (fun px py =>
        let D : Int := y + ((yb - ya + 1) % 256 : Nat)
        if x ≤ px ∧ px ≤ x + (xb - xa) ∧ D - (yb - ya : Nat) ≤ py ∧ (py : Int) ≤ D
        then pix b W H bits (xa + (px - x)) (yb - (D - py).toNat) else pix b' W' H' bits px py) := by
  refine ⟨selHead bits (xb - xa + 1) (yb - ya + 1) ((xb - xa + 1) * bits / 8) ++
    (List.range (yb - ya + 1)).flatMap fun k => seg b W H bits (yb - k) (xa * bits / 8) ((xb - xa + 1) * bits / 8), ?_⟩
  rw [copyrect_eq h hxa hxb hya hyb hW hH ha]
  have hxle : xa ≤ xb := by omega
  have hyle : ya ≤ yb := by omega
  have hd := h.depth
  set L := (xb - xa + 1) * bits / 8 with hLdef
  set hh := yb - ya + 1 with hhdef
  have hLpos : 0 < L := by
    obtain ⟨h1, h2⟩ := ha
    rcases hd with rfl | rfl | rfl | rfl <;> omega
  set rows : Bytes := (List.range hh).flatMap fun k => seg b W H bits (yb - k) (xa * bits / 8) L with hrows
  have hblk : ∀ k ∈ List.range hh, (seg b W H bits (yb - k) (xa * bits / 8) L).length = L := fun k _ => length_seg _ _ _ _ _ _ _
  have hrlen : rows.length = L * hh := by rw [hrows, length_flatMap_const _ _ hblk, List.length_range]
  have hslen : (selHead bits (xb - xa + 1) hh L ++ rows).length = 7 + hh * L := by
    rw [List.length_append, hrlen, Nat.mul_comm]; rfl
  have hjL : x * bits / 8 + L ≤ rowLen W' bits := by
    obtain ⟨h1, h2⟩ := ha
    unfold rowLen
    rcases hd with rfl | rfl | rfl | rfl <;> omega
  have hrow : ∀ k, k < hh → slice (selHead bits (xb - xa + 1) hh L ++ rows) ((7 + k * L : Nat) : Int) ((7 + k * L + L : Nat) : Int)
      = seg b W H bits (yb - k) (xa * bits / 8) L := by
    intro k hk
    have hkl : k * L + L ≤ hh * L := by
      calc k * L + L = (k + 1) * L := by ring
        _ ≤ hh * L := Nat.mul_le_mul_right L hk
    apply bytes_ext
    · rw [length_slice_ok rfl rfl (by omega) (by omega), length_seg]; omega
    · intro i hi
      rw [length_slice_ok rfl rfl (by omega) (by omega)] at hi
      rw [byte_slice_ok rfl rfl (by omega) (by omega), if_pos hi, byte_append, show (selHead bits (xb - xa + 1) hh L).length = 7 from rfl,
        if_neg (by omega), show 7 + k * L + i - 7 = L * k + i by rw [Nat.mul_comm]; omega, hrows,
        byte_flatMap _ _ hblk (by rw [List.length_range]; exact hk) (by omega), List.getElem_range]
  obtain ⟨n, en, gn⟩ := pasteLoop_rule (b := b') (W := W') (H := H') (bits := bits) (n := hh) (row := fun k => seg b W H bits (yb - k) (xa * bits / 8) L)
    hLpos hslen hrow (fun k hk => hblk k (by simpa using hk)) (fun k hk => seg_bytes h _ _ _)
    (D := y + ((hh % 256 : Nat) : Int)) (j := x * bits / 8) hjL hh 0 (7 + hh * L) (by omega)
    (by have := Nat.le_mul_of_pos_right hh hLpos; omega) h'
  refine ⟨n, rfl, ?_, gn.valid, gn.header, ?_⟩
  · unfold pasterect
    rw [h'.bits_eq, show getItem (selHead bits (xb - xa + 1) hh L ++ rows) 0 = .ok bits from
      getItem_ok (n := 0) rfl (by rw [hslen]; omega)]
    simp only [ok_bind]
    rw [if_neg (by simp), show slice (selHead bits (xb - xa + 1) hh L ++ rows) 1 3 = [(xb - xa + 1 + 1) % 256, (xb - xa + 1 + 1) / 256 % 256] from ?_,
      show slice (selHead bits (xb - xa + 1) hh L ++ rows) 3 5 = [hh % 256, hh / 256 % 256] from ?_,
      show slice (selHead bits (xb - xa + 1) hh L ++ rows) 5 7 = [L % 256, L / 256 % 256] from ?_,
      buf2int_two, buf2int_two, buf2int_two, h'.xchrcnt_eq]
    · simp only [ok_bind]
      rw [listinBMPrecbnd_true h', BMoffset_any h']
      simp only [ok_bind, if_true]
      rw [hslen, Nat.mod_eq_of_lt hL]
      simp only [Nat.cast_zero, Int.sub_zero, Nat.zero_mul, Nat.add_zero] at en
      rw [show (L : Int) + 7 = ((7 + L : Nat) : Int) by push_cast; ring]
      exact en
    · exact head_slice (s := 5) (e := 7) (by omega) (le_refl 7)
    · exact head_slice (s := 3) (e := 5) (by omega) (show 5 ≤ 7 by omega)
    · exact head_slice (s := 1) (e := 3) (by omega) (show 3 ≤ 7 by omega)
  · intro px py hpx hpy
    dsimp only
    generalize hD : y + ((hh % 256 : Nat) : Int) = D at *
    have hcell := xcell_lt h'.depth hpx
    obtain ⟨h1, h2⟩ := ha
    have hcells : ∀ j, j < rowLen W' bits → byte n (cell W' H' bits py j) =
        if D - (hh : Int) < py ∧ (py : Int) ≤ D ∧ x * bits / 8 ≤ j ∧ j < x * bits / 8 + L
        then byte b (cell W H bits (yb - (D - py).toNat) (xa * bits / 8 + (j - x * bits / 8))) else byte b' (cell W' H' bits py j) := by
      intro j hj
      rw [gn.cells py j hpy hj]
      simp only [Nat.cast_zero, Int.sub_zero]
      split_ifs with hc
      · rw [byte_seg _ _ _ _ _ _ (by omega)]
      · rfl
    rw [pix_cell, pix_cell, pix_cell]
    unfold bpp at hcell
    by_cases h24 : bits = 24
    · subst h24
      simp only [if_true] at hcell ⊢
      rw [hcells _ (by omega), hcells _ (by omega), hcells _ (by omega)]
      by_cases hc : x ≤ px ∧ px ≤ x + (xb - xa) ∧ D - ((yb - ya : Nat) : Int) ≤ py ∧ (py : Int) ≤ D
      · rw [if_pos hc, if_pos (by omega), if_pos (by omega), if_pos (by omega)]
        rw [show xa * 24 / 8 + (3 * px - x * 24 / 8) = 3 * (xa + (px - x)) by omega,
          show xa * 24 / 8 + (3 * px + 1 - x * 24 / 8) = 3 * (xa + (px - x)) + 1 by omega,
          show xa * 24 / 8 + (3 * px + 2 - x * 24 / 8) = 3 * (xa + (px - x)) + 2 by omega]
      · rw [if_neg hc, if_neg (by omega), if_neg (by omega), if_neg (by omega)]
    · rw [if_neg h24] at hcell
      rw [if_neg h24, if_neg h24, if_neg h24, hcells _ (by omega)]
      by_cases hc : x ≤ px ∧ px ≤ x + (xb - xa) ∧ D - ((yb - ya : Nat) : Int) ≤ py ∧ (py : Int) ≤ D
      · rw [if_pos hc, if_pos]
        · unfold shiftOf
          rw [show xa * bits / 8 + (px * bits / 8 - x * bits / 8) = (xa + (px - x)) * bits / 8 from ?_,
            show (xa + (px - x)) * bits % 8 = px * bits % 8 from ?_]
          · rcases h.depth3 h24 with rfl | rfl | rfl <;> omega
          · rcases h.depth3 h24 with rfl | rfl | rfl <;> omega
        · rcases h.depth3 h24 with rfl | rfl | rfl <;> omega
      · rw [if_neg hc, if_neg]
        rcases h.depth3 h24 with rfl | rfl | rfl <;> omega

/-- C36 shifted: a copied rectangle of fewer than 256 rows, each of whole bytes and fewer than 256 of
them, reappears one row lower than asked for. -/
theorem C36_paste_partial {b' : Bytes} {W' H' : Nat} (h : Valid b W H bits) (h' : Valid b' W' H' bits)
    {xa xb ya yb : Nat} (hx : xa ≤ xb) (hy : ya ≤ yb) (hW : xb < W) (hH : yb < H) (ha : Aligned bits xa xb)
    (hL : (xb - xa + 1) * bits / 8 < 256) (hh : yb - ya + 1 < 256) {x : Nat} (y : Int) (hx8 : x * bits % 8 = 0)
    (hxw : x + (xb - xa) < W') :
    ∃ sel n, copyrect b xa ya xb yb = .ok (some sel) ∧ pasterect b' sel (x : Int) y = .ok n ∧ Redraws b' n W' H' bits
      (fun px py => if x ≤ px ∧ px ≤ x + (xb - xa) ∧ y + 1 ≤ py ∧ (py : Int) ≤ y + 1 + (yb - ya : Nat)
        then pix b W H bits (xa + (px - x)) (ya + ((py : Int) - (y + 1)).toNat) else pix b' W' H' bits px py) := by
  obtain ⟨sel, n, e1, e2, r⟩ := C36_paste_exact h h' (x1 := xa) (y1 := ya) (x2 := xb) (y2 := yb) (xa := xa) (xb := xb)
    (ya := ya) (yb := yb) (by omega) (by omega) (by omega) (by omega) hW hH ha hL y hx8 hxw
  refine ⟨sel, n, e1, e2, r.valid, r.header, ?_⟩
  intro px py hpx hpy
  rw [r.pixels px py hpx hpy, Nat.mod_eq_of_lt hh]
  dsimp only
  by_cases hc : x ≤ px ∧ px ≤ x + (xb - xa) ∧ y + 1 ≤ py ∧ (py : Int) ≤ y + 1 + ((yb - ya : Nat) : Int)
  · rw [if_pos hc, if_pos (by push_cast; omega)]
    congr 1; omega
  · rw [if_neg hc, if_neg (by push_cast; omega)]

/-- Pasting one row higher than the rectangle was copied from leaves the image unchanged. -/
theorem C36_round_trip_above (h : Valid b W H bits) {xa xb ya yb : Nat} (hx : xa ≤ xb) (hy : ya ≤ yb) (hW : xb < W)
    (hH : yb < H) (ha : Aligned bits xa xb) (hL : (xb - xa + 1) * bits / 8 < 256) (hh : yb - ya + 1 < 256) :
    ∃ sel n, copyrect b xa ya xb yb = .ok (some sel) ∧ pasterect b sel (xa : Int) ((ya : Int) - 1) = .ok n ∧
      Redraws b n W H bits (pix b W H bits) := by
  obtain ⟨sel, n, e1, e2, r⟩ := C36_paste_partial h h hx hy hW hH ha hL hh (x := xa) ((ya : Int) - 1) ha.1 (by omega)
  refine ⟨sel, n, e1, e2, r.valid, r.header, ?_⟩
  intro px py hpx hpy
  rw [r.pixels px py hpx hpy]
  split_ifs with hc
  · congr 1 <;> omega
  · rfl

/-- Rectangles that leave the image are not copied. -/
theorem C36_outside (h : Valid b W H bits) {x1 y1 x2 y2 : Int} (hi : ¬ InImage W H x1 y1 x2 y2) :
    copyrect b x1 y1 x2 y2 = .ok none := by
  unfold InImage at hi
  unfold copyrect
  rw [rectinboundary_eq h, if_neg hi]

/-- C36 is false as stated: in a 1 by 2 image of 24 bits, copying and pasting the upper pixel overwrites the lower one. -/
theorem C36_false : ¬ ∀ (b : Bytes) (W H bits xa ya xb yb : Nat), Valid b W H bits → xa ≤ xb → ya ≤ yb → xb < W → yb < H →
    ∃ sel n, copyrect b xa ya xb yb = .ok (some sel) ∧ pasterect b sel (xa : Int) (ya : Int) = .ok n ∧
      Redraws b n W H bits (pix b W H bits) := by
  intro hall
  obtain ⟨b0, e0, v0, _, _, _, _, hz0, _⟩ := C01_newBMP_valid 1 2 24 (by simp [Depth]) (by norm_num) (by norm_num)
  have v := v0.valid_plotP (x := 0) (y := 0) (n := 255) (by omega) (by omega) (by norm_num)
  obtain ⟨s1, n1, e1, e2, r1⟩ := hall _ _ _ _ 0 0 0 0 v (by omega) (by omega) (by omega) (by omega)
  obtain ⟨s2, n2, e3, e4, r2⟩ := C36_paste_partial v v (xa := 0) (xb := 0) (ya := 0) (yb := 0) (by omega) (by omega)
    (by omega) (by omega) (by unfold Aligned; omega) (by omega) (by omega) (x := 0) 0 (by omega) (by omega)
  rw [e1] at e3
  obtain rfl := Option.some.inj (Except.ok.inj e3)
  rw [show ((0 : Nat) : Int) = 0 from rfl] at e2 e4
  rw [e2] at e4
  obtain rfl := Except.ok.inj e4
  have h1 := r1.pixels 0 1 (by omega) (by omega)
  have h2 := r2.pixels 0 1 (by omega) (by omega)
  rw [h1] at h2
  norm_num at h2
  rw [v0.pix_plotP (by omega) (by omega) (by omega) (by omega) (by norm_num),
    v0.pix_plotP (by omega) (by omega) (by omega) (by omega) (by norm_num), hz0 0 1 (by omega) (by omega)] at h2
  simp at h2

/-- C57 and what happens instead: `convertselection2BMP` of a copied rectangle of `w` by `h` pixels
returns an image of `w + 2` by `h + 1` pixels with the standard palette; the copied pixels are one row
too low and the rest has colour 0. -/
theorem C57_convertselection_exact (h : Valid b W H bits) {xa xb ya yb : Nat} (hx : xa ≤ xb) (hy : ya ≤ yb) (hW : xb < W)
    (hH : yb < H) (ha : Aligned bits xa xb) (hL : (xb - xa + 1) * bits / 8 < 256) (hw : xb - xa + 2 < 256)
    (hh : yb - ya + 1 < 256) :
    ∃ sel n, copyrect b xa ya xb yb = .ok (some sel) ∧ convertselection2BMP sel = .ok (some n) ∧
      Shows n (xb - xa + 3) (yb - ya + 2) bits (freshPal bits)
        (fun px py => if px ≤ xb - xa ∧ 1 ≤ py then pix b W H bits (xa + px) (ya + (py - 1)) else 0) := by
  obtain ⟨n0, e0, v0, _, _, _, _, hz0, hp0⟩ := C01_newBMP_valid (xb - xa + 3) (yb - ya + 2) bits h.depth (by omega) (by omega)
  obtain ⟨sel, n, e1, e2, r⟩ := C36_paste_partial h v0 hx hy hW hH ha hL hh (x := 0) 0 (by omega) (by omega)
  refine ⟨sel, n, e1, ?_, r.valid, ?_, ?_⟩
  · rw [copyrect_eq h (xa := xa) (xb := xb) (ya := ya) (yb := yb) (by omega) (by omega) (by omega) (by omega) hW hH ha] at e1
    obtain rfl := Option.some.inj (Except.ok.inj e1)
    rw [show ((0 : Nat) : Int) = 0 from rfl] at e2
    generalize hr : ((List.range (yb - ya + 1)).flatMap fun k => seg b W H bits (yb - k) (xa * bits / 8) ((xb - xa + 1) * bits / 8)) = rows at *
    generalize hLe : (xb - xa + 1) * bits / 8 = L at *
    unfold convertselection2BMP
    have hbi : getItem (selHead bits (xb - xa + 1) (yb - ya + 1) L ++ rows) 0 = .ok bits :=
      getItem_ok (n := 0) rfl (by rw [List.length_append]; show 0 < 7 + _; omega)
    have s1 : slice (selHead bits (xb - xa + 1) (yb - ya + 1) L ++ rows) 1 3 = [(xb - xa + 1 + 1) % 256, (xb - xa + 1 + 1) / 256 % 256] :=
      head_slice (s := 1) (e := 3) (by omega) (show 3 ≤ 7 by omega)
    have s2 : slice (selHead bits (xb - xa + 1) (yb - ya + 1) L ++ rows) 3 5 = [(yb - ya + 1) % 256, (yb - ya + 1) / 256 % 256] :=
      head_slice (s := 3) (e := 5) (by omega) (show 5 ≤ 7 by omega)
    rw [hbi, s1, s2, buf2int_two, buf2int_two]
    simp only [ok_bind]
    rw [if_pos (by unfold isvalidcolorbit; rcases h.depth with rfl | rfl | rfl | rfl <;> simp),
      Nat.mod_eq_of_lt (show xb - xa + 1 + 1 < 256 by omega), Nat.mod_eq_of_lt hh,
      show ((xb - xa + 1 + 1 : Nat) : Int) + 1 = ((xb - xa + 3 : Nat) : Int) by push_cast; ring,
      show ((yb - ya + 1 : Nat) : Int) + 1 = ((yb - ya + 2 : Nat) : Int) by push_cast; ring, e0]
    simp only [ok_bind]
    rw [e2]
    rfl
  · intro h24 c hc
    rw [samePal r.header h24 hc, newBMP_pal v0 h24 hp0 hc]
  · intro px py hpx hpy
    rw [r.pixels px py hpx hpy]
    by_cases hc : px ≤ xb - xa ∧ 1 ≤ py
    · rw [if_pos hc, if_pos (by omega)]
      congr 1 <;> omega
    · rw [if_neg hc, if_neg (by omega), hz0 px py hpx hpy]

/-- C57 is false: the selection of a single pixel becomes an image of width 3. -/
theorem C57_false : ¬ ∀ (b : Bytes) (W H bits xa ya xb yb : Nat), Valid b W H bits → xa ≤ xb → ya ≤ yb → xb < W → yb < H →
    ∃ sel n, copyrect b xa ya xb yb = .ok (some sel) ∧ convertselection2BMP sel = .ok (some n) ∧
      Valid n (xb - xa + 1) (yb - ya + 1) bits := by
  intro hall
  obtain ⟨b0, e0, v0, _⟩ := C01_newBMP_valid 1 2 24 (by simp [Depth]) (by norm_num) (by norm_num)
  obtain ⟨s1, n1, e1, e2, r1⟩ := hall _ _ _ _ 0 0 0 0 v0 (by omega) (by omega) (by omega) (by omega)
  obtain ⟨s2, n2, e3, e4, r2⟩ := C57_convertselection_exact v0 (xa := 0) (xb := 0) (ya := 0) (yb := 0) (by omega) (by omega)
    (by omega) (by omega) (by unfold Aligned; omega) (by omega) (by omega) (by omega)
  rw [e1] at e3
  obtain rfl := Option.some.inj (Except.ok.inj e3)
  rw [e2] at e4
  obtain rfl := Option.some.inj (Except.ok.inj e4)
  have := r1.width.symm.trans r2.valid.width
  omega

example : (do let b ← plotxybit (← newBMP 4 4 4) 2 1 12
              let sel ← orTypeError (← copyrect b 2 1 3 2)
              let n ← pasterect b sel 0 1
              pure (← getxybit n 0 2, ← getxybit n 0 1, ← getxybit n 2 1)) = .ok (12, 0, 12) := by decide +kernel

end Verif.Props
