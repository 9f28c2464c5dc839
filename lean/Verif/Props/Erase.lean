import Verif.Model.Erase
import Verif.Props.CircGrad
import Verif.Props.Region
/-! Properties C78 to C82: erasing lines, outlines of regions, flips pixel by pixel. -/

namespace Verif.Props
open Verif Spec Model

section
variable {b b' : Bytes} {W H bits : Nat}

/-! ### Erasing lines -/

/-- Colour of pixel `x` of a row all of whose bytes are `p`. -/
def patPix (bits p x : Nat) : Nat :=
  if bits = 24 then p + 256 * p + 65536 * p else p / 2 ^ (8 - bits - x * bits % 8) % 2 ^ bits

/-- Line number `i`, counted from 1, is one of those to erase: `n` lines make a period and the `k`-th goes. -/
def Chosen (n k i : Int) : Prop := Int.fmod i n = k

/-- A byte pattern is cut to its lowest eight bits. -/
def lowByte (p : Int) : Nat := (p % 256).toNat

theorem lowByte_lt (p : Int) : lowByte p < 256 := by unfold lowByte; omega

theorem blank_eq (p : Int) (L : Nat) :
    mkArray (pyRepeat [pyAnd p 0xff] (L : Int)) = .ok (List.replicate L (lowByte p)) := by
  have e : pyRepeat [pyAnd p 0xff] (L : Int) = List.replicate L (pyAnd p 0xff) := by
    unfold pyRepeat
    rw [Int.toNat_natCast]
    induction L with
    | zero => rfl
    | succ n ih => rw [List.replicate_succ, List.flatten_cons, ih]; rfl
  have hp : pyAnd p 0xff = (lowByte p : Int) := by
    rw [pyAnd_255]; unfold lowByte; omega
  rw [e, hp]
  apply mkArray_ok
  · rw [List.map_replicate]; rfl
  · intro v hv
    rw [List.eq_of_mem_replicate hv]
    exact lowByte_lt p

theorem byte_replicate {L p i : Nat} (hi : i < L) : byte (List.replicate L p) i = p := by
  rw [byte_eq_getElem _ _ (by simpa using hi), List.getElem_replicate]

theorem eraseLoop_grid {n : Int} (hn : n ≠ 0) (k : Int) {j L p : Nat} (hp : p < 256) (hR : 0 < rowLen W bits)
    (hj : j + L ≤ rowLen W bits) {hi : Nat} (hH : hi < H) (m : Nat) : ∀ {b : Bytes} {lo : Nat} {i : Int},
    Valid b W H bits → lo ≤ hi → hi - lo ≤ m →
    ∃ b', eraseLoop n k (L : Int) (rowLen W bits : Int) (cell W H bits hi j : Int) (List.replicate L p) m b
        (cell W H bits lo j : Int) i = .ok b' ∧
      Grid b b' W H bits (fun y' j' => if (lo ≤ y' ∧ y' < hi) ∧ Int.fmod (i + ((y' - lo : Nat) : Int)) n = k ∧
        j ≤ j' ∧ j' < j + L then p else byte b (cell W H bits y' j')) := by
  have hsame : ∀ {b : Bytes} {i : Int}, Valid b W H bits → Grid b b W H bits
      (fun y' j' => if (hi ≤ y' ∧ y' < hi) ∧ Int.fmod (i + ((y' - hi : Nat) : Int)) n = k ∧ j ≤ j' ∧ j' < j + L then p
        else byte b (cell W H bits y' j')) := by
    intro b i h
    apply (Grid.refl h).congr
    intro y' j' _ _
    rw [if_neg (by omega)]
  induction m with
  | zero =>
    intro b lo i h h1 h2
    have e : lo = hi := by omega
    subst e
    exact ⟨b, rfl, hsame h⟩
  | succ m ih =>
    intro b lo i h h1 h2
    rw [eraseLoop]
    by_cases e : lo = hi
    · subst e
      rw [if_neg (by omega)]
      exact ⟨b, rfl, hsame h⟩
    have hcol := cell_col (W := W) (H := H) (bits := bits) hH j (hi - lo) (by omega)
    rw [show hi - (hi - lo) = lo by omega] at hcol
    have hmul : 1 * rowLen W bits ≤ (hi - lo) * rowLen W bits := Nat.mul_le_mul_right _ (by omega)
    rw [if_pos (by omega)]
    have hq : pyMod i n = .ok (Int.fmod i n) := by unfold pyMod; rw [if_neg hn]
    rw [hq, ok_bind]
    have e2 : (cell W H bits lo j : Int) - (rowLen W bits : Int) = (cell W H bits (lo + 1) j : Int) := by
      have := cell_col (W := W) (H := H) (bits := bits) (y := lo + 1) (by omega) j 1 (by omega)
      rw [Nat.add_sub_cancel] at this
      omega
    rw [e2]
    have g1 := row_assign h (y := lo) (v := List.replicate L p) (by omega) hj (by simp)
      (fun x hx => by rw [List.eq_of_mem_replicate hx]; exact hp)
    by_cases c : Int.fmod i n = k
    · rw [if_pos c]
      obtain ⟨b', e', g'⟩ := ih (i := i + 1) g1.valid (show lo + 1 ≤ hi by omega) (by omega)
      refine ⟨b', e', (g1.trans g').congr ?_⟩
      intro y' j' hy' hj'
      rw [g1.cells y' j' hy' hj']
      by_cases cy : y' = lo
      · subst cy
        rw [if_neg (by omega)]
        by_cases cj : j ≤ j' ∧ j' < j + L
        · rw [if_pos ⟨rfl, cj⟩, byte_replicate (by omega), if_pos ⟨by omega, by simpa using c, cj⟩]
        · rw [if_neg (by tauto), if_neg (by tauto)]
      · rw [if_neg (show ¬ (y' = lo ∧ _) by tauto)]
        by_cases cz : lo + 1 ≤ y'
        · have e3 : i + 1 + ((y' - (lo + 1) : Nat) : Int) = i + ((y' - lo : Nat) : Int) := by omega
          rw [e3]
          have : (lo + 1 ≤ y' ∧ y' < hi) ↔ (lo ≤ y' ∧ y' < hi) := by omega
          simp only [this]
        · rw [if_neg (by omega), if_neg (by omega)]
    · rw [if_neg c]
      obtain ⟨b', e', g'⟩ := ih (i := i + 1) h (show lo + 1 ≤ hi by omega) (by omega)
      refine ⟨b', e', g'.congr ?_⟩
      intro y' j' hy' hj'
      by_cases cy : y' = lo
      · subst cy
        rw [if_neg (by omega), if_neg]
        intro hh
        apply c
        simpa using hh.2.1
      · by_cases cz : lo + 1 ≤ y'
        · have e3 : i + 1 + ((y' - (lo + 1) : Nat) : Int) = i + ((y' - lo : Nat) : Int) := by omega
          rw [e3]
          have : (lo + 1 ≤ y' ∧ y' < hi) ↔ (lo ≤ y' ∧ y' < hi) := by omega
          simp only [this]
        · rw [if_neg (by omega), if_neg (by omega)]

/-- A pixel of a row of equal bytes. -/
theorem pix_pat {px py p : Nat} (hc : ∀ t, t < bpp bits → byte b (cell W H bits py (px * bits / 8 + t)) = p) :
    pix b W H bits px py = patPix bits p px := by
  rw [pix_cell]
  unfold patPix
  unfold bpp at hc
  by_cases c : bits = 24
  · subst c
    rw [if_pos rfl, if_pos rfl]
    have e : px * 24 / 8 = 3 * px := by omega
    rw [e] at hc
    have h0 := hc 0 (by simp)
    rw [Nat.add_zero] at h0
    rw [h0, hc 1 (by simp), hc 2 (by simp)]
  · rw [if_neg c, if_neg c]
    rw [if_neg c] at hc
    have h0 := hc 0 (by simp)
    rw [Nat.add_zero] at h0
    rw [h0]
    rfl

/-- C78, what the code does: the chosen lines are erased, but the last line of the image never is. -/
theorem C78_erase_exact (h : Valid b W H bits) {n : Int} (hn : n ≠ 0) (k p : Int) :
    ∃ b', erasealternatehorizontallines b n k p = .ok b' ∧
      Alters b b' W H bits (fun _ py => py + 1 < H ∧ Chosen n k (py + 1)) (fun px _ => patPix bits (lowByte p) px) := by
  unfold erasealternatehorizontallines
  rw [h.xchrcnt_eq, h.hdsz_eq, h.flsz_eq]
  simp only [ok_bind]
  rw [blank_eq, ok_bind]
  have hl := h.len
  by_cases hz : rowLen W bits = 0 ∨ H = 0
  · have e0 : H * rowLen W bits = 0 := by rcases hz with e | e <;> simp [e]
    have : ((b.length : Int) - (rowLen W bits : Int) - (dataOff bits : Int)).toNat = 0 := by omega
    rw [this]
    refine ⟨b, rfl, h, ⟨rfl, fun _ _ => rfl⟩, ?_, fun _ _ _ _ _ => rfl⟩
    intro px py hx hy
    have := rowLen_pos (show 0 < W by omega) h.depth
    omega
  have hR : 0 < rowLen W bits := by omega
  have hm : H * rowLen W bits = (H - 1) * rowLen W bits + rowLen W bits := by
    conv_lhs => rw [show H = (H - 1) + 1 by omega]
    ring
  have e1 : (dataOff bits : Int) = (cell W H bits (H - 1) 0 : Int) := by simp [cell]
  have e2 : (b.length : Int) - (rowLen W bits : Int) = (cell W H bits 0 0 : Int) := by
    unfold cell; push_cast; rw [hl, hm]; push_cast; simp; ring
  have hle : (H - 1) * 1 ≤ (H - 1) * rowLen W bits := Nat.mul_le_mul_left _ hR
  rw [e2, e1]
  obtain ⟨b', e, g⟩ := eraseLoop_grid (W := W) (H := H) (bits := bits) hn k (j := 0) (L := rowLen W bits) (lowByte_lt p) hR
    (by omega) (hi := H - 1) (by omega) ((cell W H bits 0 0 : Int) - (cell W H bits (H - 1) 0 : Int)).toNat
    (lo := 0) (i := 1) h (by omega) (by unfold cell; simp; omega)
  refine ⟨b', e, g.valid, g.header, ?_, ?_⟩
  · intro px py hx hy hc
    apply pix_pat
    intro t ht
    have := xcell_lt h.depth hx
    rw [g.cells py _ hy (by omega), if_pos]
    refine ⟨by omega, ?_, by omega, by omega⟩
    rw [Nat.sub_zero, add_comm]
    exact hc.2
  · intro px py hx hy hc
    apply pix_congr rfl
    intro t ht
    have := xcell_lt h.depth hx
    rw [g.cells py _ hy (by omega), if_neg]
    rintro ⟨h1, h2, -⟩
    apply hc
    rw [Nat.sub_zero, add_comm] at h2
    exact ⟨by omega, h2⟩

/-- C78 for `eraseeverynthhorizontalline` with a positive `n` (the full claim includes the last line; it is false there,
see `C78_false`): the lines whose number, counted from 1, is a multiple of `n` become colour 0. -/
theorem C78_every_partial (h : Valid b W H bits) {n : Nat} (hn : 0 < n) :
    ∃ b', eraseeverynthhorizontalline b n = .ok b' ∧ Paints b b' W H bits (fun _ py => py + 1 < H ∧ n ∣ py + 1) 0 := by
  obtain ⟨b', e, a⟩ := C78_erase_exact h (n := n) (by omega) 0 0
  have key : ∀ py : Nat, Chosen n 0 (py + 1) ↔ n ∣ py + 1 := by
    intro py
    unfold Chosen
    rw [Int.fmod_eq_emod_of_nonneg _ (by omega)]
    constructor
    · intro hh
      have : (n : Int) ∣ ((py + 1 : Nat) : Int) := Int.dvd_of_emod_eq_zero (by push_cast; exact hh)
      exact_mod_cast this
    · intro hh
      have : (n : Int) ∣ ((py + 1 : Nat) : Int) := by exact_mod_cast hh
      have := Int.emod_eq_zero_of_dvd this
      push_cast at this
      exact this
  refine ⟨b', e, a.valid, a.header, ?_, ?_⟩
  · intro px py hx hy hc
    rw [a.inside px py hx hy ⟨hc.1, (key py).mpr hc.2⟩]
    unfold patPix lowByte
    norm_num
  · intro px py hx hy hc
    exact a.outside px py hx hy (fun g => hc ⟨g.1, (key py).mp g.2⟩)

/-- C78: a period of 0 lines is a division by zero as soon as there are two lines. -/
theorem C78_zero (h : Valid b W H bits) (hW : 0 < W) (hH : 1 < H) (k p : Int) :
    erasealternatehorizontallines b 0 k p = .error .zeroDivision := by
  unfold erasealternatehorizontallines
  rw [h.xchrcnt_eq, h.hdsz_eq, h.flsz_eq]
  simp only [ok_bind]
  rw [blank_eq, ok_bind]
  have hl := h.len
  have hR := rowLen_pos hW h.depth
  have hR : 0 < rowLen W bits := by omega
  have hm : 2 * rowLen W bits ≤ H * rowLen W bits := Nat.mul_le_mul_right _ hH
  obtain ⟨m, hm⟩ : ∃ m, ((b.length : Int) - (rowLen W bits : Int) - (dataOff bits : Int)).toNat = m + 1 :=
    ⟨((b.length : Int) - (rowLen W bits : Int) - (dataOff bits : Int)).toNat - 1, by omega⟩
  rw [hm, eraseLoop, if_pos (by omega)]
  rfl

/-- An image of one coloured pixel. -/
theorem one_pixel : ∃ b, Valid b 1 1 24 ∧ pix b 1 1 24 0 0 = 7 := by
  obtain ⟨b, e0, v0, -⟩ := C01_newBMP_valid 1 1 24 (by simp [Depth]) (by norm_num) (by norm_num)
  refine ⟨plotP b 1 1 24 0 0 7, v0.valid_plotP (by norm_num) (by norm_num) (by norm_num), ?_⟩
  rw [v0.pix_plotP (by norm_num) (by norm_num) (by norm_num) (by norm_num) (by norm_num), if_pos ⟨rfl, rfl⟩]

/-- C78 is false: the last line is not erased. -/
theorem C78_false : ¬ ∀ (b : Bytes) (W H bits : Nat), Valid b W H bits → ∀ n : Nat, 0 < n →
    ∃ b', eraseeverynthhorizontalline b n = .ok b' ∧ ∀ px py, px < W → py < H → n ∣ py + 1 → pix b' W H bits px py = 0 := by
  intro hall
  obtain ⟨b, v0, k3⟩ := one_pixel
  obtain ⟨b1, e1, a1⟩ := hall _ 1 1 24 v0 1 (by norm_num)
  obtain ⟨b2, e2, a2⟩ := C78_every_partial v0 (n := 1) (by norm_num)
  rw [e1] at e2
  cases Except.ok.inj e2
  have k1 := a1 0 0 (by norm_num) (by norm_num) (by norm_num)
  have k2 := a2.outside 0 0 (by norm_num) (by norm_num) (by omega)
  omega

example : (do let b ← newBMP 2 5 24; let b ← invertimagebits b; let b ← eraseeverynthhorizontalline b 2
              pure (← getxybit b 0 0, ← getxybit b 0 1, ← getxybit b 1 3, ← getxybit b 0 4)) =
    .ok (0xffffff, 0, 0, 0xffffff) := by decide +kernel
example : (do let b ← newBMP 2 5 4; let b ← erasealternatehorizontallines b 3 2 0x123
              pure (← getxybit b 0 1, ← getxybit b 1 1, ← getxybit b 0 0)) = .ok (2, 3, 0) := by decide +kernel

/-- C79, what the code does for every rectangle in every depth: in the columns of whole bytes the chosen lines, counted
from 1 at the upper edge, are erased, but the last line never is. -/
theorem C79_region_all (h : Valid b W H bits) {x1 y1 x2 y2 : Int} (hi : InImage W H x1 y1 x2 y2)
    {n : Int} (hn : n ≠ 0) (k p : Int) :
    ∃ b', erasealternatehorizontallinesinregion b x1 y1 x2 y2 n k p = .ok b' ∧
      Alters b b' W H bits (fun px py => byteRect bits x1 y1 x2 y2 px py = true ∧ (py : Int) < max y1 y2 ∧
        Chosen n k (py - min y1 y2 + 1)) (fun px _ => patPix bits (lowByte p) px) := by
  obtain ⟨xa, xb, ya, yb, hxa, hxb, hya, hyb, hW, hH⟩ := corners hi
  unfold erasealternatehorizontallinesinregion
  rw [rect_guard h, if_pos (by omega), sortrec_eq, ← hxa, ← hxb, ← hya, ← hyb]
  dsimp only
  rw [adjustx h (by omega), h.xchrcnt_eq, h.BMoffsethd_eq _ _ hH, h.BMoffsethd_eq _ _ (show ya < H by omega)]
  simp only [ok_bind]
  rw [blank_eq, ok_bind]
  simp only [addr_cell]
  have hR : 0 < rowLen W bits := by
    have := rowLen_pos (show 0 < W by omega) h.depth
    omega
  have hfit : xa * bits / 8 + (xb - xa + 1) * bits / 8 ≤ rowLen W bits := seg_fit h.depth (by omega) hW
  obtain ⟨b', e, g⟩ := eraseLoop_grid (W := W) (H := H) (bits := bits) hn k (j := xa * bits / 8)
    (L := (xb - xa + 1) * bits / 8) (lowByte_lt p) hR hfit (hi := yb) hH
    ((cell W H bits ya (xa * bits / 8) : Int) - (cell W H bits yb (xa * bits / 8) : Int)).toNat
    (lo := ya) (i := 1) h (by omega) (by
      have hle : (yb - ya) * 1 ≤ (yb - ya) * rowLen W bits := Nat.mul_le_mul_left _ hR
      have := cell_col (W := W) (H := H) (bits := bits) hH (xa * bits / 8) (yb - ya) (by omega)
      rw [show yb - (yb - ya) = ya by omega] at this
      omega)
  refine ⟨b', e, g.valid, g.header, ?_, ?_⟩
  · intro px py hx hy ⟨hin, hlast, hc⟩
    unfold byteRect at hin
    rw [decide_eq_true_eq] at hin
    apply pix_pat
    intro t ht
    have := xcell_lt h.depth hx
    rw [g.cells py _ hy (by omega), if_pos]
    refine ⟨by omega, ?_, (seg_cols h.depth hxa hxb ht).mpr ⟨hin.1, hin.2.1⟩⟩
    rw [show (1 : Int) + ((py - ya : Nat) : Int) = (py : Int) - min y1 y2 + 1 by omega]
    rw [← hya]
    exact hc
  · intro px py hx hy hn
    apply pix_congr rfl
    intro t ht
    have := xcell_lt h.depth hx
    rw [g.cells py _ hy (by omega), if_neg]
    rintro ⟨q1, q2, q3⟩
    have := (seg_cols h.depth hxa hxb ht).mp q3
    apply hn
    refine ⟨?_, by omega, ?_⟩
    · unfold byteRect; rw [decide_eq_true_eq]; exact ⟨this.1, this.2, by omega, by omega⟩
    · rw [show (1 : Int) + ((py - ya : Nat) : Int) = (py : Int) - ya + 1 by omega] at q2
      exact q2

/-- C79, what the code does: in the rectangle the chosen lines, counted from 1 at its upper edge, are erased, but its
last line never is. -/
theorem C79_region_exact (h : Valid b W H bits) {x1 y1 x2 y2 : Int} (hi : InImage W H x1 y1 x2 y2)
    (ha : AlignedI bits x1 x2) {n : Int} (hn : n ≠ 0) (k p : Int) :
    ∃ b', erasealternatehorizontallinesinregion b x1 y1 x2 y2 n k p = .ok b' ∧
      Alters b b' W H bits (fun px py => inRect x1 y1 x2 y2 px py = true ∧ (py : Int) < max y1 y2 ∧
        Chosen n k (py - min y1 y2 + 1)) (fun px _ => patPix bits (lowByte p) px) := by
  obtain ⟨b', e, r⟩ := C79_region_all h hi hn k p
  refine ⟨b', e, r.valid, r.header, ?_, ?_⟩
  all_goals
    intro px py hx hy c
    rw [← byteRect_aligned h.depth (by unfold InImage at hi; omega) ha] at c
  · exact r.inside px py hx hy c
  · exact r.outside px py hx hy c

/-- C79: a rectangle that leaves the image is not touched. -/
theorem C79_rejected (h : Valid b W H bits) {x1 y1 x2 y2 : Int} (hi : ¬ InImage W H x1 y1 x2 y2) (n k p : Int) :
    erasealternatehorizontallinesinregion b x1 y1 x2 y2 n k p = .ok b := by
  unfold erasealternatehorizontallinesinregion
  rw [rect_guard h, if_neg (by unfold InImage at hi; tauto)]

/-- C79 is false: the last line of the rectangle is not erased. -/
theorem C79_false : ¬ ∀ (b : Bytes) (W H : Nat), Valid b W H 24 → ∀ (x1 y1 x2 y2 : Int), InImage W H x1 y1 x2 y2 →
    ∃ b', eraseeverynthhorilineinregion b x1 y1 x2 y2 1 = .ok b' ∧ ∀ px py, px < W → py < H →
      inRect x1 y1 x2 y2 px py = true → pix b' W H 24 px py = 0 := by
  intro hall
  obtain ⟨b, v0, k3⟩ := one_pixel
  have hi : InImage 1 1 0 0 0 0 := by unfold InImage; norm_num
  obtain ⟨b1, e1, a1⟩ := hall _ 1 1 v0 0 0 0 0 hi
  obtain ⟨b2, e2, a2⟩ := C79_region_exact v0 hi (C55_aligned (Or.inr rfl) 0 0)
    (n := 1) (by norm_num) 0 0
  have e2 : eraseeverynthhorilineinregion _ 0 0 0 0 1 = _ := e2
  rw [e1] at e2
  cases Except.ok.inj e2
  have k1 := a1 0 0 (by norm_num) (by norm_num) (by decide)
  have k2 := a2.outside 0 0 (by norm_num) (by norm_num) (by simp)
  omega

example : (do let b ← newBMP 3 5 24; let b ← invertimagebits b; let b ← eraseeverynthhorilineinregion b 2 3 1 0 2
              pure (← getxybit b 0 1, ← getxybit b 1 1, ← getxybit b 2 1, ← getxybit b 2 3)) =
    .ok (0xffffff, 0, 0, 0xffffff) := by decide +kernel

/-- On a 4-bit image the columns 1 to 3 stand for the columns 0 and 1. -/
example : (do let b ← newBMP 4 2 4; let b ← invertimagebits b; let b ← eraseeverynthhorilineinregion b 1 0 3 1 1
              pure (← getxybit b 0 0, ← getxybit b 1 0, ← getxybit b 2 0, ← getxybit b 3 0)) =
    .ok (0, 0, 15, 15) := by decide +kernel

/-! ### Erasing lines of a disc -/

theorem eraseCirc_step (h : Valid b W H bits) {n : Int} (hn : n ≠ 0) (k p : Int) {x y : Int} {v : Int × Int}
    {xa xb ya yb : Nat} (c : InCols W H bits x y v xa xb ya yb) :
    ∃ b', eraseCircStep x y n k (pyAnd p 0xff) b v = .ok b' ∧
      Grid b b' W H bits (fun y' j => if (y' : Int) = y - v.2 ∨ (y' : Int) = y + v.2
        then (if Int.fmod y' n = k ∧ (x - v.1).toNat * bits / 8 ≤ j ∧ j < (x + v.1).toNat * bits / 8 then lowByte p
          else if (y' : Int) = y - v.2 then rowOf b W H bits (y - v.2).toNat j else rowOf b W H bits (y + v.2).toNat j)
        else byte b (cell W H bits y' j)) := by
  obtain ⟨exa, exb, eya, eyb, hx, hxW, hya, hyb, col, row⟩ := c
  unfold eraseCircStep
  simp only [mirror, exa, exb, eya, eyb]
  rw [BMoffsethd_col h _ hya, BMoffsethd_col h _ hya, BMoffsethd_col h _ hyb, BMoffsethd_col h _ hyb]
  simp only [ok_bind, cell_col_int]
  have hq : ∀ i, pyMod i n = .ok (Int.fmod i n) := by intro i; unfold pyMod; rw [if_neg hn]
  have hlen : ∀ yy, (cell W H bits yy (xb * bits / 8) : Int) - (cell W H bits yy (xa * bits / 8) : Int) =
      ((xb * bits / 8 - xa * bits / 8 : Nat) : Int) := by intro yy; unfold cell; omega
  simp only [hq, ok_bind, hlen, blank_eq]
  have w : ∀ b0, Valid b0 W H bits → ∀ yd : Nat, yd < H →
      Grid b0 (setSlice b0 (cell W H bits yd (xa * bits / 8) : Int) (cell W H bits yd (xb * bits / 8) : Int)
        (List.replicate (xb * bits / 8 - xa * bits / 8) (lowByte p))) W H bits (fun y' j' =>
        if y' = yd ∧ xa * bits / 8 ≤ j' ∧ j' < xb * bits / 8 then lowByte p
        else byte b0 (cell W H bits y' j')) := by
    intro b0 h0 yd hyd
    refine (setSlice_row h0 hyd col row (fun x hx => by rw [List.eq_of_mem_replicate hx]; exact lowByte_lt p)
      (by simp)).congr ?_
    intro y' j' _ _
    split_ifs with c
    · rw [byte_replicate (by omega)]
    · rfl
  simp only [Int.toNat_natCast, Nat.cast_inj, pure_eq_ok]
  have st : ∀ b0, Valid b0 W H bits → ∀ yd : Nat, yd < H → ∃ b', (if Int.fmod (yd : Int) n = k then
        (.ok (setSlice b0 (cell W H bits yd (xa * bits / 8) : Int) (cell W H bits yd (xb * bits / 8) : Int)
        (List.replicate (xb * bits / 8 - xa * bits / 8) (lowByte p))) : Py Bytes) else .ok b0) = .ok b' ∧
      Grid b0 b' W H bits (fun y' j' => if y' = yd ∧ Int.fmod (yd : Int) n = k ∧ xa * bits / 8 ≤ j' ∧ j' < xb * bits / 8
        then lowByte p else byte b0 (cell W H bits y' j')) := by
    intro b0 h0 yd hyd
    by_cases c : Int.fmod (yd : Int) n = k
    · rw [if_pos c]
      refine ⟨_, rfl, (w b0 h0 yd hyd).congr ?_⟩
      intro y' j' _ _
      simp only [c, true_and]
    · rw [if_neg c]
      refine ⟨_, rfl, (Grid.refl h0).congr ?_⟩
      intro y' j' _ _
      simp only [c, false_and, and_false, if_false]
  obtain ⟨b1, e1, g1⟩ := st b h ya hya
  obtain ⟨b2, e2, g2⟩ := st b1 g1.valid yb hyb
  rw [e1, ok_bind, e2]
  refine ⟨b2, rfl, (g1.trans g2).congr ?_⟩
  intro y' j' hy' hj'
  rw [g1.cells y' j' hy' hj']
  clear * -
  rcases eq_or_ne y' ya with rfl | c1 <;> rcases eq_or_ne y' yb with rfl | c2 <;>
    by_cases c3 : xa * bits / 8 ≤ j' ∧ j' < xb * bits / 8 <;> simp_all [rowOf]

/-- C80, what the code does: in the rows of the disc whose number in the image leaves the rest `k` the pixels of
`CircCols` are erased. -/
theorem C80_circ_exact (h : Valid b W H bits) {x y r : Int} (hs : SquareInside W H x y r) (hg : SquareInside W W x y r)
    {n : Int} (hn : n ≠ 0) (k p : Int) :
    ∃ b', erasealternatehorizontallinesincircregion b x y r n k p = .ok b' ∧
      Alters b b' W H bits (fun px py => CircCols W bits x y r px py ∧ Chosen n k py)
        (fun px _ => patPix bits (lowByte p) px) := by
  have hsq := (square_iff W H x y r).mpr hs
  simp only [entirecircleisinboundary, isinrange, Bool.and_eq_true, decide_eq_true_eq] at hsq
  obtain ⟨b', e, hv, hh, hc⟩ := scanline_fold (W := W) (H := H) (bits := bits) (x := x) (y := y) (r := r)
    (eraseCircStep x y n k (pyAnd p 0xff))
    (fun v y' ρ1 ρ2 j => if Int.fmod y' n = k ∧ (x - v.1).toNat * bits / 8 ≤ j ∧ j < (x + v.1).toNat * bits / 8
      then lowByte p else if (y' : Int) = y - v.2 then ρ1 j else ρ2 j)
    (by
      intro v hv y' ρ1 ρ1' ρ2 ρ2' h1 h2 _ _ j hj
      have := halfWidth_bounds (mem_lineedge.mp hv)
      have h1 := h1 (by omega) (by omega) j hj
      have h2 := h2 (by omega) (by omega) j hj
      rw [h1, h2])
    (fun b hb v hv => by
      obtain ⟨xa, xb, ya, yb, c⟩ := inCols h.depth hs hv
      exact eraseCirc_step hb hn k p c) h
  have old : ∀ (py j : Nat), (if (py : Int) = y - |(py : Int) - y| then rowOf b W H bits (y - |(py : Int) - y|).toNat j
      else rowOf b W H bits (y + |(py : Int) - y|).toNat j) = rowOf b W H bits py j := by
    intro py j
    have hcase := abs_cases ((py : Int) - y)
    split_ifs with c
    · rw [show (y - |(py : Int) - y|).toNat = py by omega]
    · rw [show (y + |(py : Int) - y|).toNat = py by omega]
  refine ⟨b', ?_, hv, hh, ?_, ?_⟩
  · unfold erasealternatehorizontallinesincircregion
    rw [(C45_entirecircle_exact h _ x y r).1 hg, e]
    rfl
  · intro px py hpx hpy ⟨hin, hch⟩
    obtain ⟨hw, hhw, _⟩ := id hin
    apply pix_pat
    intro t ht
    have hj : px * bits / 8 + t < rowLen W bits := by have := xcell_lt h.depth hpx; omega
    have := (hc py _ hpy hj).1 hw hhw
    rw [if_pos ⟨hch, (inside_bytes h.depth hs hhw ht).mpr hin⟩] at this
    exact this
  · intro px py hpx hpy hno
    apply pix_congr rfl
    intro t ht
    have hj : px * bits / 8 + t < rowLen W bits := by have := xcell_lt h.depth hpx; omega
    by_cases hr : r < |(py : Int) - y|
    · exact (hc py _ hpy hj).2 hr
    · obtain ⟨hw, hhw⟩ := halfWidth_exists (abs_nonneg ((py : Int) - y)) (le_of_not_gt hr)
      have := (hc py _ hpy hj).1 hw hhw
      rw [if_neg (fun g => hno ⟨(inside_bytes h.depth hs hhw ht).mp g.2, g.1⟩), old] at this
      exact this

/-- C80 with the disc: nothing outside changes, and the rows of `eraseeverynthhorizontallineinccircregion` are those whose
number in the image, counted from 0, is a multiple of `n`. Missing: the right end of each row, 1- and 4-bit images, and
discs that the guard compares with the wrong side of the image. -/
theorem C80_circ_partial (h : Valid b W H bits) (hb : bits = 8 ∨ bits = 24) {x y r : Int} (hs : SquareInside W H x y r)
    (hg : SquareInside W W x y r) {n : Nat} (hn : 0 < n) :
    ∃ b', eraseeverynthhorizontallineinccircregion b x y r n = .ok b' ∧
      Paints b b' W H bits (fun px py => DiscSet x y r px py ∧ DiscSet x y r (px + 1) py ∧ n ∣ py) 0 := by
  obtain ⟨b', e, a⟩ := C80_circ_exact h hs hg (n := n) (by omega) 0 0
  have key : ∀ py : Nat, Chosen n 0 py ↔ n ∣ py := by
    intro py
    unfold Chosen
    rw [Int.fmod_eq_emod_of_nonneg _ (by omega)]
    omega
  refine ⟨b', e, a.valid, a.header, ?_, ?_⟩
  · intro px py hx hy hc
    rw [a.inside px py hx hy ⟨(circCols_disc hb hs px py).mpr ⟨hc.1, hc.2.1⟩, (key py).mpr hc.2.2⟩]
    unfold patPix lowByte
    norm_num
  · intro px py hx hy hc
    refine a.outside px py hx hy (fun g => hc ?_)
    obtain ⟨g1, g2⟩ := (circCols_disc hb hs px py).mp g.1
    exact ⟨g1, g2, (key py).mp g.2⟩

/-- C80: a disc that leaves the square of the width is not touched. -/
theorem C80_rejected (h : Valid b W H bits) {x y r : Int} (hg : ¬ SquareInside W W x y r) (n k p : Int) :
    erasealternatehorizontallinesincircregion b x y r n k p = .ok b := by
  unfold erasealternatehorizontallinesincircregion
  rw [(C45_entirecircle_exact h _ x y r).2 hg]
  rfl

/-- C80 is false: the right end of a row is not erased. -/
theorem C80_false : ¬ ∀ (b : Bytes) (W : Nat), Valid b W W 24 → ∀ (x y r : Int), SquareInside W W x y r →
    ∃ b', eraseeverynthhorizontallineinccircregion b x y r 1 = .ok b' ∧ ∀ px py, px < W → py < W →
      DiscSet x y r px py → pix b' W W 24 px py = 0 := by
  intro hall
  obtain ⟨b, v0, k3⟩ := one_pixel
  have hs : SquareInside 1 1 0 0 0 := by rw [← square_iff]; decide
  obtain ⟨b1, e1, a1⟩ := hall _ 1 v0 0 0 0 hs
  obtain ⟨b2, e2, a2⟩ := C80_circ_partial v0 (Or.inr rfl) hs hs (n := 1) (by norm_num)
  rw [show ((1 : Nat) : Int) = 1 from rfl, e1] at e2
  cases Except.ok.inj e2
  have hd : DiscSet 0 0 0 0 0 := ⟨0, by unfold OnCircle Near; decide, by decide⟩
  have k1 := a1 0 0 (by norm_num) (by norm_num) hd
  have k2 := a2.outside 0 0 (by norm_num) (by norm_num) (by
    rintro ⟨-, ⟨dx, h1, h2⟩, -⟩
    have := (C25_circle_accuracy 0 dx _ ((C25_circle_points _ _ _).mpr h1)).2.1
    norm_num at h2
    omega)
  omega

example : (do let b ← newBMP 5 5 24; let b ← invertimagebits b; let b ← eraseeverynthhorizontallineinccircregion b 2 2 2 2
              pure (← getxybit b 1 2, ← getxybit b 0 2, ← getxybit b 2 1, ← getxybit b 4 2)) =
    .ok (0, 0, 0xffffff, 0xffffff) := by decide +kernel

/-! ### Outline of a region -/

theorem pix_xor {px py y1 y2 : Nat} (h : Valid b W H bits) (key : ∀ t, t < bpp bits →
    byte b' (cell W H bits py (px * bits / 8 + t)) =
      byte b (cell W H bits y1 (px * bits / 8 + t)) ^^^ byte b (cell W H bits y2 (px * bits / 8 + t))) :
    pix b' W H bits px py = pix b W H bits px y1 ^^^ pix b W H bits px y2 := by
  have hl : ∀ y j, byte b (cell W H bits y j) < 256 := fun y j => byte_lt_of_mem h.bytes _
  rw [pix_cell, pix_cell, pix_cell]
  unfold bpp at key
  by_cases c : bits = 24
  · subst c
    have k0 := key 0 (by simp)
    have k1 := key 1 (by simp)
    have k2 := key 2 (by simp)
    rw [show px * 24 / 8 = 3 * px by omega] at k0 k1 k2
    rw [Nat.add_zero] at k0
    rw [if_pos rfl, if_pos rfl, if_pos rfl, k0, k1, k2]
    have e : ∀ p q r : Nat, p + 256 * q + 65536 * r = p + 256 * (q + 256 * r) := by intros; omega
    rw [e, e, e, bitop_xor.join (hl _ _) (hl _ _), bitop_xor.join (hl _ _) (hl _ _)]
  · rw [if_neg c] at key
    have := key 0 (by simp)
    rw [Nat.add_zero] at this
    rw [if_neg c, if_neg c, if_neg c, this, bitop_xor.div, bitop_xor.mod]

theorem xor_array {u v : Bytes} (hu : ∀ x ∈ u, x < 256) (hv : ∀ x ∈ v, x < 256) (hl : u.length = v.length) :
    ∃ a, mkArray (xorvect u v) = .ok a ∧ a.length = u.length ∧ (∀ x ∈ a, x < 256) ∧
      ∀ i, i < u.length → byte a i = byte u i ^^^ byte v i := by
  have hlt : ∀ x ∈ (u.zip v).map (fun p => p.1 ^^^ p.2), x < 256 := by
    intro x hx
    obtain ⟨q, hq, rfl⟩ := List.mem_map.mp hx
    have h1 := hu _ (List.of_mem_zip hq).1
    have h2 := hv _ (List.of_mem_zip hq).2
    exact Nat.xor_lt_two_pow (n := 8) h1 h2
  refine ⟨(u.zip v).map (fun p => p.1 ^^^ p.2), ?_, ?_, hlt, ?_⟩
  · unfold xorvect
    apply mkArray_ok _ hlt
    rw [List.map_map]
    rfl
  · simp [hl]
  · intro i hi
    rw [byte_eq_getElem _ _ (by simp [hl]; omega), byte_eq_getElem _ _ hi, byte_eq_getElem _ _ (by omega)]
    simp

/-- C81, what the code does for corners in order: in the first line of the rectangle every pixel becomes 0, in the
others it becomes the exclusive or of its colour with that of the pixel above, both before the call. -/
theorem C81_outline_partial (h : Valid b W H bits) {x1 y1 x2 y2 : Int} (hi : InImage W H x1 y1 x2 y2) (hx : x1 ≤ x2)
    (hy : y1 ≤ y2) (ha : AlignedI bits x1 x2) :
    ∃ b', outlineregion b x1 y1 x2 y2 = .ok b' ∧
      Alters b b' W H bits (fun px py => inRect x1 y1 x2 y2 px py = true)
        (fun px py => if (py : Int) = y1 then 0 else pix b W H bits px py ^^^ pix b W H bits px (py - 1)) := by
  obtain ⟨xa, xb, ya, yb, hxa, hxb, hya, hyb, hW, hH⟩ := corners hi
  have hal := ha.nat hxa hxb
  obtain rfl : (xa : Int) = x1 := by omega
  obtain rfl : (xb : Int) = x2 := by omega
  obtain rfl : (ya : Int) = y1 := by omega
  obtain rfl : (yb : Int) = y2 := by omega
  have hfit : xa * bits / 8 + (xb - xa + 1) * bits / 8 ≤ rowLen W bits := by
    have := xcell_lt h.depth hW
    obtain ⟨h1, h2⟩ := hal
    unfold bpp at this
    rcases h.depth with rfl | rfl | rfl | rfl <;> norm_num at * <;> omega
  unfold outlineregion cmpimglines
  rw [rect_guard h, if_pos (by omega), h.BMoffset_eq _ _ hH, h.xchrcnt_eq]
  simp only [ok_bind]
  obtain ⟨s', e, hP⟩ := itercopyrect_rule (src := fun st : Bytes × Int × Option Bytes => st.1)
    (st := (b, (((H - 1 - yb) * rowLen W bits + xa * bits / 8 : Nat) : Int), none)) (W := W) (H := H) (bits := bits) h
    (x1 := (xa : Int)) (y1 := (ya : Int)) (x2 := (xb : Int)) (y2 := (yb : Int))
    (xa := xa) (xb := xb) (ya := ya) (yb := yb) (by omega) (by omega) (by omega) (by omega) hW hH hal
    (body := cmpLine xorvect (rowLen W bits : Int))
    (P := fun k s => s.2.1 = (((H - 1 - yb) * rowLen W bits + (k - 1) * rowLen W bits + xa * bits / 8 : Nat) : Int) ∧
      s.2.2 = (if k = 0 then none else some (seg b W H bits (yb - (k - 1)) (xa * bits / 8) ((xb - xa + 1) * bits / 8))) ∧
      Grid b s.1 W H bits (fun y j =>
        if (yb < y + (k - 1) ∧ y ≤ yb) ∧ xa * bits / 8 ≤ j ∧ j < xa * bits / 8 + (xb - xa + 1) * bits / 8
        then byte b (cell W H bits y j) ^^^ byte b (cell W H bits (y - 1) j) else byte b (cell W H bits y j)))
    (by
      refine ⟨by simp, by simp, (Grid.refl h).congr ?_⟩
      intro y j _ _
      rw [if_neg (by omega)])
    (by
      rintro k ⟨s1, s2, s3⟩ hk ⟨hoffk, hold, g⟩
      refine ⟨g.valid, ?_⟩
      unfold cmpLine
      dsimp only at hoffk hold g ⊢
      subst hold
      rcases k with _ | k
      · refine ⟨_, rfl, ?_, ?_, g⟩
        · exact hoffk
        · simp only [Nat.zero_add, Nat.sub_self, Nat.sub_zero, if_neg (show ¬ (1 = 0) by omega)]
          congr 1
          unfold seg
          apply List.map_congr_left
          intro i hi
          rw [List.mem_range] at hi
          rw [g.cells _ _ hH (by omega), if_neg (by omega)]
      · rw [if_neg (by omega)]
        dsimp only
        rw [Nat.add_sub_cancel] at hoffk g ⊢
        have hseg : seg s1 W H bits (yb - (k + 1)) (xa * bits / 8) ((xb - xa + 1) * bits / 8) =
            seg b W H bits (yb - (k + 1)) (xa * bits / 8) ((xb - xa + 1) * bits / 8) := by
          unfold seg
          apply List.map_congr_left
          intro i hi
          rw [List.mem_range] at hi
          rw [g.cells _ _ (by omega) (by omega), if_neg (by omega)]
        rw [hseg]
        obtain ⟨a, ea, la, ba, va⟩ := xor_array (seg_bytes h (yb - (k + 1)) (xa * bits / 8) ((xb - xa + 1) * bits / 8))
          (seg_bytes h (yb - k) (xa * bits / 8) ((xb - xa + 1) * bits / 8)) (by rw [length_seg, length_seg])
        rw [length_seg] at la va
        rw [ea, ok_bind]
        have hrow : (H - 1 - (yb - k)) * rowLen W bits = (H - 1 - yb) * rowLen W bits + k * rowLen W bits := by
          rw [show H - 1 - (yb - k) = (H - 1 - yb) + k by omega, Nat.add_mul]
        obtain ⟨b1, e1, g1⟩ := put_seg g.valid (y := yb - k) (j := xa * bits / 8) (buf := a) (by omega) ba (by omega)
        rw [hrow] at e1
        rw [hoffk, e1, ok_bind]
        refine ⟨_, rfl, ?_, ?_, (g.trans g1).congr ?_⟩
        · dsimp only
          rw [show k + 1 + 1 - 1 = k + 1 by omega, Nat.add_mul k 1]; push_cast; ring
        · simp
        · intro y j hy hj
          rw [la]
          by_cases cj : xa * bits / 8 ≤ j ∧ j < xa * bits / 8 + (xb - xa + 1) * bits / 8
          · by_cases cy : y = yb - k
            · rw [if_pos ⟨cy, cj⟩, if_pos ⟨by omega, cj⟩, va _ (by omega), byte_seg _ _ _ _ _ _ (by omega),
                byte_seg _ _ _ _ _ _ (by omega), show xa * bits / 8 + (j - xa * bits / 8) = j by omega, ← cy,
                show yb - (k + 1) = y - 1 by omega, Nat.xor_comm]
            · rw [if_neg (by tauto), g.cells y j hy hj]
              by_cases c2 : yb < y + k ∧ y ≤ yb
              · rw [if_pos ⟨c2, cj⟩, if_pos ⟨by omega, cj⟩]
              · rw [if_neg (by tauto), if_neg (by omega)]
          · rw [if_neg (by tauto), g.cells y j hy hj, if_neg (by tauto), if_neg (by tauto)])
  rw [show ((rel W H bits xa yb : Nat) : Int) = (((H - 1 - yb) * rowLen W bits + xa * bits / 8 : Nat) : Int) from rfl, e]
  obtain ⟨hoff, hold, g⟩ := hP
  obtain ⟨s1, s2, s3⟩ := s'
  dsimp only at hoff hold g
  rw [if_neg (by omega)] at hold
  subst hold
  simp only [ok_bind]
  rw [Nat.add_sub_cancel] at hoff g ⊢
  obtain ⟨a, ea, la, ba, va⟩ := xor_array (seg_bytes h (yb - (yb - ya)) (xa * bits / 8) ((xb - xa + 1) * bits / 8))
    (seg_bytes h (yb - (yb - ya)) (xa * bits / 8) ((xb - xa + 1) * bits / 8)) rfl
  rw [length_seg] at la va
  rw [ea, ok_bind]
  obtain ⟨b1, e1, g1⟩ := put_seg g.valid (y := ya) (j := xa * bits / 8) (buf := a) (by omega) ba (by omega)
  have hrow : (H - 1 - ya) * rowLen W bits = (H - 1 - yb) * rowLen W bits + (yb - ya) * rowLen W bits := by
    rw [show H - 1 - ya = (H - 1 - yb) + (yb - ya) by omega, Nat.add_mul]
  rw [hrow] at e1
  rw [hoff, e1]
  have gf := g.trans g1
  refine ⟨b1, rfl, gf.valid, gf.header, ?_, ?_⟩
  · intro px py hpx hpy hin
    unfold inRect at hin
    rw [decide_eq_true_eq] at hin
    have hseg : ∀ t, t < bpp bits → xa * bits / 8 ≤ px * bits / 8 + t ∧
        px * bits / 8 + t < xa * bits / 8 + (xb - xa + 1) * bits / 8 := fun t ht =>
      (seg_iff h.depth hal (by omega) ht).mpr (by omega)
    have hxc := xcell_lt h.depth hpx
    by_cases c : (py : Int) = ya
    · rw [if_pos c]
      have hz : pix b1 W H bits px py = pix b W H bits px py ^^^ pix b W H bits px py := by
        apply pix_xor h
        intro t ht
        rw [Nat.xor_self, gf.cells py _ hpy (by omega), la, if_pos ⟨by omega, hseg t ht⟩, va _ (by have := hseg t ht; omega),
          Nat.xor_self]
      rw [hz, Nat.xor_self]
    · rw [if_neg c]
      apply pix_xor h
      intro t ht
      rw [gf.cells py _ hpy (by omega), if_neg (by omega), g.cells py _ hpy (by omega), if_pos ⟨by omega, hseg t ht⟩]
  · intro px py hpx hpy hin
    unfold inRect at hin
    rw [decide_eq_true_eq] at hin
    have hxc := xcell_lt h.depth hpx
    apply pix_congr rfl
    intro t ht
    have hs := seg_iff (x := px) (xa := xa) (xb := xb) h.depth hal (by omega) ht
    rw [gf.cells py _ hpy (by omega), la]
    have : ¬ ((ya ≤ py ∧ py ≤ yb) ∧ xa * bits / 8 ≤ px * bits / 8 + t ∧
        px * bits / 8 + t < xa * bits / 8 + (xb - xa + 1) * bits / 8) := by
      rintro ⟨q1, q2⟩
      have := hs.mp q2
      omega
    rw [if_neg (by rintro ⟨q1, q2⟩; exact this ⟨by omega, q2⟩), g.cells py _ hpy (by omega),
      if_neg (by rintro ⟨q1, q2⟩; exact this ⟨by omega, q2⟩)]

/-- C81: a rectangle that leaves the image is not touched. -/
theorem C81_rejected (h : Valid b W H bits) {x1 y1 x2 y2 : Int} (hi : ¬ InImage W H x1 y1 x2 y2) :
    outlineregion b x1 y1 x2 y2 = .ok b := by
  unfold outlineregion cmpimglines
  rw [rect_guard h, if_neg (by unfold InImage at hi; tauto)]

/-- C81 for the whole image. -/
theorem C81_image (h : Valid b W H bits) (hW : 0 < W) (hH : 0 < H) (ha : W * bits % 8 = 0) :
    ∃ b', outline b = .ok b' ∧ Redraws b b' W H bits
      (fun px py => if py = 0 then 0 else pix b W H bits px py ^^^ pix b W H bits px (py - 1)) := by
  have hmx : getmaxx b = .ok (W : Int) := h.getmaxx_eq
  have hmy : getmaxy b = .ok (H : Int) := h.getmaxy_eq
  unfold outline
  rw [hmx, hmy]
  simp only [ok_bind]
  have hal : AlignedI bits 0 ((W : Int) - 1) := by
    constructor
    · rw [min_eq_left (by omega)]; simp
    · rw [max_eq_right (by omega), sub_add_cancel]; exact_mod_cast ha
  obtain ⟨b', e, a⟩ := C81_outline_partial h (x1 := 0) (y1 := 0) (x2 := (W : Int) - 1) (y2 := (H : Int) - 1)
    (by unfold InImage; omega) (by omega) (by omega) hal
  refine ⟨b', e, a.valid, a.header, ?_⟩
  intro px py hx hy
  rw [a.inside px py hx hy (by unfold inRect; rw [decide_eq_true_eq]; omega)]
  simp

/-- C81 is false for corners in another order: lines above the rectangle are overwritten. -/
theorem C81_false : ¬ ∀ (b : Bytes) (W H : Nat), Valid b W H 24 → ∀ (x1 y1 x2 y2 : Int), InImage W H x1 y1 x2 y2 →
    ∃ b', outlineregion b x1 y1 x2 y2 = .ok b' ∧ ∀ px py, px < W → py < H →
      ¬ inRect x1 y1 x2 y2 px py = true → pix b' W H 24 px py = pix b W H 24 px py := by
  intro hall
  obtain ⟨b, e0, v0, -⟩ := C01_newBMP_valid 1 4 24 (by simp [Depth]) (by norm_num) (by norm_num)
  have v1 := v0.valid_plotP (x := 0) (y := 1) (n := 5) (by norm_num) (by norm_num) (by norm_num)
  obtain ⟨b', e, hc⟩ := hall _ 1 4 v1 0 3 0 2 (by unfold InImage; norm_num)
  have hp := hc 0 1 (by norm_num) (by norm_num) (by decide)
  have key : (do let b ← newBMP 1 4 24
                 let b' ← outlineregion (plotP b 1 4 24 0 1 5) 0 3 0 2
                 pure (decide (pix b' 1 4 24 0 1 = pix (plotP b 1 4 24 0 1 5) 1 4 24 0 1))) = .ok false := by decide +kernel
  have e0' : newBMP 1 4 24 = .ok b := e0
  rw [e0', ok_bind, e, ok_bind] at key
  have := Except.ok.inj key
  simp [hp] at this

example : (do let b ← newBMP 2 4 24; let b ← plotxybit b 0 1 5; let b ← plotxybit b 0 2 6
              let b ← outlineregion b 0 1 1 3
              pure (← getxybit b 0 1, ← getxybit b 0 2, ← getxybit b 0 3, ← getxybit b 0 0)) = .ok (0, 3, 6, 0) := by
  decide +kernel

/-! ### Mirrors that exchange single pixels -/

theorem pyShr_one (d : Int) : pyShr d 1 = d / 2 := by
  unfold pyShr
  norm_num

/-- C82: the horizontal mirror by single pixels, on all depths, for corners in order. -/
theorem C82_horizontal_partial (h : Valid b W H bits) {x1 y1 x2 y2 : Int} (hi : InImage W H x1 y1 x2 y2) (hx : x1 ≤ x2)
    (hy : y1 ≤ y2) :
    ∃ b', fliphorzontalpixelbased b x1 y1 x2 y2 = .ok b' ∧
      Alters b b' W H bits (fun px py => inRect x1 y1 x2 y2 px py = true)
        (fun px py => pix b W H bits (x1 + x2 - px).toNat py) := by
  obtain ⟨b', e, hv, hh, hc⟩ := zone_fold (W := W) (H := H) (bits := bits) (fun b p q => pix b W H bits p q)
    (fun p q => p < W ∧ q < H)
    (fun (x : Int) p q => ((p : Int) = x ∨ (p : Int) = x1 + x2 - x) ∧ y1 ≤ q ∧ (q : Int) ≤ y2)
    (fun _ g p q => g (x1 + x2 - p).toNat q)
    (fun bmp x => (pyRange y1 (y2 + 1)).foldlM (fun bmp y => swapcolors bmp (x, y) (x1 + x2 - x, y)) bmp)
    (pyRange x1 (x1 + (x2 - x1) / 2 + 1))
    (by
      refine List.Pairwise.imp_of_mem ?_ (nodup_pyRange _ _)
      intro a a' ha ha' hne p q hz hz'
      rw [mem_pyRange] at ha ha'
      omega)
    (by
      intro x hxm g g' hg p q hD hz
      rw [mem_pyRange] at hxm
      unfold InImage at hi
      exact hg _ _ ⟨by omega, hD.2⟩ ⟨by omega, hz.2⟩)
    (by
      intro b hb x hxm
      rw [mem_pyRange] at hxm
      have hi' := id hi
      unfold InImage at hi'
      obtain ⟨xn, rfl⟩ := Int.eq_ofNat_of_zero_le (show 0 ≤ x by omega)
      obtain ⟨xm, hxm2⟩ := Int.eq_ofNat_of_zero_le (show 0 ≤ x1 + x2 - xn by omega)
      obtain ⟨b', e, hv, hh, hc⟩ := zone_fold (W := W) (H := H) (bits := bits) (fun b p q => pix b W H bits p q)
        (fun p q => p < W ∧ q < H)
        (fun (y : Int) p q => (p = xn ∨ p = xm) ∧ (q : Int) = y)
        (fun _ g p q => g (x1 + x2 - p).toNat q)
        (fun bmp y => swapcolors bmp ((xn : Int), y) (x1 + x2 - xn, y))
        (pyRange y1 (y2 + 1))
        (by
          refine List.Pairwise.imp_of_mem ?_ (nodup_pyRange _ _)
          intro a a' _ _ hne p q hz hz'
          omega)
        (by
          intro y hym g g' hg p q hD hz
          exact hg _ _ ⟨by omega, hD.2⟩ ⟨by omega, hz.2⟩)
        (by
          intro b hb y hym
          rw [mem_pyRange] at hym
          obtain ⟨yn, rfl⟩ := Int.eq_ofNat_of_zero_le (show 0 ≤ y by omega)
          obtain ⟨b', e, hv, hh, hc⟩ := C11_swap hb (x1 := xn) (y1 := yn) (x2 := xm) (y2 := yn) (by omega) (by omega)
            (by omega) (by omega)
          rw [hxm2]
          refine ⟨b', e, hv, hh, ?_⟩
          intro p q ⟨hp, hq⟩
          have := hc p q hp hq
          constructor
          · rintro ⟨hz, hz2⟩
            obtain rfl : q = yn := by omega
            rw [this]
            split_ifs with c1 c2
            · rw [show (x1 + x2 - (p : Int)).toNat = xm by omega]
            · rw [show (x1 + x2 - (p : Int)).toNat = xn by omega]
            · omega
          · intro hz
            rw [this, if_neg (by omega), if_neg (by omega)])
        hb
      refine ⟨b', e, hv, hh, ?_⟩
      intro p q hD
      constructor
      · rintro ⟨hz, hz2⟩
        exact (hc p q hD).1 q (by rw [mem_pyRange]; omega) ⟨by omega, rfl⟩
      · intro hz
        refine (hc p q hD).2 ?_
        intro y hym
        rw [mem_pyRange] at hym
        omega)
    h
  refine ⟨b', ?_, hv, hh, ?_, ?_⟩
  · unfold fliphorzontalpixelbased
    rw [rect_guard h, if_pos (by unfold InImage at hi; omega), pyShr_one]
    exact e
  · intro px py hpx hpy hin
    unfold inRect at hin
    rw [decide_eq_true_eq] at hin
    have hx' : x1 ≤ min (px : Int) (x1 + x2 - px) ∧ min (px : Int) (x1 + x2 - px) < x1 + (x2 - x1) / 2 + 1 := by omega
    exact (hc px py ⟨hpx, hpy⟩).1 (min (px : Int) (x1 + x2 - px)) (mem_pyRange.mpr hx') (by omega)
  · intro px py hpx hpy hin
    unfold inRect at hin
    rw [decide_eq_true_eq] at hin
    refine (hc px py ⟨hpx, hpy⟩).2 ?_
    intro x hxm
    rw [mem_pyRange] at hxm
    omega

/-- C82: the vertical mirror by single pixels, on all depths, for corners in order. -/
theorem C82_vertical_partial (h : Valid b W H bits) {x1 y1 x2 y2 : Int} (hi : InImage W H x1 y1 x2 y2) (hx : x1 ≤ x2)
    (hy : y1 ≤ y2) :
    ∃ b', fliphverticalalpixelbased b x1 y1 x2 y2 = .ok b' ∧
      Alters b b' W H bits (fun px py => inRect x1 y1 x2 y2 px py = true)
        (fun px py => pix b W H bits px (y1 + y2 - py).toNat) := by
  obtain ⟨b', e, hv, hh, hc⟩ := zone_fold (W := W) (H := H) (bits := bits) (fun b p q => pix b W H bits p q)
    (fun p q => p < W ∧ q < H)
    (fun (y : Int) p q => ((q : Int) = y ∨ (q : Int) = y1 + y2 - y) ∧ x1 ≤ p ∧ (p : Int) ≤ x2)
    (fun _ g p q => g p (y1 + y2 - q).toNat)
    (fun bmp y => (pyRange x1 (x2 + 1)).foldlM (fun bmp x => swapcolors bmp (x, y) (x, y1 + y2 - y)) bmp)
    (pyRange y1 (y1 + (y2 - y1) / 2 + 1))
    (by
      refine List.Pairwise.imp_of_mem ?_ (nodup_pyRange _ _)
      intro a a' ha ha' hne p q hz hz'
      rw [mem_pyRange] at ha ha'
      omega)
    (by
      intro x hxm g g' hg p q hD hz
      rw [mem_pyRange] at hxm
      unfold InImage at hi
      exact hg _ _ ⟨hD.1, by omega⟩ ⟨by omega, hz.2⟩)
    (by
      intro b hb y hym
      rw [mem_pyRange] at hym
      have hi' := id hi
      unfold InImage at hi'
      obtain ⟨yn, rfl⟩ := Int.eq_ofNat_of_zero_le (show 0 ≤ y by omega)
      obtain ⟨ym, hym2⟩ := Int.eq_ofNat_of_zero_le (show 0 ≤ y1 + y2 - yn by omega)
      obtain ⟨b', e, hv, hh, hc⟩ := zone_fold (W := W) (H := H) (bits := bits) (fun b p q => pix b W H bits p q)
        (fun p q => p < W ∧ q < H)
        (fun (x : Int) p q => (q = yn ∨ q = ym) ∧ (p : Int) = x)
        (fun _ g p q => g p (y1 + y2 - q).toNat)
        (fun bmp x => swapcolors bmp (x, (yn : Int)) (x, y1 + y2 - yn))
        (pyRange x1 (x2 + 1))
        (by
          refine List.Pairwise.imp_of_mem ?_ (nodup_pyRange _ _)
          intro a a' _ _ hne p q hz hz'
          omega)
        (by
          intro x hxm g g' hg p q hD hz
          exact hg _ _ ⟨hD.1, by omega⟩ ⟨by omega, hz.2⟩)
        (by
          intro b hb x hxm
          rw [mem_pyRange] at hxm
          obtain ⟨xn, rfl⟩ := Int.eq_ofNat_of_zero_le (show 0 ≤ x by omega)
          obtain ⟨b', e, hv, hh, hc⟩ := C11_swap hb (x1 := xn) (y1 := yn) (x2 := xn) (y2 := ym) (by omega) (by omega)
            (by omega) (by omega)
          rw [hym2]
          refine ⟨b', e, hv, hh, ?_⟩
          intro p q ⟨hp, hq⟩
          have := hc p q hp hq
          constructor
          · rintro ⟨hz, hz2⟩
            obtain rfl : p = xn := by omega
            rw [this]
            split_ifs with c1 c2
            · rw [show (y1 + y2 - (q : Int)).toNat = ym by omega]
            · rw [show (y1 + y2 - (q : Int)).toNat = yn by omega]
            · omega
          · intro hz
            rw [this, if_neg (by omega), if_neg (by omega)])
        hb
      refine ⟨b', e, hv, hh, ?_⟩
      intro p q hD
      constructor
      · rintro ⟨hz, hz2⟩
        exact (hc p q hD).1 p (by rw [mem_pyRange]; omega) ⟨by omega, rfl⟩
      · intro hz
        refine (hc p q hD).2 ?_
        intro y hym
        rw [mem_pyRange] at hym
        omega)
    h
  refine ⟨b', ?_, hv, hh, ?_, ?_⟩
  · unfold fliphverticalalpixelbased
    rw [rect_guard h, if_pos (by unfold InImage at hi; omega), pyShr_one]
    exact e
  · intro px py hpx hpy hin
    unfold inRect at hin
    rw [decide_eq_true_eq] at hin
    have hy' : y1 ≤ min (py : Int) (y1 + y2 - py) ∧ min (py : Int) (y1 + y2 - py) < y1 + (y2 - y1) / 2 + 1 := by omega
    exact (hc px py ⟨hpx, hpy⟩).1 (min (py : Int) (y1 + y2 - py)) (mem_pyRange.mpr hy') (by omega)
  · intro px py hpx hpy hin
    unfold inRect at hin
    rw [decide_eq_true_eq] at hin
    refine (hc px py ⟨hpx, hpy⟩).2 ?_
    intro x hxm
    rw [mem_pyRange] at hxm
    omega

theorem foldlM_id {α : Type} (l : List α) (b : Bytes) : l.foldlM (fun b _ => (.ok b : Py Bytes)) b = .ok b := by
  induction l with
  | nil => rfl
  | cons a l ih => rw [List.foldlM_cons]; exact ih

theorem pyRange_empty {a e : Int} (he : e ≤ a) : pyRange a e = [] := by
  rw [List.eq_nil_iff_forall_not_mem]
  intro x hx
  rw [mem_pyRange] at hx
  omega

/-- C82, the fault: with corners in any other order nothing is mirrored. -/
theorem C82_reversed (h : Valid b W H bits) {x1 y1 x2 y2 : Int} (ho : x2 < x1 ∨ y2 < y1) :
    fliphorzontalpixelbased b x1 y1 x2 y2 = .ok b ∧ fliphverticalalpixelbased b x1 y1 x2 y2 = .ok b := by
  unfold fliphorzontalpixelbased fliphverticalalpixelbased
  rw [rect_guard h, rect_guard h, pyShr_one, pyShr_one]
  dsimp only
  constructor
  · split_ifs with c
    · rcases ho with ho | ho
      · rw [pyRange_empty (show x1 + (x2 - x1) / 2 + 1 ≤ x1 by omega)]; rfl
      · rw [pyRange_empty (show y2 + 1 ≤ y1 by omega)]; exact foldlM_id _ _
    · rfl
  · split_ifs with c
    · rcases ho with ho | ho
      · rw [pyRange_empty (show x2 + 1 ≤ x1 by omega)]; exact foldlM_id _ _
      · rw [pyRange_empty (show y1 + (y2 - y1) / 2 + 1 ≤ y1 by omega)]; rfl
    · rfl

/-- C82: a rectangle that leaves the image is not touched. -/
theorem C82_rejected (h : Valid b W H bits) {x1 y1 x2 y2 : Int} (hi : ¬ InImage W H x1 y1 x2 y2) :
    fliphorzontalpixelbased b x1 y1 x2 y2 = .ok b ∧ fliphverticalalpixelbased b x1 y1 x2 y2 = .ok b := by
  unfold fliphorzontalpixelbased fliphverticalalpixelbased
  rw [rect_guard h, rect_guard h, if_neg (by unfold InImage at hi; tauto), if_neg (by unfold InImage at hi; tauto)]
  exact ⟨rfl, rfl⟩

/-- C82: a second call of the same mirror restores every pixel. -/
theorem C82_twice (h : Valid b W H bits) {x1 y1 x2 y2 : Int} (hi : InImage W H x1 y1 x2 y2) (hx : x1 ≤ x2) (hy : y1 ≤ y2) :
    (∃ b', (do let b1 ← fliphorzontalpixelbased b x1 y1 x2 y2; fliphorzontalpixelbased b1 x1 y1 x2 y2) = .ok b' ∧
      Redraws b b' W H bits (pix b W H bits)) ∧
    ∃ b', (do let b1 ← fliphverticalalpixelbased b x1 y1 x2 y2; fliphverticalalpixelbased b1 x1 y1 x2 y2) = .ok b' ∧
      Redraws b b' W H bits (pix b W H bits) := by
  have hi' := id hi
  unfold InImage at hi'
  constructor
  · obtain ⟨b1, e1, a1⟩ := C82_horizontal_partial h hi hx hy
    obtain ⟨b2, e2, a2⟩ := C82_horizontal_partial a1.valid hi hx hy
    refine ⟨b2, by rw [e1]; exact e2, a2.valid,
      ⟨a2.header.1.trans a1.header.1, fun i hi => (a2.header.2 i hi).trans (a1.header.2 i hi)⟩, ?_⟩
    intro px py hpx hpy
    by_cases c : inRect x1 y1 x2 y2 px py = true
    · have c' := id c
      unfold inRect at c'
      rw [decide_eq_true_eq] at c'
      rw [a2.inside px py hpx hpy c, a1.inside _ py (by omega) hpy (by unfold inRect; rw [decide_eq_true_eq]; omega)]
      congr 1
      omega
    · rw [a2.outside px py hpx hpy c, a1.outside px py hpx hpy c]
  · obtain ⟨b1, e1, a1⟩ := C82_vertical_partial h hi hx hy
    obtain ⟨b2, e2, a2⟩ := C82_vertical_partial a1.valid hi hx hy
    refine ⟨b2, by rw [e1]; exact e2, a2.valid,
      ⟨a2.header.1.trans a1.header.1, fun i hi => (a2.header.2 i hi).trans (a1.header.2 i hi)⟩, ?_⟩
    intro px py hpx hpy
    by_cases c : inRect x1 y1 x2 y2 px py = true
    · have c' := id c
      unfold inRect at c'
      rw [decide_eq_true_eq] at c'
      rw [a2.inside px py hpx hpy c, a1.inside px _ hpx (by omega) (by unfold inRect; rw [decide_eq_true_eq]; omega)]
      congr 1
      omega
    · rw [a2.outside px py hpx hpy c, a1.outside px py hpx hpy c]

example : (do let b ← newBMP 5 2 4; let b ← plotxybit b 1 0 5; let b ← plotxybit b 2 1 6
              let b ← fliphorzontalpixelbased b 1 0 4 1
              pure (← getxybit b 4 0, ← getxybit b 1 0, ← getxybit b 3 1, ← getxybit b 2 1)) = .ok (5, 0, 6, 0) := by
  decide +kernel

example : (do let b ← newBMP 2 4 1; let b ← plotxybit b 1 1 1
              let b ← fliphverticalalpixelbased b 0 1 1 3
              pure (← getxybit b 1 1, ← getxybit b 1 3)) = .ok (0, 1) := by decide +kernel

end
end Verif.Props
