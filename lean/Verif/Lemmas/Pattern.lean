import Verif.Lemmas.Paint
import Verif.Model.Pattern
import Verif.SpecText
import Mathlib.Data.Nat.Bitwise
/-! What the loops over pattern rows and bits paint, for any way of drawing a single bit. -/

namespace Verif.Lemmas
open Verif Spec Model

theorem mask_pos (v k : Nat) : (2 ^ k &&& v > 0) ↔ v / 2 ^ k % 2 = 1 := by
  rw [Nat.two_pow_and, Nat.testBit_eq_decide_div_mod_eq]
  by_cases h : v / 2 ^ k % 2 = 1
  · simp [h, Nat.pow_pos]
  · simp [h]

def powMasks : Nat → List Nat
  | 0 => []
  | n + 1 => 2 ^ n :: powMasks n

theorem patMasks_eq : patMasks = powMasks 8 := rfl

theorem SameHeader_trans {b b' b'' : Bytes} {bits : Nat} (h : SameHeader b b' bits) (h' : SameHeader b' b'' bits) :
    SameHeader b b'' bits := ⟨h'.1.trans h.1, fun i hi => (h'.2 i hi).trans (h.2 i hi)⟩

theorem patRow_masks {W H bits c : Nat} {put : Bytes → Int → Int → Py Bytes} {S : Int → Int → Nat → Nat → Prop}
    (v : Nat) (dx dy : Int) (n : Nat) (x y : Int) {b0 : Bytes}
    (hput : ∀ j : Nat, j < n → v / 2 ^ (n - 1 - j) % 2 = 1 → ∀ b, Valid b W H bits → SameHeader b0 b bits →
      ∃ b', put b (x + j * dx) (y + j * dy) = .ok b' ∧
      Paints b b' W H bits (S (x + j * dx) (y + j * dy)) c) {b : Bytes} (h : Valid b W H bits) (h0 : SameHeader b0 b bits) :
    ∃ b', patRow put dx dy v (powMasks n) b x y = .ok b' ∧ Paints b b' W H bits (fun px py =>
      ∃ j : Nat, j < n ∧ v / 2 ^ (n - 1 - j) % 2 = 1 ∧ S (x + j * dx) (y + j * dy) px py) c := by
  induction n generalizing b x y with
  | zero => exact ⟨b, rfl, Paints.refl h _ (by intro _ _ _ _ ⟨j, hj, _⟩; omega)⟩
  | succ n ih =>
    obtain ⟨b1, e1, p1⟩ : ∃ b1, (if 2 ^ n &&& v > 0 then put b x y else pure b : Py Bytes) = .ok b1 ∧
        Paints b b1 W H bits (fun px py => v / 2 ^ n % 2 = 1 ∧ S x y px py) c := by
      by_cases hm : v / 2 ^ n % 2 = 1
      · obtain ⟨b1, e1, p1⟩ := hput 0 (by omega) (by simpa using hm) b h h0
        simp only [Nat.cast_zero, zero_mul, add_zero] at e1 p1
        refine ⟨b1, by rw [if_pos ((mask_pos v n).mpr hm), e1], p1.congr ?_⟩
        intro _ _ _ _; simp [hm]
      · refine ⟨b, by rw [if_neg (fun hc => hm ((mask_pos v n).mp hc))]; rfl, Paints.refl h _ ?_⟩
        intro _ _ _ _ hc; exact hm hc.1
    have shift : ∀ (a d : Int) (j : Nat), a + ((j + 1 : Nat) : Int) * d = a + d + j * d := by
      intro a d j; push_cast; ring
    obtain ⟨b2, e2, p2⟩ := ih (x + dx) (y + dy) (by
      intro j hj hl
      have := hput (j + 1) (by omega) (by rw [show n + 1 - 1 - (j + 1) = n - 1 - j by omega]; exact hl)
      simpa only [shift] using this) p1.valid (SameHeader_trans h0 p1.header)
    refine ⟨b2, ?_, p1.trans p2 ?_⟩
    · rw [powMasks, patRow, e1]; exact e2
    · intro px py _ _
      constructor
      · rintro ⟨j, hj, hv, hs⟩
        rcases j with _ | j
        · left; simpa using ⟨hv, by simpa using hs⟩
        · right
          refine ⟨j, by omega, by rw [show n - 1 - j = n + 1 - 1 - (j + 1) by omega]; exact hv, ?_⟩
          have a1 : x + ((j + 1 : Nat) : Int) * dx = x + dx + j * dx := by push_cast; ring
          have a2 : y + ((j + 1 : Nat) : Int) * dy = y + dy + j * dy := by push_cast; ring
          rwa [a1, a2] at hs
      · rintro (⟨hv, hs⟩ | ⟨j, hj, hv, hs⟩)
        · exact ⟨0, by omega, by simpa using hv, by simpa using hs⟩
        · refine ⟨j + 1, by omega, by rw [show n + 1 - 1 - (j + 1) = n - 1 - j by omega]; exact hv, ?_⟩
          have a1 : x + ((j + 1 : Nat) : Int) * dx = x + dx + j * dx := by push_cast; ring
          have a2 : y + ((j + 1 : Nat) : Int) * dy = y + dy + j * dy := by push_cast; ring
          rw [a1, a2]; exact hs

/-- Where row `i` paints. -/
def Covers (S : Int → Int → Nat → Nat → Prop) (dx dy : Int) (pos : Nat → Int × Int) (pat : List Nat) (i px py : Nat) : Prop :=
  ∃ j : Nat, j < 8 ∧ Lit pat i j ∧ S ((pos i).1 + j * dx) ((pos i).2 + j * dy) px py

/-- Row by row, each row in its own colour `col i`; the later row wins. The dots are painted on images with the header and
palette of `b0`. -/
theorem patRows_rows {W H bits : Nat} {put : Int → Bytes → Int → Int → Py Bytes} {S : Int → Int → Nat → Nat → Prop}
    {next : Int × Int → Int × Int} {steps : Nat} {color : PatColor} {dx dy : Int} (pat : List Nat)
    (pos : Nat → Int × Int) (hpos : ∀ i, pos (i + 1) = next (pos i))
    (ci : Nat → Nat) (hci : ∀ i, ci (i + 1) = rowInd steps color (ci i))
    (cl : Nat → Int) (hcl : ∀ i, i < pat.length → rowColor color (ci i) = .ok (cl i)) (col : Nat → Nat) {b0 : Bytes}
    (hput : ∀ i j : Nat, i < pat.length → j < 8 → Lit pat i j → ∀ b, Valid b W H bits → SameHeader b0 b bits →
      ∃ b', put (cl i) b ((pos i).1 + j * dx) ((pos i).2 + j * dy) = .ok b' ∧
      Paints b b' W H bits (S ((pos i).1 + j * dx) ((pos i).2 + j * dy)) (col i))
    {b : Bytes} (h : Valid b W H bits) (h0 : SameHeader b0 b bits) :
    ∃ b', patRows put dx dy next steps color pat (ci 0) b (pos 0) = .ok b' ∧ Valid b' W H bits ∧ SameHeader b b' bits ∧
      (∀ px py, px < W → py < H → (∀ i, i < pat.length → ¬ Covers S dx dy pos pat i px py) →
        pix b' W H bits px py = pix b W H bits px py) ∧
      (∀ i px py, i < pat.length → px < W → py < H → Covers S dx dy pos pat i px py →
        (∀ i', i < i' → i' < pat.length → ¬ Covers S dx dy pos pat i' px py) → pix b' W H bits px py = col i) := by
  induction pat generalizing pos ci cl col b with
  | nil => exact ⟨b, rfl, h, ⟨rfl, fun _ _ => rfl⟩, fun _ _ _ _ _ => rfl, fun i _ _ hi => absurd hi (by simp)⟩
  | cons v pat ih =>
    obtain ⟨b1, e1, p1⟩ := patRow_masks v dx dy 8 (pos 0).1 (pos 0).2
      (fun j hj hl => hput 0 j (by simp) hj hl) h h0
    obtain ⟨b2, e2, v2, s2, o2, i2⟩ := ih (fun i => pos (i + 1)) (fun i => hpos (i + 1)) (fun i => ci (i + 1))
      (fun i => hci (i + 1)) (fun i => cl (i + 1)) (fun i hi => hcl (i + 1) (by simpa using hi)) (fun i => col (i + 1))
      (fun i j hi hj hl => hput (i + 1) j (by simpa using hi) hj hl) p1.valid (SameHeader_trans h0 p1.header)
    have shift : ∀ i px py, Covers S dx dy (fun i => pos (i + 1)) pat i px py ↔ Covers S dx dy pos (v :: pat) (i + 1) px py :=
      fun _ _ _ => Iff.rfl
    refine ⟨b2, ?_, v2, ⟨s2.1.trans p1.header.1, fun i hi => (s2.2 i hi).trans (p1.header.2 i hi)⟩, ?_, ?_⟩
    · have e0 := hcl 0 (by simp)
      simp only [patRows, e0, ok_bind, patMasks_eq, e1]
      rw [← hpos, ← hci]
      exact e2
    · intro px py hx hy hn
      rw [o2 px py hx hy (fun i hi => by rw [shift]; exact hn (i + 1) (by simpa using hi))]
      exact p1.outside px py hx hy (hn 0 (by simp))
    · intro i px py hi hx hy hc hl
      rcases i with _ | i
      · rw [o2 px py hx hy (fun i hi => by rw [shift]; exact hl (i + 1) (by omega) (by simpa using hi))]
        exact p1.inside px py hx hy hc
      · exact i2 i px py (by simpa using hi) hx hy hc
          (fun i' h1 h2 => by rw [shift]; exact hl (i' + 1) (by omega) (by simpa using h2))

theorem exists_last (P : Nat → Prop) (n : Nat) (hp : ∃ i, i < n ∧ P i) :
    ∃ i, i < n ∧ P i ∧ ∀ i', i < i' → i' < n → ¬ P i' := by
  induction n with
  | zero => obtain ⟨i, hi, _⟩ := hp; omega
  | succ n ih =>
    by_cases hn : P n
    · exact ⟨n, by omega, hn, fun i' h1 h2 => by omega⟩
    · obtain ⟨i, hi, pi⟩ := hp
      have hne : i ≠ n := fun e => hn (e ▸ pi)
      obtain ⟨k, hk, pk, lk⟩ := ih ⟨i, by omega, pi⟩
      refine ⟨k, by omega, pk, fun i' h1 h2 hc => ?_⟩
      by_cases e : i' = n
      · exact hn (e ▸ hc)
      · exact lk i' h1 (by omega) hc

/-- One colour for all rows. -/
theorem patRows_one_at {W H bits : Nat} {put : Int → Bytes → Int → Int → Py Bytes} {S : Int → Int → Nat → Nat → Prop}
    {next : Int × Int → Int × Int} {steps : Nat} {c : Int} {dx dy : Int} (pat : List Nat)
    (pos : Nat → Int × Int) (hpos : ∀ i, pos (i + 1) = next (pos i)) (col : Nat) {b : Bytes}
    (hput : ∀ i j : Nat, i < pat.length → j < 8 → Lit pat i j → ∀ b1, Valid b1 W H bits → SameHeader b b1 bits →
      ∃ b', put c b1 ((pos i).1 + j * dx) ((pos i).2 + j * dy) = .ok b' ∧
      Paints b1 b' W H bits (S ((pos i).1 + j * dx) ((pos i).2 + j * dy)) col)
    (h : Valid b W H bits) :
    ∃ b', patRows put dx dy next steps (.one c) pat 0 b (pos 0) = .ok b' ∧ Paints b b' W H bits (fun px py =>
      ∃ i j : Nat, i < pat.length ∧ j < 8 ∧ Lit pat i j ∧ S ((pos i).1 + j * dx) ((pos i).2 + j * dy) px py) col := by
  obtain ⟨b', e, v, s, o, k⟩ := patRows_rows (color := .one c) (steps := steps) (dx := dx) (dy := dy) pat pos hpos
    (fun _ => 0) (fun _ => rfl) (fun _ => c) (fun _ _ => rfl) (fun _ => col) hput h ⟨rfl, fun _ _ => rfl⟩
  refine ⟨b', e, v, s, ?_, ?_⟩
  · rintro px py hx hy ⟨i, j, hi, hj, hl, hs⟩
    obtain ⟨i', h1, h2, h3⟩ := exists_last (fun i => Covers S dx dy pos pat i px py) pat.length ⟨i, hi, j, hj, hl, hs⟩
    exact k i' px py h1 hx hy h2 h3
  · intro px py hx hy hn
    exact o px py hx hy (fun i hi ⟨j, hj, hl, hs⟩ => hn ⟨i, j, hi, hj, hl, hs⟩)

/-- The same for dots that can be painted everywhere. -/
theorem patRows_one {W H bits : Nat} {put : Int → Bytes → Int → Int → Py Bytes} {S : Int → Int → Nat → Nat → Prop}
    {next : Int × Int → Int × Int} {steps : Nat} {c : Int} {dx dy : Int} (pat : List Nat)
    (pos : Nat → Int × Int) (hpos : ∀ i, pos (i + 1) = next (pos i)) (col : Nat)
    (hput : ∀ b, Valid b W H bits → ∀ x y, ∃ b', put c b x y = .ok b' ∧ Paints b b' W H bits (S x y) col)
    {b : Bytes} (h : Valid b W H bits) :
    ∃ b', patRows put dx dy next steps (.one c) pat 0 b (pos 0) = .ok b' ∧ Paints b b' W H bits (fun px py =>
      ∃ i j : Nat, i < pat.length ∧ j < 8 ∧ Lit pat i j ∧ S ((pos i).1 + j * dx) ((pos i).2 + j * dy) px py) col :=
  patRows_one_at pat pos hpos col (fun _ _ _ _ _ b hb _ => hput b hb _ _) h

/-- The colour counter after `i` rows. -/
theorem advInd_mod {n : Nat} (hn : 0 < n) (k ci : Nat) (hc : ci < n) : advInd n k ci = (ci + k) % n := by
  induction k generalizing ci with
  | zero => rw [advInd, Nat.add_zero, Nat.mod_eq_of_lt hc]
  | succ k ih =>
    rw [advInd]
    unfold nextInd
    by_cases h : ci + 1 = n
    · rw [if_pos h, ih 0 hn, show ci + (k + 1) = k + n by omega, Nat.add_mod_right, Nat.zero_add]
    · rw [if_neg h, ih (ci + 1) (by omega), show ci + 1 + k = ci + (k + 1) by omega]

/-- A list of colours: row `i` has colour number `steps * i` of the list, counted round and round. -/
theorem patRows_cycle {W H bits : Nat} {put : Int → Bytes → Int → Int → Py Bytes} {S : Int → Int → Nat → Nat → Prop}
    {next : Int × Int → Int × Int} {steps : Nat} {cs : List Int} {dx dy : Int} (hcs : cs ≠ []) (pat : List Nat)
    (pos : Nat → Int × Int) (hpos : ∀ i, pos (i + 1) = next (pos i)) (red : Int → Nat)
    (hput : ∀ c ∈ cs, ∀ b, Valid b W H bits → ∀ x y, ∃ b', put c b x y = .ok b' ∧ Paints b b' W H bits (S x y) (red c))
    {b : Bytes} (h : Valid b W H bits) :
    ∃ b', patRows put dx dy next steps (.cycle cs) pat 0 b (pos 0) = .ok b' ∧ Valid b' W H bits ∧ SameHeader b b' bits ∧
      (∀ px py, px < W → py < H → (∀ i, i < pat.length → ¬ Covers S dx dy pos pat i px py) →
        pix b' W H bits px py = pix b W H bits px py) ∧
      (∀ i px py, i < pat.length → px < W → py < H → Covers S dx dy pos pat i px py →
        (∀ i', i < i' → i' < pat.length → ¬ Covers S dx dy pos pat i' px py) →
        pix b' W H bits px py = red (cs.getD (steps * i % cs.length) 0)) := by
  have hn : 0 < cs.length := List.length_pos_iff.mpr hcs
  have hlt : ∀ i, steps * i % cs.length < cs.length := fun i => Nat.mod_lt _ hn
  have hget : ∀ i, cs.getD (steps * i % cs.length) 0 = cs[steps * i % cs.length]'(hlt i) := by
    intro i; simp [List.getD, List.getElem?_eq_getElem (hlt i)]
  have := patRows_rows (color := .cycle cs) (steps := steps) (dx := dx) (dy := dy) (W := W) (H := H) (bits := bits)
    (put := put) (S := S) (b0 := b) pat pos hpos
    (fun i => steps * i % cs.length) (by
      intro i
      show _ = advInd _ _ _
      rw [advInd_mod hn _ _ (hlt i), Nat.mod_add_mod, Nat.mul_succ]) (fun i => cs.getD (steps * i % cs.length) 0) (by
      intro i _
      simp only [rowColor, List.getElem?_eq_getElem (hlt i), hget]) (fun i => red (cs.getD (steps * i % cs.length) 0)) (by
      intro i j _ _ _ b hb _
      refine hput _ ?_ b hb _ _
      rw [hget]
      exact List.getElem_mem _) h ⟨rfl, fun _ _ => rfl⟩
  simpa using this

end Verif.Lemmas
