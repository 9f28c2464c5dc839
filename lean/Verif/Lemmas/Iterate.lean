import Verif.Lemmas.Rows
import Verif.SpecImage
import Verif.Model.Image
/-! The `while` loop shared by `iterimagecolor` and `iterimageRGB`. -/

namespace Verif
open Spec Model Props

/-- The part of row `y` from column `s` on. -/
def rowFrom {α : Type} (W : Nat) (f : Nat → Nat → α) (y s : Nat) : List ((Int × Int) × α) :=
  (List.range (W - s)).map fun (t : Nat) => ((((s + t : Nat) : Int), (y : Int)), f (s + t) y)

theorem rowFrom_eq {α : Type} (W : Nat) (f : Nat → Nat → α) (y s : Nat) :
    rowFrom W f y s = (List.range (W - s)).map fun (t : Nat) => ((((s + t : Nat) : Int), (y : Int)), f (s + t) y) := rfl

theorem rowFrom_zero {α : Type} (W : Nat) (f : Nat → Nat → α) (y : Nat) : rowFrom W f y 0 = scanRow W f y := by
  rw [rowFrom_eq, scanRow]; simp

theorem rowFrom_nil {α : Type} {W : Nat} (f : Nat → Nat → α) (y : Nat) {s : Nat} (h : W ≤ s) : rowFrom W f y s = [] := by
  rw [rowFrom_eq, show W - s = 0 by omega]; rfl

theorem emit_eq {α : Type} (W : Nat) (y : Int) (p : Nat) (x : Nat) (g : Nat → α) :
    emit (W : Int) y (x : Int) ((List.range p).map g)
      = (List.range (min p (W - x))).map fun t => ((((x + t : Nat) : Int), y), g t) := by
  induction p generalizing x g with
  | zero => simp [emit]
  | succ p ih =>
    rw [List.range_succ_eq_map, List.map_cons, List.map_map, emit]
    have := ih (x + 1) (g ∘ Nat.succ)
    rw [show ((x + 1 : Nat) : Int) = (x : Int) + 1 by push_cast; rfl] at this
    rw [this]
    by_cases hx : x < W
    · rw [if_pos (by omega), show min (p + 1) (W - x) = min p (W - (x + 1)) + 1 by omega,
        List.range_succ_eq_map, List.map_cons, List.map_map]
      simp only [List.singleton_append, Nat.add_zero, List.cons.injEq, true_and]
      apply List.map_congr_left
      intro t _
      simp only [Function.comp, Nat.succ_eq_add_one]
      rw [show x + 1 + t = x + (t + 1) by omega]
    · rw [if_neg (by omega), show min (p + 1) (W - x) = 0 by omega, show min p (W - (x + 1)) = 0 by omega]
      rfl

theorem emit_row {α : Type} (W : Nat) (f : Nat → Nat → α) (p s y : Nat) :
    emit (W : Int) (y : Int) (s : Int) ((List.range p).map fun t => f (s + t) y) ++ rowFrom W f y (s + p)
      = rowFrom W f y s := by
  rw [emit_eq, rowFrom_eq, rowFrom_eq]
  by_cases h : s + p ≤ W
  · rw [show min p (W - s) = p by omega, show W - s = p + (W - (s + p)) by omega, List.range_add, List.map_append,
      List.map_map]
    congr 1
    apply List.map_congr_left
    intro t _
    simp only [Function.comp]
    rw [show s + p + t = s + (p + t) by omega]
  · rw [show min p (W - s) = W - s by omega, show W - (s + p) = 0 by omega]
    simp

theorem scan_zero {α : Type} (W : Nat) (f : Nat → Nat → α) : scan W 0 f = [] := rfl

theorem scan_succ {α : Type} (W H : Nat) (f : Nat → Nat → α) :
    scan W (H + 1) f = scanRow W f H ++ scan W H f := by
  unfold scan
  rw [List.range_succ, List.reverse_append]
  rfl

/-- The loop visits all rows when the end of each row is noticed. -/
theorem iterLoop_scan {α : Type} {colors : Int → Py (List α)} {rowend : Int → Bool} {f : Nat → Nat → α}
    {W H R D p doff pb : Nat} (hR : R = doff * D + pb)
    (hdoff : 0 < doff) (hDW : W ≤ p * D) (hD : 0 < D)
    (hc : ∀ y i, y < H → i < D → colors (((H - 1 - y) * R + doff * i : Nat) : Int)
      = .ok ((List.range p).map fun t => f (p * i + t) y))
    (hrow : ∀ i, i < D → rowend ((p * (i + 1) : Nat) : Int) = decide (i + 1 = D)) (m : Nat) :
    ∀ y i n : Nat, y < H → i < D → m = y * D + (D - i) → m ≤ n →
      iterLoop colors rowend (W : Int) (pb : Int) (doff : Int) ((H * R : Nat) : Int) n
        (((H - 1 - y) * R + doff * i : Nat) : Int) ((p * i : Nat) : Int) (y : Int)
      = .ok (rowFrom W f y (p * i) ++ scan W y f) := by
  induction m with
  | zero => intro y i n _ hi hm _; omega
  | succ m ih =>
    intro y i n hy hi hm hn
    obtain ⟨n, rfl⟩ : ∃ n', n = n' + 1 := ⟨n - 1, by omega⟩
    have hdi : doff * i + doff ≤ doff * D := by
      have := Nat.mul_le_mul_left doff (show i + 1 ≤ D by omega)
      rw [Nat.mul_add] at this; omega
    have hyR := row_lt (S := R) (show H - 1 - y < H by omega)
    rw [iterLoop, if_pos (by rw [Int.ofNat_lt]; omega), hc y i hy hi]
    simp only [ok_bind]
    rw [List.length_map, List.length_range]
    rw [show ((p * i : Nat) : Int) + (p : Int) = ((p * (i + 1) : Nat) : Int) by push_cast; ring]
    rw [hrow i hi]
    have he := emit_row W f p (p * i) y
    rw [show p * i + p = p * (i + 1) by ring] at he
    by_cases hl : i + 1 = D
    · rw [if_pos (by simpa using hl)]
      have hend : doff * i + doff = doff * D := by rw [← hl]; ring
      have hnil : rowFrom W f y (p * (i + 1)) = [] := rowFrom_nil _ _ (by rw [hl]; exact hDW)
      rw [hnil, List.append_nil] at he
      rw [he]
      cases y with
      | zero =>
        have hoff : (((H - 1 - 0) * R + doff * i : Nat) : Int) + (pb : Int) + (doff : Int) = ((H * R : Nat) : Int) := by
          have : (H - 1 - 0) * R + R = H * R := by
            rw [← Nat.succ_mul]; congr 1; omega
          rw [← this]; omega
        have : iterLoop colors rowend (W : Int) (pb : Int) (doff : Int) ((H * R : Nat) : Int) n
            ((((H - 1 - 0) * R + doff * i : Nat) : Int) + (pb : Int) + (doff : Int)) 0 (((0 : Nat) : Int) - 1) = .ok [] := by
          rw [hoff]
          cases n with
          | zero => rfl
          | succ n => rw [iterLoop, if_neg (by omega)]; rfl
        rw [this]
        simp [scan_zero, ok_bind, pure_eq_ok]
      | succ y =>
        have hoff : (((H - 1 - (y + 1)) * R + doff * i : Nat) : Int) + (pb : Int) + (doff : Int)
            = (((H - 1 - y) * R + doff * 0 : Nat) : Int) := by
          have : (H - 1 - (y + 1)) * R + R = (H - 1 - y) * R := by
            rw [← Nat.succ_mul]; congr 1; omega
          rw [← this]; push_cast; omega
        have := ih y 0 n (by omega) hD (by rw [Nat.succ_mul] at hm; omega) (by omega)
        rw [hoff, show (((y + 1 : Nat) : Int) - 1) = (y : Int) by push_cast; omega]
        rw [Nat.mul_zero p] at this
        rw [show ((0 : Nat) : Int) = 0 from rfl] at this
        rw [this, rowFrom_zero, scan_succ]
        rfl
    · rw [if_neg (by simpa using hl)]
      have := ih y (i + 1) n hy (by omega) (by omega) (by omega)
      have hoff : (((H - 1 - y) * R + doff * i : Nat) : Int) + (doff : Int)
          = (((H - 1 - y) * R + doff * (i + 1) : Nat) : Int) := by push_cast; ring
      rw [hoff, this, ← he]
      simp [ok_bind, pure_eq_ok]

/-- The loop when the end of a row is never noticed: only the bottom row comes out. -/
theorem iterLoop_stuck {α : Type} {colors : Int → Py (List α)} {rowend : Int → Bool} {f : Nat → Nat → α}
    {W D p M : Nat} {pb : Int} (hDW : W ≤ p * D) (hM : D ≤ M) (y : Nat)
    (hc : ∀ i, i < D → colors (i : Int) = .ok ((List.range p).map fun t => f (p * i + t) y))
    (hc' : ∀ i, D ≤ i → i < M → ∃ g : Nat → α, colors (i : Int) = .ok ((List.range p).map g))
    (hrow : ∀ i, rowend ((p * (i + 1) : Nat) : Int) = false) :
    ∀ n i : Nat, M ≤ n + i →
      iterLoop colors rowend (W : Int) pb 1 (M : Int) n (i : Int) ((p * i : Nat) : Int) (y : Int)
      = .ok (rowFrom W f y (p * i)) := by
  intro n
  induction n with
  | zero =>
    intro i hi
    rw [rowFrom_nil _ _ (le_trans hDW (Nat.mul_le_mul_left p (by omega)))]
    rfl
  | succ n ih =>
    intro i hi
    rw [iterLoop]
    by_cases hlt : i < M
    · rw [if_pos (by omega)]
      have hstep : ∀ g : Nat → α, colors (i : Int) = .ok ((List.range p).map g) →
          emit (W : Int) (y : Int) ((p * i : Nat) : Int) ((List.range p).map g) ++ rowFrom W f y (p * (i + 1))
            = rowFrom W f y (p * i) →
          (do
            let cs ← colors (i : Int)
            let pts := emit (W : Int) (y : Int) ((p * i : Nat) : Int) cs
            let x := ((p * i : Nat) : Int) + (cs.length : Int)
            let rest ← if rowend x = true then iterLoop colors rowend (W : Int) pb 1 (M : Int) n ((i : Int) + pb + 1) 0 ((y : Int) - 1)
              else iterLoop colors rowend (W : Int) pb 1 (M : Int) n ((i : Int) + 1) x (y : Int)
            pure (pts ++ rest) : Py _) = .ok (rowFrom W f y (p * i)) := by
        intro g hg he
        rw [hg]
        simp only [ok_bind]
        rw [List.length_map, List.length_range]
        rw [show ((p * i : Nat) : Int) + (p : Int) = ((p * (i + 1) : Nat) : Int) by push_cast; ring, hrow i]
        have := ih (i + 1) (by omega)
        rw [show ((i + 1 : Nat) : Int) = (i : Int) + 1 by push_cast; rfl] at this
        rw [if_neg (by simp), this, ← he]
        rfl
      by_cases hiD : i < D
      · have he := emit_row W f p (p * i) y
        rw [show p * i + p = p * (i + 1) by ring] at he
        exact hstep _ (hc i hiD) he
      · obtain ⟨g, hg⟩ := hc' i (by omega) hlt
        refine hstep g hg ?_
        have hle : p * D ≤ p * i := Nat.mul_le_mul_left p (by omega)
        have hle2 : p * i ≤ p * (i + 1) := Nat.mul_le_mul_left p (by omega)
        rw [rowFrom_nil _ _ (by omega), rowFrom_nil _ _ (by omega), emit_eq, show min p (W - p * i) = 0 by omega]
        rfl
    · rw [if_neg (by omega), rowFrom_nil _ _ (le_trans hDW (Nat.mul_le_mul_left p (by omega)))]
      rfl

end Verif
