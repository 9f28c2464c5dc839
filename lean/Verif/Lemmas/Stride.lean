import Verif.Lemmas.NewBMP
import Verif.Model.Blt
/-! Extended slices down a column. -/

namespace Verif
open Spec Model

theorem stepCount_eq {s e k n : Nat} (hk : 0 < k) (hn : 0 < n) (h1 : s + (n - 1) * k < e)
    (h2 : e ≤ s + n * k) : stepCount s e k = n := by
  unfold stepCount
  rw [if_pos (by omega)]
  have h3 : n * k = (n - 1) * k + k := by
    conv_lhs => rw [show n = (n - 1) + 1 by omega]
    ring
  have : (e - s - 1) / k = n - 1 := by
    apply Nat.div_eq_of_lt_le
    · omega
    · rw [show n - 1 + 1 = n by omega]; omega
  omega

theorem clampIdx_min {len e : Nat} {i : Int} (hi : i = e) : clampIdx len i = min e len := by
  subst hi; unfold clampIdx; rw [if_neg (by omega)]; simp

theorem sliceStep_ok {b : Bytes} {s e : Int} {n k m : Nat} {eN : Nat} (hs : s = n) (he : e = eN)
    (hk : 0 < k) (hm : 0 < m) (h1 : n + (m - 1) * k < eN) (h2 : eN ≤ n + m * k)
    (h3 : n + (m - 1) * k < b.length) :
    sliceStep b s e k = .ok ((List.range m).map fun j => byte b (n + j * k)) := by
  unfold sliceStep
  rw [if_neg (by omega)]
  have hsn : clampIdx b.length s = n := clampIdx_ok hs (by omega)
  have hc : stepCount n (clampIdx b.length e) k = m := by
    rw [clampIdx_min he]
    exact stepCount_eq hk hm (by omega) (by omega)
  rw [hsn]
  simp only [hc]
  rfl

/-- Column addresses: going up one row adds one row length. -/
theorem addr_col {W H bits x y : Nat} (hy : y < H) (j : Nat) (hj : j ≤ y) :
    addr W H bits x (y - j) = addr W H bits x y + j * rowLen W bits := by
  unfold addr rel
  have : (H - 1 - (y - j)) = (H - 1 - y) + j := by omega
  rw [this, Nat.add_mul]; omega

theorem rowLen_pos {W bits : Nat} (hW : 0 < W) (hd : Depth bits) : 4 ≤ rowLen W bits := by
  unfold rowLen
  have : 1 ≤ W * bits := by
    rcases hd with rfl | rfl | rfl | rfl <;> omega
  omega

end Verif
