import Verif.Model.Curves
import Verif.Lemmas.Float
import Verif.Lemmas.Basic
import Verif.Props.Fractal
import Mathlib.Tactic.Linarith
import Mathlib.Tactic.FieldSimp
import Mathlib.Tactic.Positivity
/-! C123: two-dimensional histograms. -/

namespace Verif.Props.Hist2D
open Verif Spec Model Verif.Props

/-- `m` is the least element of a list. -/
def Least (m : ℚ) (l : List ℚ) : Prop := m ∈ l ∧ ∀ x ∈ l, m ≤ x
/-- `m` is the greatest element of a list. -/
def Greatest (m : ℚ) (l : List ℚ) : Prop := m ∈ l ∧ ∀ x ∈ l, x ≤ m

theorem foldl_min (f : ℚ × ℚ → ℚ) (zs : List (ℚ × ℚ)) (a : ℚ) :
    Least (zs.foldl (fun m p => min m (f p)) a) (a :: zs.map f) := by
  induction zs generalizing a with
  | nil => exact ⟨by simp, by simp⟩
  | cons z zs ih =>
    obtain ⟨h1, h2⟩ := ih (min a (f z))
    rw [List.foldl_cons]
    constructor
    · rcases List.mem_cons.mp h1 with h | h
      · rw [h]
        rcases min_choice a (f z) with g | g <;> rw [g] <;> simp
      · simp [h]
    · intro x hx
      simp only [List.map_cons, List.mem_cons] at hx
      have h3 := h2 (min a (f z)) (by simp)
      rcases hx with rfl | rfl | hx
      · exact h3.trans (min_le_left _ _)
      · exact h3.trans (min_le_right _ _)
      · exact h2 x (by simp [hx])

theorem foldl_max (f : ℚ × ℚ → ℚ) (zs : List (ℚ × ℚ)) (a : ℚ) :
    Greatest (zs.foldl (fun m p => max m (f p)) a) (a :: zs.map f) := by
  induction zs generalizing a with
  | nil => exact ⟨by simp, by simp⟩
  | cons z zs ih =>
    obtain ⟨h1, h2⟩ := ih (max a (f z))
    rw [List.foldl_cons]
    constructor
    · rcases List.mem_cons.mp h1 with h | h
      · rw [h]
        rcases max_choice a (f z) with g | g <;> rw [g] <;> simp
      · simp [h]
    · intro x hx
      simp only [List.map_cons, List.mem_cons] at hx
      have h3 := h2 (max a (f z)) (by simp)
      rcases hx with rfl | rfl | hx
      · exact (le_max_left _ _).trans h3
      · exact (le_max_right _ _).trans h3
      · exact h2 x (by simp [hx])

/-- C123: the bounds of the data. -/
theorem C123_bounds {v : List (ℚ × ℚ)} (hv : v ≠ []) :
    ∃ x1 x2 y1 y2, getdomainbounds v = .ok (x1, x2, y1, y2) ∧ Least x1 (v.map Prod.fst) ∧ Greatest x2 (v.map Prod.fst) ∧
      Least y1 (v.map Prod.snd) ∧ Greatest y2 (v.map Prod.snd) := by
  cases v with
  | nil => exact absurd rfl hv
  | cons z zs => exact ⟨_, _, _, _, rfl, foldl_min _ _ _, foldl_max _ _ _, foldl_min _ _ _, foldl_max _ _ _⟩

theorem fl_rel {q : ℚ} (h : 0 ≤ q) : q * (1 - 1 / 2 ^ 53) ≤ fl q ∧ fl q ≤ q * (1 + 1 / 2 ^ 53) := by
  have := fl_err q
  rw [abs_of_nonneg h, abs_le] at this
  constructor <;> linarith [this.1, this.2]

/-- One coordinate: the size of a bin. -/
def size (lo hi : ℚ) (n : Int) : ℚ := fl (fl (hi - lo) / ((n - 1 : Int) : ℚ))

theorem size_bounds {lo hi : ℚ} (h : lo < hi) {n : Int} (hn : 2 ≤ n) :
    0 < size lo hi n ∧ (hi - lo) * (1 - 1 / 2 ^ 53) ^ 2 ≤ size lo hi n * ((n - 1 : Int) : ℚ) ∧
    size lo hi n * ((n - 1 : Int) : ℚ) ≤ (hi - lo) * (1 + 1 / 2 ^ 53) ^ 2 ∧
    fl (hi - lo) * (1 - 1 / 2 ^ 53) ≤ size lo hi n * ((n - 1 : Int) : ℚ) := by
  have hm : (0 : ℚ) < ((n - 1 : Int) : ℚ) := by exact_mod_cast (by omega : 0 < n - 1)
  have hR : 0 < hi - lo := by linarith
  obtain ⟨a1, a2⟩ := fl_rel hR.le
  have hF : 0 < fl (hi - lo) := lt_of_lt_of_le (by apply mul_pos hR; norm_num) a1
  obtain ⟨b1, b2⟩ := fl_rel (q := fl (hi - lo) / ((n - 1 : Int) : ℚ)) (by positivity)
  unfold size
  generalize ((n - 1 : Int) : ℚ) = m at *
  generalize fl (hi - lo) = F at *
  generalize fl (F / m) = S at *
  have b1' : F * (1 - 1 / 2 ^ 53) ≤ S * m := by
    have := mul_le_mul_of_nonneg_right b1 hm.le
    calc F * (1 - 1 / 2 ^ 53) = F / m * (1 - 1 / 2 ^ 53) * m := by field_simp
      _ ≤ _ := this
  have b2' : S * m ≤ F * (1 + 1 / 2 ^ 53) := by
    have := mul_le_mul_of_nonneg_right b2 hm.le
    calc S * m ≤ F / m * (1 + 1 / 2 ^ 53) * m := this
      _ = _ := by field_simp
  have hS : 0 < S := by
    have : 0 < S * m := lt_of_lt_of_le (by apply mul_pos hF; norm_num) b1'
    exact (mul_pos_iff_of_pos_right hm).mp this
  refine ⟨hS, ?_, ?_, b1'⟩
  · have : (hi - lo) * (1 - 1 / 2 ^ 53) * (1 - 1 / 2 ^ 53) ≤ F * (1 - 1 / 2 ^ 53) := mul_le_mul_of_nonneg_right a1 (by norm_num)
    linarith
  · have : F * (1 + 1 / 2 ^ 53) ≤ (hi - lo) * (1 + 1 / 2 ^ 53) * (1 + 1 / 2 ^ 53) := mul_le_mul_of_nonneg_right a2 (by norm_num)
    linarith

/-- The number of the bin of `z` may differ from the exact value, `n - 1` times the share of the range below `z`, by
the rounding errors only. -/
def NearBin (lo hi : ℚ) (n : Int) (z : ℚ) (i : Nat) : Prop :=
  let t := (z - lo) / (hi - lo) * ((n : ℚ) - 1)
  (i : ℚ) ≤ t * (1 + 1 / 2 ^ 50) ∧ t * (1 - 1 / 2 ^ 50) < (i : ℚ) + 1

/-- One coordinate: the bins are in the table, near the exact ones and in the order of the values. -/
theorem bin_spec {lo hi : ℚ} (h : lo < hi) {n : Int} (hn : 2 ≤ n) (hn2 : n ≤ 2 ^ 50) :
    (∀ z, lo ≤ z → z ≤ hi → 0 ≤ histBin z lo (size lo hi n) ∧ histBin z lo (size lo hi n) < n ∧
      NearBin lo hi n z (histBin z lo (size lo hi n)).toNat) ∧
    ∀ z w, lo ≤ z → z ≤ w → histBin z lo (size lo hi n) ≤ histBin w lo (size lo hi n) := by
  have hm : (0 : ℚ) < ((n - 1 : Int) : ℚ) := by exact_mod_cast (by omega : 0 < n - 1)
  have hm2 : ((n - 1 : Int) : ℚ) ≤ 2 ^ 50 := by exact_mod_cast (by omega : n - 1 ≤ 2 ^ 50)
  have hme : (n : ℚ) - 1 = ((n - 1 : Int) : ℚ) := by push_cast; ring
  have hR : 0 < hi - lo := by linarith
  obtain ⟨hS, s1, s2, s3⟩ := size_bounds h hn
  constructor
  · intro z hz1 hz2
    have hd : 0 ≤ z - lo := by linarith
    obtain ⟨d1, d2⟩ := fl_rel hd
    have hD0 := fl_nonneg hd
    have hDF : fl (z - lo) ≤ fl (hi - lo) := fl_mono hd (by linarith)
    have hq0 : 0 ≤ fl (z - lo) / size lo hi n := by positivity
    obtain ⟨q1, q2⟩ := fl_rel hq0
    have hQ0 := fl_nonneg hq0
    unfold histBin
    rw [trunc_nonneg hQ0]
    have hfl := Int.floor_le (fl (fl (z - lo) / size lo hi n))
    have hfl2 := Int.lt_floor_add_one (fl (fl (z - lo) / size lo hi n))
    have hi0 : 0 ≤ ⌊fl (fl (z - lo) / size lo hi n)⌋ := Int.floor_nonneg.mpr hQ0
    have hcast : ((⌊fl (fl (z - lo) / size lo hi n)⌋.toNat : Nat) : ℚ) = (⌊fl (fl (z - lo) / size lo hi n)⌋ : ℚ) := by
      exact_mod_cast Int.toNat_of_nonneg hi0
    unfold NearBin
    rw [hcast, hme]
    dsimp only
    have ht : (z - lo) / (hi - lo) * ((n - 1 : Int) : ℚ) = (z - lo) * ((n - 1 : Int) : ℚ) / (hi - lo) := by ring
    rw [ht]
    generalize hS' : size lo hi n = S at *
    generalize fl (z - lo) = D at *
    generalize fl (hi - lo) = F at *
    generalize hm' : ((n - 1 : Int) : ℚ) = m at *
    generalize fl (D / S) = Q at *
    refine ⟨hi0, ?_, ?_, ?_⟩
    · -- Q < n
      have h1 : D / S ≤ m / (1 - 1 / 2 ^ 53) := by
        rw [div_le_div_iff₀ hS (by norm_num)]
        have : D * (1 - 1 / 2 ^ 53) ≤ F * (1 - 1 / 2 ^ 53) := mul_le_mul_of_nonneg_right hDF (by norm_num)
        linarith
      have h2 : Q < m + 1 := by
        have : Q ≤ m / (1 - 1 / 2 ^ 53) * (1 + 1 / 2 ^ 53) := q2.trans (mul_le_mul_of_nonneg_right h1 (by norm_num))
        have e : m / (1 - 1 / 2 ^ 53) * (1 + 1 / 2 ^ 53) = m * ((1 + 1 / 2 ^ 53) / (1 - 1 / 2 ^ 53)) := by ring
        rw [e] at this
        have : m * ((1 + 1 / 2 ^ 53) / (1 - 1 / 2 ^ 53)) < m + 1 := by
          have g : (1 + 1 / 2 ^ 53 : ℚ) / (1 - 1 / 2 ^ 53) < 1 + 1 / 2 ^ 51 := by norm_num
          nlinarith
        linarith
      have h3 : (⌊Q⌋ : ℚ) < ((n : Int) : ℚ) := by
        have : ((n : Int) : ℚ) = m + 1 := by rw [← hm']; push_cast; ring
        rw [this]; linarith
      exact_mod_cast h3
    · have g1 : D / S ≤ (z - lo) * m / (hi - lo) * ((1 + 1 / 2 ^ 53) / (1 - 1 / 2 ^ 53) ^ 2) := by
        rw [div_le_iff₀ hS]
        have e : (z - lo) * m / (hi - lo) * ((1 + 1 / 2 ^ 53) / (1 - 1 / 2 ^ 53) ^ 2) * S =
            (z - lo) * (1 + 1 / 2 ^ 53) * ((S * m) / ((hi - lo) * (1 - 1 / 2 ^ 53) ^ 2)) := by field_simp
        rw [e]
        have g : 1 ≤ (S * m) / ((hi - lo) * (1 - 1 / 2 ^ 53) ^ 2) := by
          rw [le_div_iff₀ (by apply mul_pos hR; norm_num)]; linarith
        have h0 : 0 ≤ (z - lo) * (1 + 1 / 2 ^ 53) := mul_nonneg hd (by norm_num)
        nlinarith
      have ht0 : 0 ≤ (z - lo) * m / (hi - lo) := by positivity
      have g2 : Q ≤ (z - lo) * m / (hi - lo) * ((1 + 1 / 2 ^ 53) / (1 - 1 / 2 ^ 53) ^ 2) * (1 + 1 / 2 ^ 53) :=
        q2.trans (mul_le_mul_of_nonneg_right g1 (by norm_num))
      have g3 : ((1 + 1 / 2 ^ 53 : ℚ) / (1 - 1 / 2 ^ 53) ^ 2) * (1 + 1 / 2 ^ 53) ≤ 1 + 1 / 2 ^ 50 := by norm_num
      have g4 := mul_le_mul_of_nonneg_left g3 ht0
      linarith
    · have g1 : (z - lo) * m / (hi - lo) * ((1 - 1 / 2 ^ 53) / (1 + 1 / 2 ^ 53) ^ 2) ≤ D / S := by
        rw [le_div_iff₀ hS]
        have e : (z - lo) * m / (hi - lo) * ((1 - 1 / 2 ^ 53) / (1 + 1 / 2 ^ 53) ^ 2) * S =
            (z - lo) * (1 - 1 / 2 ^ 53) * ((S * m) / ((hi - lo) * (1 + 1 / 2 ^ 53) ^ 2)) := by field_simp
        rw [e]
        have g : (S * m) / ((hi - lo) * (1 + 1 / 2 ^ 53) ^ 2) ≤ 1 := by
          rw [div_le_one (by apply mul_pos hR; norm_num)]; linarith
        have h0 : 0 ≤ (z - lo) * (1 - 1 / 2 ^ 53) := mul_nonneg hd (by norm_num)
        nlinarith
      have ht0 : 0 ≤ (z - lo) * m / (hi - lo) := by positivity
      have g2 : (z - lo) * m / (hi - lo) * ((1 - 1 / 2 ^ 53) / (1 + 1 / 2 ^ 53) ^ 2) * (1 - 1 / 2 ^ 53) ≤ Q :=
        (mul_le_mul_of_nonneg_right g1 (by norm_num)).trans q1
      have g3 : (1 : ℚ) - 1 / 2 ^ 50 ≤ ((1 - 1 / 2 ^ 53) / (1 + 1 / 2 ^ 53) ^ 2) * (1 - 1 / 2 ^ 53) := by norm_num
      have g4 := mul_le_mul_of_nonneg_left g3 ht0
      linarith
  · intro z w hz hzw
    have hd : 0 ≤ z - lo := by linarith
    have h1 : fl (z - lo) ≤ fl (w - lo) := fl_mono hd (by linarith)
    have h2 := fl_nonneg hd
    have h3 : fl (z - lo) / size lo hi n ≤ fl (w - lo) / size lo hi n := div_le_div_of_nonneg_right h1 hS.le
    have h4 : 0 ≤ fl (z - lo) / size lo hi n := by positivity
    have h5 := fl_mono h4 h3
    unfold histBin
    rw [trunc_nonneg (fl_nonneg h4), trunc_nonneg (fl_nonneg (h4.trans h3))]
    exact Int.floor_le_floor h5

/-- The entry in row `a` and column `c`. -/
def entry (h : List (List Nat)) (a c : Nat) : Nat := (h.getD a []).getD c 0

theorem bump_spec {h : List (List Nat)} {m n : Nat} (hl : h.length = m) (hr : ∀ row ∈ h, row.length = n) {j i : Int}
    (hj : 0 ≤ j ∧ j < m) (hi : 0 ≤ i ∧ i < n) :
    ∃ h', bump h j i = .ok h' ∧ h'.length = m ∧ (∀ row ∈ h', row.length = n) ∧
      ∀ a c, entry h' a c = entry h a c + if (a : Int) = j ∧ (c : Int) = i then 1 else 0 := by
  obtain ⟨J, rfl⟩ := Int.eq_ofNat_of_zero_le hj.1
  obtain ⟨I, rfl⟩ := Int.eq_ofNat_of_zero_le hi.1
  have hJ : J < h.length := by omega
  have hrow : (h.getD J []).length = n := hr _ (by simp [List.getD_eq_getElem?_getD, hJ])
  have hI : I < (h.getD J []).length := by omega
  have e1 : resolveIdx h.length (J : Int) = some J := by
    unfold resolveIdx; rw [if_pos (by omega), if_pos (by omega), Int.toNat_natCast]
  have e2 : resolveIdx (h.getD J []).length (I : Int) = some I := by
    unfold resolveIdx; rw [if_pos (by omega), if_pos (by omega), Int.toNat_natCast]
  refine ⟨_, by unfold bump; rw [e1]; dsimp only; rw [e2], by simp [hl], ?_, ?_⟩
  · intro row hrow'
    rcases List.mem_or_eq_of_mem_set hrow' with g | g
    · exact hr _ g
    · rw [g, List.length_set, hrow]
  · intro a c
    unfold entry
    by_cases ha : a = J
    · subst ha
      rw [show (h.set a ((h.getD a []).set I ((h.getD a []).getD I 0 + 1))).getD a [] = (h.getD a []).set I ((h.getD a []).getD I 0 + 1) by
        simp [List.getD_eq_getElem?_getD, hJ]]
      generalize h.getD a [] = row at *
      by_cases hc : c = I
      · subst hc; simp [List.getD_eq_getElem?_getD, hI]
      · have : ¬ (c : Int) = I := by omega
        simp only [this, and_false, if_false, Nat.add_zero]
        simp [List.getD_eq_getElem?_getD, List.getElem?_set_ne (Ne.symm hc)]
    · have : ¬ (a : Int) = J := by omega
      simp only [this, false_and, if_false, Nat.add_zero]
      simp [List.getD_eq_getElem?_getD, List.getElem?_set_ne (Ne.symm ha)]

theorem loop_spec {m n : Nat} (fy fx : ℚ → Int) (v : List (ℚ × ℚ)) (hy : ∀ z ∈ v, 0 ≤ fy z.2 ∧ fy z.2 < m)
    (hx : ∀ z ∈ v, 0 ≤ fx z.1 ∧ fx z.1 < n) (h : List (List Nat)) (hl : h.length = m) (hr : ∀ row ∈ h, row.length = n) :
    ∃ h', v.foldlM (fun h z => bump h (fy z.2) (fx z.1)) h = .ok h' ∧ h'.length = m ∧ (∀ row ∈ h', row.length = n) ∧
      ∀ a c, entry h' a c = entry h a c + v.countP (fun z => (fy z.2).toNat = a ∧ (fx z.1).toNat = c) := by
  induction v generalizing h with
  | nil => exact ⟨h, rfl, hl, hr, by simp⟩
  | cons z v ih =>
    have y0 := hy z (by simp)
    have x0 := hx z (by simp)
    obtain ⟨h1, e1, l1, r1, c1⟩ := bump_spec hl hr y0 x0
    obtain ⟨h2, e2, l2, r2, c2⟩ := ih (fun z hz => hy z (by simp [hz])) (fun z hz => hx z (by simp [hz])) h1 l1 r1
    refine ⟨h2, by rw [List.foldlM_cons, e1, ok_bind, e2], l2, r2, fun a c => ?_⟩
    rw [c2, c1, List.countP_cons]
    have : ((a : Int) = fy z.2 ∧ (c : Int) = fx z.1) ↔ ((fy z.2).toNat = a ∧ (fx z.1).toNat = c) := by omega
    simp only [this, decide_eq_true_eq]
    omega

/-- C123: the histogram has a row for each bin of the second coordinate, and its entries count the points of their
bins. Bins grow with the coordinate, and differ from the exact ones by rounding errors only. -/
theorem C123_histogram {v : List (ℚ × ℚ)} {n m : Int} (hn : 2 ≤ n ∧ n ≤ 2 ^ 50) (hm : 2 ≤ m ∧ m ≤ 2 ^ 50) {x1 x2 y1 y2 : ℚ}
    (hx1 : Least x1 (v.map Prod.fst)) (hx2 : Greatest x2 (v.map Prod.fst)) (hy1 : Least y1 (v.map Prod.snd))
    (hy2 : Greatest y2 (v.map Prod.snd)) (hx : x1 < x2) (hy : y1 < y2) :
    ∃ h, histogram2D v n m = .ok h ∧ h.length = m.toNat ∧ (∀ row ∈ h, row.length = n.toNat) ∧
      ∃ bx by' : ℚ → Nat, (∀ z ∈ v, bx z.1 < n ∧ NearBin x1 x2 n z.1 (bx z.1) ∧ by' z.2 < m ∧ NearBin y1 y2 m z.2 (by' z.2)) ∧
        (∀ z w, x1 ≤ z → z ≤ w → bx z ≤ bx w) ∧ (∀ z w, y1 ≤ z → z ≤ w → by' z ≤ by' w) ∧
        ∀ a c, entry h a c = v.countP (fun z => by' z.2 = a ∧ bx z.1 = c) := by
  have hv : v ≠ [] := by
    rintro rfl
    exact absurd hx1.1 (by simp)
  obtain ⟨a1, a2, b1, b2, e, ha1, ha2, hb1, hb2⟩ := C123_bounds hv
  have u1 : a1 = x1 := le_antisymm (ha1.2 _ hx1.1) (hx1.2 _ ha1.1)
  have u2 : a2 = x2 := le_antisymm (hx2.2 _ ha2.1) (ha2.2 _ hx2.1)
  have u3 : b1 = y1 := le_antisymm (hb1.2 _ hy1.1) (hy1.2 _ hb1.1)
  have u4 : b2 = y2 := le_antisymm (hy2.2 _ hb2.1) (hb2.2 _ hy2.1)
  subst u1 u2 u3 u4
  obtain ⟨sx, mx⟩ := bin_spec hx hn.1 hn.2
  obtain ⟨sy, my⟩ := bin_spec hy hm.1 hm.2
  have px := (size_bounds hx hn.1).1
  have py := (size_bounds hy hm.1).1
  have ix : ∀ z ∈ v, a1 ≤ z.1 ∧ z.1 ≤ a2 := fun z hz =>
    ⟨ha1.2 _ (List.mem_map_of_mem hz), ha2.2 _ (List.mem_map_of_mem hz)⟩
  have iy : ∀ z ∈ v, b1 ≤ z.2 ∧ z.2 ≤ b2 := fun z hz =>
    ⟨hb1.2 _ (List.mem_map_of_mem hz), hb2.2 _ (List.mem_map_of_mem hz)⟩
  obtain ⟨h, eh, hl, hr, hc⟩ := loop_spec (m := m.toNat) (n := n.toNat) (fun z => histBin z b1 (size b1 b2 m)) (fun z => histBin z a1 (size a1 a2 n)) v
    (fun z hz => by have := sy z.2 (iy z hz).1 (iy z hz).2; omega)
    (fun z hz => by have := sx z.1 (ix z hz).1 (ix z hz).2; omega)
    (List.replicate m.toNat (List.replicate n.toNat 0)) (by simp) (by
      intro row hrow
      rw [List.eq_of_mem_replicate hrow, List.length_replicate])
  refine ⟨h, ?_, hl, hr, fun z => (histBin z a1 (size a1 a2 n)).toNat, fun z => (histBin z b1 (size b1 b2 m)).toNat, ?_, ?_, ?_, ?_⟩
  · unfold histogram2D
    rw [e, ok_bind]
    dsimp only
    rw [if_neg (by omega), ← eh]
    unfold size at px py ⊢
    simp only [px.ne', py.ne', or_self, if_false]
  · intro z hz
    have qx := sx z.1 (ix z hz).1 (ix z hz).2
    have qy := sy z.2 (iy z hz).1 (iy z hz).2
    exact ⟨by dsimp only; omega, qx.2.2, by dsimp only; omega, qy.2.2⟩
  · intro z w h1 h2
    exact Int.toNat_le_toNat (mx z w h1 h2)
  · intro z w h1 h2
    exact Int.toNat_le_toNat (my z w h1 h2)
  · intro a c
    rw [hc]
    have : entry (List.replicate m.toNat (List.replicate n.toNat 0)) a c = 0 := by
      unfold entry
      rw [List.getD_eq_getElem?_getD (l := List.replicate m.toNat _), List.getElem?_replicate]
      split_ifs
      · simp only [Option.getD_some, List.getD_eq_getElem?_getD, List.getElem?_replicate]
        split_ifs <;> rfl
      · rfl
    rw [this, Nat.zero_add]

/-- Data with one value only in the first coordinate is an error, and so is a single bin. -/
theorem C123_flat_wrong {v : List (ℚ × ℚ)} (hv : v ≠ []) {x : ℚ} (hx : ∀ z ∈ v, z.1 = x) (n m : Int) :
    histogram2D v n m = .error .zeroDivision := by
  obtain ⟨x1, x2, y1, y2, e, h1, h2, -⟩ := C123_bounds hv
  have e1 : x2 - x1 = 0 := by
    obtain ⟨z, hz, rfl⟩ := List.mem_map.mp h1.1
    obtain ⟨w, hw, rfl⟩ := List.mem_map.mp h2.1
    rw [hx z hz, hx w hw, sub_self]
  unfold histogram2D
  rw [e, ok_bind]
  dsimp only
  by_cases h0 : n - 1 = 0 ∨ m - 1 = 0
  · rw [if_pos h0]
  · rw [if_neg h0, e1, fl_zero, zero_div, fl_zero]
    cases v with
    | nil => exact absurd rfl hv
    | cons z v =>
      rw [List.foldlM_cons, if_pos (Or.inr rfl)]
      rfl
theorem C123_one_wrong (v : List (ℚ × ℚ)) (hv : v ≠ []) (m : Int) : histogram2D v 1 m = .error .zeroDivision := by
  obtain ⟨x1, x2, y1, y2, e, -⟩ := C123_bounds hv
  unfold histogram2D
  rw [e, ok_bind]
  rfl

/-- The bins are not equal in size: the last one is for the greatest value alone. With two bins ten is in
the second, and everything else, here 9.75 too, in the first. -/
theorem C123_last_wrong : (histogram2D [(0, 0), (10, 10), (39 / 4, 39 / 4), (39 / 4, 39 / 4)] 2 2).toOption = some [[3, 0], [0, 1]] := by
  decide +kernel

example : (histogram2D [(0, 0), (1, 2), (3, 1), (1, 2)] 4 3).toOption = some [[1, 0, 0, 0], [0, 0, 0, 1], [0, 2, 0, 0]] := by
  decide +kernel

end Verif.Props.Hist2D
