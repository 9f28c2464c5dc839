import Verif.Props.OverlayTurn
import Verif.Props.Resize
/-! Property C193: figures in enlarged images. -/

namespace Verif.Props.Overlay
open Verif Spec Model Verif.Props Verif.Props.Far Verif.Props.Plane

variable {b : Bytes} {W H bits : Nat}

/-- A row, `n` times as wide and as high. -/
def bigRow (n : Nat) (y x1 x2 : Int) : List Figure :=
  (List.range n).map fun (k : Nat) => .row (y * n + k) (min x1 x2 * n) (max x1 x2 * n + n - 1)

/-- A column, `n` times as wide and as high. -/
def bigColumn (n : Nat) (x y1 y2 : Int) : List Figure :=
  (List.range n).map fun (k : Nat) => .column (x * n + k) (min y1 y2 * n) (max y1 y2 * n + n - 1)

/-- The figure `n` times as wide and as high: every pixel becomes a square. -/
def enlarged (W H n : Nat) : Figure → List Figure
  | .point x y => bigRow n y x x
  | .row y x1 x2 => bigRow n y x1 x2
  | .column x y1 y2 => bigColumn n x y1 y2
  | .border x1 y1 x2 y2 =>
    bigRow n (clampTo y1 H) (clampTo x1 W) (clampTo x2 W) ++ bigRow n (clampTo y2 H) (clampTo x1 W) (clampTo x2 W) ++
      bigColumn n (clampTo x1 W) (clampTo y1 H) (clampTo y2 H) ++ bigColumn n (clampTo x2 W) (clampTo y1 H) (clampTo y2 H)
  | .box x1 y1 x2 y2 => [.box (min x1 x2 * n) (min y1 y2 * n) (max x1 x2 * n + n - 1) (max y1 y2 * n + n - 1)]
  | _ => []

/-- The figures made of rows and columns. -/
def Straight : Figure → Prop
  | .point _ _ | .row _ _ _ | .column _ _ _ | .border _ _ _ _ | .box _ _ _ _ => True
  | _ => False

theorem low_big {n : Nat} (hn : 0 < n) (a : Int) (p : Nat) : a * n ≤ (p : Int) ↔ a ≤ ((p / n : Nat) : Int) := by
  push_cast
  exact (Int.le_ediv_iff_mul_le (by omega)).symm

theorem high_big {n : Nat} (hn : 0 < n) (z : Int) (p : Nat) : (p : Int) ≤ z * n + n - 1 ↔ ((p / n : Nat) : Int) ≤ z := by
  push_cast
  rw [← Int.lt_add_one_iff (b := z), Int.ediv_lt_iff_lt_mul (by omega), show (z + 1) * (n : Int) = z * n + n by ring]
  omega

theorem line_big {n : Nat} (hn : 0 < n) (y : Int) (p : Nat) : (∃ k : Nat, k < n ∧ (p : Int) = y * n + k) ↔ ((p / n : Nat) : Int) = y := by
  constructor
  · rintro ⟨k, hk, e⟩
    push_cast
    rw [e, add_comm, Int.add_mul_ediv_right _ _ (by omega), Int.ediv_eq_zero_of_lt (by omega) (by omega), zero_add]
  · rintro rfl
    refine ⟨p % n, Nat.mod_lt _ hn, ?_⟩
    have := Nat.div_add_mod p n
    push_cast
    rw [mul_comm]
    exact_mod_cast this.symm

theorem bigRow_area (h4 : bits ≠ 4) {n : Nat} (hn : 0 < n) (y x1 x2 : Int) (px py : Nat) :
    (∃ g ∈ bigRow n y x1 x2, area (W * n) (H * n) bits g px py) ↔ HSeg y x1 x2 (px / n) (py / n) := by
  have hm : min x1 x2 * (n : Int) ≤ max x1 x2 * n + n - 1 := by
    have := mul_le_mul_of_nonneg_right (min_le_max : min x1 x2 ≤ max x1 x2) (by omega : (0 : Int) ≤ n)
    omega
  unfold bigRow HSeg
  simp only [List.mem_map, List.mem_range, exists_exists_and_eq_and, area, RowSet, if_neg h4, HSeg, min_eq_left hm, max_eq_right hm,
    low_big hn, high_big hn]
  rw [← line_big hn]
  constructor
  · rintro ⟨k, k1, k2, k3⟩; exact ⟨⟨k, k1, k2⟩, k3⟩
  · rintro ⟨⟨k, k1, k2⟩, k3⟩; exact ⟨k, k1, k2, k3⟩

theorem bigColumn_area {n : Nat} (hn : 0 < n) (x y1 y2 : Int) (px py : Nat) :
    (∃ g ∈ bigColumn n x y1 y2, area (W * n) (H * n) bits g px py) ↔ VSeg x y1 y2 (px / n) (py / n) := by
  have hm : min y1 y2 * (n : Int) ≤ max y1 y2 * n + n - 1 := by
    have := mul_le_mul_of_nonneg_right (min_le_max : min y1 y2 ≤ max y1 y2) (by omega : (0 : Int) ≤ n)
    omega
  unfold bigColumn VSeg
  simp only [List.mem_map, List.mem_range, exists_exists_and_eq_and, area, VSeg, min_eq_left hm, max_eq_right hm,
    low_big hn, high_big hn]
  rw [← line_big hn]
  constructor
  · rintro ⟨k, k1, k2, k3⟩; exact ⟨⟨k, k1, k2⟩, k3⟩
  · rintro ⟨⟨k, k1, k2⟩, k3⟩; exact ⟨k, k1, k2, k3⟩

theorem inside_big {n : Nat} (hn : 0 < n) (a : Int) {M : Nat} :
    (0 ≤ a * (n : Int) ↔ 0 ≤ a) ∧ (a * (n : Int) + n - 1 < ((M * n : Nat) : Int) ↔ a < M) := by
  constructor
  · exact mul_nonneg_iff_of_pos_right (by omega)
  · push_cast
    constructor
    · intro g
      by_contra k
      have := mul_le_mul_of_nonneg_right (by omega : (M : Int) ≤ a) (by omega : (0 : Int) ≤ n)
      omega
    · intro g
      have := mul_le_mul_of_nonneg_right (by omega : a + 1 ≤ (M : Int)) (by omega : (0 : Int) ≤ n)
      rw [add_mul, one_mul] at this
      omega

theorem area_enlarged (h4 : bits ≠ 4) {n : Nat} (hn : 0 < n) {f : Figure} (hf : Straight f) (px py : Nat) :
    (∃ g ∈ enlarged W H n f, area (W * n) (H * n) bits g px py) ↔ area W H bits f (px / n) (py / n) := by
  cases f with
  | point x y =>
    refine (bigRow_area h4 hn y x x px py).trans ?_
    simp only [HSeg, area]; omega
  | row y x1 x2 =>
    refine (bigRow_area h4 hn y x1 x2 px py).trans ?_
    simp only [area, RowSet, if_neg h4]
  | column x y1 y2 => exact bigColumn_area hn x y1 y2 px py
  | border x1 y1 x2 y2 =>
    simp only [enlarged, List.mem_append, or_and_right, exists_or, bigRow_area h4 hn, bigColumn_area hn]
    show _ ↔ Border _ _ _ _ _ _
    unfold Border
    tauto
  | box x1 y1 x2 y2 =>
    have hx : min x1 x2 * (n : Int) ≤ max x1 x2 * n + n - 1 := by
      have := mul_le_mul_of_nonneg_right (min_le_max : min x1 x2 ≤ max x1 x2) (by omega : (0 : Int) ≤ n)
      omega
    have hy : min y1 y2 * (n : Int) ≤ max y1 y2 * n + n - 1 := by
      have := mul_le_mul_of_nonneg_right (min_le_max : min y1 y2 ≤ max y1 y2) (by omega : (0 : Int) ≤ n)
      omega
    simp only [enlarged, List.mem_singleton, exists_eq_left, area, RowSet, if_neg h4, HSeg, min_eq_left hx, max_eq_right hx,
      min_eq_left hy, max_eq_right hy, low_big hn, high_big hn]
    refine and_congr ?_ Iff.rfl
    unfold InImage
    have a1 := inside_big hn (min x1 x2) (M := W)
    have a2 := inside_big hn (max x1 x2) (M := W)
    have a3 := inside_big hn (min y1 y2) (M := H)
    have a4 := inside_big hn (max y1 y2) (M := H)
    omega
  | _ => exact hf.elim

/-- Groups of layers of one colour may be painted as one layer. -/
theorem top_groups {ι κ : Type} {f : ι → (Nat → Nat → Prop) × Nat} {g : κ → (Nat → Nat → Prop) × Nat} {e : ι → List κ}
    {x y x' y' old new : Nat} {l : List ι}
    (hfg : ∀ t ∈ l, ((∃ s ∈ e t, (g s).1 x' y') ↔ (f t).1 x y) ∧ ∀ s ∈ e t, (g s).2 = (f t).2) (ht : Top (l.map f) x y old new) :
    Top ((l.flatMap e).map g) x' y' old new := by
  rcases ht with ⟨p, S, c, q, h, k1, k2, k3⟩ | ⟨k1, k2⟩
  · obtain ⟨l1, l2, rfl, rfl, e2⟩ := List.map_eq_append_iff.mp h
    obtain ⟨t, l3, rfl, e3, rfl⟩ := List.map_eq_cons_iff.mp e2
    have ht := hfg t (by simp)
    have hex := ht.1.mpr (by rw [e3]; exact k1)
    -- the last member of the group that covers the pixel
    have last : ∀ m : List κ, (∃ s ∈ m, (g s).1 x' y') → ∃ m1 s m2, m = m1 ++ s :: m2 ∧ (g s).1 x' y' ∧ ∀ u ∈ m2, ¬ (g u).1 x' y' := by
      intro m
      induction m with
      | nil => rintro ⟨s, hs, -⟩; simp at hs
      | cons a m ih =>
        intro hm
        by_cases k : ∃ s ∈ m, (g s).1 x' y'
        · obtain ⟨m1, s, m2, rfl, g1, g2⟩ := ih k
          exact ⟨a :: m1, s, m2, rfl, g1, g2⟩
        · obtain ⟨s, hs, h1⟩ := hm
          rcases List.mem_cons.mp hs with rfl | hs
          · exact ⟨[], s, m, rfl, h1, fun u hu h2 => k ⟨u, hu, h2⟩⟩
          · exact absurd ⟨s, hs, h1⟩ k
    obtain ⟨m1, s, m2, em, g1, g2⟩ := last _ hex
    refine Or.inl ⟨((l1.flatMap e) ++ m1).map g, (g s).1, (g s).2, (m2 ++ l3.flatMap e).map g, ?_, g1, ?_, ?_⟩
    · simp [em]
    · intro u hu
      obtain ⟨v, hv, rfl⟩ := List.mem_map.mp hu
      rcases List.mem_append.mp hv with hv | hv
      · exact g2 v hv
      · obtain ⟨w, hw, hvw⟩ := List.mem_flatMap.mp hv
        intro k
        exact k2 (f w) (List.mem_map.mpr ⟨w, hw, rfl⟩) ((hfg w (by simp [hw])).1.mp ⟨v, hvw, k⟩)
    · rw [k3, ht.2 s (by rw [em]; simp), e3]
  · refine Or.inr ⟨?_, k2⟩
    intro u hu
    obtain ⟨v, hv, rfl⟩ := List.mem_map.mp hu
    obtain ⟨w, hw, hvw⟩ := List.mem_flatMap.mp hv
    intro k
    exact k1 (f w) (List.mem_map.mpr ⟨w, hw, rfl⟩) ((hfg w hw).1.mp ⟨v, hvw, k⟩)

/-- The enlarged picture. -/
def enlargedAll (W H n : Nat) (l : List (Figure × Int)) : List (Figure × Int) := l.flatMap fun t => (enlarged W H n t.1).map fun g => (g, t.2)

/-- **C193**: drawing a picture and enlarging the image is the same as enlarging the image and drawing the enlarged picture, for figures
of rows and columns, in images of 8 bits and in images of 24 bits and even width. -/
theorem C193_enlarged_partial (h : Valid b W H bits) (hb : bits = 8 ∨ bits = 24 ∧ W % 2 = 0) (hW : 0 < W) (hH : 0 < H) {k : Nat} (hk : 0 < k)
    (hkW : W * k < 2 ^ 24) (hkH : H * k < 2 ^ 24) {l : List (Figure × Int)} (hl : AllSafe W H bits l)
    (hl' : AllSafe (W * k) (H * k) bits (enlargedAll W H k l)) (hs : ∀ t ∈ l, Straight t.1) :
    ∃ n n' m m', drawAll l b = .ok n ∧ resizeNtimesbigger n (k : Int) = .ok n' ∧ resizeNtimesbigger b (k : Int) = .ok m ∧
      drawAll (enlargedAll W H k l) m = .ok m' ∧ Valid n' (W * k) (H * k) bits ∧ Valid m' (W * k) (H * k) bits ∧
      (bits = 8 → ∀ c < 256, palRGB m' c = palRGB n' c) ∧
      ∀ x y, x < W * k → y < H * k → pix m' (W * k) (H * k) bits x y = pix n' (W * k) (H * k) bits x y := by
  have hb' : bits = 8 ∨ (bits = 4 ∨ bits = 24) ∧ W % 2 = 0 := by omega
  obtain ⟨n, e1, p1⟩ := C180_layers h hl
  obtain ⟨n', e2, p2⟩ := C40_resize_partial p1.valid hW hH hk hkW hkH hb'
  obtain ⟨m, e3, p3⟩ := C40_resize_partial h hW hH hk hkW hkH hb'
  obtain ⟨m', e4, p4⟩ := C180_layers p3.valid hl'
  refine ⟨n, n', m, m', e1, e2, e3, e4, p2.valid, p4.valid, ?_, fun x y hx hy => ?_⟩
  · rintro rfl c hc
    rw [Laws.palRGB_same p4.header h.depth (by omega) (by simpa using hc), p3.palette (by omega) c (by simpa using hc),
      p2.palette (by omega) c (by simpa using hc), Laws.palRGB_same p1.header h.depth (by omega) (by simpa using hc)]
  · rw [p2.pixels x y hx hy]
    have g := p1.pixels (x / k) (y / k) (Nat.div_lt_of_lt_mul (by rwa [mul_comm])) (Nat.div_lt_of_lt_mul (by rwa [mul_comm]))
    have g' := p4.pixels x y hx hy
    rw [p3.pixels x y hx hy] at g'
    refine Top.unique g' (top_groups (f := layer W H bits) (g := layer (W * k) (H * k) bits) (e := fun t => (enlarged W H k t.1).map fun g => (g, t.2))
      (fun t ht => ⟨?_, ?_⟩) g)
    · simp only [List.mem_map, exists_exists_and_eq_and, layer]
      exact area_enlarged (by omega) hk (hs t ht) x y
    · intro s hs
      obtain ⟨g, -, rfl⟩ := List.mem_map.mp hs
      rfl

-- A column over a row, twice as big
example : (do
    let b ← newBMP 2 2 24
    let n ← resizeNtimesbigger (← drawAll [(.row 1 0 1, 7), (.column 0 0 1, 9)] b) 2
    let m ← drawAll (enlargedAll 2 2 2 [(.row 1 0 1, 7), (.column 0 0 1, 9)]) (← resizeNtimesbigger b 2)
    pure (decide (n = m), (enlargedAll 2 2 2 [(.row 1 0 1, 7), (.column 0 0 1, 9)]).length,
      ← getxybit n 1 0, ← getxybit n 2 1, ← getxybit n 2 2, ← getxybit n 1 3)) = .ok (true, 4, 9, 0, 7, 9) := by decide +kernel

/-- Images of 24 bits and odd width: the last column is lost in enlarging (C40), but not in drawing afterwards. -/
theorem C193_odd_wrong : (do
    let b ← newBMP 1 1 24
    let n ← resizeNtimesbigger (← draw (.point 0 0) 9 b) 2
    let m ← drawAll (enlargedAll 1 1 2 [(.point 0 0, 9)]) (← resizeNtimesbigger b 2)
    pure [← getxybit n 0 0, ← getxybit n 1 0, ← getxybit m 0 0, ← getxybit m 1 0]) = .ok [0, 0, 9, 9] := by decide +kernel

end Verif.Props.Overlay
