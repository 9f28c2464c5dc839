import Verif.Model.CircRegion
import Verif.Props.Circle
import Verif.Lemmas.Region24
/-! Operations on circular regions, row by row. -/

namespace Verif
open Spec Model Props

/-- A loop whose rounds work on disjoint zones: `V b` is a view of the file, round `a` replaces the values in
its zone by `T a` of the view, which depends on the values in the zone only. -/
theorem zone_fold {α : Type} {W H bits : Nat} (V : Bytes → Nat → Nat → Nat) (D : Nat → Nat → Prop)
    (zone : α → Nat → Nat → Prop) (T : α → (Nat → Nat → Nat) → Nat → Nat → Nat)
    (f : Bytes → α → Py Bytes) (l : List α)
    (disj : l.Pairwise (fun a a' => ∀ p q, zone a p q → ¬ zone a' p q))
    (loc : ∀ a ∈ l, ∀ g g', (∀ p q, D p q → zone a p q → g p q = g' p q) →
      ∀ p q, D p q → zone a p q → T a g p q = T a g' p q)
    (step : ∀ b, Valid b W H bits → ∀ a ∈ l, ∃ b', f b a = .ok b' ∧ Valid b' W H bits ∧ SameHeader b b' bits ∧
      ∀ p q, D p q → (zone a p q → V b' p q = T a (V b) p q) ∧ (¬ zone a p q → V b' p q = V b p q))
    {b : Bytes} (h : Valid b W H bits) :
    ∃ b', l.foldlM f b = .ok b' ∧ Valid b' W H bits ∧ SameHeader b b' bits ∧
      ∀ p q, D p q → (∀ a ∈ l, zone a p q → V b' p q = T a (V b) p q) ∧
        ((∀ a ∈ l, ¬ zone a p q) → V b' p q = V b p q) := by
  induction l generalizing b with
  | nil => exact ⟨b, rfl, h, ⟨rfl, fun _ _ => rfl⟩, fun p q _ => ⟨by simp, fun _ => rfl⟩⟩
  | cons a l ih =>
    obtain ⟨b1, e1, v1, s1, c1⟩ := step b h a (by simp)
    rw [List.pairwise_cons] at disj
    obtain ⟨b2, e2, v2, s2, c2⟩ := ih disj.2 (fun a ha => loc a (by simp [ha]))
      (fun b hb a ha => step b hb a (by simp [ha])) v1
    refine ⟨b2, by rw [List.foldlM_cons, e1]; exact e2, v2,
      ⟨s2.1.trans s1.1, fun i hi => (s2.2 i hi).trans (s1.2 i hi)⟩, ?_⟩
    intro p q hD
    constructor
    · intro a' ha' hz
      rcases List.mem_cons.mp ha' with rfl | hm
      · rw [(c2 p q hD).2 (fun a'' h'' => disj.1 a'' h'' p q hz), (c1 p q hD).1 hz]
      · rw [(c2 p q hD).1 a' hm hz]
        apply loc a' ha' _ _ _ p q hD hz
        intro p' q' hD' hz'
        exact (c1 p' q' hD').2 (fun hza => disj.1 a' hm p' q' hza hz')
    · intro hn
      rw [(c2 p q hD).2 (fun a'' h'' => hn a'' (by simp [h''])), (c1 p q hD).2 (hn a (by simp))]

section
variable {b b' b'' : Bytes} {W H bits : Nat}

/-- The bytes from column `x1` up to column `x2` (left out) of row `y`. -/
theorem slice_row (h : Valid b W H bits) {y lo hi : Nat} (hy : y < H) (hlo : lo ≤ hi) (hhi : hi ≤ rowLen W bits) :
    slice b (cell W H bits y lo : Int) (cell W H bits y hi : Int) = seg b W H bits y lo (hi - lo) := by
  have hf : cell W H bits y hi ≤ b.length := by
    have := row_lt (S := rowLen W bits) (show H - 1 - y < H by omega)
    rw [h.len]; unfold cell; omega
  have hc : cell W H bits y lo ≤ cell W H bits y hi := by unfold cell; omega
  have hd : cell W H bits y hi - cell W H bits y lo = hi - lo := by unfold cell; omega
  apply bytes_ext
  · rw [length_slice_ok rfl rfl hf hc, length_seg]; exact hd
  · intro i hi'
    rw [length_slice_ok rfl rfl hf hc] at hi'
    rw [byte_slice_ok rfl rfl hf hc, if_pos hi', byte_seg _ _ _ _ _ _ (by omega), cell_add]

theorem setSlice_row (h : Valid b W H bits) {y lo hi : Nat} {buf : Bytes} (hy : y < H)
    (hlo : lo ≤ hi) (hhi : hi ≤ rowLen W bits) (hb : ∀ v ∈ buf, v < 256) (hl : buf.length = hi - lo) :
    Grid b (setSlice b (cell W H bits y lo : Int) (cell W H bits y hi : Int) buf) W H bits (fun y' j' =>
      if y' = y ∧ lo ≤ j' ∧ j' < hi then byte buf (j' - lo) else byte b (cell W H bits y' j')) := by
  obtain ⟨hf, g⟩ := row_ow h (y := y) (j := lo) hy hb (by omega)
  have e : (cell W H bits y hi : Int) = ((cell W H bits y lo : Nat) : Int) + ((buf.length : Nat) : Int) := by
    unfold cell; push_cast; omega
  rw [e, setSlice_ok rfl rfl hf]
  refine g.congr ?_
  intro y' j' _ _
  rw [hl, show lo + (hi - lo) = hi by omega]

/-- Offsets for every integer column. -/
theorem BMoffsethd_col (h : Valid b W H bits) (x : Int) {y : Nat} (hy : y < H) :
    BMoffsethd b x (y : Int) = .ok ((cell W H bits y 0 : Int) + x * bits / 8) := by
  have hr := h.rowoff_eq (y : Int)
  rw [row_cast hy] at hr
  unfold BMoffsethd
  rw [h.bits_eq]
  simp only [ok_bind]
  rcases h.depth with rfl | rfl | rfl | rfl
  all_goals
    simp only [Nat.cast_ofNat, Nat.cast_one] at hr
    norm_num [bmofhd24, bmofhd8, bmofhd4, bmofhd1, hr, cell, dataOff, palSize, pyShr]
    omega

theorem cell_col_int (W H bits y x : Nat) :
    (cell W H bits y 0 : Int) + (x : Int) * bits / 8 = (cell W H bits y (x * bits / 8) : Int) := by
  unfold cell; push_cast; omega

theorem col_le_row {x : Nat} (hd : Depth bits) (hx : x < W) : x * bits / 8 ≤ rowLen W bits ∧ x * bits / 8 + bits / 8 ≤ rowLen W bits := by
  unfold rowLen
  rcases hd with rfl | rfl | rfl | rfl <;> constructor <;> omega

/-- What the right hand side `f` of a row statement computes: the bytes `F row lo hi`, where `row` holds the
bytes of the row and `lo`, `hi` are the ends of the slice. -/
structure RowFn (f : Bytes → Int → Int → Py Bytes) (F : (Nat → Nat) → Nat → Nat → Bytes) (W H bits : Nat) : Prop where
  run : ∀ b, Valid b W H bits → ∀ y xa xb : Nat, y < H → xa ≤ xb → xb < W →
    f b (cell W H bits y (xa * bits / 8) : Int) (cell W H bits y (xb * bits / 8) : Int) =
      .ok (F (fun j => byte b (cell W H bits y j)) (xa * bits / 8) (xb * bits / 8))
  len : ∀ ρ, (∀ j, ρ j < 256) → ∀ xa xb : Nat, xa ≤ xb → xb < W →
    (F ρ (xa * bits / 8) (xb * bits / 8)).length = xb * bits / 8 - xa * bits / 8
  lt : ∀ ρ, (∀ j, ρ j < 256) → ∀ xa xb : Nat, xa ≤ xb → xb < W → ∀ v ∈ F ρ (xa * bits / 8) (xb * bits / 8), v < 256
  loc : ∀ ρ ρ', (∀ j, j < rowLen W bits → ρ j = ρ' j) → ∀ xa xb : Nat, xa ≤ xb → xb < W →
    F ρ (xa * bits / 8) (xb * bits / 8) = F ρ' (xa * bits / 8) (xb * bits / 8)
  empty : ∀ b, Valid b W H bits → ∀ s e : Int, 0 ≤ e → e ≤ s → f b s e = .ok []

theorem slice_empty {b : Bytes} {s e : Int} (h0 : 0 ≤ e) (h : e ≤ s) : slice b s e = [] := by
  unfold slice clampIdx
  rw [if_neg (by omega), if_neg (by omega)]
  apply List.drop_eq_nil_of_le
  rw [List.length_take]; omega

theorem setSlice_nil {b : Bytes} {s e : Int} (h0 : 0 ≤ e) (h : e ≤ s) : setSlice b s e [] = b := by
  unfold setSlice clampIdx
  rw [if_neg (by omega), if_neg (by omega)]
  dsimp only
  rw [max_eq_left (by omega)]
  simp

theorem segUpdate_in (h : Valid b W H bits) {f : Bytes → Int → Int → Py Bytes} {F : (Nat → Nat) → Nat → Nat → Bytes}
    (hf : RowFn f F W H bits) {y xa xb : Nat} (hy : y < H) (hx : xa ≤ xb) (hW : xb < W) :
    ∃ b', segUpdate f b (xa : Int) (xb : Int) (y : Int) = .ok b' ∧ Grid b b' W H bits (fun y' j' =>
      if y' = y ∧ xa * bits / 8 ≤ j' ∧ j' < xb * bits / 8 then
        byte (F (fun j => byte b (cell W H bits y j)) (xa * bits / 8) (xb * bits / 8)) (j' - xa * bits / 8)
      else byte b (cell W H bits y' j')) := by
  unfold segUpdate
  rw [BMoffsethd_col h _ hy, BMoffsethd_col h _ hy]
  simp only [ok_bind, cell_col_int]
  rw [hf.run b h y xa xb hy hx hW]
  have hρ : ∀ j, byte b (cell W H bits y j) < 256 := fun j => byte_lt_of_mem h.bytes _
  refine ⟨_, rfl, setSlice_row h hy (Nat.div_le_div_right (Nat.mul_le_mul_right _ hx))
    (col_le_row h.depth hW).1 (hf.lt _ hρ xa xb hx hW) (hf.len _ hρ xa xb hx hW)⟩

theorem segUpdate_empty (h : Valid b W H bits) {f : Bytes → Int → Int → Py Bytes} {F : (Nat → Nat) → Nat → Nat → Bytes}
    (hf : RowFn f F W H bits) {y : Nat} {xa xb : Int} (hy : y < H) (hx : xb ≤ xa)
    (h0 : 0 ≤ xb * bits / 8 + dataOff bits) : segUpdate f b xa xb (y : Int) = .ok b := by
  have hle : xb * bits / 8 ≤ xa * bits / 8 := by
    rcases h.depth with rfl | rfl | rfl | rfl <;> omega
  have hc := cell_ge W H bits y 0
  unfold segUpdate
  rw [BMoffsethd_col h _ hy, BMoffsethd_col h _ hy]
  simp only [ok_bind]
  rw [hf.empty b h _ _ (by omega) (by omega), ok_bind, setSlice_nil (by omega) (by omega)]
  rfl

/-- The new row after a statement for the columns `x1` (included) to `x2` (left out), cut to the image. -/
def newRow (F : (Nat → Nat) → Nat → Nat → Bytes) (W bits : Nat) (x1 x2 : Int) (ρ : Nat → Nat) (j : Nat) : Nat :=
  let lo := (max x1 0).toNat * bits / 8
  let hi := (min x2 ((W : Int) - 1)).toNat * bits / 8
  if max x1 0 ≤ min x2 ((W : Int) - 1) ∧ lo ≤ j ∧ j < hi then byte (F ρ lo hi) (j - lo) else ρ j

theorem newRow_loc {f : Bytes → Int → Int → Py Bytes} {F : (Nat → Nat) → Nat → Nat → Bytes} (hf : RowFn f F W H bits)
    {x1 x2 : Int} {ρ ρ' : Nat → Nat} (hρ : ∀ j, j < rowLen W bits → ρ j = ρ' j) (j : Nat) (hj : j < rowLen W bits) :
    newRow F W bits x1 x2 ρ j = newRow F W bits x1 x2 ρ' j := by
  unfold newRow
  dsimp only
  split_ifs with c
  · rw [hf.loc ρ ρ' hρ _ _ (by omega) (by omega)]
  · exact hρ j hj

theorem segUpdate_clip (h : Valid b W H bits) {f : Bytes → Int → Int → Py Bytes} {F : (Nat → Nat) → Nat → Nat → Bytes}
    (hf : RowFn f F W H bits) {x1 x2 : Int} {y : Nat} (hy : y < H)
    (h0 : 0 ≤ (min x2 ((W : Int) - 1)) * bits / 8 + dataOff bits) :
    ∃ b', segUpdate f b (max x1 0) (min x2 ((W : Int) - 1)) (y : Int) = .ok b' ∧ Grid b b' W H bits (fun y' j' =>
      if y' = y then newRow F W bits x1 x2 (fun j => byte b (cell W H bits y j)) j' else byte b (cell W H bits y' j')) := by
  unfold newRow
  dsimp only
  by_cases c : max x1 0 ≤ min x2 ((W : Int) - 1)
  · obtain ⟨xa, ea⟩ := Int.eq_ofNat_of_zero_le (show 0 ≤ max x1 0 by omega)
    obtain ⟨xb, eb⟩ := Int.eq_ofNat_of_zero_le (show 0 ≤ min x2 ((W : Int) - 1) by omega)
    obtain ⟨b', e, g⟩ := segUpdate_in h hf (y := y) (xa := xa) (xb := xb) hy (by omega) (by omega)
    have hab : (xa : Int) ≤ (xb : Int) := by omega
    rw [ea, eb]
    refine ⟨b', e, g.congr ?_⟩
    intro y' j' _ _
    by_cases hyy : y' = y
    · subst hyy
      simp only [true_and, if_true, Int.toNat_natCast]
      simp only [hab, true_and]
    · rw [if_neg (by tauto), if_neg hyy]
  · refine ⟨b, segUpdate_empty h hf hy (by omega) h0, (Grid.refl h).congr ?_⟩
    intro y' j' _ _
    by_cases hyy : y' = y
    · subst hyy
      rw [if_pos rfl, if_neg (by tauto)]
    · rw [if_neg hyy]

/-- Row `y` of the file. -/
def rowOf (b : Bytes) (W H bits y : Nat) (j : Nat) : Nat := byte b (cell W H bits y j)

theorem halfWidth_bounds {r hw v : Int} (h : HalfWidth r hw v) : 0 ≤ hw ∧ hw ≤ r ∧ 0 ≤ v ∧ v ≤ r := by
  have := C25_circle_accuracy r hw v ((C25_circle_points _ _ _).mpr h.1)
  exact ⟨this.1, this.2.1, this.2.2.1, this.2.2.2.1⟩

theorem halfWidth_unique {r hw hw' v : Int} (h : HalfWidth r hw v) (h' : HalfWidth r hw' v) : hw = hw' :=
  le_antisymm (h'.2 _ h.1) (h.2 _ h'.1)

theorem mem_lineedge {r : Int} {p : Int × Int} : p ∈ itercirclepartlineedge r ↔ HalfWidth r p.1 p.2 := by
  obtain ⟨_, g2, g3⟩ := C27_scanlines r
  constructor
  · exact g3 p
  · intro h
    have hb := halfWidth_bounds h
    obtain ⟨q, hq, e⟩ := List.mem_map.mp ((g2 p.2).mpr ⟨hb.2.2.1, hb.2.2.2⟩)
    have h' := g3 q hq
    rw [e] at h'
    have e1 := halfWidth_unique h' h
    have : q = p := Prod.ext e1 e
    rwa [← this]

theorem halfWidth_exists {r v : Int} (h0 : 0 ≤ v) (h1 : v ≤ r) : ∃ hw, HalfWidth r hw v := by
  obtain ⟨_, g2, g3⟩ := C27_scanlines r
  obtain ⟨q, hq, e⟩ := List.mem_map.mp ((g2 v).mpr ⟨h0, h1⟩)
  exact ⟨q.1, by rw [← e]; exact g3 q hq⟩

theorem abs_row {y v : Int} {y' : Nat} (h0 : 0 ≤ v) :
    ((y' : Int) = y - v ∨ (y' : Int) = y + v) ↔ |(y' : Int) - y| = v := by
  rcases abs_cases ((y' : Int) - y) with ⟨e, _⟩ | ⟨e, _⟩ <;> rw [e] <;> omega

/-- The rows of the scan lines are disjoint. -/
theorem rows_disjoint (r y : Int) : (itercirclepartlineedge r).Pairwise (fun a a' => ∀ p q : Nat,
    (fun p _ => (p : Int) = y - a.2 ∨ (p : Int) = y + a.2) p q →
      ¬ (fun p _ => (p : Int) = y - a'.2 ∨ (p : Int) = y + a'.2) p q) := by
  obtain ⟨g1, _, g3⟩ := C27_scanlines r
  rw [List.Nodup, List.pairwise_map] at g1
  refine g1.imp_of_mem ?_
  intro a a' ha ha' hne p q h1 h2
  have := (g3 a ha).1.2.1
  have := (g3 a' ha').1.2.1
  omega

/-- A loop over the scan lines of a circle, each round changing the two rows at that distance. `T v y' ρ1 ρ2`
is the new row `y'` computed from the rows `y - v.2` and `y + v.2`. -/
theorem scanline_fold {x y r : Int} (f : Bytes → Int × Int → Py Bytes)
    (T : Int × Int → Nat → (Nat → Nat) → (Nat → Nat) → Nat → Nat)
    (loc : ∀ v ∈ itercirclepartlineedge r, ∀ y' ρ1 ρ1' ρ2 ρ2',
      (0 ≤ y - v.2 → y - v.2 < H → ∀ j, j < rowLen W bits → ρ1 j = ρ1' j) →
      (0 ≤ y + v.2 → y + v.2 < H → ∀ j, j < rowLen W bits → ρ2 j = ρ2' j) →
      y' < H → ((y' : Int) = y - v.2 ∨ (y' : Int) = y + v.2) → ∀ j, j < rowLen W bits → T v y' ρ1 ρ2 j = T v y' ρ1' ρ2' j)
    (step : ∀ b, Valid b W H bits → ∀ v ∈ itercirclepartlineedge r, ∃ b', f b v = .ok b' ∧
      Grid b b' W H bits (fun y' j => if (y' : Int) = y - v.2 ∨ (y' : Int) = y + v.2
        then T v y' (rowOf b W H bits (y - v.2).toNat) (rowOf b W H bits (y + v.2).toNat) j
        else byte b (cell W H bits y' j)))
    (h : Valid b W H bits) :
    ∃ b', (itercirclepartlineedge r).foldlM f b = .ok b' ∧ Valid b' W H bits ∧ SameHeader b b' bits ∧
      ∀ y' j, y' < H → j < rowLen W bits →
        (∀ hw, HalfWidth r hw |(y' : Int) - y| → rowOf b' W H bits y' j =
          T (hw, |(y' : Int) - y|) y' (rowOf b W H bits (y - |(y' : Int) - y|).toNat)
            (rowOf b W H bits (y + |(y' : Int) - y|).toNat) j) ∧
        (r < |(y' : Int) - y| → rowOf b' W H bits y' j = rowOf b W H bits y' j) := by
  have loc' : ∀ v ∈ itercirclepartlineedge r, ∀ g g' : Nat → Nat → Nat,
      (∀ p q, (p < H ∧ q < rowLen W bits) → ((p : Int) = y - v.2 ∨ (p : Int) = y + v.2) → g p q = g' p q) →
      ∀ p q, (p < H ∧ q < rowLen W bits) → ((p : Int) = y - v.2 ∨ (p : Int) = y + v.2) →
        T v p (g (y - v.2).toNat) (g (y + v.2).toNat) q = T v p (g' (y - v.2).toNat) (g' (y + v.2).toNat) q := by
    intro v hv g g' hg p q hD hz
    refine loc v hv p _ _ _ _ ?_ ?_ hD.1 hz q hD.2
    · intro h0 h1 j hj
      exact hg _ _ ⟨by omega, hj⟩ (Or.inl (by omega))
    · intro h0 h1 j hj
      exact hg _ _ ⟨by omega, hj⟩ (Or.inr (by omega))
  have step' : ∀ b, Valid b W H bits → ∀ v ∈ itercirclepartlineedge r, ∃ b', f b v = .ok b' ∧ Valid b' W H bits ∧
      SameHeader b b' bits ∧ ∀ p q, (p < H ∧ q < rowLen W bits) →
        (((p : Int) = y - v.2 ∨ (p : Int) = y + v.2) → byte b' (cell W H bits p q) =
          T v p (rowOf b W H bits (y - v.2).toNat) (rowOf b W H bits (y + v.2).toNat) q) ∧
        (¬ ((p : Int) = y - v.2 ∨ (p : Int) = y + v.2) → byte b' (cell W H bits p q) = byte b (cell W H bits p q)) := by
    intro b hb v hv
    obtain ⟨b', e, g⟩ := step b hb v hv
    refine ⟨b', e, g.valid, g.header, ?_⟩
    intro p q hD
    have hcell := g.cells p q hD.1 hD.2
    constructor
    · intro hz; rw [hcell, if_pos hz]
    · intro hz; rw [hcell, if_neg hz]
  obtain ⟨b', e, hv, hs, hc⟩ := zone_fold (W := W) (H := H) (bits := bits)
    (fun b p q => byte b (cell W H bits p q)) (fun p q => p < H ∧ q < rowLen W bits)
    (fun v p _ => (p : Int) = y - v.2 ∨ (p : Int) = y + v.2)
    (fun v g p q => T v p (g (y - v.2).toNat) (g (y + v.2).toNat) q) f (itercirclepartlineedge r)
    (rows_disjoint r y) loc' step' h
  refine ⟨b', e, hv, hs, ?_⟩
  intro y' j hy hj
  obtain ⟨c1, c2⟩ := hc y' j ⟨hy, hj⟩
  refine ⟨?_, ?_⟩
  · intro hw hhw
    exact c1 (hw, |(y' : Int) - y|) (mem_lineedge.mpr hhw) ((abs_row (abs_nonneg _)).mpr rfl)
  · intro hr
    apply c2
    intro a ha hz
    have hb := halfWidth_bounds (mem_lineedge.mp ha)
    have := (abs_row hb.2.2.1).mp hz
    omega

/-- The result of a row operation on a circular region: every row of the circle becomes its `newRow`, all other
rows stay as they are. -/
structure CircRows (F : (Nat → Nat) → Nat → Nat → Bytes) (b b' : Bytes) (W H bits : Nat) (x y r : Int) : Prop where
  valid : Valid b' W H bits
  header : SameHeader b b' bits
  inside : ∀ y' j, y' < H → j < rowLen W bits → ∀ hw, HalfWidth r hw |(y' : Int) - y| →
    rowOf b' W H bits y' j = newRow F W bits (x - hw) (x + hw) (rowOf b W H bits y') j
  outside : ∀ y' j, y' < H → j < rowLen W bits → r < |(y' : Int) - y| → rowOf b' W H bits y' j = rowOf b W H bits y' j

/-- The two statements of a round of `circRegionClip`. -/
theorem two_rows (h : Valid b W H bits) {f : Bytes → Int → Int → Py Bytes} {F : (Nat → Nat) → Nat → Nat → Bytes}
    (hf : RowFn f F W H bits) {x1 x2 ya yb : Int} 
    (h0 : 0 ≤ (min x2 ((W : Int) - 1)) * bits / 8 + dataOff bits) :
    ∃ b', (do
      let bmp ← (if isinrange ya H (-1) = true then segUpdate f b (max x1 0) (min x2 ((W : Int) - 1)) ya else pure b : Py Bytes)
      if isinrange yb H (-1) = true ∧ ya ≠ yb then segUpdate f bmp (max x1 0) (min x2 ((W : Int) - 1)) yb else pure bmp) = .ok b' ∧
    Grid b b' W H bits (fun y' j => if (y' : Int) = ya ∨ (y' : Int) = yb
        then newRow F W bits x1 x2 (rowOf b W H bits y') j else byte b (cell W H bits y' j)) := by
  have key : ∀ b, Valid b W H bits → ∀ yc : Int, ∃ b', 
      (if isinrange yc H (-1) = true then segUpdate f b (max x1 0) (min x2 ((W : Int) - 1)) yc else pure b : Py Bytes) = .ok b' ∧
      Grid b b' W H bits (fun y' j => if (y' : Int) = yc
        then newRow F W bits x1 x2 (rowOf b W H bits y') j else byte b (cell W H bits y' j)) := by
    intro b h yc
    by_cases c : isinrange yc H (-1) = true
    · rw [if_pos c]
      simp only [isinrange, Bool.and_eq_true, decide_eq_true_eq] at c
      obtain ⟨n, rfl⟩ := Int.eq_ofNat_of_zero_le (show 0 ≤ yc by omega)
      obtain ⟨b', e, g⟩ := segUpdate_clip h hf (x1 := x1) (x2 := x2) (y := n) (by omega) h0
      refine ⟨b', e, g.congr ?_⟩
      intro y' j _ _
      by_cases hy : y' = n
      · subst hy; rw [if_pos rfl, if_pos rfl]; rfl
      · rw [if_neg hy, if_neg (by omega)]
    · rw [if_neg c]
      simp only [isinrange, Bool.and_eq_true, decide_eq_true_eq] at c
      refine ⟨b, rfl, (Grid.refl h).congr ?_⟩
      intro y' j hy _
      rw [if_neg (by omega)]
  obtain ⟨b1, e1, g1⟩ := key b h ya
  rw [e1]
  by_cases c : ya = yb
  · subst c
    refine ⟨b1, by simp, g1.congr ?_⟩
    intro y' j _ _; simp
  · obtain ⟨b2, e2, g2⟩ := key b1 g1.valid yb
    refine ⟨b2, ?_, (g1.trans g2).congr ?_⟩
    · rw [ok_bind, ← e2]; simp [c]
    · intro y' j hy hj
      by_cases c2 : (y' : Int) = yb
      · rw [if_pos c2, if_pos (Or.inr c2)]
        apply newRow_loc hf _ j hj
        intro j hj
        unfold rowOf
        rw [g1.cells y' j hy hj, if_neg (by omega)]
      · rw [if_neg c2, g1.cells y' j hy hj]
        by_cases c1 : (y' : Int) = ya
        · rw [if_pos c1, if_pos (Or.inl c1)]
        · rw [if_neg c1, if_neg (by tauto)]

theorem min_col {x hw : Int} (hd : Depth bits) (hw0 : 0 ≤ hw) (hx : 0 ≤ x * bits / 8 + dataOff bits) :
    0 ≤ (min (x + hw) ((W : Int) - 1)) * bits / 8 + dataOff bits := by
  have := dataOff_ge bits
  rcases le_total (x + hw) ((W : Int) - 1) with c | c
  · rw [min_eq_left c]
    rcases hd with rfl | rfl | rfl | rfl <;> omega
  · rw [min_eq_right c]
    rcases hd with rfl | rfl | rfl | rfl <;> omega

theorem two_rows_loc {f : Bytes → Int → Int → Py Bytes} {F : (Nat → Nat) → Nat → Nat → Bytes} (hf : RowFn f F W H bits)
    {x y : Int} {v : Int × Int} {y' : Nat} {ρ1 ρ1' ρ2 ρ2' : Nat → Nat}
    (h1 : 0 ≤ y - v.2 → y - v.2 < H → ∀ j, j < rowLen W bits → ρ1 j = ρ1' j)
    (h2 : 0 ≤ y + v.2 → y + v.2 < H → ∀ j, j < rowLen W bits → ρ2 j = ρ2' j) (hy : y' < H)
    (hz : (y' : Int) = y - v.2 ∨ (y' : Int) = y + v.2) (j : Nat) (hj : j < rowLen W bits) :
    newRow F W bits (x - v.1) (x + v.1) (if (y' : Int) = y - v.2 then ρ1 else ρ2) j =
    newRow F W bits (x - v.1) (x + v.1) (if (y' : Int) = y - v.2 then ρ1' else ρ2') j := by
  apply newRow_loc hf _ j hj
  intro j hj
  split_ifs with c
  · exact h1 (by omega) (by omega) j hj
  · exact h2 (by omega) (by omega) j hj

theorem circ_fold (h : Valid b W H bits) {f : Bytes → Int → Int → Py Bytes} {F : (Nat → Nat) → Nat → Nat → Bytes}
    (hf : RowFn f F W H bits) {x y r : Int} (g : Bytes → Int × Int → Py Bytes)
    (step : ∀ b, Valid b W H bits → ∀ v ∈ itercirclepartlineedge r, ∃ b', g b v = .ok b' ∧
      Grid b b' W H bits (fun y' j => if (y' : Int) = y - v.2 ∨ (y' : Int) = y + v.2
        then newRow F W bits (x - v.1) (x + v.1) (rowOf b W H bits y') j else byte b (cell W H bits y' j))) :
    ∃ b', (itercirclepartlineedge r).foldlM g b = .ok b' ∧ CircRows F b b' W H bits x y r := by
  obtain ⟨b', e, hv, hs, hc⟩ := scanline_fold (W := W) (H := H) (bits := bits) (x := x) (y := y) (r := r) g
    (fun v y' ρ1 ρ2 j => newRow F W bits (x - v.1) (x + v.1) (if (y' : Int) = y - v.2 then ρ1 else ρ2) j)
    (fun v hv y' ρ1 ρ1' ρ2 ρ2' h1 h2 hy hz j hj => two_rows_loc hf h1 h2 hy hz j hj)
    (by
      intro b hb v hv
      obtain ⟨b', e, gr⟩ := step b hb v hv
      refine ⟨b', e, gr.congr ?_⟩
      intro y' j hy hj
      by_cases c : (y' : Int) = y - v.2 ∨ (y' : Int) = y + v.2
      · rw [if_pos c, if_pos c]
        congr 1
        by_cases c1 : (y' : Int) = y - v.2
        · rw [if_pos c1, ← c1, Int.toNat_natCast]
        · rw [if_neg c1, ← c.resolve_left c1, Int.toNat_natCast]
      · rw [if_neg c, if_neg c]) h
  refine ⟨b', e, hv, hs, ?_, fun y' j hy hj => (hc y' j hy hj).2⟩
  intro y' j hy hj hw hhw
  rw [(hc y' j hy hj).1 hw hhw]
  congr 1
  have := (abs_row (y := y) (y' := y') (abs_nonneg ((y' : Int) - y))).mpr rfl
  by_cases c1 : (y' : Int) = y - |(y' : Int) - y|
  · rw [if_pos c1, ← c1, Int.toNat_natCast]
  · rw [if_neg c1, ← this.resolve_left c1, Int.toNat_natCast]

/-- Row operations on a circle: the common rule. -/
theorem circRegion_spec (h : Valid b W H bits) {f : Bytes → Int → Int → Py Bytes} {F : (Nat → Nat) → Nat → Nat → Bytes}
    (hf : RowFn f F W H bits) {x y r : Int} (hx : 0 ≤ x * bits / 8 + dataOff bits) :
    ∃ b', circRegion f f b x y r = .ok b' ∧ CircRows F b b' W H bits x y r := by
  have hmx : getmaxx b = .ok (W : Int) := h.getmaxx_eq
  have hmy : getmaxy b = .ok (H : Int) := h.getmaxy_eq
  unfold circRegion
  rw [hmx, hmy]
  simp only [ok_bind]
  have setmin_eq : ∀ a : Int, setmin a 0 = max a 0 := by intro a; unfold setmin; split_ifs <;> omega
  have setmax_eq : ∀ a : Int, setmax a ((W : Int) - 1) = min a ((W : Int) - 1) := by
    intro a; unfold setmax; split_ifs <;> omega
  have hw0 : ∀ v ∈ itercirclepartlineedge r, 0 ≤ v.1 ∧ v.1 ≤ r ∧ 0 ≤ v.2 ∧ v.2 ≤ r :=
    fun v hv => halfWidth_bounds (mem_lineedge.mp hv)
  by_cases c : entirecircleisinboundary x y (-1) W (-1) H r = true
  · rw [if_pos c]
    unfold circRegionIn
    apply circ_fold h hf
    intro b hb v hv
    obtain ⟨b', e, g⟩ := two_rows hb hf (x1 := x - v.1) (x2 := x + v.1) (ya := y - v.2) (yb := y + v.2)
      (min_col h.depth (hw0 v hv).1 hx)
    refine ⟨b', ?_, g⟩
    rw [← e]
    have := hw0 v hv
    simp only [entirecircleisinboundary, isinrange, Bool.and_eq_true, decide_eq_true_eq] at c
    rw [max_eq_left (by omega), min_eq_left (by omega), if_pos (by simp [isinrange]; omega)]
    simp only [mirror]
    congr 1
    funext bmp
    have hr2 : isinrange (y + v.2) H (-1) = true := by simp [isinrange]; omega
    by_cases cc : y - v.2 = y + v.2
    · exact (if_neg (fun h => h cc)).trans (if_neg (fun h => h.2 cc)).symm
    · exact (if_pos cc).trans (if_pos ⟨hr2, cc⟩).symm
  · rw [if_neg c]
    unfold circRegionClip
    rw [hmx, hmy]
    simp only [ok_bind]
    apply circ_fold h hf
    intro b hb v hv
    obtain ⟨b', e, g⟩ := two_rows hb hf (x1 := x - v.1) (x2 := x + v.1) (ya := y + v.2) (yb := y - v.2)
      (min_col h.depth (hw0 v hv).1 hx)
    refine ⟨b', ?_, g.congr ?_⟩
    · rw [← e]
      simp only [mirror, setmin_eq, setmax_eq]
    · intro y' j _ _
      simp only [or_comm]

end

end Verif
