import Verif.Model.Edges
import Verif.Props.Iterate
import Verif.Props.Files
import Verif.Props.Helpers
import Verif.Props.Strokes
import Verif.Props.Verts
/-! C124 to C126: edge detection, automatic cropping and regions of similar colour. -/

namespace Verif.Props.Edges
open Verif Spec Model Verif.Props

/-- Squared distance of two colours. -/
def colourDist (p q : Nat × Nat × Nat) : Int :=
  ((p.1 : Int) - q.1) ^ 2 + ((p.2.1 : Int) - q.2.1) ^ 2 + ((p.2.2 : Int) - q.2.2) ^ 2

/-- The distance of two colours is more than `t`. -/
def Differ (t : Int) (p q : Nat × Nat × Nat) : Prop := t < 0 ∨ t ^ 2 < colourDist p q

/-- The point is a pixel of the image. -/
def Inside (W H : Nat) (u : Int × Int) : Prop := 0 ≤ u.1 ∧ u.1 < W ∧ 0 ≤ u.2 ∧ u.2 < H

/-- What is seen at a point. -/
def seen (b : Bytes) (W H bits : Nat) (u : Int × Int) : Nat × Nat × Nat := pixRGB b W H bits u.1.toNat u.2.toNat

/-- Two points touch each other at a side or corner. -/
def Touch (u v : Int × Int) : Prop := u ≠ v ∧ |u.1 - v.1| ≤ 1 ∧ |u.2 - v.2| ≤ 1

/-- Two points touch each other at a side. -/
def Beside (u v : Int × Int) : Prop := |u.1 - v.1| + |u.2 - v.2| = 1

theorem distGt_iff (p q : Nat × Nat × Nat) (t : Int) : distGt (rgbI p) (rgbI q) t = true ↔ Differ t p q := by
  unfold distGt Differ distRGB colourDist rgbI
  simp only [Bool.or_eq_true, decide_eq_true_eq]
  rw [show t ^ 2 = t * t by ring]
  simp only [pow_two]

theorem differ_comm {t : Int} {p q : Nat × Nat × Nat} : Differ t p q ↔ Differ t q p := by
  unfold Differ colourDist
  constructor <;> rintro (h | h)
  all_goals first | exact .inl h | (right; linarith)

theorem mem_scan {α : Type} (W H : Nat) (f : Nat → Nat → α) (v : (Int × Int) × α) :
    v ∈ scan W H f ↔ Inside W H v.1 ∧ v.2 = f v.1.1.toNat v.1.2.toNat := by
  unfold scan scanRow Inside
  simp only [List.mem_flatMap, List.mem_reverse, List.mem_range, List.mem_map]
  constructor
  · rintro ⟨y, hy, x, hx, rfl⟩
    dsimp only
    exact ⟨by omega, by simp⟩
  · rintro ⟨⟨h1, h2, h3, h4⟩, e⟩
    refine ⟨v.1.2.toNat, by omega, v.1.1.toNat, by omega, ?_⟩
    rw [← e, Int.toNat_of_nonneg h1, Int.toNat_of_nonneg h3]

variable {b : Bytes} {W H bits : Nat}

theorem first_spec (h : Valid b W H bits) (q : Nat × Nat × Nat) (t : Int) (us : List (Int × Int))
    (hin : ∀ u ∈ us, Inside W H u) :
    firstdifferent b (rgbI q) t us = .ok (us.find? fun u => distGt (rgbI (seen b W H bits u)) (rgbI q) t) := by
  induction us with
  | nil => rfl
  | cons u us ih =>
    obtain ⟨h1, h2, h3, h4⟩ := hin u (by simp)
    have e := getRGB_spec h (x := u.1.toNat) (y := u.2.toNat) (by omega) (by omega)
    rw [Int.toNat_of_nonneg h1, Int.toNat_of_nonneg h3] at e
    unfold firstdifferent getRGBxybitvec
    rw [e, ok_bind, List.find?_cons]
    dsimp only
    unfold seen at ih ⊢
    split_ifs with g
    · rw [g]; rfl
    · rw [Bool.not_eq_true] at g
      rw [g]
      exact ih fun u hu => hin u (by simp [hu])

theorem neighbours_inside {v : Int × Int} (hv : Inside W H v) : ∀ u ∈ itergetneighbors v W H false, Inside W H u ∧ Touch u v := by
  intro u hu
  obtain ⟨h1, h2, h3, h4, h5, h6, h7⟩ := ((C52_exact v W H false).2 u).mp hu
  unfold Inside Touch at *
  refine ⟨by omega, fun e => absurd (h3 e) (by simp), by rw [abs_le]; omega, by rw [abs_le]; omega⟩

/-- The pixel found for the pixel `v`. -/
def found (b : Bytes) (W H bits : Nat) (t : Int) (v : Int × Int) : Option (Int × Int) :=
  (itergetneighbors v W H false).find? fun u => distGt (rgbI (seen b W H bits u)) (rgbI (seen b W H bits v)) t

theorem edge_run (h : Valid b W H bits) (hw : FullBytes W bits) (t : Int) :
    getimagedgevert b t = .ok (((scan W H fun x y => rgbI (pixRGB b W H bits x y)).map fun v => found b W H bits t v.1).filterMap id) := by
  unfold getimagedgevert
  rw [getmaxxy_eq h, ok_bind, C39_iterimageRGB_partial h hw, ok_bind,
    mapM_ok _ _ (fun v => found b W H bits t v.1), ok_bind, pure_eq_ok]
  intro v hv
  obtain ⟨h1, h2⟩ := (mem_scan W H _ v).mp hv
  rw [h2]
  exact first_spec h (seen b W H bits v.1) t _ fun u hu => (neighbours_inside h1 u hu).1

/-- C124: every pixel found lies in the image and touches a pixel whose colour differs by more than the threshold;
of two pixels beside each other that differ this much, one is found or touches one that is found.
Missing: images whose rows do not end with a byte (C39), and the exact set of pixels, which depends on the order
of the neighbours. -/
theorem C124_edges_partial (h : Valid b W H bits) (hw : FullBytes W bits) (t : Int) :
    ∃ l, getimagedgevert b t = .ok l ∧
      (∀ u ∈ l, Inside W H u ∧ ∃ v, Inside W H v ∧ Touch u v ∧ Differ t (seen b W H bits u) (seen b W H bits v)) ∧
      ∀ u v, Inside W H u → Inside W H v → Beside u v → Differ t (seen b W H bits u) (seen b W H bits v) →
        ∃ p ∈ l, Touch p u ∨ Touch p v := by
  refine ⟨_, edge_run h hw t, ?_, ?_⟩
  · intro u hu
    simp only [List.mem_filterMap, List.mem_map, id_eq] at hu
    obtain ⟨o, ⟨v, hv, rfl⟩, hu⟩ := hu
    obtain ⟨h1, -⟩ := (mem_scan W H _ v).mp hv
    unfold found at hu
    have hm := List.mem_of_find?_eq_some hu
    have hp := List.find?_some hu
    obtain ⟨i1, i2⟩ := neighbours_inside h1 u hm
    exact ⟨i1, v.1, h1, i2, (distGt_iff _ _ _).mp hp⟩
  · have key : ∀ u v, Inside W H u → Inside W H v → u ∈ itergetneighbors v W H false →
        Differ t (seen b W H bits u) (seen b W H bits v) →
        ∃ p ∈ ((scan W H fun x y => rgbI (pixRGB b W H bits x y)).map fun v => found b W H bits t v.1).filterMap id, Touch p v := by
      intro u v hu hv hm hd
      have : (found b W H bits t v).isSome = true := by
        unfold found
        rw [List.find?_isSome]
        exact ⟨u, hm, (distGt_iff _ _ _).mpr hd⟩
      obtain ⟨p, hp⟩ := Option.isSome_iff_exists.mp this
      refine ⟨p, ?_, (neighbours_inside hv p (List.mem_of_find?_eq_some hp)).2⟩
      simp only [List.mem_filterMap, List.mem_map, id_eq]
      exact ⟨_, ⟨(v, rgbI (pixRGB b W H bits v.1.toNat v.2.toNat)), (mem_scan W H _ _).mpr ⟨hv, rfl⟩, rfl⟩, hp⟩
    intro u v hu hv hb hd
    by_cases hm : u ∈ itergetneighbors v W H false
    · obtain ⟨p, h1, h2⟩ := key u v hu hv hm hd
      exact ⟨p, h1, .inr h2⟩
    · have hm' : v ∈ itergetneighbors u W H false := by
        rw [(C52_exact _ _ _ _).2] at hm ⊢
        unfold Inside Beside at *
        have hne : u ≠ v := by rintro rfl; simp at hb
        have hne' : ¬ (u.1 = v.1 ∧ u.2 = v.2) := fun g => hne (Prod.ext g.1 g.2)
        have ax := abs_cases (u.1 - v.1)
        have ay := abs_cases (u.2 - v.2)
        refine ⟨by omega, by omega, fun g => absurd g.symm hne, ?_, ?_, by omega, by omega⟩
        · intro g
          by_contra g0
          exact hm ⟨by omega, by omega, fun g => absurd g hne, by omega, by omega, by omega, by omega⟩
        · intro g
          by_contra g0
          exact hm ⟨by omega, by omega, fun g => absurd g hne, by omega, by omega, by omega, by omega⟩
      obtain ⟨p, h1, h2⟩ := key v u hv hu hm' (differ_comm.mp hd)
      exact ⟨p, h1, .inl h2⟩

/-- For the threshold 0 pixels differ exactly if their colours are not the same. -/
theorem differ_zero (p q : Nat × Nat × Nat) : Differ 0 p q ↔ p ≠ q := by
  obtain ⟨a, b, c⟩ := p
  obtain ⟨d, e, f⟩ := q
  unfold Differ colourDist
  dsimp only
  constructor
  · rintro (h | h) g
    · omega
    · simp only [Prod.mk.injEq] at g
      obtain ⟨rfl, rfl, rfl⟩ := g
      simp at h
  · intro g
    right
    by_contra hn
    have h1 := sq_nonneg ((a : Int) - d)
    have h2 := sq_nonneg ((b : Int) - e)
    have h3 := sq_nonneg ((c : Int) - f)
    have e1 : ((a : Int) - d) ^ 2 = 0 := by linarith
    have e2 : ((b : Int) - e) ^ 2 = 0 := by linarith
    have e3 : ((c : Int) - f) ^ 2 = 0 := by linarith
    rw [pow_eq_zero_iff (by norm_num)] at e1 e2 e3
    exact g (by simp only [Prod.mk.injEq]; omega)

/-- C124: with the threshold 0 nothing is found exactly if the image shows a single colour. -/
theorem C124_uniform_partial (h : Valid b W H bits) (hw : FullBytes W bits) :
    getimagedgevert b 0 = .ok [] ↔ ∀ u v, Inside W H u → Inside W H v → seen b W H bits u = seen b W H bits v := by
  obtain ⟨l, e, hs, hc⟩ := C124_edges_partial h hw 0
  constructor
  · intro g
    rw [e] at g
    obtain rfl := Except.ok.inj g
    have step : ∀ u v, Inside W H u → Inside W H v → Beside u v → seen b W H bits u = seen b W H bits v := by
      intro u v hu hv hb
      by_contra hn
      obtain ⟨p, hp, -⟩ := hc u v hu hv hb ((differ_zero _ _).mpr hn)
      simp at hp
    have row : ∀ (n : Nat) (y : Int), Inside W H ((n : Int), y) → seen b W H bits ((n : Int), y) = seen b W H bits (0, y) := by
      intro n
      induction n with
      | zero => intro y _; rfl
      | succ n ih =>
        intro y hy
        have hn : Inside W H ((n : Int), y) := by unfold Inside at *; dsimp only at *; push_cast at hy; omega
        rw [← ih y hn]
        exact step _ _ hy hn (by unfold Beside; simp)
    have col : ∀ n : Nat, Inside W H (0, (n : Int)) → seen b W H bits (0, (n : Int)) = seen b W H bits (0, 0) := by
      intro n
      induction n with
      | zero => intro _; rfl
      | succ n ih =>
        intro hy
        have hn : Inside W H (0, (n : Int)) := by unfold Inside at *; dsimp only at *; push_cast at hy; omega
        rw [← ih hn]
        exact step _ _ hy hn (by unfold Beside; simp)
    have all : ∀ u, Inside W H u → seen b W H bits u = seen b W H bits (0, 0) := by
      intro u hu
      obtain ⟨x, y⟩ := u
      obtain ⟨n, rfl⟩ := Int.eq_ofNat_of_zero_le hu.1
      obtain ⟨m, rfl⟩ := Int.eq_ofNat_of_zero_le hu.2.2.1
      rw [row n m hu]
      exact col m (by unfold Inside at *; dsimp only at *; omega)
    intro u v hu hv
    rw [all u hu, all v hv]
  · intro g
    rw [e]
    cases l with
    | nil => rfl
    | cons p l =>
      obtain ⟨h1, v, h2, -, h3⟩ := hs p (by simp)
      exact absurd (g p v h1 h2) ((differ_zero _ _).mp h3)

/-- C124: `plotimgedges` marks the pixels found with the pen and changes nothing else. -/
theorem C124_plot_partial (h : Valid b W H bits) (hw : FullBytes W bits) (t : Int) {pen color : Int} (hc : IsColour bits color) :
    ∃ l b', getimagedgevert b t = .ok l ∧ plotimgedges b t pen color = .ok b' ∧
      Paints b b' W H bits (fun px py => ∃ v ∈ l, PenSet W bits pen v.1 v.2 px py) color.toNat := by
  obtain ⟨l, e, hs, -⟩ := C124_edges_partial h hw t
  obtain ⟨b', e', hp⟩ := C92_pointlist_partial h hc (vlist := l) (pen := pen) (.inr fun v hv =>
    penOK_in h.depth (hs v hv).1.1 (hs v hv).1.2.1)
  refine ⟨l, b', e, ?_, hp⟩
  unfold plotimgedges
  rw [e, ok_bind, e']

/-- A white pixel in the middle of a black image: each of its eight neighbours finds it, and it finds the
pixel below. -/
example : (do getimagedgevert (← plotxybit (← newBMP 4 4 24) 1 1 0xffffff) 100)
    = .ok [(1, 1), (1, 1), (1, 1), (1, 1), (1, 2), (1, 1), (1, 1), (1, 1), (1, 1)] := by decide +kernel

/-- C124: a pixel of another colour in column 0 is not found from the right, as column 1 does not look at
the neighbour to the left; the pixel itself still finds its neighbour. -/
theorem C124_column0 : (do getimagedgevert (← plotxybit (← newBMP 4 1 24) 0 0 0xffffff) 100) = .ok [(1, 0)] := by
  decide +kernel

/-- The colour `rgb` is nearer than `t` to `p`. -/
def Near (t : Int) (rgb : Int × Int × Int) (p : Nat × Nat × Nat) : Prop :=
  0 < t ∧ (rgb.1 - p.1) ^ 2 + (rgb.2.1 - p.2.1) ^ 2 + (rgb.2.2 - p.2.2) ^ 2 < t ^ 2

theorem distLt_iff (rgb : Int × Int × Int) (p : Nat × Nat × Nat) (t : Int) : distLt rgb (rgbI p) t = true ↔ Near t rgb p := by
  unfold distLt Near distRGB rgbI
  simp only [Bool.and_eq_true, decide_eq_true_eq]
  simp only [pow_two]

theorem scan_nodup {α : Type} (W H : Nat) (f : Nat → Nat → α) : ((scan W H f).map Prod.fst).Nodup := by
  unfold scan scanRow
  rw [List.map_flatMap, List.nodup_flatMap]
  refine ⟨?_, ?_⟩
  · intro y _
    rw [List.map_map]
    apply List.Nodup.map _ List.nodup_range
    intro a c hac
    simp only [Function.comp_apply, Prod.mk.injEq, Nat.cast_inj, and_true] at hac
    exact hac
  · rw [List.pairwise_reverse]
    refine List.nodup_range.imp ?_
    intro a c hac
    simp only [Function.onFun, List.disjoint_left, List.mem_map]
    rintro _ ⟨_, ⟨x, _, rfl⟩, rfl⟩ ⟨_, ⟨x', _, rfl⟩, g⟩
    simp only [Prod.mk.injEq, Nat.cast_inj] at g
    exact hac g.2

/-- C126: the region of a colour is exactly the pixels nearer than the threshold, each listed once.
Missing: images whose rows do not end with a byte, see `C126_bottom_row_only`. -/
theorem C126_region_partial (h : Valid b W H bits) (hw : FullBytes W bits) (rgb : Int × Int × Int) (t : Int) :
    ∃ l, getimageregionbyRGB b rgb t = .ok l ∧ l.Nodup ∧ ∀ u, u ∈ l ↔ Inside W H u ∧ Near t rgb (seen b W H bits u) := by
  refine ⟨_, by unfold getimageregionbyRGB; rw [C39_iterimageRGB_partial h hw, ok_bind, pure_eq_ok], ?_, ?_⟩
  · exact (scan_nodup W H _).sublist (List.filter_sublist.map _)
  · intro u
    simp only [List.mem_map, List.mem_filter]
    constructor
    · rintro ⟨v, ⟨hv, hd⟩, rfl⟩
      obtain ⟨h1, h2⟩ := (mem_scan W H _ v).mp hv
      rw [h2, distLt_iff] at hd
      exact ⟨h1, hd⟩
    · rintro ⟨h1, h2⟩
      exact ⟨(u, rgbI (seen b W H bits u)), ⟨(mem_scan W H _ _).mpr ⟨h1, rfl⟩, (distLt_iff _ _ _).mpr h2⟩, rfl⟩

/-- C126 fails for rows that end inside a byte: only the bottom row is looked at. -/
theorem C126_bottom_row_only (h : Valid b W H bits) (hw : ¬ FullBytes W bits) (hH : 0 < H) (rgb : Int × Int × Int) (t : Int) :
    ∃ l, getimageregionbyRGB b rgb t = .ok l ∧
      ∀ u, u ∈ l ↔ Inside W H u ∧ u.2 = H - 1 ∧ Near t rgb (seen b W H bits u) := by
  refine ⟨_, by unfold getimageregionbyRGB; rw [C39_only_bottom_row h hw hH, ok_bind, pure_eq_ok], ?_⟩
  intro u
  unfold scanRow
  simp only [List.mem_map, List.mem_filter, List.mem_range]
  constructor
  · rintro ⟨_, ⟨⟨x, hx, rfl⟩, hd⟩, rfl⟩
    rw [distLt_iff] at hd
    refine ⟨?_, ?_, ?_⟩
    · unfold Inside; dsimp only; omega
    · dsimp only; omega
    · unfold seen; simpa using hd
  · rintro ⟨⟨h1, h2, h3, h4⟩, h5, h6⟩
    refine ⟨(u, rgbI (seen b W H bits u)), ⟨⟨u.1.toNat, by omega, ?_⟩, (distLt_iff _ _ _).mpr h6⟩, rfl⟩
    unfold seen
    rw [show u.2.toNat = H - 1 by omega, Int.toNat_of_nonneg h1, show ((H - 1 : Nat) : Int) = u.2 by omega]

/-- The same image with all pixels black and the same palette. -/
theorem copyhdr_shows (h : Valid b W H bits) :
    ∃ n, copyBMPhdr b = .ok n ∧ Shows n W H bits (palRGB b) (fun _ _ => 0) := by
  have hlen := h.len
  have hd := dataOff_ge bits
  have hl : (b.take (dataOff bits)).length = dataOff bits := by rw [List.length_take]; omega
  have hfit : 0 + (b.take (dataOff bits)).length ≤ (List.replicate b.length 0).length := by rw [hl, List.length_replicate]; omega
  have hb : ∀ i, byte (ow (List.replicate b.length 0) 0 (b.take (dataOff bits))) i = if i < dataOff bits then byte b i else 0 := by
    intro i
    have hz : byte (List.replicate b.length 0) i = 0 := (Verif.byte_replicate _ _ _).trans (ite_self 0)
    rw [byte_ow hfit, hl, byte_take, hz]
    by_cases g : i < dataOff bits
    · simp [g]
    · simp [g]
  refine ⟨ow (List.replicate b.length 0) 0 (b.take (dataOff bits)), ?_, ?_, ?_, ?_⟩
  · unfold copyBMPhdr
    rw [h.hdsz_eq, h.flsz_eq]
    simp only [ok_bind, pure_eq_ok]
    rw [pyRepeat_nat, Int.toNat_natCast, slice_ok (b := b) (s := 0) (n := 0) (m := dataOff bits) rfl rfl (by omega) (by omega), List.drop_zero]
    exact congrArg _ (setSlice_ok (n := 0) rfl (by rw [hl]; simp) hfit)
  · refine valid_congr h ?_ ?_ ?_
    · rw [length_ow hfit, List.length_replicate]
    · apply mem_lt_of_byte
      intro i _
      rw [hb]
      split_ifs
      · exact byte_lt_of_mem h.bytes _
      · omega
    · intro i hi
      rw [hb, if_pos (by omega)]
  · intro h24 c hc
    have hp := h.pal_fits h24 hc
    unfold palRGB
    rw [hb, hb, hb, if_pos (by omega), if_pos (by omega), if_pos (by omega)]
  · intro x y _ _
    unfold pix
    dsimp only
    split_ifs
    · rw [hb, hb, hb, if_neg (by omega), if_neg (by omega), if_neg (by omega)]
    · rw [hb, if_neg (by omega)]; simp

variable {fs : Files} {ex nw : String}

/-- C126: `imgregionbyRGB2file` saves the image, or with `showedgeonly` an image of colour number 0 with the same
palette, with the pen set at the pixels of the region. -/
theorem C126_file_partial (h : Stored fs ex b W H bits) (hw : FullBytes W bits) {pen color : Int} (hc : IsColour bits color)
    (rgb : Int × Int × Int) (t : Int) (only : Bool) :
    ∃ base, (if only then Shows base W H bits (palRGB b) (fun _ _ => 0) else base = b) ∧
      ∃ fs', imgregionbyRGB2file fs ex nw pen color rgb t only = .ok fs' ∧ Saved fs fs' nw fun n =>
        Paints base n W H bits
          (fun px py => ∃ u, (Inside W H u ∧ Near t rgb (seen b W H bits u)) ∧ PenSet W bits pen u.1 u.2 px py) color.toNat := by
  obtain ⟨l, e, -, hl⟩ := C126_region_partial h.valid hw rgb t
  have hpen : pen ≤ 1 ∨ ∀ v ∈ l, PenOK W bits v.1 :=
    .inr fun v hv => penOK_in h.valid.depth ((hl v).mp hv).1.1 ((hl v).mp hv).1.2.1
  obtain ⟨base, eb, hv, hs⟩ : ∃ base, (if only then copyBMPhdr b else pure b) = .ok base ∧ Valid base W H bits ∧
      (if only then Shows base W H bits (palRGB b) (fun _ _ => 0) else base = b) := by
    cases only with
    | false => exact ⟨b, rfl, h.valid, rfl⟩
    | true =>
      obtain ⟨n, e, hn⟩ := copyhdr_shows h.valid
      exact ⟨n, e, hn.valid, hn⟩
  refine ⟨base, hs, ?_⟩
  obtain ⟨b', e', hp⟩ := C92_pointlist_partial hv hc hpen
  refine applysave_saved h ⟨b', ?_, ?_⟩
  · rw [e, ok_bind]
    cases only with
    | false => obtain rfl := Except.ok.inj eb; exact e'
    | true =>
      simp only [if_true] at eb ⊢
      rw [eb, ok_bind, e']
  · refine hp.congr ?_
    intro px py _ _
    rw [iff_comm]
    constructor
    · rintro ⟨v, hv, h⟩
      exact ⟨v, (hl v).mp hv, h⟩
    · rintro ⟨v, hv, h⟩
      exact ⟨v, (hl v).mpr hv, h⟩

/-- C125: if everything that is not background differs from it by more than the threshold and keeps clear of
row and column 0 and of the last two rows and columns, the image saved is cut out around all of it, with a
margin of at most one pixel at the left and top and at most two at the right and bottom.
Missing: images with less background around, see `C125_border_lost`, and rows that do not end with a byte. -/
theorem C125_autocrop_partial (h : Stored fs ex b W H bits) (hw : FullBytes W bits) {t : Int} {bg : Nat × Nat × Nat}
    (ht : 0 ≤ t)
    (hbg : ∀ u, Inside W H u → seen b W H bits u = bg ∨ Differ t (seen b W H bits u) bg)
    (hin : ∀ u, Inside W H u → seen b W H bits u ≠ bg → 1 ≤ u.1 ∧ u.1 + 2 < W ∧ 1 ≤ u.2 ∧ u.2 + 2 < H)
    (hex : ∃ u, Inside W H u ∧ seen b W H bits u ≠ bg) :
    ∃ (x1 y1 x2 y2 : Nat), x1 ≤ x2 ∧ y1 ≤ y2 ∧
      (∀ u, Inside W H u → seen b W H bits u ≠ bg → (x1 : Int) ≤ u.1 ∧ u.1 < x2 ∧ (y1 : Int) ≤ u.2 ∧ u.2 < y2) ∧
      (∃ u, Inside W H u ∧ seen b W H bits u ≠ bg ∧ u.1 ≤ x1 + 1) ∧ (∃ u, Inside W H u ∧ seen b W H bits u ≠ bg ∧ (x2 : Int) ≤ u.1 + 2) ∧
      (∃ u, Inside W H u ∧ seen b W H bits u ≠ bg ∧ u.2 ≤ y1 + 1) ∧ (∃ u, Inside W H u ∧ seen b W H bits u ≠ bg ∧ (y2 : Int) ≤ u.2 + 2) ∧
      ∃ fs', autocropimg2file fs ex nw t = .ok fs' ∧ Saved fs fs' nw fun n =>
        Shows n (x2 - x1 + 1) (y2 - y1 + 1) bits (if bits < 8 then palRGB b else freshPal bits)
          (fun x y => pix b W H bits (x1 + x) (y1 + y)) := by
  obtain ⟨l, e, hs, hc⟩ := C124_edges_partial h.valid hw t
  have self : ∀ p, ¬ Differ t p p := by
    intro p hp
    unfold Differ colourDist at hp
    simp at hp
    rcases hp with g | g
    · omega
    · have := sq_nonneg t; omega
  -- everything found touches or is content
  have near : ∀ p ∈ l, Inside W H p ∧ ∃ u, Inside W H u ∧ seen b W H bits u ≠ bg ∧ |p.1 - u.1| ≤ 1 ∧ |p.2 - u.2| ≤ 1 := by
    intro p hp
    obtain ⟨h1, v, h2, h3, h4⟩ := hs p hp
    refine ⟨h1, ?_⟩
    by_cases g : seen b W H bits p = bg
    · refine ⟨v, h2, fun g' => self bg ?_, h3.2.1, h3.2.2⟩
      rwa [g, g'] at h4
    · exact ⟨p, h1, g, by simp, by simp⟩
  -- a background pixel beside content finds content
  have edge : ∀ u v, Inside W H u → Inside W H v → seen b W H bits u ≠ bg → seen b W H bits v = bg →
      u ∈ itergetneighbors v W H false → ∃ p ∈ l, seen b W H bits p ≠ bg ∧ Touch p v := by
    intro u v hu hv h1 h2 h3
    have hd := (hbg u hu).resolve_left h1
    rw [← h2] at hd
    have : (found b W H bits t v).isSome = true := by
      unfold found
      rw [List.find?_isSome]
      exact ⟨u, h3, (distGt_iff _ _ _).mpr hd⟩
    obtain ⟨p, hp⟩ := Option.isSome_iff_exists.mp this
    have hdp := (distGt_iff _ _ _).mp (List.find?_some (p := fun u => distGt (rgbI (seen b W H bits u)) (rgbI (seen b W H bits v)) t) hp)
    refine ⟨p, ?_, fun g => self bg (by rwa [g, h2] at hdp), (neighbours_inside hv p (List.mem_of_find?_eq_some hp)).2⟩
    have el := Except.ok.inj ((edge_run h.valid hw t).symm.trans e)
    rw [← el]
    simp only [List.mem_filterMap, List.mem_map, id_eq]
    exact ⟨_, ⟨(v, rgbI (pixRGB b W H bits v.1.toNat v.2.toNat)), (mem_scan W H _ _).mpr ⟨hv, rfl⟩, rfl⟩, hp⟩
  have left : ∀ (n : Nat) (y : Int), Inside W H ((n : Int), y) → seen b W H bits ((n : Int), y) ≠ bg → ∃ p ∈ l, p.1 ≤ n := by
    intro n
    induction n with
    | zero => intro y h1 h2; have := (hin _ h1 h2).1; simp at this
    | succ n ih =>
      intro y h1 h2
      have hv : Inside W H ((n : Int), y) := by unfold Inside at *; dsimp only at *; push_cast at h1; omega
      by_cases g : seen b W H bits ((n : Int), y) = bg
      · obtain ⟨p, hp, -, hT⟩ := edge _ _ h1 hv h2 g (by
          rw [(C52_exact _ _ _ _).2]
          unfold Inside at h1; dsimp only at *; push_cast at *
          refine ⟨by omega, by omega, fun g => ?_, by omega, by omega, by omega, by omega⟩
          simp only [Prod.mk.injEq] at g; omega)
        have := abs_le.mp hT.2.1
        dsimp only at this
        exact ⟨p, hp, by push_cast; omega⟩
      · obtain ⟨p, hp, hle⟩ := ih y hv g
        exact ⟨p, hp, by push_cast; omega⟩
  have top : ∀ (n : Nat) (x : Int), Inside W H (x, (n : Int)) → seen b W H bits (x, (n : Int)) ≠ bg → ∃ p ∈ l, p.2 ≤ n := by
    intro n
    induction n with
    | zero => intro y h1 h2; have := (hin _ h1 h2).2.2.1; simp at this
    | succ n ih =>
      intro y h1 h2
      have hv : Inside W H (y, (n : Int)) := by unfold Inside at *; dsimp only at *; push_cast at h1; omega
      by_cases g : seen b W H bits (y, (n : Int)) = bg
      · obtain ⟨p, hp, -, hT⟩ := edge _ _ h1 hv h2 g (by
          rw [(C52_exact _ _ _ _).2]
          unfold Inside at h1; dsimp only at *; push_cast at *
          refine ⟨by omega, by omega, fun g => ?_, by omega, by omega, by omega, by omega⟩
          simp only [Prod.mk.injEq] at g; omega)
        have := abs_le.mp hT.2.2
        dsimp only at this
        exact ⟨p, hp, by push_cast; omega⟩
      · obtain ⟨p, hp, hle⟩ := ih y hv g
        exact ⟨p, hp, by push_cast; omega⟩
  have right : ∀ (n : Nat) (x y : Int), x + n = W → Inside W H (x, y) → seen b W H bits (x, y) ≠ bg → ∃ p ∈ l, x ≤ p.1 := by
    intro n
    induction n with
    | zero => intro x y h0 h1 h2; have := (hin _ h1 h2).2.1; dsimp only at this; simp at h0; omega
    | succ n ih =>
      intro x y h0 h1 h2
      have hi := hin _ h1 h2
      have hv : Inside W H (x + 1, y) := by unfold Inside at *; dsimp only at *; omega
      by_cases g : seen b W H bits (x + 1, y) = bg
      · obtain ⟨p, hp, -, hT⟩ := edge _ _ h1 hv h2 g (by
          rw [(C52_exact _ _ _ _).2]
          unfold Inside at h1; dsimp only at *
          refine ⟨by omega, by omega, fun g => ?_, by omega, by omega, by omega, by omega⟩
          simp only [Prod.mk.injEq] at g; omega)
        have := abs_le.mp hT.2.1
        dsimp only at this
        exact ⟨p, hp, by omega⟩
      · obtain ⟨p, hp, hle⟩ := ih (x + 1) y (by push_cast at h0; omega) hv g
        exact ⟨p, hp, by omega⟩
  have bottom : ∀ (n : Nat) (x y : Int), y + n = H → Inside W H (x, y) → seen b W H bits (x, y) ≠ bg → ∃ p ∈ l, y ≤ p.2 := by
    intro n
    induction n with
    | zero => intro x y h0 h1 h2; have := (hin _ h1 h2).2.2.2; dsimp only at this; simp at h0; omega
    | succ n ih =>
      intro x y h0 h1 h2
      have hi := hin _ h1 h2
      have hv : Inside W H (x, y + 1) := by unfold Inside at *; dsimp only at *; omega
      by_cases g : seen b W H bits (x, y + 1) = bg
      · obtain ⟨p, hp, -, hT⟩ := edge _ _ h1 hv h2 g (by
          rw [(C52_exact _ _ _ _).2]
          unfold Inside at h1; dsimp only at *
          refine ⟨by omega, by omega, fun g => ?_, by omega, by omega, by omega, by omega⟩
          simp only [Prod.mk.injEq] at g; omega)
        have := abs_le.mp hT.2.2
        dsimp only at this
        exact ⟨p, hp, by omega⟩
      · obtain ⟨p, hp, hle⟩ := ih x (y + 1) (by push_cast at h0; omega) hv g
        exact ⟨p, hp, by omega⟩
  have hne : l ≠ [] := by
    obtain ⟨⟨x, y⟩, h1, h2⟩ := hex
    obtain ⟨p, hp, -⟩ := right (W - x).toNat x y (by have := h1.2.1; dsimp only at this; omega) h1 h2
    exact List.ne_nil_of_mem hp
  obtain ⟨lo, hi, er, hbox, ⟨p1, m1, e1⟩, ⟨p2, m2, e2⟩, ⟨p3, m3, e3⟩, ⟨p4, m4, e4⟩⟩ := C100_boundingbox hne
  have box : ∀ u, Inside W H u → seen b W H bits u ≠ bg → lo.1 ≤ u.1 ∧ u.1 ≤ hi.1 ∧ lo.2 ≤ u.2 ∧ u.2 ≤ hi.2 := by
    rintro ⟨x, y⟩ h1 h2
    obtain ⟨n, rfl⟩ := Int.eq_ofNat_of_zero_le h1.1
    obtain ⟨m, rfl⟩ := Int.eq_ofNat_of_zero_le h1.2.2.1
    obtain ⟨a1, b1, c1⟩ := left n m h1 h2
    obtain ⟨a2, b2, c2⟩ := top m n h1 h2
    obtain ⟨a3, b3, c3⟩ := right (W - n) n m (by have := h1.2.1; dsimp only at this; omega) h1 h2
    obtain ⟨a4, b4, c4⟩ := bottom (H - m) n m (by have := h1.2.2.2; dsimp only at this; omega) h1 h2
    have d1 := hbox a1 b1; have d2 := hbox a2 b2; have d3 := hbox a3 b3; have d4 := hbox a4 b4
    dsimp only
    omega
  obtain ⟨i1, u1, j1, k1, n1, -⟩ := near p1 m1
  obtain ⟨i2, u2, j2, k2, n2, -⟩ := near p2 m2
  obtain ⟨i3, u3, j3, k3, -, n3⟩ := near p3 m3
  obtain ⟨i4, u4, j4, k4, -, n4⟩ := near p4 m4
  rw [abs_le] at n1 n2 n3 n4
  have q2 := hin u2 j2 k2
  have q4 := hin u4 j4 k4
  have hl1 := hbox p1 m1
  have hl3 := hbox p3 m3
  unfold Inside at i1 i2 i3 i4
  obtain ⟨n, en, hn⟩ := C35_crop_partial h.valid (x1 := lo.1) (y1 := lo.2) (x2 := hi.1 + 1) (y2 := hi.2 + 1)
    (by unfold InImage; omega)
  rw [max_eq_right (by omega), min_eq_left (by omega), max_eq_right (by omega), min_eq_left (by omega)] at hn
  refine ⟨lo.1.toNat, lo.2.toNat, (hi.1 + 1).toNat, (hi.2 + 1).toNat, by omega, by omega, ?_, ⟨u1, j1, k1, by omega⟩,
    ⟨u2, j2, k2, by omega⟩, ⟨u3, j3, k3, by omega⟩, ⟨u4, j4, k4, by omega⟩, writeFile fs nw n, ?_, writeFile_saved fs nw ?_⟩
  · intro u hu hk
    have := box u hu hk
    omega
  · unfold autocropimg2file cropBMPandsaveusingrectbnd
    rw [h.content]
    dsimp only
    rw [show loadBMP b = .ok b from C15_save_load h.valid h.long, ok_bind, e, ok_bind, er, ok_bind]
    dsimp only
    rw [applysaveopt_run h, en]
    rfl
  · rw [show (hi.1 + 1).toNat - lo.1.toNat = (hi.1 + 1 - lo.1).toNat by omega,
      show (hi.2 + 1).toNat - lo.2.toNat = (hi.2 + 1 - lo.2).toNat by omega]
    exact hn

/-- C125: an image of one colour cannot be cropped. -/
theorem C125_uniform (h : Stored fs ex b W H bits) (hw : FullBytes W bits)
    (hu : ∀ u v, Inside W H u → Inside W H v → seen b W H bits u = seen b W H bits v) :
    autocropimg2file fs ex nw 0 = .error .indexError := by
  unfold autocropimg2file
  rw [h.content]
  dsimp only
  rw [show loadBMP b = .ok b from C15_save_load h.valid h.long, ok_bind, (C124_uniform_partial h.valid hw).mpr hu, ok_bind,
    C100_boundingbox_empty]
  rfl

/-- C125 is false without background at the right: for a white pixel in the last column of a black
image nothing is saved, as the rectangle found is enlarged to a column outside the image. -/
theorem C125_border_lost : (do
    let b ← plotxybit (← newBMP 5 5 24) 4 2 0xffffff
    let fs : Files := fun n => if n = "a" then some b else none
    let fs' ← autocropimg2file fs "a" "b" 100
    pure (fs' "b")) = .ok none := by decide +kernel

/-- A white pixel with enough background: the part saved has 2 by 3 pixels. -/
example : (do
    let b ← plotxybit (← newBMP 6 6 24) 2 2 0xffffff
    let fs : Files := fun n => if n = "a" then some b else none
    let fs' ← autocropimg2file fs "a" "b" 100
    match fs' "b" with
    | none => pure (0, 0)
    | some c => getmaxxy c) = .ok (2, 3) := by decide +kernel

/-- White pixels of a black image. -/
example : (do getimageregionbyRGB (← plotxybit (← plotxybit (← newBMP 4 4 24) 1 1 0xffffff) 3 0 0xfffffe) (255, 255, 255) 2)
    = .ok [(1, 1), (3, 0)] := by decide +kernel

end Verif.Props.Edges
