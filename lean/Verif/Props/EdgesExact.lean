import Verif.Props.Edges
/-! C124 to C126 for images of every width. -/

namespace Verif.Props.Edges
open Verif Spec Model Verif.Props

variable {b : Bytes} {W H bits : Nat}

/-- The pixels the search looks at: all of them, but only the bottom row if the rows end inside a byte (C39). -/
def Looked (W H bits : Nat) (v : Int × Int) : Prop := Inside W H v ∧ (FullBytes W bits ∨ v.2 = H - 1)

/-- The neighbours a pixel is compared with: those in row or column 0 only from the same row or column. -/
def Compared (v u : Int × Int) : Prop := Touch u v ∧ (u.1 < v.1 → 0 < u.1) ∧ (u.2 < v.2 → 0 < u.2)

theorem mem_neighbours {v : Int × Int} (hv : Inside W H v) (u : Int × Int) :
    u ∈ itergetneighbors v W H false ↔ Inside W H u ∧ Compared v u := by
  rw [(C52_exact v W H false).2]
  unfold Inside Compared Touch at *
  rw [abs_le, abs_le]
  constructor
  · rintro ⟨h1, h2, h3, h4, h5, h6, h7⟩
    exact ⟨by omega, ⟨fun e => absurd (h3 e) (by simp), by omega, by omega⟩, h4, h5⟩
  · rintro ⟨h1, ⟨h2, h3, h4⟩, h5, h6⟩
    exact ⟨by omega, by omega, fun e => absurd e h2, h5, h6, by omega, by omega⟩

/-- The pixels looked at, in order. -/
theorem looked_run (h : Valid b W H bits) (hH : 0 < H) : ∃ s : List ((Int × Int) × RGB), iterimageRGB b = .ok s ∧
    (s.map Prod.fst).Nodup ∧ ∀ v, v ∈ s ↔ Looked W H bits v.1 ∧ v.2 = rgbI (seen b W H bits v.1) := by
  by_cases hw : FullBytes W bits
  · refine ⟨_, C39_iterimageRGB_partial h hw, scan_nodup W H _, ?_⟩
    intro v
    rw [mem_scan]
    unfold Looked seen
    simp only [hw, true_or, and_true]
  · refine ⟨_, C39_only_bottom_row h hw hH, ?_, ?_⟩
    · unfold scanRow
      rw [List.map_map]
      apply List.Nodup.map _ List.nodup_range
      intro a c hac
      simp only [Function.comp_apply, Prod.mk.injEq, Nat.cast_inj, and_true] at hac
      exact hac
    · intro v
      unfold scanRow Looked Inside seen
      simp only [hw, false_or, List.mem_map, List.mem_range]
      constructor
      · rintro ⟨x, hx, rfl⟩
        dsimp only
        exact ⟨⟨by omega, by omega⟩, by simp⟩
      · rintro ⟨⟨⟨h1, h2, h3, h4⟩, h5⟩, e⟩
        refine ⟨v.1.1.toNat, by omega, ?_⟩
        have : H - 1 = v.1.2.toNat := by omega
        rw [this, ← e, Int.toNat_of_nonneg h1, Int.toNat_of_nonneg h3]

/-- C124 for every width: each pixel found is a neighbour of a pixel looked at and differs from it by more than the
threshold, and every pixel looked at that differs so much from a neighbour it is compared with finds one such
neighbour. -/
theorem C124_edges_exact (h : Valid b W H bits) (hH : 0 < H) (t : Int) :
    ∃ l, getimagedgevert b t = .ok l ∧
      (∀ u ∈ l, Inside W H u ∧ ∃ v, Looked W H bits v ∧ Compared v u ∧ Differ t (seen b W H bits u) (seen b W H bits v)) ∧
      ∀ u v, Inside W H u → Looked W H bits v → Compared v u → Differ t (seen b W H bits u) (seen b W H bits v) →
        ∃ p ∈ l, Inside W H p ∧ Compared v p ∧ Differ t (seen b W H bits p) (seen b W H bits v) := by
  obtain ⟨s, es, -, hs⟩ := looked_run h hH
  have run : getimagedgevert b t = .ok ((s.map fun v => found b W H bits t v.1).filterMap id) := by
    unfold getimagedgevert
    rw [getmaxxy_eq h, ok_bind, es, ok_bind, mapM_ok _ _ (fun v => found b W H bits t v.1), ok_bind, pure_eq_ok]
    intro v hv
    obtain ⟨h1, h2⟩ := (hs v).mp hv
    rw [h2]
    exact first_spec h (seen b W H bits v.1) t _ fun u hu => (neighbours_inside h1.1 u hu).1
  refine ⟨_, run, ?_, ?_⟩
  · intro u hu
    simp only [List.mem_filterMap, List.mem_map, id_eq] at hu
    obtain ⟨o, ⟨v, hv, rfl⟩, hu⟩ := hu
    obtain ⟨h1, -⟩ := (hs v).mp hv
    unfold found at hu
    have hm := List.mem_of_find?_eq_some hu
    have hp := List.find?_some hu
    obtain ⟨i1, i2⟩ := (mem_neighbours h1.1 u).mp hm
    exact ⟨i1, v.1, h1, i2, (distGt_iff _ _ _).mp hp⟩
  · intro u v hu hv hm hd
    have : (found b W H bits t v).isSome = true := by
      unfold found
      rw [List.find?_isSome]
      exact ⟨u, (mem_neighbours hv.1 u).mpr ⟨hu, hm⟩, (distGt_iff _ _ _).mpr hd⟩
    obtain ⟨p, hp⟩ := Option.isSome_iff_exists.mp this
    obtain ⟨i1, i2⟩ := (mem_neighbours hv.1 p).mp (List.mem_of_find?_eq_some hp)
    refine ⟨p, ?_, i1, i2, (distGt_iff _ _ _).mp
      (List.find?_some (p := fun u => distGt (rgbI (seen b W H bits u)) (rgbI (seen b W H bits v)) t) hp)⟩
    simp only [List.mem_filterMap, List.mem_map, id_eq]
    exact ⟨_, ⟨(v, rgbI (seen b W H bits v)), (hs _).mpr ⟨hv, rfl⟩, rfl⟩, hp⟩

/-- C124: when exactly nothing is found. -/
theorem C124_none_exact (h : Valid b W H bits) (hH : 0 < H) (t : Int) :
    getimagedgevert b t = .ok [] ↔ ∀ u v, Inside W H u → Looked W H bits v → Compared v u →
      ¬ Differ t (seen b W H bits u) (seen b W H bits v) := by
  obtain ⟨l, e, hs, hc⟩ := C124_edges_exact h hH t
  rw [e]
  constructor
  · intro g
    obtain rfl := Except.ok.inj g
    intro u v hu hv hm hd
    obtain ⟨p, hp, -⟩ := hc u v hu hv hm hd
    simp at hp
  · intro g
    cases l with
    | nil => rfl
    | cons p l =>
      obtain ⟨h1, v, h2, h3, h4⟩ := hs p (by simp)
      exact absurd h4 (g p v h1 h2 h3)

/-- C124 is false for every image whose rows end inside a byte: if its two lowest rows show one colour, no
edges are found, whatever is above. -/
theorem C124_rows_unseen (h : Valid b W H bits) (hw : ¬ FullBytes W bits) (hH : 0 < H) {t : Int} (ht : 0 ≤ t)
    (hu : ∀ u v, Inside W H u → Inside W H v → (H : Int) - 2 ≤ u.2 → (H : Int) - 2 ≤ v.2 → seen b W H bits u = seen b W H bits v) :
    getimagedgevert b t = .ok [] := by
  rw [C124_none_exact h hH]
  rintro u v h1 ⟨h2, h3⟩ h4 hd
  have h5 := h3.resolve_left hw
  have h6 := abs_le.mp h4.1.2.2
  rw [hu u v h1 h2 (by omega) (by omega)] at hd
  unfold Differ colourDist at hd
  simp only [sub_self] at hd
  rcases hd with g | g
  · omega
  · have := sq_nonneg t; omega

/-- C124: `plotimgedges` on an image of any width marks exactly the pixels found. -/
theorem C124_plot_exact (h : Valid b W H bits) (hH : 0 < H) (t : Int) {pen color : Int} (hc : IsColour bits color) :
    ∃ l b', getimagedgevert b t = .ok l ∧ plotimgedges b t pen color = .ok b' ∧
      Paints b b' W H bits (fun px py => ∃ v ∈ l, PenSet W bits pen v.1 v.2 px py) color.toNat := by
  obtain ⟨l, e, hs, -⟩ := C124_edges_exact h hH t
  obtain ⟨b', e', hp⟩ := C92_pointlist_partial h hc (vlist := l) (pen := pen) (.inr fun v hv =>
    penOK_in h.depth (hs v hv).1.1 (hs v hv).1.2.1)
  refine ⟨l, b', e, ?_, hp⟩
  unfold plotimgedges
  rw [e, ok_bind, e']

/-- C126 for every width: the pixels looked at that are nearer than the threshold, each once. -/
theorem C126_region_exact (h : Valid b W H bits) (hH : 0 < H) (rgb : Int × Int × Int) (t : Int) :
    ∃ l, getimageregionbyRGB b rgb t = .ok l ∧ l.Nodup ∧ ∀ u, u ∈ l ↔ Looked W H bits u ∧ Near t rgb (seen b W H bits u) := by
  obtain ⟨s, es, hn, hs⟩ := looked_run h hH
  refine ⟨_, by unfold getimageregionbyRGB; rw [es, ok_bind, pure_eq_ok], hn.sublist (List.filter_sublist.map _), ?_⟩
  intro u
  simp only [List.mem_map, List.mem_filter]
  constructor
  · rintro ⟨v, ⟨hv, hd⟩, rfl⟩
    obtain ⟨h1, h2⟩ := (hs v).mp hv
    rw [h2, distLt_iff] at hd
    exact ⟨h1, hd⟩
  · rintro ⟨h1, h2⟩
    exact ⟨(u, rgbI (seen b W H bits u)), ⟨(hs _).mpr ⟨h1, rfl⟩, (distLt_iff _ _ _).mpr h2⟩, rfl⟩

variable {fs : Files} {ex nw : String}

/-- C126: the file saved, for every width. -/
theorem C126_file_exact (h : Stored fs ex b W H bits) (hH : 0 < H) {pen color : Int} (hc : IsColour bits color)
    (rgb : Int × Int × Int) (t : Int) (only : Bool) :
    ∃ base, (if only then Shows base W H bits (palRGB b) (fun _ _ => 0) else base = b) ∧
      ∃ fs', imgregionbyRGB2file fs ex nw pen color rgb t only = .ok fs' ∧ Saved fs fs' nw fun n =>
        Paints base n W H bits
          (fun px py => ∃ u, (Looked W H bits u ∧ Near t rgb (seen b W H bits u)) ∧ PenSet W bits pen u.1 u.2 px py) color.toNat := by
  obtain ⟨l, e, -, hl⟩ := C126_region_exact h.valid hH rgb t
  have hpen : pen ≤ 1 ∨ ∀ v ∈ l, PenOK W bits v.1 :=
    .inr fun v hv => penOK_in h.valid.depth ((hl v).mp hv).1.1.1 ((hl v).mp hv).1.1.2.1
  obtain ⟨base, eb, hv, hs⟩ : ∃ base, (if only then copyBMPhdr b else pure b) = .ok base ∧ Valid base W H bits ∧
      (if only then Shows base W H bits (palRGB b) (fun _ _ => 0) else base = b) := by
    cases only with
    | false => exact ⟨b, rfl, h.valid, rfl⟩
    | true =>
      obtain ⟨n, e, hn⟩ := copyhdr_shows h.valid
      exact ⟨n, e, hn.valid, hn⟩
  refine ⟨base, hs, ?_⟩
  obtain ⟨b', e', hp⟩ := C92_pointlist_partial hv hc hpen
  refine applysave_saved h ⟨b', ?_, ?_⟩
  · rw [e, ok_bind]
    cases only with
    | false => obtain rfl := Except.ok.inj eb; exact e'
    | true =>
      simp only [if_true] at eb ⊢
      rw [eb, ok_bind, e']
  · refine hp.congr ?_
    intro px py _ _
    rw [iff_comm]
    constructor
    · rintro ⟨v, hv, h⟩
      exact ⟨v, (hl v).mp hv, h⟩
    · rintro ⟨v, hv, h⟩
      exact ⟨v, (hl v).mpr hv, h⟩

/-- C125: nothing is cropped, but the program fails, if no edges are found: for one colour, and for images
whose rows end inside a byte already if the two lowest rows show one colour. -/
theorem C125_none_exact (h : Stored fs ex b W H bits) {t : Int} (hn : getimagedgevert b t = .ok []) :
    autocropimg2file fs ex nw t = .error .indexError := by
  unfold autocropimg2file
  rw [h.content]
  dsimp only
  rw [show loadBMP b = .ok b from C15_save_load h.valid h.long, ok_bind, hn, ok_bind, C100_boundingbox_empty]
  rfl

/-- A 1-bit image of 9 columns: the two colours of the upper rows are not noticed. -/
example : (do getimagedgevert (← plotxybit (← newBMP 9 4 1) 5 1 1) 0) = .ok [] ∧
    (do getimagedgevert (← plotxybit (← newBMP 8 4 1) 5 1 1) 0) =
      .ok [(5, 1), (5, 1), (5, 1), (5, 1), (5, 2), (5, 1), (5, 1), (5, 1), (5, 1)] := by decide +kernel

end Verif.Props.Edges
