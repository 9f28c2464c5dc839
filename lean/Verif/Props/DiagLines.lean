import Verif.Props.SolidsExact
import Verif.Props.DiagHead
/-! Polylines, polygons, arrows and outlines of solids with diagonals that end in the first or last row (C93, C141, C145, C163):
on images with a palette a diagonal that ends in the first row raises `IndexError`, and one that ends in the last row spoils
one byte of the palette; all pixels are still those of the lines. -/

namespace Verif.Props.Edge
open Verif Spec Model Verif.Props Verif.Props.Plane

variable {b b' : Bytes} {W H bits : Nat} {color : Int}

/-- `b'` is the file `b` with the pixels of the set `S` painted in colour number `c`: still well-formed, every other pixel as before, and
every byte of header and palette as before except those at the places `Z`. -/
structure Spoils (b b' : Bytes) (W H bits : Nat) (S : Nat → Nat → Prop) (c : Nat) (Z : Nat → Prop) : Prop where
  valid : Valid b' W H bits
  len : b'.length = b.length
  header : ∀ i < dataOff bits, ¬ Z i → byte b' i = byte b i
  inside : ∀ x y, x < W → y < H → S x y → pix b' W H bits x y = c
  outside : ∀ x y, x < W → y < H → ¬ S x y → pix b' W H bits x y = pix b W H bits x y

theorem Spoils.of_paints {S : Nat → Nat → Prop} {c : Nat} (h : Paints b b' W H bits S c) (Z : Nat → Prop) : Spoils b b' W H bits S c Z :=
  ⟨h.valid, h.header.1, fun i hi _ => h.header.2 i hi, h.inside, h.outside⟩

/-- Nothing is spoilt if there are no places. -/
theorem Spoils.paints {S : Nat → Nat → Prop} {c : Nat} {Z : Nat → Prop} (h : Spoils b b' W H bits S c Z) (hZ : ∀ i, ¬ Z i) :
    Paints b b' W H bits S c :=
  ⟨h.valid, ⟨h.len, fun i hi => h.header i hi (hZ i)⟩, h.inside, h.outside⟩

theorem Spoils.trans {b'' : Bytes} {S S' : Nat → Nat → Prop} {c : Nat} {Z Z' : Nat → Prop} (h : Spoils b b' W H bits S c Z)
    (h' : Spoils b' b'' W H bits S' c Z') :
    Spoils b b'' W H bits (fun x y => S x y ∨ S' x y) c (fun i => Z i ∨ Z' i) := by
  refine ⟨h'.valid, h'.len.trans h.len, fun i hi hz => ?_, fun x y hx hy g => ?_, fun x y hx hy g => ?_⟩
  · rw [h'.header i hi (fun q => hz (Or.inr q)), h.header i hi (fun q => hz (Or.inl q))]
  · by_cases g' : S' x y
    · exact h'.inside x y hx hy g'
    · rw [h'.outside x y hx hy g', h.inside x y hx hy (by tauto)]
  · rw [h'.outside x y hx hy (by tauto), h.outside x y hx hy (by tauto)]

theorem Spoils.congr {S S' : Nat → Nat → Prop} {c : Nat} {Z Z' : Nat → Prop} (h : Spoils b b' W H bits S c Z)
    (hS : ∀ x y, x < W → y < H → (S' x y ↔ S x y)) (hZ : ∀ i, Z i → Z' i) : Spoils b b' W H bits S' c Z' :=
  ⟨h.valid, h.len, fun i hi hz => h.header i hi (fun q => hz (hZ i q)), fun x y hx hy g => h.inside x y hx hy ((hS x y hx hy).mp g),
    fun x y hx hy g => h.outside x y hx hy (fun q => g ((hS x y hx hy).mpr q))⟩

/-- A diagonal, with its ends moved into the image. -/
def Diagonal (W H : Nat) (p q : Int × Int) : Prop :=
  |clampTo q.1 W - clampTo p.1 W| = |clampTo q.2 H - clampTo p.2 H| ∧ clampTo p.1 W ≠ clampTo q.1 W

/-- A diagonal that ends in the first row. -/
def Tops (W H : Nat) (p q : Int × Int) : Prop := Diagonal W H p q ∧ clampTo q.2 H = 0

/-- A diagonal that ends in the last row. -/
def Bottoms (W H : Nat) (p q : Int × Int) : Prop := Diagonal W H p q ∧ clampTo q.2 H = (H : Int) - 1

/-- The bytes before the pixels that a line overwrites. -/
def Spot (W H bits : Nat) (p q : Int × Int) (i : Nat) : Prop :=
  bits ≠ 1 ∧ Bottoms W H p q ∧ belowOff W bits (clampTo q.1 W) ≤ i ∧ (i : Int) < belowOff W bits (clampTo q.1 W) + wideOf bits

/-- The lines that leave the first 30 bytes as they are and do not lengthen the file. -/
def SegOK (W H bits : Nat) (p q : Int × Int) : Prop :=
  LineOK W H bits p q ∨ (Bottoms W H p q ∧ 30 ≤ belowOff W bits (clampTo q.1 W))

/-- Images with a palette that are not too wide: the row below the last one is in the palette. -/
def Narrow (W bits : Nat) : Prop := bits = 1 ∨ (bits = 4 ∧ W ≤ 176) ∨ (bits = 8 ∧ W ≤ 1048)

/-- On these images only the diagonals that end in the first row do harm. -/
theorem segOK_of_narrow (hn : Narrow W bits) (hW : 0 < W) (hH : 0 < H) {p q : Int × Int} (ht : bits = 1 ∨ ¬ Tops W H p q) :
    SegOK W H bits p q := by
  unfold SegOK LineOK Bottoms Tops Diagonal at *
  by_cases h1 : bits = 1
  · exact Or.inl fun _ _ => Or.inl h1
  by_cases hd : |clampTo q.1 W - clampTo p.1 W| = |clampTo q.2 H - clampTo p.2 H| ∧ clampTo p.1 W ≠ clampTo q.1 W
  · have hx := clampTo_bounds q.1 hW
    have hy := clampTo_bounds q.2 hH
    by_cases hb : clampTo q.2 H = (H : Int) - 1
    · refine Or.inr ⟨⟨hd, hb⟩, ?_⟩
      unfold belowOff rowLen
      rcases hn with rfl | ⟨rfl, g⟩ | ⟨rfl, g⟩
      · exact absurd rfl h1
      · norm_num [dataOff, palSize]; omega
      · norm_num [dataOff, palSize]; omega
    · refine Or.inl fun _ _ => Or.inr (Or.inl ?_)
      have h0 : clampTo q.2 H ≠ 0 := fun g => by tauto
      rcases Int.sign_trichotomy (clampTo q.2 H - clampTo p.2 H) with g | g | g <;> rw [g] <;> omega
  · exact Or.inl fun g g' => absurd ⟨g, g'⟩ hd

/-- One line. -/
theorem line_spoils (h : Valid b W H bits) (hW : 0 < W) (hH : 0 < H) (hc : IsColour bits color) {p q : Int × Int}
    (hok : SegOK W H bits p q) :
    ∃ b', linevec b p q color = .ok b' ∧ Spoils b b' W H bits (LineSet W H bits p q) color.toNat (Spot W H bits p q) := by
  by_cases hl : LineOK W H bits p q
  · obtain ⟨b', e, g⟩ := linevec_paints h hW hH hc hl
    exact ⟨b', e, .of_paints g _⟩
  obtain ⟨hB, h30⟩ := hok.resolve_left hl
  have h1 : bits ≠ 1 := fun g => hl fun _ _ => Or.inl g
  obtain ⟨n, hn⟩ := Int.eq_ofNat_of_zero_le (a := belowOff W bits (clampTo q.1 W)) (by omega)
  have hx := clampTo_bounds q.1 hW
  obtain ⟨b', e, g⟩ := C24_diagonal_bottom h h1 hW hH hc hB.1.1 hB.1.2 hB.2 hn (by omega)
  have hlen : (belowBytes bits (clampTo q.1 W) color.toNat (byte b n)).length = wideOf bits := belowBytes_length _ _ _ _
  have hoff : n + wideOf bits ≤ dataOff bits := by
    unfold belowOff at hn
    unfold rowLen at hn
    unfold wideOf
    rcases h.depth with rfl | rfl | rfl | rfl
    · omega
    all_goals norm_num at hn ⊢; omega
  have hbl := h.len
  have hle : n + (belowBytes bits (clampTo q.1 W) color.toNat (byte b n)).length ≤ b.length := by rw [hlen]; omega
  have hpix : ∀ x y, pix (ow b n (belowBytes bits (clampTo q.1 W) color.toNat (byte b n))) W H bits x y = pix b W H bits x y := by
    intro x y
    refine pix_congr rfl fun t _ => ?_
    rw [byte_ow hle, if_neg]
    rw [hlen]
    unfold cell
    omega
  refine ⟨b', e, g.valid, by rw [g.header.1, length_ow hle], fun i hi hz => ?_, fun x y hX hY k => ?_, fun x y hX hY k => ?_⟩
  · rw [g.header.2 i hi, byte_ow hle, if_neg]
    rw [hlen]
    intro k
    exact hz ⟨h1, hB, by omega, by omega⟩
  · unfold LineSet at k
    rw [if_pos (show _ ∧ _ from hB.1)] at k
    rcases k with k | k
    · exact g.inside x y hX hY k
    · exfalso
      obtain ⟨-, -, -, k, -⟩ := k
      unfold belowOff at h30
      unfold rowLen at h30
      unfold headPix at k
      rcases h.depth with rfl | rfl | rfl | rfl <;> norm_num [dataOff, palSize] at h30 k <;> omega
  · unfold LineSet at k
    rw [if_pos (show _ ∧ _ from hB.1)] at k
    rw [g.outside x y hX hY (fun r => k (Or.inl r)), hpix]

/-- Several lines one after the other. -/
theorem lines_spoil (h : Valid b W H bits) (hW : 0 < W) (hH : 0 < H) (hc : IsColour bits color) (l : List ((Int × Int) × (Int × Int)))
    (hok : ∀ s ∈ l, SegOK W H bits s.1 s.2) :
    ∃ b', l.foldlM (fun bmp s => linevec bmp s.1 s.2 color) b = .ok b' ∧
      Spoils b b' W H bits (fun px py => ∃ s ∈ l, LineSet W H bits s.1 s.2 px py) color.toNat
        (fun i => ∃ s ∈ l, Spot W H bits s.1 s.2 i) := by
  induction l generalizing b with
  | nil => exact ⟨b, rfl, h, rfl, fun _ _ _ => rfl, fun x y _ _ g => absurd g (by simp), fun _ _ _ _ _ => rfl⟩
  | cons s l ih =>
    obtain ⟨b1, e1, g1⟩ := line_spoils h hW hH hc (hok s (by simp))
    obtain ⟨b2, e2, g2⟩ := ih g1.valid (fun t ht => hok t (List.mem_cons_of_mem _ ht))
    refine ⟨b2, by rw [List.foldlM_cons, e1, ok_bind, e2], (g1.trans g2).congr (fun x y _ _ => ?_) (fun i => ?_)⟩
    · simp
    · simp

/-- A diagonal that ends in the first row stops a sequence of lines on images of 4 and 8 bits. -/
theorem lines_fail (h : Valid b W H bits) (hb : bits = 4 ∨ bits = 8) (hW : 0 < W) (hH : 0 < H) (hc : IsColour bits color)
    (l : List ((Int × Int) × (Int × Int))) (hok : ∀ s ∈ l, Tops W H s.1 s.2 ∨ SegOK W H bits s.1 s.2) (ht : ∃ s ∈ l, Tops W H s.1 s.2) :
    l.foldlM (fun bmp s => linevec bmp s.1 s.2 color) b = .error .indexError := by
  induction l generalizing b with
  | nil => simp at ht
  | cons s l ih =>
    rw [List.foldlM_cons]
    by_cases g : Tops W H s.1 s.2
    · have : linevec b s.1 s.2 color = .error .indexError := C24_diagonal_top h hb hW hH hc g.1.1 g.1.2 g.2
      rw [this]; rfl
    · obtain ⟨b1, e1, g1⟩ := line_spoils h hW hH hc ((hok s (by simp)).resolve_left g)
      rw [e1, ok_bind]
      refine ih g1.valid (fun t ht => hok t (List.mem_cons_of_mem _ ht)) ?_
      obtain ⟨t, ht, g'⟩ := ht
      rcases List.mem_cons.mp ht with rfl | ht
      · exact absurd g' g
      · exact ⟨t, ht, g'⟩

/-! ### Polylines, polygons, arrows -/

/-- C93: polylines on images with a palette that are not too wide, whatever their lines: a diagonal that ends in the first row raises
`IndexError` (unless the image has one bit), otherwise exactly the pixels of the lines are painted and only
the bytes of the palette named by `Spot` change. -/
theorem C93_plotlines_narrow (h : Valid b W H bits) (hn : Narrow W bits) (hW : 0 < W) (hH : 0 < H) {pen : Int} (hc : IsColour bits color)
    (hpen : pen ≤ 1) (v : List (Int × Int)) :
    ((bits ≠ 1 ∧ ∃ p q, Consec v p q ∧ Tops W H p q) → plotlines b v color pen = .error .indexError) ∧
    (¬ (bits ≠ 1 ∧ ∃ p q, Consec v p q ∧ Tops W H p q) → ∃ b', plotlines b v color pen = .ok b' ∧
      Spoils b b' W H bits (fun px py => ∃ p q, Consec v p q ∧ LineSet W H bits p q px py) color.toNat
        (fun i => ∃ p q, Consec v p q ∧ Spot W H bits p q i)) := by
  unfold plotlines
  rw [if_pos hpen]
  constructor
  · rintro ⟨h1, p, q, hm, ht⟩
    refine lines_fail h (by unfold Narrow at hn; tauto) hW hH hc _ (fun s _ => ?_) ⟨(p, q), (mem_zip_tail v p q).mpr hm, ht⟩
    by_cases g : Tops W H s.1 s.2
    · exact Or.inl g
    · exact Or.inr (segOK_of_narrow hn hW hH (Or.inr g))
  · intro hno
    obtain ⟨b', e, g⟩ := lines_spoil h hW hH hc (v.zip v.tail) (fun s hs => segOK_of_narrow hn hW hH (by
      by_contra k
      push Not at k
      exact hno ⟨k.1, s.1, s.2, (mem_zip_tail v s.1 s.2).mp hs, k.2⟩))
    refine ⟨b', e, g.congr (fun px py _ _ => ?_) (fun i => ?_)⟩
    · constructor
      · rintro ⟨p, q, hm, k⟩; exact ⟨(p, q), (mem_zip_tail v p q).mpr hm, k⟩
      · rintro ⟨s, hs, k⟩; exact ⟨s.1, s.2, (mem_zip_tail v s.1 s.2).mp hs, k⟩
    · rintro ⟨s, hs, k⟩; exact ⟨s.1, s.2, (mem_zip_tail v s.1 s.2).mp hs, k⟩

/-- The sides of a polygon as `plotpoly` draws them: the last one goes from the first vertex to the last one. -/
def Side (v : List (Int × Int)) (p q : Int × Int) : Prop := Consec v p q ∨ (v.head? = some p ∧ v.getLast? = some q)

theorem poly_eq (b : Bytes) (v : List (Int × Int)) (color : Int) (hv : v ≠ []) :
    ∃ l : List ((Int × Int) × (Int × Int)), (∀ p q, (p, q) ∈ l ↔ Side v p q) ∧
      plotpoly b v color = l.foldlM (fun bmp s => linevec bmp s.1 s.2 color) b := by
  obtain ⟨a, t, rfl⟩ := List.exists_cons_of_ne_nil hv
  obtain ⟨w, hw⟩ : ∃ w, (a :: t).getLast? = some w := ⟨_, List.getLast?_eq_some_getLast (by simp)⟩
  refine ⟨(a :: t).zip (a :: t).tail ++ [(a, w)], fun p q => ?_, ?_⟩
  · unfold Side
    rw [List.mem_append, mem_zip_tail, hw]
    simp [eq_comm]
  · unfold plotpoly plotlines
    rw [if_pos le_rfl, List.foldlM_append, hw]
    simp only [List.head?_cons, List.foldlM_cons, List.foldlM_nil, bind_pure]

/-- C93: polygons on images with a palette that are not too wide. -/
theorem C93_plotpoly_narrow (h : Valid b W H bits) (hn : Narrow W bits) (hW : 0 < W) (hH : 0 < H) (hc : IsColour bits color)
    {v : List (Int × Int)} (hv : v ≠ []) :
    ((bits ≠ 1 ∧ ∃ p q, Side v p q ∧ Tops W H p q) → plotpoly b v color = .error .indexError) ∧
    (¬ (bits ≠ 1 ∧ ∃ p q, Side v p q ∧ Tops W H p q) → ∃ b', plotpoly b v color = .ok b' ∧
      Spoils b b' W H bits (fun px py => ∃ p q, Side v p q ∧ LineSet W H bits p q px py) color.toNat
        (fun i => ∃ p q, Side v p q ∧ Spot W H bits p q i)) := by
  obtain ⟨l, hl, e⟩ := poly_eq b v color hv
  rw [e]
  constructor
  · rintro ⟨h1, p, q, hm, ht⟩
    refine lines_fail h (by unfold Narrow at hn; tauto) hW hH hc _ (fun s _ => ?_) ⟨(p, q), (hl p q).mpr hm, ht⟩
    by_cases g : Tops W H s.1 s.2
    · exact Or.inl g
    · exact Or.inr (segOK_of_narrow hn hW hH (Or.inr g))
  · intro hno
    obtain ⟨b', e, g⟩ := lines_spoil h hW hH hc l (fun s hs => segOK_of_narrow hn hW hH (by
      by_contra k
      push Not at k
      exact hno ⟨k.1, s.1, s.2, (hl s.1 s.2).mp hs, k.2⟩))
    refine ⟨b', e, g.congr (fun px py _ _ => ?_) (fun i => ?_)⟩
    · constructor
      · rintro ⟨p, q, hm, k⟩; exact ⟨(p, q), (hl p q).mpr hm, k⟩
      · rintro ⟨s, hs, k⟩; exact ⟨s.1, s.2, (hl s.1 s.2).mp hs, k⟩
    · rintro ⟨s, hs, k⟩; exact ⟨s.1, s.2, (hl s.1 s.2).mp hs, k⟩

/-- C93: lists of polygons on images with a palette that are not too wide. -/
theorem C93_plotpolylist_narrow (h : Valid b W H bits) (hn : Narrow W bits) (hW : 0 < W) (hH : 0 < H) (hc : IsColour bits color)
    {l : List (List (Int × Int))} (hne : [] ∉ l) :
    ((bits ≠ 1 ∧ ∃ v ∈ l, ∃ p q, Side v p q ∧ Tops W H p q) → plotpolylist b l color = .error .indexError) ∧
    (¬ (bits ≠ 1 ∧ ∃ v ∈ l, ∃ p q, Side v p q ∧ Tops W H p q) → ∃ b', plotpolylist b l color = .ok b' ∧
      Spoils b b' W H bits (fun px py => ∃ v ∈ l, ∃ p q, Side v p q ∧ LineSet W H bits p q px py) color.toNat
        (fun i => ∃ v ∈ l, ∃ p q, Side v p q ∧ Spot W H bits p q i)) := by
  unfold plotpolylist
  induction l generalizing b with
  | nil => exact ⟨fun g => by simp at g, fun _ => ⟨b, rfl, h, rfl, fun _ _ _ => rfl, fun x y _ _ g => absurd g (by simp), fun _ _ _ _ _ => rfl⟩⟩
  | cons v l ih =>
    have hv : v ≠ [] := fun g => hne (by simp [g])
    have hl : [] ∉ l := fun g => hne (List.mem_cons_of_mem _ g)
    obtain ⟨f1, f2⟩ := C93_plotpoly_narrow h hn hW hH hc hv
    rw [List.foldlM_cons]
    by_cases g : bits ≠ 1 ∧ ∃ p q, Side v p q ∧ Tops W H p q
    · rw [f1 g]
      exact ⟨fun _ => rfl, fun k => absurd ⟨g.1, v, by simp, g.2⟩ k⟩
    · obtain ⟨b1, e1, g1⟩ := f2 g
      rw [e1, ok_bind]
      obtain ⟨k1, k2⟩ := ih g1.valid hl
      constructor
      · rintro ⟨h1, u, hu, k⟩
        rcases List.mem_cons.mp hu with rfl | hu
        · exact absurd ⟨h1, k⟩ g
        · exact k1 ⟨h1, u, hu, k⟩
      · intro k
        obtain ⟨b2, e2, g2⟩ := k2 (fun r => k ⟨r.1, by obtain ⟨u, hu, r⟩ := r.2; exact ⟨u, List.mem_cons_of_mem _ hu, r⟩⟩)
        refine ⟨b2, e2, (g1.trans g2).congr (fun x y _ _ => ?_) (fun i => ?_)⟩
        · simp
        · simp

/-- C141: thin arrows on images with a palette that are not too wide. -/
theorem C141_drawvec_narrow (h : Valid b W H bits) (hn : Narrow W bits) (hW : 0 < W) (hH : 0 < H) (hc : IsColour bits color)
    (u v : Int × Int) (headsize : Int) :
    ((bits ≠ 1 ∧ ∃ s ∈ iterdrawvec u v headsize, Tops W H s.1 s.2) → drawvec b u v headsize color = .error .indexError) ∧
    (¬ (bits ≠ 1 ∧ ∃ s ∈ iterdrawvec u v headsize, Tops W H s.1 s.2) → ∃ b', drawvec b u v headsize color = .ok b' ∧
      Spoils b b' W H bits (fun px py => ∃ s ∈ iterdrawvec u v headsize, LineSet W H bits s.1 s.2 px py) color.toNat
        (fun i => ∃ s ∈ iterdrawvec u v headsize, Spot W H bits s.1 s.2 i)) := by
  constructor
  · rintro ⟨h1, ht⟩
    refine lines_fail h (by unfold Narrow at hn; tauto) hW hH hc _ (fun s _ => ?_) ht
    by_cases g : Tops W H s.1 s.2
    · exact Or.inl g
    · exact Or.inr (segOK_of_narrow hn hW hH (Or.inr g))
  · intro hno
    exact lines_spoil h hW hH hc _ (fun s hs => segOK_of_narrow hn hW hH (by
      by_contra k
      push Not at k
      exact hno ⟨k.1, s, hs, k.2⟩))

/-- C145, C191: filled solids with outlines on images with a palette that are not too wide: first the faces are filled, then the
outlines are drawn over them, or `IndexError` is raised if one of their lines is a diagonal that ends in the first row. -/
theorem C145_outline_narrow (h : Valid b W H bits) (hn : Narrow W bits) (hW : 0 < W) (hH : 0 < H) {f : ℚ × ℚ × ℚ} (hf : Pals.Unit f)
    {fs : List Face} (hne : ∀ t ∈ fs, t.1 ≠ []) (hd : ∀ t ∈ fs, Away t.2 → Dim f) (hc : IsColour bits color) :
    ∃ b1 ks, List.Forall₂ (fun t k => AnyColour b bits f t.2 k) fs ks ∧
      Layered b b1 W H bits (List.zipWith (fun t k => (fun px py => Whole W H t.1 ∧ FillSet W bits t.1 px py, k)) fs ks) ∧
      ((bits ≠ 1 ∧ ∃ t ∈ fs, ∃ p q, Side (t.1.map roundvect2) p q ∧ Tops W H p q) →
        plot3d b (sidesOf fs) true f true color = .error .indexError) ∧
      (¬ (bits ≠ 1 ∧ ∃ t ∈ fs, ∃ p q, Side (t.1.map roundvect2) p q ∧ Tops W H p q) →
        ∃ b', plot3d b (sidesOf fs) true f true color = .ok b' ∧
          Spoils b1 b' W H bits (fun px py => ∃ t ∈ fs, ∃ p q, Side (t.1.map roundvect2) p q ∧ LineSet W H bits p q px py) color.toNat
            (fun i => ∃ t ∈ fs, ∃ p q, Side (t.1.map roundvect2) p q ∧ Spot W H bits p q i)) := by
  obtain ⟨b1, ks, e1, c1, p1⟩ := C145_fill_any h hf hne hd
  obtain ⟨f1, f2⟩ := C93_plotpolylist_narrow p1.valid hn hW hH hc (l := fs.map (fun t => t.1.map roundvect2)) (by
    intro g
    obtain ⟨t, ht, g⟩ := List.mem_map.mp g
    exact hne t ht (List.map_eq_nil_iff.mp g))
  have e : plot3d b (sidesOf fs) true f true color = plotpolylist b1 (fs.map (fun t => t.1.map roundvect2)) color := by
    unfold plot3d
    rw [if_pos rfl, e1, ok_bind]
    dsimp only
    rw [if_pos rfl]
    have : (sidesOf fs).1.mapM (fun p => p.mapM vert2) = .ok (fs.map (·.1)) := by
      unfold sidesOf
      dsimp only
      clear e1 c1 p1 f1 f2 hne hd
      induction fs with
      | nil => rfl
      | cons t l ih =>
        have e2 : (t.1.map fun v => [v.1, v.2]).mapM vert2 = .ok t.1 := by
          generalize t.1 = q
          induction q with
          | nil => rfl
          | cons v q ih => rw [List.map_cons, List.mapM_cons, ih]; rfl
        rw [List.map_cons, List.mapM_cons, ih, e2]; rfl
    rw [this, ok_bind, List.map_map]
    rfl
  have ex : ∀ P : List (Int × Int) → Prop, (∃ v ∈ fs.map (fun t => t.1.map roundvect2), P v) ↔ ∃ t ∈ fs, P (t.1.map roundvect2) := by
    intro P; simp
  simp only [ex] at f1 f2
  rw [e]
  exact ⟨b1, ks, c1, p1, f1, f2⟩

/-- A triangle whose second side is a diagonal down to the last row of an image of 3 times 4 pixels: one byte of the palette changes. -/
example : (do let b ← plotpoly sample8 [(0, 0), (0, 1), (2, 3)] 200
              pure (byte b 1076, byte sample8 1076, pix b 3 4 8 1 3, pix b 3 4 8 2 3)) = .ok (200, 255, 200, 200) := by decide +kernel

/-- The same triangle upside down raises `IndexError`. -/
example : plotpoly sample8 [(0, 3), (0, 2), (2, 0)] 200 = .error .indexError := by decide +kernel

end Verif.Props.Edge
