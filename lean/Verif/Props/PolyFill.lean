import Verif.Model.Solids
import Verif.Props.Thick
import Verif.Props.Verts
import Verif.Lemmas.Float
/-! C119: boundaries of polygons and filled polygons. -/

namespace Verif.Props.PolyFill
open Verif Spec Model Verif.Props

/-- The points of the rasterised edge from `p` to `q`. -/
def EdgePt (p q r : Int × Int) : Prop :=
  r = q ∨ ∃ k, 0 ≤ k ∧ k ≤ max |q.1 - p.1| |q.2 - p.2| ∧ rasterPt p.1 p.2 q.1 q.2 k = r

/-- The vertices with their coordinates rounded: each to the nearest integer, the even one of two. -/
def rounded (v : List (ℚ × ℚ)) : List (Int × Int) := v.map fun u => (rnd u.1, rnd u.2)

/-- The points of all edges of a polygon, with the one that closes it. -/
def OnBoundary (v : List (ℚ × ℚ)) (r : Int × Int) : Prop :=
  ∃ p q, (Consec (rounded v) p q ∨ ((rounded v).getLast? = some p ∧ (rounded v).head? = some q)) ∧ EdgePt p q r

theorem mem_iterline_iff (p q r : Int × Int) : r ∈ iterline p q ↔ EdgePt p q r := by
  obtain ⟨x1, y1⟩ := p
  obtain ⟨x2, y2⟩ := q
  rw [iterline_eq, List.mem_append, List.mem_map, List.mem_singleton, or_comm]
  unfold EdgePt
  dsimp only
  have : 0 ≤ max |x2 - x1| |y2 - y1| := le_max_of_le_left (abs_nonneg _)
  constructor
  · rintro (h | ⟨k, hk, h⟩)
    · exact .inl h
    · exact .inr ⟨k, by omega, by have := List.mem_range.mp hk; omega, h⟩
  · rintro (h | ⟨k, h0, h1, h⟩)
    · exact .inl h
    · exact .inr ⟨k.toNat, List.mem_range.mpr (by omega), by rw [Int.toNat_of_nonneg h0]; exact h⟩

theorem addNew_spec (l px : List (Int × Int)) (hpx : px.Nodup) :
    (addNew px l).Nodup ∧ ∀ r, r ∈ addNew px l ↔ r ∈ px ∨ r ∈ l := by
  unfold addNew
  induction l generalizing px with
  | nil => exact ⟨hpx, by simp⟩
  | cons a l ih =>
    rw [List.foldl_cons]
    split_ifs with h
    · obtain ⟨h1, h2⟩ := ih px hpx
      refine ⟨h1, fun r => ?_⟩
      rw [h2, List.mem_cons]
      constructor
      · rintro (g | g)
        · exact .inl g
        · exact .inr (.inr g)
      · rintro (g | rfl | g)
        · exact .inl g
        · exact .inl h
        · exact .inr g
    · obtain ⟨h1, h2⟩ := ih (px ++ [a]) (by
        rw [List.nodup_append]
        refine ⟨hpx, by simp, ?_⟩
        intro x hx y hy
        rw [List.mem_singleton.mp hy]
        rintro rfl
        exact h hx)
      refine ⟨h1, fun r => ?_⟩
      rw [h2, List.mem_append, List.mem_singleton, List.mem_cons, or_assoc]

theorem edges_spec (es : List ((ℚ × ℚ) × (ℚ × ℚ))) (px : List (Int × Int)) (hpx : px.Nodup) :
    (es.foldl (fun px e => addNew px (iterline (roundvect2 e.1) (roundvect2 e.2))) px).Nodup ∧
    ∀ r, r ∈ es.foldl (fun px e => addNew px (iterline (roundvect2 e.1) (roundvect2 e.2))) px ↔
      r ∈ px ∨ ∃ e ∈ es, EdgePt (roundvect2 e.1) (roundvect2 e.2) r := by
  induction es generalizing px with
  | nil => exact ⟨hpx, by simp⟩
  | cons e es ih =>
    rw [List.foldl_cons]
    obtain ⟨a1, a2⟩ := addNew_spec (iterline (roundvect2 e.1) (roundvect2 e.2)) px hpx
    obtain ⟨h1, h2⟩ := ih _ a1
    refine ⟨h1, fun r => ?_⟩
    rw [h2, a2, mem_iterline_iff]
    simp only [List.mem_cons, exists_eq_or_imp, or_assoc]

/-- C119: `polyboundary` lists the points of all edges, each once. -/
theorem C119_boundary {v : List (ℚ × ℚ)} (hv : v ≠ []) :
    ∃ l, polyboundary v = .ok l ∧ l.Nodup ∧ l ≠ [] ∧ ∀ r, r ∈ l ↔ OnBoundary v r := by
  obtain ⟨e1, e2⟩ := edges_spec (v.zip v.tail) [] List.nodup_nil
  have hl : 0 < v.length := List.length_pos_iff.mpr hv
  have n0 : nth v 0 = .ok (v.head hv) := by
    simp [nth, List.head_eq_getElem, hl]
  have nl : nth v (v.length - 1) = .ok (v.getLast hv) := by
    have : v.length - 1 < v.length := by omega
    simp [nth, List.getLast_eq_getElem, this]
  obtain ⟨a1, a2⟩ := addNew_spec (iterline (roundvect2 (v.getLast hv)) (roundvect2 (v.head hv))) _ e1
  have hmem : ∀ r, r ∈ addNew ((v.zip v.tail).foldl
      (fun px e => addNew px (iterline (roundvect2 e.1) (roundvect2 e.2))) [])
      (iterline (roundvect2 (v.getLast hv)) (roundvect2 (v.head hv))) ↔ OnBoundary v r := by
    intro r
    rw [a2, e2, mem_iterline_iff]
    have hz : ∀ p q, (p, q) ∈ (rounded v).zip (rounded v).tail ↔
        ∃ e ∈ v.zip v.tail, roundvect2 e.1 = p ∧ roundvect2 e.2 = q := by
      intro p q
      unfold rounded
      rw [← List.map_tail, List.zip_map, List.mem_map]
      constructor
      · rintro ⟨e, he, h⟩
        exact ⟨e, he, (Prod.mk.injEq _ _ _ _ ▸ h).1, (Prod.mk.injEq _ _ _ _ ▸ h).2⟩
      · rintro ⟨e, he, rfl, rfl⟩
        exact ⟨e, he, rfl⟩
    have hlast : (rounded v).getLast? = some (roundvect2 (v.getLast hv)) := by
      unfold rounded
      rw [List.getLast?_map, List.getLast?_eq_getLast_of_ne_nil hv]
      rfl
    have hhead : (rounded v).head? = some (roundvect2 (v.head hv)) := by
      unfold rounded
      rw [List.head?_map, List.head?_eq_some_head hv]
      rfl
    unfold OnBoundary
    rw [hlast, hhead]
    simp only [← mem_zip_tail, hz]
    constructor
    · rintro ((h | ⟨e, he, h⟩) | h)
      · exact absurd h (by simp)
      · exact ⟨_, _, .inl ⟨e, he, rfl, rfl⟩, h⟩
      · exact ⟨_, _, .inr ⟨rfl, rfl⟩, h⟩
    · rintro ⟨p, q, ⟨e, he, rfl, rfl⟩ | ⟨hp, hq⟩, h⟩
      · exact .inl (.inr ⟨e, he, h⟩)
      · rw [Option.some.injEq] at hp hq
        subst hp hq
        exact .inr h
  refine ⟨_, ?_, a1, ?_, hmem⟩
  · unfold polyboundary
    rw [n0, nl]
    rfl
  · intro hnil
    have := (a2 (roundvect2 (v.head hv))).mpr (.inr ((mem_iterline_iff _ _ _).mpr (.inl rfl)))
    rw [hnil] at this
    exact absurd this (by simp)

theorem C119_empty : polyboundary [] = .error .indexError := by decide +kernel

/-- The neighbours in an increasing list. -/
theorem mem_zip_sorted {l : List Int} (h : l.Pairwise (· < ·)) (a c : Int) :
    (a, c) ∈ l.zip l.tail ↔ a ∈ l ∧ c ∈ l ∧ a < c ∧ ∀ x ∈ l, ¬ (a < x ∧ x < c) := by
  induction l with
  | nil => simp
  | cons u l ih =>
    cases l with
    | nil => simp; omega
    | cons w l =>
      rw [List.pairwise_cons] at h
      have hw := h.1
      have hs := List.pairwise_cons.mp h.2
      rw [List.tail_cons, List.zip_cons_cons, List.mem_cons, Prod.mk.injEq]
      rw [show ((w :: l).zip l) = (w :: l).zip (w :: l).tail from rfl, ih h.2]
      constructor
      · rintro (⟨rfl, rfl⟩ | ⟨h1, h2, h3, h4⟩)
        · refine ⟨by simp, by simp, hw _ (by simp), ?_⟩
          intro x hx
          rcases List.mem_cons.mp hx with rfl | hx
          · omega
          · rcases List.mem_cons.mp hx with rfl | hx
            · omega
            · have := hs.1 x hx; omega
        · refine ⟨List.mem_cons_of_mem _ h1, List.mem_cons_of_mem _ h2, h3, ?_⟩
          intro x hx
          rcases List.mem_cons.mp hx with rfl | hx
          · have := hw a h1; omega
          · exact h4 x hx
      · rintro ⟨h1, h2, h3, h4⟩
        rcases List.mem_cons.mp h1 with rfl | h1'
        · left
          refine ⟨rfl, ?_⟩
          rcases List.mem_cons.mp h2 with rfl | h2
          · omega
          rcases List.mem_cons.mp h2 with rfl | h2
          · rfl
          · exact absurd ⟨hw w (by simp), hs.1 c h2⟩ (h4 w (by simp))
        · right
          refine ⟨h1', ?_, h3, fun x hx => h4 x (List.mem_cons_of_mem _ hx)⟩
          rcases List.mem_cons.mp h2 with rfl | h2
          · have := hw a h1'; omega
          · exact h2

/-- What filling between the points `P` paints: in every row the pixels from the first to the last point. On 4-bit images the point
that is alone in its row, and between two neighbouring points of a row what C19 says. -/
def Between (W bits : Nat) (P : Int × Int → Prop) (px py : Nat) : Prop :=
  if bits = 4 then
    (P (px, py) ∧ ∀ x, P (x, py) → x = px) ∨
      ∃ a c, P (a, py) ∧ P (c, py) ∧ a < c ∧ (∀ x, P (x, py) → ¬ (a < x ∧ x < c)) ∧ Row4 W py a c px py
  else ∃ xa xb, P (xa, (py : Int)) ∧ P (xb, (py : Int)) ∧ xa ≤ px ∧ (px : Int) ≤ xb

theorem between_of_ne {W bits : Nat} (h4 : bits ≠ 4) (P : Int × Int → Prop) (px py : Nat) :
    Between W bits P px py ↔ ∃ xa xb, P (xa, (py : Int)) ∧ P (xb, (py : Int)) ∧ xa ≤ px ∧ (px : Int) ≤ xb := by
  unfold Between; rw [if_neg h4]

theorem singleton_iff {l : List Int} (h : l.Pairwise (· < ·)) (x : Int) : l = [x] ↔ x ∈ l ∧ ∀ y ∈ l, y = x := by
  constructor
  · rintro rfl; simp
  · rintro ⟨h1, h2⟩
    match l, h with
    | [], _ => simp at h1
    | [a], _ => rw [h2 a (by simp)]
    | a :: c :: l, h =>
      have := (List.pairwise_cons.mp h).1 c (by simp)
      have e1 := h2 a (by simp)
      have e2 := h2 c (by simp)
      omega

/-- Filling between the points of a list that lies inside the image. -/
theorem fillpoly_paints {b : Bytes} {W H bits : Nat} (h : Valid b W H bits) {color : Int}
    (hc : IsColour bits color) {l : List (Int × Int)} (hne : l ≠ [])
    (hin : ∀ r ∈ l, 0 ≤ r.1 ∧ r.1 < W ∧ 0 ≤ r.2 ∧ r.2 < H) :
    ∃ d b', fillpolydata l W H = .ok d ∧ fillboundary b d color = .ok b' ∧
      Paints b b' W H bits (Between W bits (· ∈ l)) color.toNat := by
  obtain ⟨lo, hi, hbox, hall, ⟨p1, m1, g1⟩, ⟨p2, m2, g2⟩, ⟨p3, m3, g3⟩, ⟨p4, m4, g4⟩⟩ := C100_boundingbox hne
  have i1 := hin p1 m1
  have i2 := hin p2 m2
  have i3 := hin p3 m3
  have i4 := hin p4 m4
  have hd : fillpolydata l W H = .ok ((pyRange lo.2 (hi.2 + 1)).map fun y =>
      (y, (pyRange lo.1 (hi.1 + 1)).filter fun x => (x, y) ∈ l)) := by
    unfold fillpolydata
    rw [hbox, ok_bind]
    dsimp only
    rw [if_pos ⟨⟨by omega, by omega⟩, by omega, by omega⟩]
    rfl
  have hok : ∀ e ∈ (pyRange lo.2 (hi.2 + 1)).map fun y =>
      (y, (pyRange lo.1 (hi.1 + 1)).filter fun x => (x, y) ∈ l), ∀ x ∈ e.2, PenOK W bits x := by
    intro e he x hx
    obtain ⟨y, -, rfl⟩ := List.mem_map.mp he
    have := hin (x, y) (by simpa using (List.mem_filter.mp hx).2)
    exact penOK_in h.depth this.1 this.2.1
  obtain ⟨b', hb', hp⟩ := C96_fillboundary_partial h hc hok
  refine ⟨_, b', hd, hb', ?_⟩
  refine hp.congr ?_
  intro px py _ _
  -- the entry of a row
  have hmem : ∀ x y, x ∈ (pyRange lo.1 (hi.1 + 1)).filter (fun x => (x, y) ∈ l) ↔ (x, y) ∈ l := by
    intro x y
    rw [List.mem_filter, mem_pyRange]
    constructor
    · rintro ⟨-, g⟩; simpa using g
    · intro g
      have := hall _ g
      dsimp only at this
      exact ⟨by omega, by simpa using g⟩
  have hsort : ∀ y, ((pyRange lo.1 (hi.1 + 1)).filter (fun x => (x, y) ∈ l)).Pairwise (· < ·) := by
    intro y
    apply List.Pairwise.filter
    unfold pyRange
    rw [List.pairwise_map]
    exact List.pairwise_lt_range.imp (fun {a c} g => by omega)
  have hrow : ∀ Q : Int × List Int → Prop, (∀ e, Q e → (py : Int) = e.1) →
      (Q ((py : Int), (pyRange lo.1 (hi.1 + 1)).filter fun x => (x, (py : Int)) ∈ l) → ∃ x, (x, (py : Int)) ∈ l) →
      ((∃ e ∈ (pyRange lo.2 (hi.2 + 1)).map fun y => (y, (pyRange lo.1 (hi.1 + 1)).filter fun x => (x, y) ∈ l), Q e) ↔
        Q ((py : Int), (pyRange lo.1 (hi.1 + 1)).filter fun x => (x, (py : Int)) ∈ l)) := by
    intro Q hQ hx
    constructor
    · rintro ⟨e, he, g⟩
      obtain ⟨y, -, rfl⟩ := List.mem_map.mp he
      have := hQ _ g
      dsimp only at this
      subst this
      exact g
    · intro g
      refine ⟨_, List.mem_map.mpr ⟨(py : Int), ?_, rfl⟩, g⟩
      obtain ⟨x, hx⟩ := hx g
      have := hall _ hx
      dsimp only at this
      rw [mem_pyRange]; omega
  by_cases h4 : bits = 4
  swap
  · rw [between_of_ne h4]
    simp only [fillRow_of_ne h4]
    rw [hrow (fun e => Hull e.1 e.2 px py) (fun e g => g.1) (by
      rintro ⟨-, ⟨a, ha, -⟩, -⟩; exact ⟨a, (hmem _ _).mp ha⟩)]
    unfold Hull
    constructor
    · rintro ⟨a, c, ma, mc, hle, hge⟩
      exact ⟨rfl, ⟨a, (hmem _ _).mpr ma, hle⟩, c, (hmem _ _).mpr mc, hge⟩
    · rintro ⟨-, ⟨a, ma, hle⟩, c, mc, hge⟩
      exact ⟨a, c, (hmem _ _).mp ma, (hmem _ _).mp mc, hle, hge⟩
  · subst h4
    unfold Between FillRow
    simp only [if_true]
    rw [hrow (fun e => (∃ x, e.2 = [x] ∧ (px : Int) = x ∧ (py : Int) = e.1) ∨ ∃ s ∈ e.2.zip e.2.tail, Row4 W e.1 s.1 s.2 px py)
      (fun e g => by
        rcases g with ⟨x, -, -, g⟩ | ⟨s, -, g⟩
        · exact g
        · exact g.1) (by
      rintro (⟨x, g, -⟩ | ⟨s, g, -⟩)
      · exact ⟨x, (hmem _ _).mp (by dsimp only at g; rw [g]; simp)⟩
      · exact ⟨s.1, (hmem _ _).mp (List.of_mem_zip g).1⟩)]
    dsimp only
    constructor
    · rintro (⟨g1, g2⟩ | ⟨a, c, g1, g2, g3, g4, g5⟩)
      · exact .inl ⟨px, (singleton_iff (hsort _) _).mpr ⟨(hmem _ _).mpr g1, fun y hy => g2 y ((hmem _ _).mp hy)⟩, rfl, rfl⟩
      · exact .inr ⟨(a, c), (mem_zip_sorted (hsort _) a c).mpr ⟨(hmem _ _).mpr g1, (hmem _ _).mpr g2, g3, fun x hx => g4 x ((hmem _ _).mp hx)⟩, g5⟩
    · rintro (⟨x, g1, g2, -⟩ | ⟨⟨a, c⟩, g1, g2⟩)
      · subst g2
        obtain ⟨k1, k2⟩ := (singleton_iff (hsort _) _).mp g1
        exact .inl ⟨(hmem _ _).mp k1, fun y hy => k2 y ((hmem _ _).mpr hy)⟩
      · obtain ⟨k1, k2, k3, k4⟩ := (mem_zip_sorted (hsort _) a c).mp g1
        exact .inr ⟨a, c, (hmem _ _).mp k1, (hmem _ _).mp k2, k3, fun x hx => k4 x ((hmem _ _).mpr hx), g2⟩

/-- C119: if the boundary lies inside the image, `plotpolyfill` paints in every row the pixels from the
first to the last point of the boundary, on 4-bit images with the gaps of C19. -/
theorem C119_polyfill_partial {b : Bytes} {W H bits : Nat} (h : Valid b W H bits) {color : Int}
    (hc : IsColour bits color) {v : List (ℚ × ℚ)} (hv : v ≠ [])
    (hin : ∀ r, OnBoundary v r → 0 ≤ r.1 ∧ r.1 < W ∧ 0 ≤ r.2 ∧ r.2 < H) :
    ∃ b', plotpolyfill b v color = .ok b' ∧ Paints b b' W H bits (Between W bits (OnBoundary v)) color.toNat := by
  obtain ⟨l, hl, -, hne, hmem⟩ := C119_boundary hv
  obtain ⟨d, b', hd, hb', hp⟩ := fillpoly_paints h hc hne (fun r hr => hin r ((hmem r).mp hr))
  refine ⟨b', ?_, ?_⟩
  · unfold plotpolyfill
    have gx : getmaxx b = .ok (W : Int) := h.getmaxx_eq
    have gy : getmaxy b = .ok (H : Int) := h.getmaxy_eq
    rw [hl, ok_bind, gx, ok_bind, gy, ok_bind, hd, ok_bind, hb']
  · rw [show OnBoundary v = (· ∈ l) from funext fun r => propext (hmem r).symm]
    exact hp

/-- A polygon with a single point outside the image is not drawn at all. -/
theorem C119_outside {b : Bytes} {W H bits : Nat} (h : Valid b W H bits) (color : Int) {v : List (ℚ × ℚ)}
    (hout : ∃ r, OnBoundary v r ∧ ¬ (0 ≤ r.1 ∧ r.1 < W ∧ 0 ≤ r.2 ∧ r.2 < H)) : plotpolyfill b v color = .ok b := by
  obtain ⟨r, hr, hno⟩ := hout
  have hv : v ≠ [] := by
    rintro rfl
    obtain ⟨p, q, h | h, -⟩ := hr
    · obtain ⟨s, t, h⟩ := h
      exact absurd h (by simp [rounded])
    · exact absurd h.1 (by simp [rounded])
  obtain ⟨l, hl, -, hne, hmem⟩ := C119_boundary hv
  obtain ⟨lo, hi, hbox, hall, -⟩ := C100_boundingbox hne
  have hb := hall r ((hmem r).mpr hr)
  have gx : getmaxx b = .ok (W : Int) := h.getmaxx_eq
  have gy : getmaxy b = .ok (H : Int) := h.getmaxy_eq
  unfold plotpolyfill fillpolydata
  rw [hl, ok_bind, gx, ok_bind, gy, ok_bind, hbox, ok_bind]
  dsimp only
  rw [if_neg (by rintro ⟨⟨h1, h2⟩, h3, h4⟩; exact hno (by omega))]
  rfl

example : (do let b ← newBMP 9 9 4; let b ← plotpolyfill b [(1, 1), (7, 1), (4, 5)] 7
              pure (← getxybit b 4 2, ← getxybit b 1 4, ← getxybit b 4 6)) = .ok (7, 0, 0) := by decide +kernel
example : (do let b ← newBMP 9 9 24; let b ← plotpolyfill b [(1, 1), (7, 1), (4, 5)] 7
              pure (← getxybit b 4 2, ← getxybit b 1 4, ← getxybit b 4 6)) = .ok (7, 0, 0) := by decide +kernel

/-- A notch is filled too: the property that exactly the inside of the polygon is painted is false for
polygons that are not convex. The point `(4, 2)` is in the notch of the letter U drawn here. -/
theorem C119_notch_false : (do let b ← newBMP 9 9 24
                               let b ← plotpolyfill b [(0, 0), (2, 0), (2, 5), (6, 5), (6, 0), (8, 0), (8, 7), (0, 7)] 7
                               getxybit b 4 2) = .ok 7 := by decide +kernel

end Verif.Props.PolyFill
