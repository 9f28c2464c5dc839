import Verif.Model.Curves
import Verif.Props.PolyFill
import Verif.Props.Circle
import Verif.Props.Interp
import Mathlib.Analysis.SpecialFunctions.Trigonometric.Angle
import Mathlib.Tactic.Linarith
import Mathlib.Tactic.FieldSimp
/-! C122: arcs and pie charts. -/

namespace Verif.Props.Pie
open Verif Spec Model Verif.Props

/-- The sum of the values before entry `k`. -/
def before (d : List (ℚ × Int)) (k : Nat) : ℚ := ((d.take k).map Prod.fst).sum

/-- The row of entry `k`: from the share of the entries before to the share with it, in degrees. -/
def rowOf (d : List (ℚ × Int)) (k : Nat) : PieRow :=
  let tot := before d d.length
  let e := d.getD k (0, 0)
  ⟨360 * before d k / tot, 360 * before d (k + 1) / tot, e.2, e.1, 100 * e.1 / tot⟩

theorem before_succ (d : List (ℚ × Int)) {k : Nat} (hk : k < d.length) :
    before d (k + 1) = before d k + (d.getD k (0, 0)).1 := by
  unfold before
  rw [List.take_succ, List.map_append, List.sum_append]
  simp [List.getD_eq_getElem?_getD, hk]

theorem before_all (d : List (ℚ × Int)) : before d d.length = getdatalisttotal d := by
  unfold before getdatalisttotal
  rw [List.take_length]

/-- The state after the first `n` entries. -/
theorem loop_spec (d : List (ℚ × Int)) (ht : getdatalisttotal d ≠ 0) (n : Nat) (hn : n ≤ d.length) :
    ∃ big : Int, (d.take n).foldlM (fun (st : ℚ × List PieRow × Int) e =>
      if getdatalisttotal d = 0 then (.error .zeroDivision : Py _)
      else
        let p := e.1 / getdatalisttotal d
        let ea := st.1 + p * 360
        let p := p * 100
        let big : Int := if p ≥ 50 then d.idxOf e else st.2.2
        .ok (ea, st.2.1 ++ [⟨st.1, ea, e.2, e.1, p⟩], big)) (0, [], -1) =
      .ok (360 * before d n / before d d.length, (List.range n).map (rowOf d), big) ∧
      (big = -1 ∧ (∀ k < n, (rowOf d k).percent < 50) ∨
        ∃ k < n, big = d.idxOf (d.getD k (0, 0)) ∧ 50 ≤ (rowOf d k).percent ∧ ∀ j < n, k < j → (rowOf d j).percent < 50) := by
  induction n with
  | zero => exact ⟨-1, by simp [before, pure_eq_ok], .inl ⟨rfl, by simp⟩⟩
  | succ n ih =>
    obtain ⟨big, e, hb⟩ := ih (by omega)
    have hk : n < d.length := by omega
    have htake : d.take (n + 1) = d.take n ++ [d.getD n (0, 0)] := by
      rw [List.take_succ]; simp [List.getD_eq_getElem?_getD, hk]
    have hpc : (d.getD n (0, 0)).1 / getdatalisttotal d * 100 = (rowOf d n).percent := by
      simp only [rowOf, before_all]; ring
    have hea : 360 * before d n / before d d.length + (d.getD n (0, 0)).1 / getdatalisttotal d * 360 =
        360 * before d (n + 1) / before d d.length := by
      rw [before_succ d hk, before_all]; ring
    refine ⟨if (rowOf d n).percent ≥ 50 then d.idxOf (d.getD n (0, 0)) else big, ?_, ?_⟩
    · rw [htake, List.foldlM_append, e, ok_bind, List.foldlM_cons]
      dsimp only
      rw [if_neg ht, ok_bind, List.foldlM_nil, pure_eq_ok, hpc, hea, List.range_succ, List.map_append]
      congr 3
    · split_ifs with h50
      · exact .inr ⟨n, by omega, rfl, h50, fun j h1 h2 => by omega⟩
      · rcases hb with ⟨h1, h2⟩ | ⟨k, h1, h2, h3, h4⟩
        · refine .inl ⟨h1, fun k hk => ?_⟩
          rcases Nat.lt_or_ge k n with g | g
          · exact h2 k g
          · rw [show k = n by omega]; exact not_le.mp h50
        · refine .inr ⟨k, by omega, h2, h3, fun j g1 g2 => ?_⟩
          rcases Nat.lt_or_ge j n with g | g
          · exact h4 j g g2
          · rw [show j = n by omega]; exact not_le.mp h50

/-- C122: the rows of the data: an arc and a percentage for each entry, proportional to its value. The second
result is the place of the last entry with half of the total or more, -1 if there is none. -/
theorem C122_data {d : List (ℚ × Int)} (ht : before d d.length ≠ 0) :
    ∃ big, genpiechartdata d = .ok ((List.range d.length).map (rowOf d), big) ∧
      (big = -1 ∧ (∀ k < d.length, (rowOf d k).percent < 50) ∨
        ∃ k < d.length, big = d.idxOf (d.getD k (0, 0)) ∧ 50 ≤ (rowOf d k).percent ∧
          ∀ j < d.length, k < j → (rowOf d j).percent < 50) := by
  obtain ⟨big, e, hb⟩ := loop_spec d (by rw [← before_all]; exact ht) d.length le_rfl
  rw [List.take_length] at e
  refine ⟨big, ?_, hb⟩
  unfold genpiechartdata
  dsimp only
  rw [e, ok_bind, pure_eq_ok]

/-- C122: the arcs start at 0, follow each other without gap and end at 360 degrees; the percentages add up
to 100. -/
theorem C122_whole {d : List (ℚ × Int)} (ht : before d d.length ≠ 0) :
    (rowOf d 0).sa = 0 ∧ (rowOf d (d.length - 1)).ea = 360 ∧ (∀ k, (rowOf d k).ea = (rowOf d (k + 1)).sa) ∧
    ((List.range d.length).map fun k => (rowOf d k).percent).sum = 100 := by
  have hne : d.length ≠ 0 := by
    rintro h
    rw [h] at ht
    exact ht (by simp [before])
  refine ⟨by simp [rowOf, before], ?_, fun _ => rfl, ?_⟩
  · simp only [rowOf]
    rw [Nat.sub_add_cancel (by omega)]
    field_simp
  · have key : ∀ n ≤ d.length, ((List.range n).map fun k => (rowOf d k).percent).sum = 100 * before d n / before d d.length := by
      intro n hn
      induction n with
      | zero => simp [before]
      | succ n ih =>
        rw [List.range_succ, List.map_append, List.sum_append, ih (by omega), before_succ d (by omega)]
        simp only [List.map_cons, List.map_nil, List.sum_cons, List.sum_nil, rowOf]
        ring
    rw [key _ le_rfl]
    field_simp

/-- Values that cancel out are an error. -/
theorem C122_zero_error {d : List (ℚ × Int)} (hd : d ≠ []) (ht : before d d.length = 0) :
    genpiechartdata d = .error .zeroDivision := by
  rw [before_all] at ht
  cases d with
  | nil => exact absurd rfl hd
  | cons a d =>
    unfold genpiechartdata
    simp only [ht, List.foldlM_cons, if_true]
    rfl

example : (genpiechartdata [(1, 7), (3, 9), (4, 2)]).toOption.map (fun r => (r.1.map fun a => (a.sa, a.ea, a.percent), r.2)) =
    some ([(0, 45, 25 / 2), (45, 180, 75 / 2), (180, 360, 50)], 2) := by decide +kernel

/-! ### Arcs -/

/-- `a` is the direction in which `p` lies as seen from `c`, as on a clock: 0 is up, a quarter turn is right. -/
def Clock (c p : Int × Int) (a : ℝ) : Prop :=
  0 ≤ a ∧ a < 2 * Real.pi ∧ ∃ ρ : ℝ, 0 < ρ ∧ (p.1 : ℝ) = c.1 + ρ * Real.sin a ∧ (p.2 : ℝ) = c.2 - ρ * Real.cos a

theorem clock_unique {c p : Int × Int} {a b : ℝ} (ha : Clock c p a) (hb : Clock c p b) : a = b := by
  obtain ⟨a0, a1, ρ, hρ, ax, ay⟩ := ha
  obtain ⟨b0, b1, σ, hσ, bx, by'⟩ := hb
  have hs : ρ * Real.sin a = σ * Real.sin b := by linarith
  have hc : ρ * Real.cos a = σ * Real.cos b := by linarith
  have hsq : ρ ^ 2 = σ ^ 2 := by
    have e1 := Real.sin_sq_add_cos_sq a
    have e2 := Real.sin_sq_add_cos_sq b
    have : (ρ * Real.sin a) ^ 2 + (ρ * Real.cos a) ^ 2 = (σ * Real.sin b) ^ 2 + (σ * Real.cos b) ^ 2 := by rw [hs, hc]
    nlinarith
  have hρσ : ρ = σ := by
    have := abs_eq_abs.mpr (sq_eq_sq_iff_eq_or_eq_neg.mp hsq)
    rwa [abs_of_pos hρ, abs_of_pos hσ] at this
  subst hρσ
  have h1 := mul_left_cancel₀ hρ.ne' hs
  have h2 := mul_left_cancel₀ hρ.ne' hc
  have h3 := Real.Angle.cos_sin_inj h2 h1
  rw [Real.Angle.angle_eq_iff_two_pi_dvd_sub] at h3
  obtain ⟨k, hk⟩ := h3
  have hp := Real.pi_pos
  have : k = 0 := by
    have l1 : (k : ℝ) < 1 := by nlinarith
    have l2 : (-1 : ℝ) < k := by nlinarith
    have l1' : k < 1 := by exact_mod_cast l1
    have l2' : -1 < k := by exact_mod_cast l2
    omega
  subst this
  simp at hk
  linarith

theorem clock_exists {x y : Int} {p : Int × Int} (h : p ≠ (x, y)) :
    ∃ a, polarcoordangle2D ((p.1 : ℝ) - x, (p.2 : ℝ) - y) = .ok a ∧ Clock (x, y) p a := by
  have h' : (p.1 : ℝ) - x ≠ 0 ∨ (p.2 : ℝ) - y ≠ 0 := by
    by_contra hc
    push Not at hc
    apply h
    have e1 : (p.1 : ℝ) = x := by linarith [hc.1]
    have e2 : (p.2 : ℝ) = y := by linarith [hc.2]
    exact Prod.ext (by exact_mod_cast e1) (by exact_mod_cast e2)
  obtain ⟨a, e, h0, h1, hx, hy⟩ := C114_angle h'
  refine ⟨a, e, h0, h1, vmag [(p.1 : ℝ) - x, (p.2 : ℝ) - y], ?_, by linarith, by linarith⟩
  have hnn : 0 ≤ vmag [(p.1 : ℝ) - x, (p.2 : ℝ) - y] := Real.sqrt_nonneg _
  rcases eq_or_lt_of_le hnn with g | g
  · rw [← g] at hx hy
    rcases h' with h' | h'
    · exact absurd (by linarith) h'
    · exact absurd (by linarith) h'
  · exact g

/-- The points of an arc: the points of the circle whose direction is in the arc, and for those nearer than 0.03
to one of its ends the line to the centre. -/
def OnArc (x y r : Int) (s e : ℝ) (q : Int × Int) : Prop :=
  ∃ p ∈ itercircle x y r, ∃ a, Clock (x, y) p a ∧ s * Real.pi / 180 ≤ a ∧ a ≤ e * Real.pi / 180 ∧
    (q = p ∨ ((|a - s * Real.pi / 180| < 3 / 100 ∨ |a - e * Real.pi / 180| < 3 / 100) ∧ q ∈ iterline (x, y) p))

theorem circle_off_centre {x y r : Int} (hr : 0 < r) : ∀ p ∈ itercircle x y r, p ≠ (x, y) := by
  intro p hp h
  unfold itercircle at hp
  obtain ⟨v, hv, hm⟩ := List.mem_flatMap.mp hp
  obtain ⟨n1, n2, -⟩ := part_nonneg hv
  rw [h] at hm
  obtain ⟨e1, e2⟩ := (mem_quad x y v n1 n2 _ _).mp hm
  obtain ⟨-, -, g | ⟨-, g⟩⟩ := (C25_circle_points r v.1 v.2).mp hv
  · omega
  · rw [← e1, ← e2] at g
    unfold Near at g
    simp at g
    nlinarith [g.2]

/-- C122: the points of an arc, for every circle but a single pixel. -/
theorem C122_arc (x y : Int) {r : Int} (hr : 0 < r) (s e : ℝ) :
    ∃ l, arcvert x y r s e = .ok l ∧ ∀ q, q ∈ l ↔ OnArc x y r s e q := by
  have key : ∀ (S E : ℝ) (c : List (Int × Int)) (v : List (Int × Int)), (∀ p ∈ c, p ≠ (x, y)) →
      ∃ l, c.foldlM (fun v p => do
        let a ← polarcoordangle2D ((p.1 : ℝ) - x, (p.2 : ℝ) - y)
        if a ≥ S ∧ a ≤ E then
          pure (v ++ [p] ++ if |a - S| < 3 / 100 ∨ |a - E| < 3 / 100 then iterline (x, y) p else [])
        else pure v) v = (.ok l : Py (List (Int × Int))) ∧ ∀ q, q ∈ l ↔ q ∈ v ∨
          ∃ p ∈ c, ∃ a, Clock (x, y) p a ∧ S ≤ a ∧ a ≤ E ∧
          (q = p ∨ ((|a - S| < 3 / 100 ∨ |a - E| < 3 / 100) ∧ q ∈ iterline (x, y) p)) := by
    intro S E c
    induction c with
    | nil => intro v _; exact ⟨v, rfl, by simp⟩
    | cons p c ih =>
      intro v hv
      obtain ⟨a, ea, ha⟩ := clock_exists (hv p (by simp))
      rw [List.foldlM_cons, ea, ok_bind]
      by_cases h1 : a ≥ S ∧ a ≤ E
      · rw [if_pos h1, pure_eq_ok, ok_bind]
        obtain ⟨l, el, hl⟩ := ih (v ++ [p] ++ if |a - S| < 3 / 100 ∨ |a - E| < 3 / 100 then iterline (x, y) p else [])
          (fun p hp => hv p (by simp [hp]))
        refine ⟨l, el, fun q => ?_⟩
        rw [hl, List.mem_append, List.mem_append, List.mem_singleton]
        simp only [List.mem_cons, exists_eq_or_imp]
        have hp : (∃ a, Clock (x, y) p a ∧ S ≤ a ∧ a ≤ E ∧
          (q = p ∨ ((|a - S| < 3 / 100 ∨ |a - E| < 3 / 100) ∧ q ∈ iterline (x, y) p))) ↔
            (q = p ∨ q ∈ if |a - S| < 3 / 100 ∨ |a - E| < 3 / 100 then iterline (x, y) p else []) := by
          constructor
          · rintro ⟨a', ha', -, -, g⟩
            rw [clock_unique ha' ha] at g
            rcases g with g | ⟨g1, g2⟩
            · exact .inl g
            · right; rw [if_pos g1]; exact g2
          · intro g
            refine ⟨a, ha, h1.1, h1.2, ?_⟩
            rcases g with g | g
            · exact .inl g
            · split_ifs at g with g1
              · exact .inr ⟨g1, g⟩
              · exact absurd g (by simp)
        rw [hp, or_assoc, or_assoc, or_assoc]
      · rw [if_neg h1, pure_eq_ok, ok_bind]
        obtain ⟨l, el, hl⟩ := ih v (fun p hp => hv p (by simp [hp]))
        refine ⟨l, el, fun q => ?_⟩
        rw [hl]
        simp only [List.mem_cons, exists_eq_or_imp]
        constructor
        · rintro (g | g)
          · exact .inl g
          · exact .inr (.inr g)
        · rintro (g | ⟨a', ha', g1, g2, -⟩ | g)
          · exact .inl g
          · rw [clock_unique ha' ha] at g1 g2
            exact absurd ⟨g1, g2⟩ h1
          · exact .inr g
  obtain ⟨l, el, hl⟩ := key (s * (Real.pi / 180)) (e * (Real.pi / 180)) (itercircle x y r) [] (circle_off_centre hr)
  exact ⟨l, el, fun q => by rw [hl]; simp only [List.not_mem_nil, false_or, OnArc, mul_div_assoc]⟩

/-- C122: what `drawarc` draws without filling it. -/
theorem C122_drawarc {b : Bytes} {W H bits : Nat} (h : Valid b W H bits) {x y r : Int} (hr : 0 < r) (s e : ℝ)
    {color : Int} (hc : IsColour bits color) (o : Bool) (fc : Int) :
    ∃ b', drawarc b x y r s e color o fc false = .ok b' ∧
      Paints b b' W H bits (fun px py => OnArc x y r s e ((px : Int), (py : Int))) color.toNat := by
  obtain ⟨l, el, hl⟩ := C122_arc x y hr s e
  obtain ⟨b', e1, p⟩ := plots_paints h l (c := color) (by rintro rfl; exact ⟨hc.1, by exact_mod_cast hc.2⟩)
  rw [reduce_of_colour h.depth hc] at p
  refine ⟨b', ?_, p.congr ?_⟩
  · unfold drawarc
    rw [el, ok_bind, e1, ok_bind]
    rfl
  · intro px py _ _
    exact (hl _).symm

/-- A point of the arc or between two points of it in its row, with the gaps of C19 on 4-bit images. -/
def InArc (W bits : Nat) (x y r : Int) (s e : ℝ) (px py : Nat) : Prop :=
  OnArc x y r s e ((px : Int), (py : Int)) ∨ PolyFill.Between W bits (OnArc x y r s e) px py

/-- On images of 1, 8 or 24 bits these are the points between two points of the arc in their row. -/
theorem inArc_of_ne {W bits : Nat} (h4 : bits ≠ 4) (x y r : Int) (s e : ℝ) (px py : Nat) : InArc W bits x y r s e px py ↔
    ∃ xa xb, OnArc x y r s e (xa, (py : Int)) ∧ OnArc x y r s e (xb, (py : Int)) ∧ xa ≤ px ∧ (px : Int) ≤ xb := by
  unfold InArc
  rw [PolyFill.between_of_ne h4]
  constructor
  · rintro (g | g)
    · exact ⟨px, px, g, g, le_rfl, le_rfl⟩
    · exact g
  · exact .inr

/-- C122: what a filled arc in one colour paints if it lies inside the image: in every row the pixels from the first
to the last point of the arc, on 4-bit images with the gaps of C19. -/
theorem C122_fillarc_partial {b : Bytes} {W H bits : Nat} (h : Valid b W H bits) {x y r : Int}
    (hr : 0 < r) {s e : ℝ} {color : Int} (hc : IsColour bits color) (o : Bool) (hne : ∃ q, OnArc x y r s e q)
    (hin : ∀ q, OnArc x y r s e q → 0 ≤ q.1 ∧ q.1 < W ∧ 0 ≤ q.2 ∧ q.2 < H) :
    ∃ b', drawarc b x y r s e color o color true = .ok b' ∧ Paints b b' W H bits (InArc W bits x y r s e) color.toNat := by
  obtain ⟨l, el, hl⟩ := C122_arc x y hr s e
  have hlne : l ≠ [] := by
    rintro rfl
    obtain ⟨q, hq⟩ := hne
    exact absurd ((hl q).mpr hq) (by simp)
  obtain ⟨b1, e1, p1⟩ := plots_paints h l (c := color) (by rintro rfl; exact ⟨hc.1, by exact_mod_cast hc.2⟩)
  rw [reduce_of_colour h.depth hc] at p1
  have h1 : Valid b1 W H bits := p1.valid
  obtain ⟨d, b2, e2, e3, p2⟩ := PolyFill.fillpoly_paints h1 hc hlne (fun r hr => hin r ((hl r).mp hr))
  have gx : getmaxx b1 = .ok (W : Int) := h1.getmaxx_eq
  have gy : getmaxy b1 = .ok (H : Int) := h1.getmaxy_eq
  refine ⟨b2, ?_, ?_⟩
  · unfold drawarc
    rw [el, ok_bind, e1, ok_bind, if_pos rfl, gx, ok_bind, gy, ok_bind, e2, ok_bind, e3]
  · refine p1.trans p2 fun px py _ _ => ?_
    unfold InArc
    rw [show OnArc x y r s e = (· ∈ l) from funext fun q => propext (hl q).symm]

/-- An arc is not always a sector: on a small circle no point may be near enough to an end for the line to the
centre. Here the filled quarter is a single pixel and does not reach the centre. -/
theorem C122_sector_false (q : Int × Int) : OnArc 5 5 1 45 135 q ↔ q = (6, 5) := by
  have hp := Real.two_le_pi
  have hc : ∀ p : Int × Int, p ∈ itercircle 5 5 1 ↔ p = (6, 5) ∨ p = (4, 5) ∨ p = (5, 6) ∨ p = (5, 4) := by
    have e : itercircle 5 5 1 = [(5, 6), (5, 6), (5, 4), (5, 4), (4, 5), (6, 5), (4, 5), (6, 5)] := by decide +kernel
    intro p
    rw [e]
    simp only [List.mem_cons, List.not_mem_nil, or_false]
    tauto
  have cR : Clock (5, 5) (6, 5) (Real.pi / 2) := ⟨by linarith, by linarith, 1, by norm_num, by simp; norm_num, by simp⟩
  have cL : Clock (5, 5) (4, 5) (3 * Real.pi / 2) := by
    refine ⟨by linarith, by linarith, 1, by norm_num, ?_, ?_⟩
    · rw [show 3 * Real.pi / 2 = Real.pi / 2 + Real.pi by ring, Real.sin_add_pi]; simp; norm_num
    · rw [show 3 * Real.pi / 2 = Real.pi / 2 + Real.pi by ring, Real.cos_add_pi]; simp
  have cD : Clock (5, 5) (5, 6) Real.pi := ⟨by linarith, by linarith, 1, by norm_num, by simp, by simp; norm_num⟩
  have cU : Clock (5, 5) (5, 4) 0 := ⟨le_rfl, by linarith, 1, by norm_num, by simp, by simp; norm_num⟩
  constructor
  · rintro ⟨p, hp', a, ha, h1, h2, h3⟩
    rcases (hc p).mp hp' with rfl | rfl | rfl | rfl
    · have := clock_unique ha cR
      subst this
      rcases h3 with h3 | ⟨h3 | h3, -⟩
      · exact h3
      · rw [abs_lt] at h3; linarith
      · rw [abs_lt] at h3; linarith
    · have := clock_unique ha cL; subst this; linarith
    · have := clock_unique ha cD; subst this; linarith
    · have := clock_unique ha cU; subst this; linarith
  · rintro rfl
    exact ⟨_, (hc _).mpr (.inl rfl), _, cR, by linarith, by linarith, .inl rfl⟩

/-- The parameter that should switch off the outline has no effect. -/
theorem C122_outline_wrong (b : Bytes) (x y r : Int) (s e : ℝ) (c fc : Int) (f : Bool) :
    drawarc b x y r s e c true fc f = drawarc b x y r s e c false fc f := rfl

/-- C122: together the arcs of a pie chart contain the whole circle. -/
theorem C122_cover {d : List (ℚ × Int)} (hpos : ∀ e ∈ d, 0 ≤ e.1) (ht : before d d.length ≠ 0) {x y r : Int} (hr : 0 < r)
    {p : Int × Int} (hp : p ∈ itercircle x y r) :
    ∃ k < d.length, OnArc x y r ((rowOf d k).sa : ℝ) ((rowOf d k).ea : ℝ) p := by
  obtain ⟨a, -, ha⟩ := clock_exists (circle_off_centre hr p hp)
  have hN : 0 < d.length := by
    rcases Nat.eq_zero_or_pos d.length with h | h
    · rw [h] at ht; exact absurd (by simp [before]) ht
    · exact h
  have hmono : ∀ k < d.length, before d k ≤ before d (k + 1) := by
    intro k hk
    rw [before_succ d hk]
    have := hpos (d.getD k (0, 0)) (by simp [List.getD_eq_getElem?_getD, hk])
    linarith
  have hnn : ∀ k ≤ d.length, 0 ≤ before d k := by
    intro k
    induction k with
    | zero => intro _; simp [before]
    | succ k ih => intro hk; have := ih (by omega); have := hmono k (by omega); linarith
  have htot : 0 < before d d.length := lt_of_le_of_ne (hnn _ le_rfl) (Ne.symm ht)
  have htotR : (0 : ℝ) < ((before d d.length : ℚ) : ℝ) := by exact_mod_cast htot
  have hp0 := Real.pi_pos
  have e1 : ∀ k, ((rowOf d k).sa : ℝ) * Real.pi / 180 = 2 * Real.pi * (before d k : ℝ) / (before d d.length : ℝ) := by
    intro k; simp only [rowOf]; push_cast; ring
  have e2 : ∀ k, ((rowOf d k).ea : ℝ) * Real.pi / 180 = 2 * Real.pi * (before d (k + 1) : ℝ) / (before d d.length : ℝ) := by
    intro k; simp only [rowOf]; push_cast; ring
  have hex : ∃ n, a ≤ 2 * Real.pi * (before d (n + 1) : ℝ) / (before d d.length : ℝ) := by
    refine ⟨d.length - 1, ?_⟩
    rw [Nat.sub_add_cancel hN, mul_div_assoc, div_self htotR.ne', mul_one]
    exact ha.2.1.le
  classical
  have hspec := Nat.find_spec hex
  have hlt : Nat.find hex ≤ d.length - 1 := Nat.find_min' hex (by
    rw [Nat.sub_add_cancel hN, mul_div_assoc, div_self htotR.ne', mul_one]
    exact ha.2.1.le)
  refine ⟨Nat.find hex, by omega, p, hp, a, ha, ?_, by rw [e2]; exact hspec, .inl rfl⟩
  rw [e1]
  rcases Nat.eq_zero_or_pos (Nat.find hex) with h0 | h0
  · rw [h0]
    simp only [before, List.take_zero, List.map_nil, List.sum_nil, Rat.cast_zero, mul_zero, zero_div]
    exact ha.1
  · have := Nat.find_min hex (show Nat.find hex - 1 < Nat.find hex by omega)
    rw [Nat.sub_add_cancel h0] at this
    exact (not_le.mp this).le

/-- C122: no point of the circle is in two arcs that do not touch. -/
theorem C122_apart {d : List (ℚ × Int)} {x y : Int} {p : Int × Int} {i j : Nat}
    (hgap : (rowOf d i).ea < (rowOf d j).sa) : ¬ ∃ a, Clock (x, y) p a ∧
      (((rowOf d i).sa : ℝ) * Real.pi / 180 ≤ a ∧ a ≤ ((rowOf d i).ea : ℝ) * Real.pi / 180) ∧
      (((rowOf d j).sa : ℝ) * Real.pi / 180 ≤ a ∧ a ≤ ((rowOf d j).ea : ℝ) * Real.pi / 180) := by
  rintro ⟨a, -, ⟨-, h1⟩, h2, -⟩
  have : ((rowOf d i).ea : ℝ) < ((rowOf d j).sa : ℝ) := by exact_mod_cast hgap
  have hp := Real.pi_pos
  have : ((rowOf d i).ea : ℝ) * Real.pi / 180 < ((rowOf d j).sa : ℝ) * Real.pi / 180 := by
    apply div_lt_div_of_pos_right _ (by norm_num)
    exact mul_lt_mul_of_pos_right this hp
  linarith

/-- Two equal halves are drawn as a disc in the colour of the second one. -/
theorem C122_halves_wrong (b : Bytes) (x y r : Int) {v : ℚ} (hv : 0 < v) {c1 c2 : Int} (hc : c1 ≠ c2) :
    (piechart b x y r [(v, c1), (v, c2)]).map Prod.fst = filledcircle b x y r c2 := by
  have hg : genpiechartdata [(v, c1), (v, c2)] =
      .ok ([⟨0, 180, c1, v, 50⟩, ⟨180, 360, c2, v, 50⟩], 1) := by
    have h1 : (v : ℚ) / (v + v) = 1 / 2 := by field_simp; norm_num
    have h2 : v + v ≠ 0 := by linarith
    unfold genpiechartdata getdatalisttotal
    simp only [List.map_cons, List.map_nil, List.sum_cons, List.sum_nil, add_zero, List.foldlM_cons, List.foldlM_nil, h2, if_false, h1]
    norm_num [bind, Except.bind, pure, Except.pure, hc]
  unfold piechart
  rw [hg, ok_bind]
  dsimp only
  rw [if_pos (by norm_num)]
  simp only [nth, Int.toNat_one, List.getElem?_cons_succ, List.getElem?_cons_zero, ok_bind, List.foldlM_cons, List.foldlM_nil, lt_irrefl, if_false,
    pure_eq_ok]
  cases filledcircle b x y r c2 <;> rfl

end Verif.Props.Pie
