import Verif.Model.Plane
import Verif.Props.Strokes
import Verif.Props.Thick
import Verif.Props.Text
import Verif.Props.Circle
import Verif.Props.Gradient
import Verif.Props.Stats
import Verif.Props.PolyFill
import Verif.Props.Solids
import Mathlib.Analysis.SpecialFunctions.Trigonometric.Arctan
/-! Properties C141 to C146: arrows, axes, coordinates, scatter plots, rotated ellipses and solids. -/

namespace Verif.Props.Plane
open Verif Spec Model Props

/-! ### Layers -/

/-- A list of areas with their colours, the last one on top. -/
abbrev Layers := List ((Nat → Nat → Prop) × Nat)

/-- What is seen of the layers at a pixel over the ground `old`: the colour of the last area that covers it. -/
def Top (L : Layers) (x y old new : Nat) : Prop :=
  (∃ (below : Layers) (S : Nat → Nat → Prop) (c : Nat) (above : Layers), L = below ++ (S, c) :: above ∧ S x y ∧ (∀ t ∈ above, ¬ t.1 x y) ∧ new = c) ∨
  ((∀ t ∈ L, ¬ t.1 x y) ∧ new = old)

/-- The image `b'` is `b` with the layers painted over it, and nothing else. -/
structure Layered (b b' : Bytes) (W H bits : Nat) (L : Layers) : Prop where
  valid : Valid b' W H bits
  header : SameHeader b b' bits
  pixels : ∀ x y, x < W → y < H → Top L x y (pix b W H bits x y) (pix b' W H bits x y)

variable {b b₁ b₂ : Bytes} {W H bits : Nat}

theorem Layered.nil (h : Valid b W H bits) : Layered b b W H bits [] :=
  ⟨h, ⟨rfl, fun _ _ => rfl⟩, fun _ _ _ _ => Or.inr ⟨by simp, rfl⟩⟩

theorem Layered.one {S : Nat → Nat → Prop} {c : Nat} (p : Paints b b₁ W H bits S c) : Layered b b₁ W H bits [(S, c)] := by
  refine ⟨p.valid, p.header, fun x y hx hy => ?_⟩
  by_cases hs : S x y
  · exact Or.inl ⟨[], S, c, [], rfl, hs, by simp, p.inside x y hx hy hs⟩
  · exact Or.inr ⟨by simpa using hs, p.outside x y hx hy hs⟩

theorem Layered.append {L₁ L₂ : Layers} (h₁ : Layered b b₁ W H bits L₁) (h₂ : Layered b₁ b₂ W H bits L₂) :
    Layered b b₂ W H bits (L₁ ++ L₂) := by
  refine ⟨h₂.valid, SameHeader.trans h₁.header h₂.header, fun x y hx hy => ?_⟩
  rcases h₂.pixels x y hx hy with ⟨p, S, c, q, rfl, hs, hn, e⟩ | ⟨hn, e⟩
  · exact Or.inl ⟨L₁ ++ p, S, c, q, by simp, hs, hn, e⟩
  · rcases h₁.pixels x y hx hy with ⟨p, S, c, q, rfl, hs, hn', e'⟩ | ⟨hn', e'⟩
    · refine Or.inl ⟨p, S, c, q ++ L₂, by simp, hs, ?_, e.trans e'⟩
      intro t ht
      rcases List.mem_append.mp ht with ht | ht
      · exact hn' t ht
      · exact hn t ht
    · refine Or.inr ⟨?_, e.trans e'⟩
      intro t ht
      rcases List.mem_append.mp ht with ht | ht
      · exact hn' t ht
      · exact hn t ht

theorem foldl_layers {ι : Type} (f : Bytes → ι → Py Bytes) (L : ι → Layers) (l : List ι)
    (hf : ∀ b, Valid b W H bits → ∀ i ∈ l, ∃ b', f b i = .ok b' ∧ Layered b b' W H bits (L i)) {b : Bytes}
    (h : Valid b W H bits) : ∃ b', l.foldlM f b = .ok b' ∧ Layered b b' W H bits (l.flatMap L) := by
  induction l generalizing b with
  | nil => exact ⟨b, rfl, Layered.nil h⟩
  | cons a l ih =>
    obtain ⟨b1, e1, p1⟩ := hf b h a (by simp)
    obtain ⟨b2, e2, p2⟩ := ih (fun b hb i hi => hf b hb i (by simp [hi])) p1.valid
    refine ⟨b2, ?_, ?_⟩
    · rw [List.foldlM_cons, e1]; exact e2
    · rw [List.flatMap_cons]; exact p1.append p2

/-- The layers determine the pixels. -/
theorem Top.unique {L : Layers} {x y old m n : Nat} (h : Top L x y old m) (h' : Top L x y old n) : m = n := by
  induction L using List.reverseRecOn generalizing m n with
  | nil => 
    rcases h with ⟨p, S, c, q, e, -⟩ | ⟨-, rfl⟩
    · simp at e
    rcases h' with ⟨p, S, c, q, e, -⟩ | ⟨-, rfl⟩
    · simp at e
    rfl
  | append_singleton L t ih =>
    have key : ∀ k, Top (L ++ [t]) x y old k → (t.1 x y → k = t.2) ∧ (¬ t.1 x y → Top L x y old k) := by
      rintro k (⟨p, S, c, q, e, hs, hn, rfl⟩ | ⟨hn, rfl⟩)
      · rcases List.eq_nil_or_concat q with rfl | ⟨q', s, rfl⟩
        · obtain ⟨e1, e2⟩ := List.append_inj' e rfl
          simp only [List.cons.injEq, and_true] at e2
          subst e2
          exact ⟨fun _ => rfl, fun hn => absurd hs hn⟩
        · rw [List.concat_eq_append, show p ++ (S, k) :: (q' ++ [s]) = (p ++ (S, k) :: q') ++ [s] by simp] at e
          obtain ⟨e1, e2⟩ := List.append_inj' e rfl
          simp only [List.cons.injEq, and_true] at e2
          subst e2
          refine ⟨fun g => absurd g (hn t (by simp)), fun _ => Or.inl ⟨p, S, k, q', e1, hs, ?_, rfl⟩⟩
          intro u hu; exact hn u (by simp [hu])
      · exact ⟨fun g => absurd g (hn t (by simp)), fun _ => Or.inr ⟨fun u hu => hn u (by simp [hu]), rfl⟩⟩
    by_cases ht : t.1 x y
    · rw [(key m h).1 ht, (key n h').1 ht]
    · exact ih ((key m h).2 ht) ((key n h').2 ht)

/-! ### Rounding -/

theorem rndR_near (x : ℝ) : |(rndR x : ℝ) - x| ≤ 1 / 2 := by
  have h0 := Int.floor_le x
  have h1 := Int.lt_floor_add_one x
  unfold rndR
  rw [abs_le]
  split_ifs <;> push_cast <;> constructor <;> linarith

theorem rndR_eq {x : ℝ} {k : Int} (h : |x - k| < 1 / 2) : rndR x = k := by
  have := rndR_near x
  rw [abs_le] at this
  rw [abs_lt] at h
  have h1 : ((rndR x - k : Int) : ℝ) < 1 := by push_cast; linarith
  have h2 : (-1 : ℝ) < ((rndR x - k : Int) : ℝ) := by push_cast; linarith
  have h3 : rndR x - k < 1 := by exact_mod_cast h1
  have h4 : -1 < rndR x - k := by exact_mod_cast h2
  omega

theorem rndR_int (k : Int) : rndR k = k := rndR_eq (by simp)

/-! ### Arrows -/

/-- The point `p` is the end of a barb of length `l` of an arrow from `u` to `v`: it lies behind the tip `v`,
at an angle of a sixteenth of a turn to the shaft, on the side given by the sign of `s`. -/
def Barb (u v : Int × Int) (l : ℝ) (s : ℝ) (p : ℝ × ℝ) : Prop :=
  (p.1 - v.1) ^ 2 + (p.2 - v.2) ^ 2 = l ^ 2 ∧
  (p.1 - v.1) * (u.1 - v.1) + (p.2 - v.2) * (u.2 - v.2) =
    l * Real.sqrt ((u.1 - v.1) ^ 2 + (u.2 - v.2) ^ 2) * Real.cos (Real.pi / 8) ∧
  (p.1 - v.1) * (u.2 - v.2) - (p.2 - v.2) * (u.1 - v.1) =
    s * (l * Real.sqrt ((u.1 - v.1) ^ 2 + (u.2 - v.2) ^ 2) * Real.sin (Real.pi / 8))

/-- The length of the barbs: as asked for, or a fifth of the shaft. -/
noncomputable def headLen (u v : Int × Int) (headsize : Int) : ℝ :=
  if headsize = 0 then Real.sqrt ((u.1 - v.1) ^ 2 + (u.2 - v.2) ^ 2) / 5 else headsize

theorem vmag_pair (u v : Int × Int) : vmag (subvect [(u.1 : ℝ), (u.2 : ℝ)] [(v.1 : ℝ), (v.2 : ℝ)]) =
    Real.sqrt ((u.1 - v.1) ^ 2 + (u.2 - v.2) ^ 2) := by
  unfold vmag subvect
  simp only [List.zipWith_cons_cons, List.zipWith_nil_left, List.map_cons, List.map_nil, List.sum_cons, List.sum_nil]
  congr 1; ring

/-- The direction of the arrow in the angle of the code. -/
theorem direction (u v : Int × Int) :
    let L := Real.sqrt (((u.1 : ℝ) - v.1) ^ 2 + ((u.2 : ℝ) - v.2) ^ 2)
    let a := anglebetween2Dlines (toR u) (toR v)
    let sub := u.1 < v.1 ∨ (u.1 = v.1 ∧ u.2 > v.2)
    (sub → L * Real.cos a = (v.1 : ℝ) - u.1 ∧ L * Real.sin a = (v.2 : ℝ) - u.2) ∧
    (¬ sub → L * Real.cos a = (u.1 : ℝ) - v.1 ∧ L * Real.sin a = (u.2 : ℝ) - v.2) := by
  intro L a sub
  by_cases hx : u.1 = v.1
  · have ha : a = 3 * Real.pi / 2 := by
      show anglebetween2Dlines (toR u) (toR v) = _
      unfold anglebetween2Dlines toR
      simp [hx]
    have hc : Real.cos a = 0 := by
      rw [ha, show 3 * Real.pi / 2 = Real.pi + Real.pi / 2 by ring, Real.cos_add]; simp
    have hs : Real.sin a = -1 := by
      rw [ha, show 3 * Real.pi / 2 = Real.pi + Real.pi / 2 by ring, Real.sin_add]; simp
    have hL : L = |(u.2 : ℝ) - v.2| := by
      show Real.sqrt _ = _
      rw [hx]; simp [Real.sqrt_sq_eq_abs]
    rw [hc, hs, hL, hx]
    constructor
    · rintro (g | ⟨_, g⟩)
      · omega
      · have : (v.2 : ℝ) < u.2 := by exact_mod_cast g
        rw [abs_of_pos (by linarith)]; constructor <;> ring
    · intro g
      have : (u.2 : ℝ) ≤ v.2 := by
        have : u.2 ≤ v.2 := by by_contra g'; exact g (Or.inr ⟨hx, by omega⟩)
        exact_mod_cast this
      rw [abs_of_nonpos (by linarith)]; constructor <;> ring
  · have hx' : (u.1 : ℝ) ≠ v.1 := by exact_mod_cast hx
    have hd : (v.1 : ℝ) - u.1 ≠ 0 := sub_ne_zero.mpr (Ne.symm hx')
    have ha : a = Real.arctan (((v.2 : ℝ) - u.2) / ((v.1 : ℝ) - u.1)) := by
      show anglebetween2Dlines (toR u) (toR v) = _
      unfold anglebetween2Dlines toR slope
      rw [if_pos hx']
    set s := ((v.2 : ℝ) - u.2) / ((v.1 : ℝ) - u.1) with hs
    have hy : (v.2 : ℝ) - u.2 = s * ((v.1 : ℝ) - u.1) := by rw [hs]; field_simp
    have hpos : 0 < 1 + s ^ 2 := by positivity
    have hL : L = |(v.1 : ℝ) - u.1| * Real.sqrt (1 + s ^ 2) := by
      show Real.sqrt _ = _
      rw [show ((u.1 : ℝ) - v.1) ^ 2 + ((u.2 : ℝ) - v.2) ^ 2 = ((v.1 : ℝ) - u.1) ^ 2 * (1 + s ^ 2) by
        have : ((u.2 : ℝ) - v.2) ^ 2 = (s * ((v.1 : ℝ) - u.1)) ^ 2 := by rw [← hy]; ring
        rw [this]; ring, Real.sqrt_mul (sq_nonneg _), Real.sqrt_sq_eq_abs]
    have hq : Real.sqrt (1 + s ^ 2) ≠ 0 := (Real.sqrt_pos.mpr hpos).ne'
    have hcos : L * Real.cos a = |(v.1 : ℝ) - u.1| := by
      rw [ha, Real.cos_arctan, hL]; field_simp
    have hsin : L * Real.sin a = |(v.1 : ℝ) - u.1| * s := by
      rw [ha, Real.sin_arctan, hL]; field_simp
    rw [hcos, hsin]
    constructor
    · rintro (g | ⟨g, _⟩)
      · have : (u.1 : ℝ) < v.1 := by exact_mod_cast g
        rw [abs_of_pos (by linarith), hy]; constructor <;> ring
      · exact absurd g hx
    · intro g
      have : (v.1 : ℝ) < u.1 := by
        have : v.1 < u.1 := by by_contra g'; exact g (Or.inl (by omega))
        exact_mod_cast this
      rw [abs_of_neg (by linarith)]
      constructor
      · ring
      · linarith

theorem barb_of {u v : Int × Int} {l L a e t s : ℝ} (hL : L = Real.sqrt (((u.1 : ℝ) - v.1) ^ 2 + ((u.2 : ℝ) - v.2) ^ 2))
    (he : e * e = 1) (hs : s * s = 1) (h1 : (u.1 : ℝ) - v.1 = e * (L * Real.cos a)) (h2 : (u.2 : ℝ) - v.2 = e * (L * Real.sin a))
    (ht : t = s * (Real.pi / 8)) : Barb u v l s ((v.1 : ℝ) + e * (l * Real.cos (a - t)), (v.2 : ℝ) + e * (l * Real.sin (a - t))) := by
  have hc : Real.cos t = Real.cos (Real.pi / 8) := by
    rw [ht]
    rcases mul_self_eq_one_iff.mp hs with rfl | rfl
    · rw [one_mul]
    · rw [neg_one_mul, Real.cos_neg]
  have hn : Real.sin t = s * Real.sin (Real.pi / 8) := by
    rw [ht]
    rcases mul_self_eq_one_iff.mp hs with rfl | rfl
    · rw [one_mul, one_mul]
    · rw [neg_one_mul, Real.sin_neg, neg_one_mul]
  have k1 : Real.cos (a - t) * Real.cos a + Real.sin (a - t) * Real.sin a = Real.cos t := by
    rw [← Real.cos_sub]; ring_nf; rw [Real.cos_neg]
  have k2 : Real.cos (a - t) * Real.sin a - Real.sin (a - t) * Real.cos a = Real.sin t := by
    have := Real.sin_sub a (a - t)
    rw [show a - (a - t) = t by ring] at this
    linarith
  have k3 : Real.cos (a - t) ^ 2 + Real.sin (a - t) ^ 2 = 1 := Real.cos_sq_add_sin_sq _
  refine ⟨?_, ?_, ?_⟩ <;> dsimp only
  · calc _ = (e * e) * l ^ 2 * (Real.cos (a - t) ^ 2 + Real.sin (a - t) ^ 2) := by ring
      _ = l ^ 2 := by rw [he, k3]; ring
  · rw [← hL, h1, h2, ← hc, ← k1]
    calc _ = (e * e) * (l * L * (Real.cos (a - t) * Real.cos a + Real.sin (a - t) * Real.sin a)) := by ring
      _ = _ := by rw [he, one_mul]
  · rw [← hL, h1, h2]
    calc _ = (e * e) * (l * L * (Real.cos (a - t) * Real.sin a - Real.sin (a - t) * Real.cos a)) := by ring
      _ = _ := by rw [he, k2, hn]; ring

/-- C141: an arrow is its shaft and two barbs of the same length, that go back from the tip at an angle of a
sixteenth of a turn to both sides of the shaft; their ends are rounded. -/
theorem C141_arrow (u v : Int × Int) (headsize : Int) :
    ∃ p q : ℝ × ℝ, Barb u v (headLen u v headsize) 1 p ∧ Barb u v (headLen u v headsize) (-1) q ∧
      iterdrawvec u v headsize = [(u, v), (v, (rndR p.1, rndR p.2)), (v, (rndR q.1, rndR q.2))] := by
  obtain ⟨d1, d2⟩ := direction u v
  set L := Real.sqrt (((u.1 : ℝ) - v.1) ^ 2 + ((u.2 : ℝ) - v.2) ^ 2) with hL
  set a := anglebetween2Dlines (toR u) (toR v) with ha
  have hl : (if headsize = 0 then vmag (subvect [(u.1 : ℝ), (u.2 : ℝ)] [(v.1 : ℝ), (v.2 : ℝ)]) / 5 else (headsize : ℝ)) =
      headLen u v headsize := by
    unfold headLen
    rw [vmag_pair]
  by_cases sub : u.1 < v.1 ∨ (u.1 = v.1 ∧ u.2 > v.2)
  · obtain ⟨c1, c2⟩ := d1 sub
    refine ⟨_, _, barb_of (e := -1) (a := a) (t := Real.pi / 8) hL (by ring) (by ring) (by linarith) (by linarith) (by ring),
      barb_of (e := -1) (a := a) (t := -(Real.pi / 8)) hL (by ring) (by ring) (by linarith) (by linarith) (by ring), ?_⟩
    have hpq : ∀ x y : (ℝ × ℝ) × (ℝ × ℝ), (if u.1 < v.1 ∧ u.2 < v.2 then x
      else if u.1 > v.1 ∧ u.2 > v.2 then y
      else if v.2 = u.2 ∧ u.1 < v.1 then x
      else if v.2 = u.2 ∧ u.1 > v.1 then y
      else if v.1 = u.1 ∧ u.2 > v.2 then x
      else if v.1 = u.1 ∧ u.2 < v.2 then y
      else if u.1 < v.1 ∧ u.2 > v.2 then x
      else y) = x := by
      intro x y
      split_ifs <;> first | rfl | omega
    unfold iterdrawvec
    dsimp only
    rw [hl, hpq, ← ha]
    unfold hsub rect toR
    simp only [Prod.fst_sub, Prod.snd_sub, sub_neg_eq_add, neg_one_mul, ← sub_eq_add_neg]
  · obtain ⟨c1, c2⟩ := d2 sub
    refine ⟨_, _, barb_of (e := 1) (a := a) (t := Real.pi / 8) hL (by ring) (by ring) (by linarith) (by linarith) (by ring),
      barb_of (e := 1) (a := a) (t := -(Real.pi / 8)) hL (by ring) (by ring) (by linarith) (by linarith) (by ring), ?_⟩
    have hpq : ∀ x y : (ℝ × ℝ) × (ℝ × ℝ), (if u.1 < v.1 ∧ u.2 < v.2 then x
      else if u.1 > v.1 ∧ u.2 > v.2 then y
      else if v.2 = u.2 ∧ u.1 < v.1 then x
      else if v.2 = u.2 ∧ u.1 > v.1 then y
      else if v.1 = u.1 ∧ u.2 > v.2 then x
      else if v.1 = u.1 ∧ u.2 < v.2 then y
      else if u.1 < v.1 ∧ u.2 > v.2 then x
      else y) = y := by
      intro x y
      split_ifs <;> first | rfl | omega
    unfold iterdrawvec
    dsimp only
    rw [hl, hpq, ← ha]
    unfold hadd rect toR
    simp only [Prod.fst_add, Prod.snd_add, sub_neg_eq_add, one_mul]

theorem cos_eighth : (9 / 10 : ℝ) < Real.cos (Real.pi / 8) ∧ Real.cos (Real.pi / 8) < 94 / 100 := by
  have h := Real.cos_sq (Real.pi / 8)
  rw [show 2 * (Real.pi / 8) = Real.pi / 4 by ring, Real.cos_pi_div_four] at h
  have h2 : Real.sqrt 2 ^ 2 = 2 := Real.sq_sqrt (by norm_num)
  have h0 : 0 ≤ Real.sqrt 2 := Real.sqrt_nonneg 2
  have hp : 0 < Real.cos (Real.pi / 8) := Real.cos_pos_of_mem_Ioo ⟨by linarith [Real.pi_pos], by linarith [Real.pi_pos]⟩
  have b1 : 1.4 < Real.sqrt 2 := by nlinarith
  have b2 : Real.sqrt 2 < 1.42 := by nlinarith
  constructor <;> nlinarith

theorem sin_eighth : (36 / 100 : ℝ) < Real.sin (Real.pi / 8) ∧ Real.sin (Real.pi / 8) < 40 / 100 := by
  have h := Real.sin_sq (Real.pi / 8)
  have h' := Real.cos_sq (Real.pi / 8)
  rw [show 2 * (Real.pi / 8) = Real.pi / 4 by ring, Real.cos_pi_div_four] at h'
  have h2 : Real.sqrt 2 ^ 2 = 2 := Real.sq_sqrt (by norm_num)
  have h0 : 0 ≤ Real.sqrt 2 := Real.sqrt_nonneg 2
  have hp : 0 < Real.sin (Real.pi / 8) := Real.sin_pos_of_pos_of_lt_pi (by linarith [Real.pi_pos]) (by linarith [Real.pi_pos])
  have b1 : 1.41 < Real.sqrt 2 := by nlinarith
  have b2 : Real.sqrt 2 < 1.42 := by nlinarith
  constructor <;> nlinarith

/-- C141: the arrow of an axis that goes up. -/
theorem C141_up (x y1 y2 : Int) (h : y2 < y1) :
    iterdrawvec (x, y1) (x, y2) 10 = [((x, y1), (x, y2)), ((x, y2), (x + 4, y2 + 9)), ((x, y2), (x - 4, y2 + 9))] := by
  obtain ⟨p, q, ⟨-, p2, p3⟩, ⟨-, q2, q3⟩, e⟩ := C141_arrow (x, y1) (x, y2) 10
  have hl : headLen (x, y1) (x, y2) 10 = 10 := by unfold headLen; norm_num
  have hy : (0 : ℝ) < (y1 : ℝ) - y2 := by have : (y2 : ℝ) < y1 := by exact_mod_cast h
                                          linarith
  rw [hl] at p2 p3 q2 q3
  simp only [sub_self, mul_zero, zero_add, sub_zero, ne_eq, OfNat.ofNat_ne_zero, not_false_eq_true, zero_pow,
    Real.sqrt_sq hy.le, one_mul] at p2 p3 q2 q3
  have c := cos_eighth
  have s := sin_eighth
  have p2' : p.2 - y2 = 10 * Real.cos (Real.pi / 8) := by
    have := mul_right_cancel₀ hy.ne' (p2.trans (show _ = (10 * Real.cos (Real.pi / 8)) * ((y1 : ℝ) - y2) by ring)); exact this
  have p3' : p.1 - x = 10 * Real.sin (Real.pi / 8) := by
    have := mul_right_cancel₀ hy.ne' (p3.trans (show _ = (10 * Real.sin (Real.pi / 8)) * ((y1 : ℝ) - y2) by ring)); exact this
  have q2' : q.2 - y2 = 10 * Real.cos (Real.pi / 8) := by
    have := mul_right_cancel₀ hy.ne' (q2.trans (show _ = (10 * Real.cos (Real.pi / 8)) * ((y1 : ℝ) - y2) by ring)); exact this
  have q3' : q.1 - x = -(10 * Real.sin (Real.pi / 8)) := by
    have := mul_right_cancel₀ hy.ne' (q3.trans (show _ = (-(10 * Real.sin (Real.pi / 8))) * ((y1 : ℝ) - y2) by ring)); exact this
  rw [e, rndR_eq (x := p.1) (k := x + 4) (by push_cast; rw [abs_lt]; constructor <;> linarith),
    rndR_eq (x := p.2) (k := y2 + 9) (by push_cast; rw [abs_lt]; constructor <;> linarith),
    rndR_eq (x := q.1) (k := x - 4) (by push_cast; rw [abs_lt]; constructor <;> linarith),
    rndR_eq (x := q.2) (k := y2 + 9) (by push_cast; rw [abs_lt]; constructor <;> linarith)]

/-- C141: the arrow of an axis that goes to the right. -/
theorem C141_right (x1 x2 y : Int) (h : x1 < x2) :
    iterdrawvec (x1, y) (x2, y) 10 = [((x1, y), (x2, y)), ((x2, y), (x2 - 9, y + 4)), ((x2, y), (x2 - 9, y - 4))] := by
  obtain ⟨p, q, ⟨-, p2, p3⟩, ⟨-, q2, q3⟩, e⟩ := C141_arrow (x1, y) (x2, y) 10
  have hl : headLen (x1, y) (x2, y) 10 = 10 := by unfold headLen; norm_num
  have hx : (0 : ℝ) < (x2 : ℝ) - x1 := by have : (x1 : ℝ) < x2 := by exact_mod_cast h
                                          linarith
  have hs : Real.sqrt (((x1 : ℝ) - x2) ^ 2) = (x2 : ℝ) - x1 := by
    rw [show ((x1 : ℝ) - x2) ^ 2 = ((x2 : ℝ) - x1) ^ 2 by ring, Real.sqrt_sq hx.le]
  rw [hl] at p2 p3 q2 q3
  simp only [sub_self, mul_zero, add_zero, zero_sub, ne_eq, OfNat.ofNat_ne_zero, not_false_eq_true, zero_pow,
    hs, one_mul] at p2 p3 q2 q3
  have c := cos_eighth
  have s := sin_eighth
  have p2' : p.1 - x2 = -(10 * Real.cos (Real.pi / 8)) := mul_right_cancel₀ hx.ne' (by linarith)
  have p3' : p.2 - y = 10 * Real.sin (Real.pi / 8) := mul_right_cancel₀ hx.ne' (by linarith)
  have q2' : q.1 - x2 = -(10 * Real.cos (Real.pi / 8)) := mul_right_cancel₀ hx.ne' (by linarith)
  have q3' : q.2 - y = -(10 * Real.sin (Real.pi / 8)) := mul_right_cancel₀ hx.ne' (by linarith)
  rw [e, rndR_eq (x := p.1) (k := x2 - 9) (by push_cast; rw [abs_lt]; constructor <;> linarith),
    rndR_eq (x := p.2) (k := y + 4) (by push_cast; rw [abs_lt]; constructor <;> linarith),
    rndR_eq (x := q.1) (k := x2 - 9) (by push_cast; rw [abs_lt]; constructor <;> linarith),
    rndR_eq (x := q.2) (k := y - 4) (by push_cast; rw [abs_lt]; constructor <;> linarith)]

/-- C141: a thin arrow is the union of its three lines. -/
theorem C141_drawvec_partial (h : Valid b W H bits) (hW : 0 < W) (hH : 0 < H) {color : Int} (hc : IsColour bits color)
    {u v : Int × Int} {headsize : Int} (hok : ∀ s ∈ iterdrawvec u v headsize, LineOK W H bits s.1 s.2) :
    ∃ b', drawvec b u v headsize color = .ok b' ∧
      Paints b b' W H bits (fun px py => ∃ s ∈ iterdrawvec u v headsize, LineSet W H bits s.1 s.2 px py) color.toNat :=
  foldl_paints (fun bmp (s : (Int × Int) × (Int × Int)) => linevec bmp s.1 s.2 color)
    (fun s => LineSet W H bits s.1 s.2) _ (fun _ hb s hs => linevec_paints hb hW hH hc (hok s hs)) h

/-- C141: a thick arrow is the union of its three strokes. -/
theorem C141_thick_partial (h : Valid b W H bits) {color : Int} (hc : IsColour bits color)
    {u v : Int × Int} {headsize pen : Int} (hok : ∀ s ∈ iterdrawvec u v headsize, PenOK W bits s.1.1 ∧ PenOK W bits s.2.1) :
    ∃ b', drawvec b u v headsize color (some pen) = .ok b' ∧
      Paints b b' W H bits (fun px py => ∃ s ∈ iterdrawvec u v headsize, StrokeSet W bits pen s.1 s.2 px py) color.toNat :=
  foldl_paints (fun bmp (s : (Int × Int) × (Int × Int)) => thickroundline bmp s.1 s.2 pen color)
    (fun s => StrokeSet W bits pen s.1 s.2) _ (fun _ hb s hs => C95_thickroundline_partial hb hc (hok s hs).1 (hok s hs).2) h

/-! ### Coordinates -/

theorem ulp_neg (q : ℚ) : ulp (-q) = ulp q := by unfold ulp; rw [abs_neg]

theorem rnd_neg (q : ℚ) : rnd (-q) = -rnd q := by
  by_cases hi : (⌊q⌋ : ℚ) = q
  · rw [← hi, rnd_int, ← Int.cast_neg, rnd_int]
  have h0 := Int.floor_le q
  have h1 := Int.lt_floor_add_one q
  have h0' : (⌊q⌋ : ℚ) < q := lt_of_le_of_ne h0 hi
  have hf : ⌊-q⌋ = -⌊q⌋ - 1 := by
    rw [Int.floor_eq_iff]; push_cast; constructor <;> linarith
  unfold rnd
  rw [hf]
  push_cast
  by_cases c1 : q - ⌊q⌋ < 1 / 2
  · rw [if_pos c1, if_neg (by linarith), if_pos (by linarith)]; ring
  · rw [if_neg c1]
    by_cases c2 : 1 / 2 < q - ⌊q⌋
    · rw [if_pos c2, if_pos (by linarith)]; ring
    · rw [if_neg c2, if_neg (by linarith), if_neg (by linarith)]
      by_cases c3 : ⌊q⌋ % 2 = 0
      · rw [if_pos c3, if_neg (by omega)]; ring
      · rw [if_neg c3, if_pos (by omega)]; ring

theorem fl_neg (q : ℚ) : fl (-q) = -fl q := by
  unfold fl
  rw [ulp_neg, neg_div, rnd_neg]
  push_cast; ring

/-- Rounding to a float keeps the order. -/
theorem fl_le {p q : ℚ} (h : p ≤ q) : fl p ≤ fl q := by
  rcases le_or_gt 0 p with h0 | h0
  · exact fl_mono h0 h
  rcases le_or_gt 0 q with h1 | h1
  · have e1 := fl_nonneg h1
    have e2 := fl_nonneg (show 0 ≤ -p by linarith)
    rw [fl_neg] at e2
    linarith
  · have := fl_mono (show 0 ≤ -q by linarith) (show -q ≤ -p by linarith)
    rw [fl_neg, fl_neg] at this
    linarith

/-- C142: the values of the numbers on the axes have exactly the places of their marks. -/
theorem C142_tick {c : CoordInfo} {sx sy vx vy : Int} (hs : c.starts = ((sx : ℚ), (sy : ℚ))) (hv : c.vsteps = ((vx : ℚ), (vy : ℚ)))
    (hx0 : vx ≠ 0) (hy0 : vy ≠ 0) (i j : Int) (b1 : |i * vx| ≤ 2 ^ 53) (b2 : |i * c.steps.1| ≤ 2 ^ 53)
    (b3 : |c.origin.1 + i * c.steps.1| ≤ 2 ^ 53) (b4 : |j * vy| ≤ 2 ^ 53) (b5 : |j * c.steps.2| ≤ 2 ^ 53)
    (b6 : |c.origin.2 - j * c.steps.2| ≤ 2 ^ 53)
    (hx : c.origin.1 + i * c.steps.1 ≤ c.limits.1) (hy : c.limits.2 ≤ c.origin.2 - j * c.steps.2) :
    userdef2Dcooordsys2screenxy ((sx + i * vx : Int) : ℚ) ((sy + j * vy : Int) : ℚ) c =
      .ok (((c.origin.1 + i * c.steps.1 : Int) : ℚ), ((c.origin.2 - j * c.steps.2 : Int) : ℚ)) := by
  unfold userdef2Dcooordsys2screenxy
  rw [hs, hv]
  dsimp only
  rw [if_neg (by push Not; exact ⟨by exact_mod_cast hx0, by exact_mod_cast hy0⟩)]
  have small : ∀ {i v : Int}, v ≠ 0 → |i * v| ≤ 2 ^ 53 → |i| ≤ 2 ^ 53 := by
    intro i v h0 hb
    rw [abs_mul] at hb
    have : 1 ≤ |v| := Int.one_le_abs h0
    nlinarith [abs_nonneg i]
  have main : ∀ {s v i o st : Int}, v ≠ 0 → |i * v| ≤ 2 ^ 53 → |i * st| ≤ 2 ^ 53 → 
      fl (fl (fl (((s + i * v : Int) : ℚ) - s) / v) * st) = ((i * st : Int) : ℚ) := by
    intro s v i o st h0 h1 h2
    rw [show ((s + i * v : Int) : ℚ) - s = ((i * v : Int) : ℚ) by push_cast; ring, fl_int h1,
      show ((i * v : Int) : ℚ) / v = (i : ℚ) by
        have : (v : ℚ) ≠ 0 := by exact_mod_cast h0
        push_cast; field_simp, fl_int (small h0 h1), ← Int.cast_mul, fl_int h2]
  rw [main (o := 0) hx0 b1 b2, main (o := 0) hy0 b4 b5, ← Int.cast_add, ← Int.cast_sub, fl_int b3, fl_int b6]
  rw [if_neg (by push Not; exact ⟨by exact_mod_cast hx, by exact_mod_cast hy⟩)]

/-- C142: a value beyond the end of an axis is sent to (-1, -1), all others stay within the limits. -/
theorem C142_limits {x y : ℚ} {c : CoordInfo} {p : ℚ × ℚ} (h : userdef2Dcooordsys2screenxy x y c = .ok p) :
    p = (-1, -1) ∨ (p.1 ≤ c.limits.1 ∧ c.limits.2 ≤ p.2) := by
  unfold userdef2Dcooordsys2screenxy at h
  dsimp only at h
  split_ifs at h with h1 h2
  · simp only [Except.ok.injEq] at h; exact Or.inl h.symm
  · simp only [Except.ok.injEq] at h
    subst h
    push Not at h2
    exact Or.inr h2

/-- C142: larger values are not drawn further left or further down. -/
theorem C142_order {x y x' y' : ℚ} {c : CoordInfo} {p q : ℚ × ℚ} (hs : 0 ≤ c.steps.1 ∧ 0 ≤ c.steps.2)
    (hv : 0 < c.vsteps.1 ∧ 0 < c.vsteps.2) (h : userdef2Dcooordsys2screenxy x y c = .ok p)
    (h' : userdef2Dcooordsys2screenxy x' y' c = .ok q) (hp : p ≠ (-1, -1)) (hq : q ≠ (-1, -1)) :
    (x ≤ x' → p.1 ≤ q.1) ∧ (y ≤ y' → q.2 ≤ p.2) := by
  unfold userdef2Dcooordsys2screenxy at h h'
  rw [if_neg (by push Not; exact ⟨hv.1.ne', hv.2.ne'⟩)] at h h'
  dsimp only at h h'
  split_ifs at h h' with h1 h2 h2
  · simp only [Except.ok.injEq] at h; exact absurd h.symm hp
  · simp only [Except.ok.injEq] at h; exact absurd h.symm hp
  · simp only [Except.ok.injEq] at h'; exact absurd h'.symm hq
  simp only [Except.ok.injEq] at h h'
  subst h h'
  have s1 : (0 : ℚ) ≤ c.steps.1 := by exact_mod_cast hs.1
  have s2 : (0 : ℚ) ≤ c.steps.2 := by exact_mod_cast hs.2
  constructor
  · intro hx
    refine fl_le (by
      have := fl_le (mul_le_mul_of_nonneg_right (fl_le (div_le_div_of_nonneg_right (fl_le (sub_le_sub_right hx c.starts.1)) hv.1.le)) s1)
      linarith)
  · intro hy
    refine fl_le (by
      have := fl_le (mul_le_mul_of_nonneg_right (fl_le (div_le_div_of_nonneg_right (fl_le (sub_le_sub_right hy c.starts.2)) hv.2.le)) s2)
      linarith)

/-- C142: values before the start of the axes are not rejected, they are drawn left of the origin and below it. -/
theorem C142_before_wrong :
    userdef2Dcooordsys2screenxy (-1) (-1) ⟨(50, 50), (10, 10), (90, 10), (0, 0), (1, 1), (4, 4)⟩ = .ok (40, 60) := by
  have := C142_tick (c := ⟨(50, 50), (10, 10), (90, 10), (0, 0), (1, 1), (4, 4)⟩) (sx := 0) (sy := 0) (vx := 1) (vy := 1)
    (by simp) (by simp) (by decide) (by decide) (-1) (-1) (by norm_num) (by norm_num) (by norm_num) (by norm_num) (by norm_num)
    (by norm_num) (by norm_num) (by norm_num)
  simpa using this

/-! ### Numbers -/

/-- The pixels of a text whose first character stands at `(x, y)` (C66). -/
def TextSet (W H : Nat) (font : Bytes) (str : List Nat) (scale pixspace space x y : Int) (px py : Nat) : Prop :=
  ∃ k ch i j : Nat, Stands str k ch ∧ i < byte font 0 ∧ j < 8 ∧ Spec.Lit (glyph font ch) i j ∧
    Square W H (dotSide scale pixspace) (x + columnNo (str.take k) * colStep scale space + j * scale)
      (y + lineNo (str.take k) * lineStep font scale space + i * scale) px py

theorem pyStr_chars (n : Int) : ∀ c ∈ pyStr n, 45 ≤ c ∧ c ≤ 57 := by
  have nat : ∀ m : Nat, ∀ c ∈ m.repr.toList, 48 ≤ c.toNat ∧ c.toNat ≤ 57 := by
    intro m c hc
    have hc' : c ∈ Nat.toDigits 10 m := by
      have : m.repr.toList = Nat.toDigits 10 m := by unfold Nat.repr; simp
      rwa [this] at hc
    have := Nat.isDigit_of_mem_toDigits (by norm_num) (by norm_num) hc'
    unfold Char.isDigit at this
    simp only [Bool.and_eq_true, decide_eq_true_eq] at this
    exact ⟨by exact_mod_cast this.1, by exact_mod_cast this.2⟩
  intro c hc
  unfold pyStr at hc
  obtain ⟨a, ha, rfl⟩ := List.mem_map.mp hc
  rw [Int.repr_eq_if] at ha
  split_ifs at ha
  · have := nat _ a ha; omega
  · rw [String.toList_append] at ha
    rcases List.mem_append.mp ha with ha | ha
    · have : a = '-' := by simpa using ha
      subst this; decide
    · have := nat _ a ha; omega

/-- How far a text is moved to the left so that its last character stays in place. -/
def labelShift (right : Bool) (str : List Nat) : Int := if right = true then ((str.length : Int) - 1) * 8 else 0

/-- C143: the numbers at a list of places are the values counted from the start, in order; the first and the
last may be left out. -/
theorem C143_numbers_partial (h : Valid b W H bits) {v : List (Int × Int)} (hn : v.Nodup) {font : Bytes} (hf : font ≠ [])
    (h58 : 58 * byte font 0 < font.length) {scale pixspace color : Int} (hd : DotOK bits scale pixspace color)
    (xadj yadj start step space : Int) (nozero nolast right : Bool) :
    ∃ b', numbervert b v xadj yadj scale start step pixspace space color font nozero nolast right = .ok b' ∧
      Paints b b' W H bits (fun px py => ∃ (k : Nat) (p : Int × Int), v[k]? = some p ∧ (nozero = true → 0 < k) ∧
        (nolast = true → k + 1 ≠ v.length) ∧
        TextSet W H font (pyStr (start + k * step)) scale pixspace space
          (p.1 + xadj - labelShift right (pyStr (start + k * step))) (p.2 + yadj) px py)
        (reduce bits color) := by
  unfold numbervert
  obtain ⟨b', e, p⟩ := foldl_paints (W := W) (H := H) (bits := bits) (c := reduce bits color)
    (fun bmp (q : Int × Int) =>
      let i := v.idxOf q
      let plot := if i > 0 then true else !nozero
      let plot := if (i : Int) = (v.length : Int) - 1 ∧ nolast = true then false else plot
      let stval := pyStr (start + i * step)
      let rjust : Int := if right then pyShl ((stval.length : Int) - 1) 3 else 0
      if plot then
        plotstring bmp (q.1 + xadj - rjust) (q.2 + yadj) stval scale pixspace space (.one color) font
      else pure bmp)
    (fun q px py => (nozero = true → 0 < v.idxOf q) ∧ (nolast = true → v.idxOf q + 1 ≠ v.length) ∧
      TextSet W H font (pyStr (start + v.idxOf q * step)) scale pixspace space
          (q.1 + xadj - labelShift right (pyStr (start + v.idxOf q * step))) (q.2 + yadj) px py) v (by
      intro b hb q hq
      dsimp only
      by_cases g1 : (nozero = true → 0 < v.idxOf q) ∧ (nolast = true → v.idxOf q + 1 ≠ v.length)
      · rw [if_neg (c := (v.idxOf q : Int) = (v.length : Int) - 1 ∧ nolast = true) (by rintro ⟨g, g'⟩; have := g1.2 g'; omega)]
        rw [show (if v.idxOf q > 0 then true else !nozero) = true by
          by_cases g : v.idxOf q > 0
          · rw [if_pos g]
          · rw [if_neg g]; cases nozero
            · rfl
            · exact absurd (g1.1 rfl) g]
        rw [if_pos rfl]
        rw [show (if right = true then pyShl (((pyStr (start + v.idxOf q * step)).length : Int) - 1) 3 else 0) =
          labelShift right (pyStr (start + v.idxOf q * step)) by unfold labelShift pyShl; norm_num]
        obtain ⟨b', e, p⟩ := C66_plotstring_partial hb (q.1 + xadj - labelShift right (pyStr (start + v.idxOf q * step)))
          (q.2 + yadj) (str := pyStr (start + v.idxOf q * step)) hf (by
            intro c hc _ _
            have := (pyStr_chars _ c hc).2
            calc (c + 1) * byte font 0 ≤ 58 * byte font 0 := Nat.mul_le_mul_right _ (by omega)
              _ < _ := h58) space hd
        refine ⟨b', e, p.congr fun px py _ _ => ?_⟩
        exact ⟨fun g => g.2.2, fun g => ⟨g1.1, g1.2, g⟩⟩
      · refine ⟨b, ?_, Paints.refl hb _ ?_⟩
        · rw [if_neg]
          · rfl
          · intro g
            apply g1
            split_ifs at g with c1 c2
            · exact ⟨fun _ => c2, fun g' g'' => c1 ⟨by omega, g'⟩⟩
            · refine ⟨?_, fun g' g'' => c1 ⟨by omega, g'⟩⟩
              cases nozero <;> simp_all
        · intro px py _ _ g
          exact g1 ⟨g.1, g.2.1⟩) h
  refine ⟨b', e, p.congr fun px py _ _ => ?_⟩
  constructor
  · rintro ⟨k, q, hk, g1, g2, g3⟩
    obtain ⟨hk', rfl⟩ := List.getElem?_eq_some_iff.mp hk
    have hi : v.idxOf v[k] = k := hn.idxOf_getElem k hk'
    refine ⟨v[k], List.getElem_mem _, ?_⟩
    rw [hi]
    exact ⟨g1, g2, g3⟩
  · rintro ⟨q, hq, g1, g2, g3⟩
    exact ⟨v.idxOf q, q, List.getElem?_eq_some_iff.mpr ⟨List.idxOf_lt_length_iff.mpr hq, by simp⟩, g1, g2, g3⟩

/-! ### Axes -/

theorem range_up {a z s : Int} (hs : 0 < s) :
    ∃ n : Nat, pyRange3 a z s = .ok ((List.range n).map fun (k : Nat) => a + s * (k : Int)) ∧
      ∀ k : Nat, k < n ↔ a + s * k < z := by
  unfold pyRange3
  rw [if_neg (by omega), if_pos hs]
  refine ⟨_, rfl, fun k => ?_⟩
  have : (k : Int) < (z - a + s - 1) / s ↔ a + s * k < z := by
    rw [Int.lt_iff_add_one_le, Int.le_ediv_iff_mul_le hs]
    constructor <;> intro g <;> nlinarith
  rw [← this]; omega

theorem range_down {a z s : Int} (hs : 0 < s) :
    ∃ n : Nat, pyRange3 a z (-s) = .ok ((List.range n).map fun (k : Nat) => a + -s * (k : Int)) ∧
      ∀ k : Nat, k < n ↔ z < a - s * k := by
  unfold pyRange3
  rw [if_neg (by omega), if_neg (by omega)]
  refine ⟨_, rfl, fun k => ?_⟩
  have : (k : Int) < (a - z - -s - 1) / (- -s) ↔ z < a - s * k := by
    rw [Int.lt_iff_add_one_le, Int.le_ediv_iff_mul_le (by omega)]
    constructor <;> intro g <;> nlinarith
  rw [← this]; omega

/-- The lines of an arrow. -/
def ArrowSet (W H bits : Nat) (l : List ((Int × Int) × (Int × Int))) (px py : Nat) : Prop :=
  ∃ s ∈ l, LineSet W H bits s.1 s.2 px py

theorem clampTo_in {x : Int} {n : Nat} (h : 0 ≤ x ∧ x < n) : clampTo x n = x := by unfold clampTo; omega

theorem lineOK_in {p q : Int × Int} (hp : 0 ≤ p.1 ∧ p.1 < W ∧ 0 ≤ p.2 ∧ p.2 < H) (hq : 0 ≤ q.1 ∧ q.1 < W ∧ 0 ≤ q.2 ∧ q.2 < H)
    (hd : (q.1 - p.1).natAbs ≠ (q.2 - p.2).natAbs) : LineOK W H bits p q := by
  unfold LineOK
  rw [clampTo_in ⟨hp.1, hp.2.1⟩, clampTo_in ⟨hp.2.2.1, hp.2.2.2⟩, clampTo_in ⟨hq.1, hq.2.1⟩, clampTo_in ⟨hq.2.2.1, hq.2.2.2⟩]
  intro g
  rw [Int.abs_eq_natAbs, Int.abs_eq_natAbs] at g
  exact absurd (by exact_mod_cast g) hd

/-- C143: axes are, one over the other: the grid, the two arrows, the marks and the numbers. The mark `k` of
an axis has the number `start + k * step`. Missing: axes that leave the image. -/
theorem C143_axes_partial (h : Valid b W H bits) {ox oy sx sy xl yl : Int} (hsx : 0 < sx) (hsy : 0 < sy)
    (h1 : 4 ≤ ox ∧ ox < xl ∧ xl < W ∧ ox + 4 < W ∧ 9 ≤ xl) (h2 : 0 ≤ yl ∧ yl < oy ∧ 4 ≤ oy ∧ oy + 4 < H ∧ yl + 9 < H)
    (vx vy dx dy : Int) {color textcolor gridcolor : Int} (hc : IsColour bits color) (hg : IsColour bits gridcolor)
    (ht : IsColour bits textcolor) {font : Bytes} (hf : font ≠ []) (h58 : 58 * byte font 0 < font.length) (showgrid : Bool) :
    ∃ b' vmax, XYaxis font b (ox, oy) (sx, sy) (xl, yl) (vx, vy) (dx, dy) color textcolor showgrid gridcolor =
        .ok (b', ⟨(ox, oy), (sx, sy), (xl, yl), ((vx : ℚ), (vy : ℚ)), ((dx : ℚ), (dy : ℚ)), vmax⟩) ∧
      (∀ k : Nat, ox + sx * k < xl → xl ≤ ox + sx * (k + 1) → vmax.1 = ((vx + k * dx : Int) : ℚ)) ∧
      (∀ k : Nat, yl < oy - sy * k → oy - sy * (k + 1) ≤ yl → vmax.2 = ((vy + k * dy : Int) : ℚ)) ∧
      Layered b b' W H bits ((if showgrid = true then [(GridSet W bits ox yl xl oy sx sy, gridcolor.toNat)] else []) ++ [
        (ArrowSet W H bits [((ox, oy), (ox, yl)), ((ox, yl), (ox + 4, yl + 9)), ((ox, yl), (ox - 4, yl + 9))], color.toNat),
        (ArrowSet W H bits [((ox, oy), (xl, oy)), ((xl, oy), (xl - 9, oy + 4)), ((xl, oy), (xl - 9, oy - 4))], color.toNat),
        (fun px py => ∃ k : Nat, ox + sx * k < xl ∧ VSeg (ox + sx * k) oy (oy + 3) px py, color.toNat),
        (fun px py => ∃ k : Nat, yl < oy - sy * k ∧ RowSet W bits (oy - sy * k) ox (ox - 3) px py, color.toNat),
        (fun px py => ∃ k : Nat, yl < oy - sy * k ∧ TextSet W H font (pyStr (vy + k * dy)) 1 0 0
          (ox - 15 - 8 * (((pyStr (vy + k * dy)).length : Int) - 1)) (oy - sy * k - 4) px py, textcolor.toNat),
        (fun px py => ∃ k : Nat, ox + sx * k < xl ∧ TextSet W H font (pyStr (vx + k * dx)) 1 0 0
          (ox + sx * k - 4) (oy + 7) px py, textcolor.toNat)]) := by
  have hd : DotOK bits 1 0 textcolor := ⟨fun e => by subst e; exact ⟨ht.1, by exact_mod_cast ht.2⟩, Or.inl (by unfold dotSide; simp)⟩
  have hW : 0 < W := by omega
  have hH : 0 < H := by omega
  obtain ⟨m, em, hm⟩ := range_up (a := ox) (z := xl) hsx
  obtain ⟨n, en, hn⟩ := range_down (a := oy) (z := yl) hsy
  set hv : List (Int × Int) := ((List.range m).map fun (k : Nat) => ox + sx * (k : Int)).map fun x => (x, oy) with hhv
  set vv : List (Int × Int) := ((List.range n).map fun (k : Nat) => oy + -sy * (k : Int)).map fun y => (ox, y) with hvv
  have mh : ∀ p : Int × Int, p ∈ hv ↔ ∃ k : Nat, ox + sx * k < xl ∧ p = (ox + sx * k, oy) := by
    intro p
    simp only [hhv, List.map_map, List.mem_map, List.mem_range, Function.comp]
    constructor
    · rintro ⟨k, hk, rfl⟩; exact ⟨k, (hm k).mp hk, rfl⟩
    · rintro ⟨k, hk, rfl⟩; exact ⟨k, (hm k).mpr hk, rfl⟩
  have mv : ∀ p : Int × Int, p ∈ vv ↔ ∃ k : Nat, yl < oy - sy * k ∧ p = (ox, oy - sy * k) := by
    intro p
    simp only [hvv, List.map_map, List.mem_map, List.mem_range, Function.comp]
    constructor
    · rintro ⟨k, hk, rfl⟩; exact ⟨k, (hn k).mp hk, by rw [Prod.mk.injEq]; exact ⟨rfl, by ring⟩⟩
    · rintro ⟨k, hk, rfl⟩; exact ⟨k, (hn k).mpr hk, by rw [Prod.mk.injEq]; exact ⟨rfl, by ring⟩⟩
  have gh : ∀ (k : Nat) (p : Int × Int), hv[k]? = some p ↔ ox + sx * k < xl ∧ p = (ox + sx * k, oy) := by
    intro k p
    rw [← hm k, hhv, List.map_map, List.getElem?_map]
    by_cases hk : k < m
    · rw [List.getElem?_range hk]; simp [hk, eq_comm]
    · rw [List.getElem?_eq_none (by simpa using hk)]; simp [hk]
  have gv : ∀ (k : Nat) (p : Int × Int), vv[k]? = some p ↔ yl < oy - sy * k ∧ p = (ox, oy - sy * k) := by
    intro k p
    rw [← hn k, hvv, List.map_map, List.getElem?_map, show oy - sy * (k : Int) = oy + -sy * k by ring]
    by_cases hk : k < n
    · rw [List.getElem?_range hk]; simp [hk, eq_comm]
    · rw [List.getElem?_eq_none (by simpa using hk)]; simp [hk]
  have nh : hv.Nodup := by
    rw [hhv, List.map_map]
    refine List.Nodup.map (fun i j e => ?_) List.nodup_range
    have e1 : ox + sx * (i : Int) = ox + sx * (j : Int) := congrArg Prod.fst e
    have := mul_left_cancel₀ (ne_of_gt hsx) (add_left_cancel e1)
    exact_mod_cast this
  have nv : vv.Nodup := by
    rw [hvv, List.map_map]
    refine List.Nodup.map (fun i j e => ?_) List.nodup_range
    have e1 : oy + -sy * (i : Int) = oy + -sy * (j : Int) := congrArg Prod.snd e
    have := mul_left_cancel₀ (ne_of_lt (by omega : -sy < 0)) (add_left_cancel e1)
    exact_mod_cast this
  have grid : ∃ b', (showgrid = true → xygridvec b (ox, oy) (xl, yl) (sx, sy) gridcolor = .ok b') ∧ (showgrid = false → b' = b) ∧
      Layered b b' W H bits (if showgrid = true then [(GridSet W bits ox yl xl oy sx sy, gridcolor.toNat)] else []) := by
    cases showgrid
    · exact ⟨b, fun g => absurd g (by simp), fun _ => rfl, Layered.nil h⟩
    · obtain ⟨b', e, p⟩ := C96_xygrid_partial h (x1 := ox) (y1 := oy) (x2 := xl) (y2 := yl) hg
        (by unfold InImage; omega) hsx hsy
      rw [show min ox xl = ox by omega, show min oy yl = yl by omega, show max ox xl = xl by omega,
        show max oy yl = oy by omega] at p
      exact ⟨b', fun _ => e, fun g => absurd g (by simp), Layered.one p⟩
  obtain ⟨b1, e1, e1', p1⟩ := grid
  obtain ⟨b2, e2, p2⟩ := C141_drawvec_partial p1.valid hW hH hc (u := (ox, oy)) (v := (ox, yl)) (headsize := 10) (by
    rw [C141_up ox oy yl h2.2.1]
    intro s hs
    simp only [List.mem_cons, List.not_mem_nil, or_false] at hs
    rcases hs with rfl | rfl | rfl <;> exact lineOK_in (by dsimp only; omega) (by dsimp only; omega) (by dsimp only; omega))
  rw [C141_up ox oy yl h2.2.1] at p2
  obtain ⟨b3, e3, p3⟩ := C141_drawvec_partial p2.valid hW hH hc (u := (ox, oy)) (v := (xl, oy)) (headsize := 10) (by
    rw [C141_right ox xl oy h1.2.1]
    intro s hs
    simp only [List.mem_cons, List.not_mem_nil, or_false] at hs
    rcases hs with rfl | rfl | rfl <;> exact lineOK_in (by dsimp only; omega) (by dsimp only; omega) (by dsimp only; omega))
  rw [C141_right ox xl oy h1.2.1] at p3
  obtain ⟨b4, e4, p4⟩ := C96_vertlinevert_partial p3.valid (v := hv) (len := 5) (adj := -2) hc (Or.inr (Or.inr (by
    intro p hp
    obtain ⟨k, -, rfl⟩ := (mh p).mp hp
    dsimp only; omega)))
  obtain ⟨b5, e5, p5⟩ := C96_horilinevert_partial p4.valid (v := vv) (len := -3) (adj := 0) hc (by
    intro p hp
    obtain ⟨k, -, rfl⟩ := (mv p).mp hp
    exact rowOK_of_meets h.depth (by dsimp only; omega) (by dsimp only; omega))
  obtain ⟨b6, e6, p6⟩ := C143_numbers_partial p5.valid nv hf h58 hd (-15) (-4) vy dy 0 false false true
  obtain ⟨b7, e7, p7⟩ := C143_numbers_partial p6.valid nh hf h58 hd (-4) 7 vx dx 0 false false false
  rw [reduce_of_colour h.depth ht] at p6 p7
  refine ⟨b7, (((vx + ((hv.length : Int) - 1) * dx : Int) : ℚ), ((vy + ((vv.length : Int) - 1) * dy : Int) : ℚ)), ?_, ?_, ?_, ?_⟩
  · unfold XYaxis horizontalvert verticalvert
    dsimp only
    rw [em, en]
    simp only [ok_bind, pure_eq_ok]
    cases showgrid
    · rw [if_neg (by simp), ← e1' rfl, e2, ok_bind, e3, ok_bind, e4, ok_bind, e5, ok_bind, e6, ok_bind, e7, ok_bind]
    · rw [if_pos rfl, e1 rfl, ok_bind, e2, ok_bind, e3, ok_bind, e4, ok_bind, e5, ok_bind, e6, ok_bind, e7, ok_bind]
  · intro k k1 k2
    have l : hv.length = m := by simp [hhv]
    have : k < m := (hm k).mpr k1
    have : ¬ (k + 1 < m) := fun g => by have := (hm (k + 1)).mp g; push_cast at this; omega
    dsimp only
    rw [l, show (m : Int) - 1 = k by omega]
  · intro k k1 k2
    have l : vv.length = n := by simp [hvv]
    have : k < n := (hn k).mpr k1
    have : ¬ (k + 1 < n) := fun g => by have := (hn (k + 1)).mp g; push_cast at this; omega
    dsimp only
    rw [l, show (n : Int) - 1 = k by omega]
  · refine p1.append ((Layered.one p2).append ((Layered.one p3).append ((Layered.one (p4.congr ?_)).append
      ((Layered.one (p5.congr ?_)).append ((Layered.one (p6.congr ?_)).append (Layered.one (p7.congr ?_)))))))
    · intro px py _ _
      constructor
      · rintro ⟨k, hk, g⟩
        exact ⟨_, (mh _).mpr ⟨k, hk, rfl⟩, by dsimp only; rwa [show oy + 5 + -2 = oy + 3 by ring]⟩
      · rintro ⟨p, hp, g⟩
        obtain ⟨k, hk, rfl⟩ := (mh p).mp hp
        dsimp only at g
        exact ⟨k, hk, by rwa [show oy + 5 + -2 = oy + 3 by ring] at g⟩
    · intro px py _ _
      constructor
      · rintro ⟨k, hk, g⟩
        exact ⟨_, (mv _).mpr ⟨k, hk, rfl⟩, by dsimp only; rwa [show ox + -3 + 0 = ox - 3 by ring]⟩
      · rintro ⟨p, hp, g⟩
        obtain ⟨k, hk, rfl⟩ := (mv p).mp hp
        dsimp only at g
        exact ⟨k, hk, by rwa [show ox + -3 + 0 = ox - 3 by ring] at g⟩
    · intro px py _ _
      constructor
      · rintro ⟨k, hk, g⟩
        refine ⟨k, _, (gv k _).mpr ⟨hk, rfl⟩, by simp, by simp, ?_⟩
        dsimp only
        rw [show ox + -15 - labelShift true (pyStr (vy + k * dy)) = ox - 15 - 8 * (((pyStr (vy + k * dy)).length : Int) - 1) by
          unfold labelShift; rw [if_pos rfl]; ring, show oy - sy * k + -4 = oy - sy * k - 4 by ring]
        exact g
      · rintro ⟨k, p, hp, -, -, g⟩
        obtain ⟨hk, rfl⟩ := (gv k p).mp hp
        refine ⟨k, hk, ?_⟩
        dsimp only at g
        rw [show ox + -15 - labelShift true (pyStr (vy + k * dy)) = ox - 15 - 8 * (((pyStr (vy + k * dy)).length : Int) - 1) by
          unfold labelShift; rw [if_pos rfl]; ring, show oy - sy * k + -4 = oy - sy * k - 4 by ring] at g
        exact g
    · intro px py _ _
      constructor
      · rintro ⟨k, hk, g⟩
        refine ⟨k, _, (gh k _).mpr ⟨hk, rfl⟩, by simp, by simp, ?_⟩
        dsimp only
        rw [show ox + sx * k + -4 - labelShift false (pyStr (vx + k * dx)) = ox + sx * k - 4 by
          unfold labelShift; rw [if_neg (by simp)]; ring]
        exact g
      · rintro ⟨k, p, hp, -, -, g⟩
        obtain ⟨hk, rfl⟩ := (gh k p).mp hp
        refine ⟨k, hk, ?_⟩
        dsimp only at g
        rw [show ox + sx * k + -4 - labelShift false (pyStr (vx + k * dx)) = ox + sx * k - 4 by
          unfold labelShift; rw [if_neg (by simp)]; ring] at g
        exact g

/-- Axes of 30 by 30 pixels with marks every 10 pixels and numbers in steps of 5: the last numbers are 10. -/
example (h : Valid b 60 60 24) {font : Bytes} (hf : font ≠ []) (h58 : 58 * byte font 0 < font.length) :
    ∃ b', XYaxis font b (20, 50) (10, 10) (50, 20) (0, 0) (5, 5) 7 8 false 9 =
      .ok (b', ⟨(20, 50), (10, 10), (50, 20), (0, 0), (5, 5), (10, 10)⟩) := by
  obtain ⟨b', vmax, e, h1, h2, -⟩ := C143_axes_partial h (ox := 20) (oy := 50) (sx := 10) (sy := 10) (xl := 50) (yl := 20)
    (by norm_num) (by norm_num) (by norm_num) (by norm_num) 0 0 5 5 (color := 7) (textcolor := 8) (gridcolor := 9)
    ⟨by norm_num, by norm_num⟩ ⟨by norm_num, by norm_num⟩ ⟨by norm_num, by norm_num⟩ hf h58 false
  refine ⟨b', ?_⟩
  rw [e]
  have a1 := h1 2 (by norm_num) (by norm_num)
  have a2 := h2 2 (by norm_num) (by norm_num)
  norm_num at a1 a2
  norm_num
  exact Prod.ext a1 a2

/-! ### Scatter plots -/

/-- The mark of a datum of size `r` at the position `p`: a pixel up to size 1, else a circle or a disc of
radius at most 5, at the nearest pixel. -/
def MarkSet (W bits : Nat) (p : ℚ × ℚ) (r : Int) (filled : Bool) (px py : Nat) : Prop :=
  if r ≤ 1 then (px : Int) = rnd p.1 ∧ (py : Int) = rnd p.2
  else if filled = true then Mark W bits (rnd p.1) (rnd p.2) (min r 5) px py else CircleSet (rnd p.1) (rnd p.2) (min r 5) px py

/-- The position of a datum. -/
def Located (c : CoordInfo) (d : Datum) (p : ℚ × ℚ) : Prop := userdef2Dcooordsys2screenxy d.x d.y c = .ok p

theorem datum_layer (h : Valid b W H bits) {c : CoordInfo} {d : Datum} {p : ℚ × ℚ} (hp : Located c d p) (hc : IsColour bits d.color)
    (hf : 1 < d.r → d.filled = true → PenOK W bits (rnd p.1)) :
    ∃ b', plotDatum c b d = .ok b' ∧ Paints b b' W H bits (MarkSet W bits p d.r d.filled) d.color.toNat := by
  unfold plotDatum
  rw [show userdef2Dcooordsys2screenxy d.x d.y c = .ok p from hp, ok_bind]
  unfold MarkSet
  by_cases hr : d.r > 1
  · rw [if_pos hr]
    simp only [if_neg (show ¬ d.r ≤ 1 by omega)]
    unfold circlevec roundvect2 setmax
    dsimp only
    rw [show (if d.r > 5 then 5 else d.r) = min d.r 5 by split_ifs <;> omega]
    by_cases hfl : d.filled = true
    · simp only [if_pos hfl]
      exact C27_filledcircle_depths h hc (hf hr hfl)
    · simp only [if_neg hfl]
      exact C26_circle h _ _ _ hc
  · rw [if_neg hr]
    simp only [if_pos (show d.r ≤ 1 by omega)]
    obtain ⟨b', e, q⟩ := plot_paints h (rnd p.1) (rnd p.2) (c := d.color) (fun e => by subst e; exact ⟨hc.1, by exact_mod_cast hc.2⟩)
    rw [reduce_of_colour h.depth hc] at q
    exact ⟨b', e, q⟩

/-- C144: a scatter plot without a line is one mark for each datum at its position, the later over the
earlier. Missing: discs further than 19 pixels left of the image or, on 4-bit images, right of it. -/
theorem C144_scatter_partial (h : Valid b W H bits) {c : CoordInfo} (hv : c.vsteps.1 ≠ 0 ∧ c.vsteps.2 ≠ 0)
    {data : List Datum} (hc : ∀ d ∈ data, IsColour bits d.color)
    (hf : ∀ d ∈ data, 1 < d.r → d.filled = true → ∀ p, Located c d p → PenOK W bits (rnd p.1))
    (color : Int) :
    ∃ (pos : Datum → ℚ × ℚ) (b' : Bytes), (∀ d, Located c d (pos d)) ∧ XYscatterplot b data c false color = .ok b' ∧
      Layered b b' W H bits (data.map fun d => (MarkSet W bits (pos d) d.r d.filled, d.color.toNat)) := by
  have ex : ∀ d : Datum, ∃ p, Located c d p := by
    intro d
    unfold Located userdef2Dcooordsys2screenxy
    rw [if_neg (by tauto)]
    dsimp only
    split_ifs
    · exact ⟨_, rfl⟩
    · exact ⟨_, rfl⟩
  choose pos hpos using ex
  obtain ⟨b', e, q⟩ := foldl_layers (plotDatum c) (fun d => [(MarkSet W bits (pos d) d.r d.filled, d.color.toNat)]) data (by
    intro b hb d hd
    obtain ⟨b', e, q⟩ := datum_layer hb (hpos d) (hc d hd) (fun h1 h2 => hf d hd h1 h2 _ (hpos d))
    exact ⟨b', e, Layered.one q⟩) h
  refine ⟨pos, b', hpos, ?_, ?_⟩
  · unfold XYscatterplot
    rw [e, ok_bind]; rfl
  · rwa [← List.flatMap_pure_eq_map] at *

/-- Two data with pixel marks on an image of 3 by 4 pixels. -/
example : (do let b ← XYscatterplot sample8 [⟨1, 1, 1, 5, false⟩, ⟨2, 3, 1, 6, false⟩] ⟨(0, 3), (1, 1), (2, 0), (0, 0), (1, 1), (2, 3)⟩ false 0
              pure (pix b 3 4 8 1 2, pix b 3 4 8 2 0)) = .ok (5, 6) := by decide +kernel

/-- C144 is false for data beyond the limits: they are not left out, their marks are drawn in the upper left
corner. -/
theorem C144_beyond_wrong (h : Valid b W H bits) (hW : 0 < W) (hH : 0 < H) (h4 : bits ≠ 4) {c : CoordInfo} (hv : c.vsteps.1 ≠ 0 ∧ c.vsteps.2 ≠ 0)
    {d : Datum} (hd : Located c d (-1, -1)) (hr : 1 < d.r) (hf : d.filled = true) (hc : IsColour bits d.color) (color : Int) :
    ∃ b', XYscatterplot b [d] c false color = .ok b' ∧ pix b' W H bits 0 0 = d.color.toNat := by
  have h19 : PenOK W bits (rnd ((-1, -1) : ℚ × ℚ).1) := by
    rw [penOK_of_ne h4, show (((-1, -1) : ℚ × ℚ)).1 = ((-1 : Int) : ℚ) by norm_num, rnd_int]
    rcases h.depth with e | e | e | e <;> omega
  obtain ⟨b', e, q⟩ := datum_layer h hd hc (fun _ _ => h19)
  refine ⟨b', ?_, ?_⟩
  · unfold XYscatterplot
    simp only [List.foldlM_cons, List.foldlM_nil, e, ok_bind]; rfl
  · apply q.inside 0 0 hW hH
    unfold MarkSet
    rw [if_neg (by omega), if_pos hf, show (((-1, -1) : ℚ × ℚ)).1 = ((-1 : Int) : ℚ) by norm_num,
      show (((-1, -1) : ℚ × ℚ)).2 = ((-1 : Int) : ℚ) by norm_num, rnd_int, mark_of_ne h4]
    have : min d.r 5 = 2 ∨ min d.r 5 = 3 ∨ min d.r 5 = 4 ∨ min d.r 5 = 5 := by omega
    unfold DiscSet OnCircle Near
    rcases this with e | e | e | e <;> rw [e]
    · exact ⟨2, by norm_num, by norm_num⟩
    · exact ⟨3, by norm_num, by norm_num⟩
    · exact ⟨4, by norm_num, by norm_num⟩
    · exact ⟨5, by norm_num, by norm_num⟩

/-- A datum right of the plot is lost from its place and found in the corner. -/
example : Located ⟨(5, 50), (10, 10), (45, 10), (0, 0), (1, 1), (3, 3)⟩ ⟨9, 1, 3, 1, true⟩ (-1, -1) := by
  unfold Located; decide +kernel

/-- The straight line `y = m * x + k` is the one of least squares (normal equations). -/
def Fits (data : List Datum) (m k : ℚ) : Prop :=
  (data.map fun d => d.y - (m * d.x + k)).sum = 0 ∧ (data.map fun d => d.x * (d.y - (m * d.x + k))).sum = 0

theorem fit_sums (data : List Datum) (m k : ℚ) :
    (data.map fun d => d.y - (m * d.x + k)).sum = Sy (data.map fun d => (d.x, d.y)) - (m * Sx (data.map fun d => (d.x, d.y)) + k * data.length) ∧
    (data.map fun d => d.x * (d.y - (m * d.x + k))).sum = Sxy (data.map fun d => (d.x, d.y)) -
      (m * Sxx (data.map fun d => (d.x, d.y)) + k * Sx (data.map fun d => (d.x, d.y))) := by
  unfold Sy Sx Sxy Sxx
  induction data with
  | nil => simp
  | cons d l ih =>
    simp only [List.map_cons, List.sum_cons, List.length_cons] at ih ⊢
    rw [ih.1, ih.2]
    push_cast
    constructor <;> ring

theorem spread_ne {data : List Datum} (h : ∃ d ∈ data, ∃ d' ∈ data, d.x ≠ d'.x) :
    ((data.map fun d => (d.x, d.y)).length : ℚ) * Sxx (data.map fun d => (d.x, d.y)) - Sx (data.map fun d => (d.x, d.y)) ^ 2 ≠ 0 := by
  intro e
  obtain ⟨d, hd, d', hd', hne⟩ := h
  have := spread_zero (data.map fun d => ((d.x : ℚ) : ℝ)) (by
    have e' : (((((data.map fun d => (d.x, d.y)).length : ℚ) * Sxx (data.map fun d => (d.x, d.y)) - Sx (data.map fun d => (d.x, d.y)) ^ 2 : ℚ)) : ℝ) = 0 := by
      rw [e]; norm_num
    unfold Sxx Sx at e'
    push_cast at e'
    simp only [List.map_map, List.length_map, Function.comp_def] at e' ⊢
    push_cast at e'
    exact e') d.x (List.mem_map.mpr ⟨d, hd, rfl⟩) d'.x (List.mem_map.mpr ⟨d', hd', rfl⟩)
  exact hne (by exact_mod_cast this)

theorem fit_eq {data : List Datum} (h : ∃ d ∈ data, ∃ d' ∈ data, d.x ≠ d'.x) {m k : ℚ} (hf : Fits data m k) :
    LSMslope (data.map fun v => [v.x, v.y]) = .ok m ∧ LSMYint (data.map fun v => [v.x, v.y]) = .ok k := by
  have hs := spread_ne h
  have hne : (data.map fun d => (d.x, d.y)) ≠ [] := by
    obtain ⟨d, hd, -⟩ := h
    intro e; rw [List.map_eq_nil_iff] at e; rw [e] at hd; simp at hd
  have er : (data.map fun v => [v.x, v.y]) = rows (data.map fun d => (d.x, d.y)) := by
    unfold rows; rw [List.map_map]; rfl
  have hl : ((data.map fun d => (d.x, d.y)).length : ℚ) ≠ 0 := by
    rw [Nat.cast_ne_zero]; simpa using hne
  obtain ⟨f1, f2⟩ := hf
  rw [(fit_sums data m k).1] at f1
  rw [(fit_sums data m k).2] at f2
  have hlen : (data.length : ℚ) = ((data.map fun d => (d.x, d.y)).length : ℚ) := by rw [List.length_map]
  rw [hlen] at f1
  rw [er, LSMslope_eq hne hs, LSMYint_eq hne hs]
  generalize Sx (data.map fun d => (d.x, d.y)) = X at *
  generalize Sy (data.map fun d => (d.x, d.y)) = Y at *
  generalize Sxx (data.map fun d => (d.x, d.y)) = XX at *
  generalize Sxy (data.map fun d => (d.x, d.y)) = XY at *
  generalize ((data.map fun d => (d.x, d.y)).length : ℚ) = n at *
  have e1 : (n * XY - X * Y) / (n * XX - X ^ 2) = m := by
    rw [div_eq_iff hs]
    have hY : Y = m * X + k * n := by linarith
    have hXY : XY = m * XX + k * X := by linarith
    rw [hY, hXY]; ring
  rw [e1]
  refine ⟨rfl, congrArg Except.ok ?_⟩
  have hY : Y = m * X + k * n := by linarith
  rw [hY]; field_simp; ring

/-- C144: the regression line is the straight line of least squares from the first to the last value of the
horizontal axis; when it leaves the plot at the end, it is drawn to the last value of the vertical axis.
Missing: diagonals that end in the first row or, unless the image is wide, in the last row, see C24. -/
theorem C144_line_partial (h : Valid b W H bits) (hW : 0 < W) (hH : 0 < H) {c : CoordInfo} {color : Int} (hc : IsColour bits color)
    {data : List Datum} (hd : ∃ d ∈ data, ∃ d' ∈ data, d.x ≠ d'.x) {m k : ℚ} (hf : Fits data m k) {u v : ℚ × ℚ}
    (hu : userdef2Dcooordsys2screenxy c.starts.1 (c.starts.1 * m + k) c = .ok u)
    (hv : (userdef2Dcooordsys2screenxy c.vmax.1 (c.vmax.1 * m + k) c = .ok v ∧ v ≠ (-1, -1)) ∨
      (userdef2Dcooordsys2screenxy c.vmax.1 (c.vmax.1 * m + k) c = .ok (-1, -1) ∧ m ≠ 0 ∧
        userdef2Dcooordsys2screenxy ((c.vmax.2 - k) / m) c.vmax.2 c = .ok v))
    (hok : LineOK W H bits (rnd u.1, rnd u.2) (rnd v.1, rnd v.2)) :
    ∃ b', plotRegression c b data color = .ok b' ∧
      Paints b b' W H bits (LineSet W H bits (rnd u.1, rnd u.2) (rnd v.1, rnd v.2)) color.toNat := by
  obtain ⟨e1, e2⟩ := fit_eq hd hf
  obtain ⟨b', e, q⟩ := linevec_paints h hW hH hc hok
  refine ⟨b', ?_, q⟩
  unfold plotRegression
  rw [e1, ok_bind, e2, ok_bind]
  dsimp only
  rw [hu, ok_bind]
  rcases hv with ⟨hv, hv'⟩ | ⟨hv, hm, hv'⟩
  · rw [hv, ok_bind, if_neg hv']
    exact e
  · rw [hv, ok_bind, if_pos rfl, if_neg hm, hv', ok_bind]
    exact e

/-- C144 is false for a horizontal line above the plot: it is not left out, the call fails. -/
theorem C144_flat_false : plotRegression ⟨(5, 50), (10, 10), (45, 10), (0, 0), (1, 1), (3, 3)⟩ sample8 [⟨0, 9, 1, 1, true⟩, ⟨1, 9, 1, 1, true⟩] 1 =
    .error .zeroDivision := by
  obtain ⟨e1, e2⟩ := fit_eq (data := [⟨0, 9, 1, 1, true⟩, ⟨1, 9, 1, 1, true⟩]) (m := 0) (k := 9)
    ⟨_, List.mem_cons_self, ⟨1, 9, 1, 1, true⟩, by simp, by norm_num⟩ (by unfold Fits; norm_num)
  unfold plotRegression
  rw [e1, ok_bind, e2, ok_bind]
  decide +kernel

/-- C144 is false for a falling line that enters through the top of the plot: it begins at the position
`(-1, -1)` instead. -/
theorem C144_falling_wrong : Fits [⟨1, 2, 1, 1, true⟩, ⟨3, 0, 1, 1, true⟩] (-1) 3 ∧
    userdef2Dcooordsys2screenxy 0 (0 * -1 + 3) ⟨(5, 50), (10, 10), (45, 25), (0, 0), (1, 1), (3, 2)⟩ = .ok (-1, -1) ∧
    userdef2Dcooordsys2screenxy 3 (3 * -1 + 3) ⟨(5, 50), (10, 10), (45, 25), (0, 0), (1, 1), (3, 2)⟩ = .ok (35, 50) := by
  unfold Fits
  refine ⟨by norm_num, by decide +kernel, by decide +kernel⟩

/-! ### Solids -/

/-- Painting one area after the other, when the colours are known by a property only. -/
theorem foldl_shades {ι : Type} (f : Bytes → ι → Py Bytes) (S : ι → Nat → Nat → Prop) (C : ι → Nat → Prop) (l : List ι)
    {b0 : Bytes} (hf : ∀ b, Valid b W H bits → SameHeader b0 b bits → ∀ i ∈ l, ∃ b' k, f b i = .ok b' ∧ C i k ∧ Paints b b' W H bits (S i) k)
    {b : Bytes} (h : Valid b W H bits) (hh : SameHeader b0 b bits) :
    ∃ b' ks, l.foldlM f b = .ok b' ∧ List.Forall₂ C l ks ∧ Layered b b' W H bits (List.zipWith (fun i k => (S i, k)) l ks) := by
  induction l generalizing b with
  | nil => exact ⟨b, [], rfl, List.Forall₂.nil, Layered.nil h⟩
  | cons a l ih =>
    obtain ⟨b1, k, e1, c1, p1⟩ := hf b h hh a (by simp)
    obtain ⟨b2, ks, e2, c2, p2⟩ := ih (fun b hb hh i hi => hf b hb hh i (by simp [hi])) p1.valid (SameHeader.trans hh p1.header)
    refine ⟨b2, k :: ks, ?_, List.Forall₂.cons c1 c2, ?_⟩
    · rw [List.foldlM_cons, e1]; exact e2
    · rw [List.zipWith_cons_cons]
      exact (Layered.one p1).append p2

/-- The cosine of the angle between a face and the screen. -/
noncomputable def facing (x y z : ℚ) : ℝ := z / Real.sqrt (x ^ 2 + y ^ 2 + z ^ 2)

/-- The brightness of a face with the normal vector `n`: 127 and 128 times the cosine, cut towards 127. -/
def Bright (n : ℚ × ℚ × ℚ) (l : Int) : Prop :=
  (n = (0, 0, 0) ∧ l = 127) ∨
  (n ≠ (0, 0, 0) ∧ (0 ≤ n.2.2 → (l : ℝ) ≤ 127 + 128 * facing n.1 n.2.1 n.2.2 ∧ 127 + 128 * facing n.1 n.2.1 n.2.2 < l + 1) ∧
    (n.2.2 < 0 → 127 + 128 * facing n.1 n.2.1 n.2.2 ≤ l ∧ (l : ℝ) - 1 < 127 + 128 * facing n.1 n.2.1 n.2.2))

theorem root_pos {x y z : ℚ} (h : (x, y, z) ≠ (0, 0, 0)) : 0 < Real.sqrt ((x : ℝ) ^ 2 + (y : ℝ) ^ 2 + (z : ℝ) ^ 2) := by
  apply Real.sqrt_pos.mpr
  by_contra g
  have g1 : (x : ℝ) = 0 := by nlinarith [sq_nonneg (x : ℝ), sq_nonneg (y : ℝ), sq_nonneg (z : ℝ)]
  have g2 : (y : ℝ) = 0 := by nlinarith [sq_nonneg (x : ℝ), sq_nonneg (y : ℝ), sq_nonneg (z : ℝ)]
  have g3 : (z : ℝ) = 0 := by nlinarith [sq_nonneg (x : ℝ), sq_nonneg (y : ℝ), sq_nonneg (z : ℝ)]
  apply h
  rw [show x = 0 by exact_mod_cast g1, show y = 0 by exact_mod_cast g2, show z = 0 by exact_mod_cast g3]

theorem facing_bounds {x y z : ℚ} (h : (x, y, z) ≠ (0, 0, 0)) :
    (-1 ≤ facing x y z ∧ facing x y z ≤ 1) ∧ (facing x y z ≤ -1 ↔ x = 0 ∧ y = 0 ∧ z < 0) ∧ (1 ≤ facing x y z ↔ x = 0 ∧ y = 0 ∧ 0 < z) ∧
    (0 ≤ facing x y z ↔ 0 ≤ z) := by
  have hp := root_pos h
  have hs : Real.sqrt ((x : ℝ) ^ 2 + (y : ℝ) ^ 2 + (z : ℝ) ^ 2) ^ 2 = (x : ℝ) ^ 2 + (y : ℝ) ^ 2 + (z : ℝ) ^ 2 := Real.sq_sqrt (by positivity)
  unfold facing
  generalize Real.sqrt ((x : ℝ) ^ 2 + (y : ℝ) ^ 2 + (z : ℝ) ^ 2) = R at hp hs
  have cz : ∀ {t : ℚ}, ((t : ℝ) = 0 ↔ t = 0) := by intro t; exact_mod_cast Iff.rfl
  refine ⟨⟨?_, ?_⟩, ?_, ?_, ?_⟩
  · rw [le_div_iff₀ hp]; nlinarith [sq_nonneg (x : ℝ), sq_nonneg (y : ℝ)]
  · rw [div_le_iff₀ hp]; nlinarith [sq_nonneg (x : ℝ), sq_nonneg (y : ℝ)]
  · rw [div_le_iff₀ hp]
    constructor
    · intro g
      have : (x : ℝ) ^ 2 + (y : ℝ) ^ 2 ≤ 0 := by nlinarith
      refine ⟨cz.mp (by nlinarith [sq_nonneg (x : ℝ), sq_nonneg (y : ℝ)]), cz.mp (by nlinarith [sq_nonneg (x : ℝ), sq_nonneg (y : ℝ)]), ?_⟩
      have : (z : ℝ) < 0 := by linarith
      exact_mod_cast this
    · rintro ⟨rfl, rfl, hz⟩
      have hz' : (z : ℝ) < 0 := by exact_mod_cast hz
      norm_num at hs
      nlinarith
  · rw [le_div_iff₀ hp]
    constructor
    · intro g
      have : (x : ℝ) ^ 2 + (y : ℝ) ^ 2 ≤ 0 := by nlinarith
      refine ⟨cz.mp (by nlinarith [sq_nonneg (x : ℝ), sq_nonneg (y : ℝ)]), cz.mp (by nlinarith [sq_nonneg (x : ℝ), sq_nonneg (y : ℝ)]), ?_⟩
      have : (0 : ℝ) < z := by linarith
      exact_mod_cast this
    · rintro ⟨rfl, rfl, hz⟩
      have hz' : (0 : ℝ) < z := by exact_mod_cast hz
      norm_num at hs
      nlinarith
  · rw [le_div_iff₀ hp, zero_mul]
    exact_mod_cast Iff.rfl

theorem faceLum_eq {x y z : ℚ} (h : (x, y, z) ≠ (0, 0, 0)) : faceLum [x, y, z] = .ok (truncR (facing x y z * 128) + 127) := by
  unfold faceLum
  rw [if_pos (by
    intro g
    simp only [List.cons.injEq, and_true] at g
    exact h (by rw [g.1, g.2.1, g.2.2]))]
  have hp := root_pos h
  unfold cosaffin
  have e1 : vmag [((x : ℚ) : ℝ), (y : ℝ), (z : ℝ)] = Real.sqrt ((x : ℝ) ^ 2 + (y : ℝ) ^ 2 + (z : ℝ) ^ 2) := by
    unfold vmag
    simp only [List.map_cons, List.map_nil, List.sum_cons, List.sum_nil, add_zero, ← add_assoc, pow_two]
  have e2 : vmag [(0 : ℝ), 0, 1] = 1 := by
    unfold vmag; norm_num
  rw [show ([x, y, z].map fun (q : ℚ) => (q : ℝ)) = [(x : ℝ), (y : ℝ), (z : ℝ)] from rfl]
  rw [e1, e2, mul_one, if_neg (ne_of_gt hp)]
  unfold facing dotprod mulvect
  simp [ok_bind, pure_eq_ok]

theorem truncR_nonneg {v : ℝ} (h : 0 ≤ v) : (truncR v : ℝ) ≤ v ∧ v < truncR v + 1 := by
  unfold truncR; rw [if_pos h]; exact ⟨Int.floor_le v, Int.lt_floor_add_one v⟩

theorem truncR_neg {v : ℝ} (h : v < 0) : v ≤ truncR v ∧ (truncR v : ℝ) - 1 < v := by
  unfold truncR; rw [if_neg (not_le.mpr h)]
  have h1 := Int.floor_le (-v)
  have h2 := Int.lt_floor_add_one (-v)
  push_cast
  constructor <;> linarith

/-- C145: the brightness of a face. It is 255 exactly when the normal vector points along the third axis, and
-1, which is no brightness, exactly when it points the other way. -/
theorem C145_light (x y z : ℚ) : ∃ l, faceLum [x, y, z] = .ok l ∧ Bright (x, y, z) l ∧ -1 ≤ l ∧ l ≤ 255 ∧
    (l = -1 ↔ x = 0 ∧ y = 0 ∧ z < 0) ∧ (l = 255 ↔ x = 0 ∧ y = 0 ∧ 0 < z) := by
  by_cases h : (x, y, z) = (0, 0, 0)
  · refine ⟨127, ?_, .inl ⟨h, rfl⟩, by norm_num, by norm_num, ?_, ?_⟩
    · simp only [Prod.mk.injEq] at h
      rw [h.1, h.2.1, h.2.2]; unfold faceLum; rw [if_neg (by simp)]; rfl
    all_goals
      simp only [Prod.mk.injEq] at h
      rw [h.2.2]; norm_num
  · obtain ⟨⟨f1, f2⟩, f3, f4, f5⟩ := facing_bounds h
    refine ⟨_, faceLum_eq h, .inr ⟨h, ?_, ?_⟩, ?_, ?_, ?_, ?_⟩
    · intro hz
      obtain ⟨t1, t2⟩ := truncR_nonneg (show 0 ≤ facing x y z * 128 by have := f5.mpr hz; positivity)
      dsimp only; push_cast; constructor <;> linarith
    · intro hz
      obtain ⟨t1, t2⟩ := truncR_neg (show facing x y z * 128 < 0 by
        have : facing x y z < 0 := by by_contra g; exact absurd (f5.mp (not_lt.mp g)) (not_le.mpr hz)
        linarith)
      dsimp only; push_cast; constructor <;> linarith
    all_goals
      rcases le_or_gt 0 (facing x y z * 128) with g | g
    · obtain ⟨t1, t2⟩ := truncR_nonneg g
      have : (-1 : ℝ) < truncR (facing x y z * 128) := by linarith
      have : -1 < truncR (facing x y z * 128) := by exact_mod_cast this
      omega
    · obtain ⟨t1, t2⟩ := truncR_neg g
      have : (-128 : ℝ) ≤ truncR (facing x y z * 128) := by linarith
      have : -128 ≤ truncR (facing x y z * 128) := by exact_mod_cast this
      omega
    · obtain ⟨t1, t2⟩ := truncR_nonneg g
      have : (truncR (facing x y z * 128) : ℝ) ≤ 128 := by linarith
      have : truncR (facing x y z * 128) ≤ 128 := by exact_mod_cast this
      omega
    · obtain ⟨t1, t2⟩ := truncR_neg g
      have : (truncR (facing x y z * 128) : ℝ) < 1 := by linarith
      have : truncR (facing x y z * 128) < 1 := by exact_mod_cast this
      omega
    · obtain ⟨t1, t2⟩ := truncR_nonneg g
      constructor
      · intro e
        exfalso
        have : (-1 : ℝ) < truncR (facing x y z * 128) := by linarith
        have : -1 < truncR (facing x y z * 128) := by exact_mod_cast this
        omega
      · intro e; exfalso; have := f3.mpr e; linarith
    · obtain ⟨t1, t2⟩ := truncR_neg g
      rw [← f3]
      constructor
      · intro e
        have e' : truncR (facing x y z * 128) = -128 := by omega
        rw [e'] at t1; push_cast at t1; linarith
      · intro e
        have : facing x y z = -1 := by linarith
        rw [this] at t1 t2 ⊢
        have a1 : (-128 : ℝ) ≤ truncR (-1 * 128) := by linarith
        have a2 : (truncR (-1 * 128) : ℝ) < -127 := by linarith
        have a1 : -128 ≤ truncR (-1 * 128) := by exact_mod_cast a1
        have a2 : truncR (-1 * 128) < -127 := by exact_mod_cast a2
        omega
    · obtain ⟨t1, t2⟩ := truncR_nonneg g
      rw [← f4]
      constructor
      · intro e
        have e' : truncR (facing x y z * 128) = 128 := by omega
        rw [e'] at t1; push_cast at t1; linarith
      · intro e
        have : facing x y z = 1 := by linarith
        rw [this] at t1 t2 ⊢
        have a1 : (127 : ℝ) < truncR (1 * 128) := by linarith
        have a2 : (truncR (1 * 128) : ℝ) ≤ 128 := by linarith
        have a1 : 127 < truncR (1 * 128) := by exact_mod_cast a1
        have a2 : truncR (1 * 128) ≤ 128 := by exact_mod_cast a2
        omega
    · obtain ⟨t1, t2⟩ := truncR_neg g
      constructor
      · intro e
        exfalso
        have : (truncR (facing x y z * 128) : ℝ) < 1 := by linarith
        have : truncR (facing x y z * 128) < 1 := by exact_mod_cast this
        omega
      · intro e; exfalso; have := f4.mpr e; linarith

/-- The rows of a polygon between its outermost boundary pixels. -/
def FillSet (W bits : Nat) (v : List (ℚ × ℚ)) (px py : Nat) : Prop := PolyFill.Between W bits (PolyFill.OnBoundary v) px py

/-- A face: its polygon on the screen and its normal vector. -/
abbrev Face := List (ℚ × ℚ) × (ℚ × ℚ × ℚ)

/-- The faces as `gensides` gives them. -/
def sidesOf (fs : List Face) : List (List (List ℚ)) × List (List ℚ) :=
  (fs.map fun f => f.1.map fun v => [v.1, v.2], fs.map fun f => [f.2.1, f.2.2.1, f.2.2.2])

/-- The colour of a face. -/
def FaceColour (b : Bytes) (bits : Nat) (f : ℚ × ℚ × ℚ) (n : ℚ × ℚ × ℚ) (k : Nat) : Prop :=
  ∃ (l : Int) (p : RGB), Bright n l ∧ Gradient.Mixed f l p ∧ Gradient.Shown b bits p k

/-- C145: a solid is drawn face by face, each filled with the share of its brightness, the later faces over
the earlier. Missing: polygons that leave the image (C119) and faces whose normal vector points
exactly along the negative third axis. -/
theorem C145_fill_partial (h : Valid b W H bits) {f : ℚ × ℚ × ℚ} (hf : Pals.Unit f) {fs : List Face}
    (hne : ∀ t ∈ fs, t.1 ≠ []) (hin : ∀ t ∈ fs, ∀ r, PolyFill.OnBoundary t.1 r → 0 ≤ r.1 ∧ r.1 < W ∧ 0 ≤ r.2 ∧ r.2 < H)
    (haway : ∀ t ∈ fs, ¬ (t.2.1 = 0 ∧ t.2.2.1 = 0 ∧ t.2.2.2 < 0)) :
    ∃ b' ks, plotpolyfillist b (sidesOf fs) f = .ok b' ∧ List.Forall₂ (fun t k => FaceColour b bits f t.2 k) fs ks ∧
      Layered b b' W H bits (List.zipWith (fun t k => (FillSet W bits t.1, k)) fs ks) := by
  obtain ⟨b', ks, e, c, p⟩ := foldl_shades (b0 := b) (fun bmp (t : Face) => do
      let l ← faceLum [t.2.1, t.2.2.1, t.2.2.2]
      let c ← palColour bmp (colormixF l f)
      plotpolyfill bmp t.1 c) (fun t => FillSet W bits t.1) (fun t k => FaceColour b bits f t.2 k) fs (by
    intro b1 h1 hh t ht
    obtain ⟨l, el, hl, l0, l1, lm, -⟩ := C145_light t.2.1 t.2.2.1 t.2.2.2
    have hl0 : 0 ≤ l := by
      have : l ≠ -1 := fun g => haway t ht (lm.mp g)
      omega
    obtain ⟨p, ep, mp⟩ := Gradient.colormix_mixed hf (l := l) (m := l) ⟨by exact_mod_cast hl0, by exact_mod_cast l1⟩ (by norm_num)
    obtain ⟨k, ek, hk, hs⟩ := Gradient.palColour_ok h1 (Gradient.mixed_byte mp)
    obtain ⟨b2, e2, p2⟩ := PolyFill.C119_polyfill_partial h1 hk (hne t ht) (hin t ht)
    refine ⟨b2, k, ?_, ⟨l, p, hl, mp, Gradient.shown_header hh hs⟩, ?_⟩
    · rw [el, ok_bind, ep, ek, ok_bind, e2]
    · rwa [Int.toNat_natCast] at p2) h ⟨rfl, fun _ _ => rfl⟩
  refine ⟨b', ks, ?_, c, p⟩
  rw [← e]
  unfold plotpolyfillist sidesOf
  dsimp only
  rw [List.zipIdx_map, List.foldlM_map]
  have key : ∀ (l : List Face) (n : Nat) (b : Bytes), (∀ i t, l[i]? = some t → fs[n + i]? = some t) →
      (l.zipIdx n).foldlM (fun bmp (e : Face × Nat) => do
        let n ← nth (fs.map fun f => [f.2.1, f.2.2.1, f.2.2.2]) e.2
        let l ← faceLum n
        let c ← palColour bmp (colormixF l f)
        let poly ← (e.1.1.map fun v => [v.1, v.2]).mapM vert2
        plotpolyfill bmp poly c) b = l.foldlM (fun bmp (t : Face) => do
          let l ← faceLum [t.2.1, t.2.2.1, t.2.2.2]
          let c ← palColour bmp (colormixF l f)
          plotpolyfill bmp t.1 c) b := by
    intro l
    induction l with
    | nil => intros; rfl
    | cons t l ih =>
      intro n b hl
      rw [List.zipIdx_cons, List.foldlM_cons, List.foldlM_cons]
      dsimp only
      have e0 := hl 0 t rfl
      rw [add_zero] at e0
      have e1 : nth (fs.map fun f => [f.2.1, f.2.2.1, f.2.2.2]) n = .ok [t.2.1, t.2.2.1, t.2.2.2] := by
        unfold nth; rw [List.getElem?_map, e0]; rfl
      have e2 : (t.1.map fun v => [v.1, v.2]).mapM vert2 = .ok t.1 := by
        generalize t.1 = q
        induction q with
        | nil => rfl
        | cons v q ih => rw [List.map_cons, List.mapM_cons, ih]; rfl
      rw [e1, ok_bind, e2]
      simp only [ok_bind]
      congr 1
      funext b2
      apply ih
      intro i t' hi
      rw [show n + 1 + i = n + (i + 1) by omega]
      exact hl (i + 1) t' (by simpa using hi)
  exact key fs 0 b (fun i t hi => by simpa using hi)

/-- A face with the normal vector (0, 3, 4) has the brightness 127 + 102. -/
example : faceLum [0, 3, 4] = .ok 229 := by
  rw [faceLum_eq (by simp)]
  have : facing 0 3 4 = 4 / 5 := by
    unfold facing
    norm_num
    rw [show (25 : ℝ) = 5 ^ 2 by norm_num, Real.sqrt_sq (by norm_num)]
  rw [this]
  unfold truncR
  rw [if_pos (by norm_num), show ⌊(4 / 5 * 128 : ℝ)⌋ = 102 by rw [Int.floor_eq_iff]; norm_num]
  rfl

/-- C145: with an outline, the borders of all faces are drawn over the fillings. Missing as above, and the
diagonals that end in the first row or, unless the image is wide, in the last row (C24). -/
theorem C145_outline_partial (h : Valid b W H bits) (hW : 0 < W) (hH : 0 < H) {f : ℚ × ℚ × ℚ} (hf : Pals.Unit f) {fs : List Face}
    (hne : ∀ t ∈ fs, t.1 ≠ []) (hin : ∀ t ∈ fs, ∀ r, PolyFill.OnBoundary t.1 r → 0 ≤ r.1 ∧ r.1 < W ∧ 0 ≤ r.2 ∧ r.2 < H)
    (haway : ∀ t ∈ fs, ¬ (t.2.1 = 0 ∧ t.2.2.1 = 0 ∧ t.2.2.2 < 0)) {color : Int} (hc : IsColour bits color)
    (hok : ∀ v ∈ fs.map (fun t => t.1.map roundvect2), ∀ p q, Consec v p q ∨ (v.head? = some p ∧ v.getLast? = some q) → LineOK W H bits p q) :
    ∃ b' ks, plot3d b (sidesOf fs) true f true color = .ok b' ∧ List.Forall₂ (fun t k => FaceColour b bits f t.2 k) fs ks ∧
      Layered b b' W H bits (List.zipWith (fun t k => (FillSet W bits t.1, k)) fs ks ++
        [(fun px py => ∃ t ∈ fs, ∃ p q, (Consec (t.1.map roundvect2) p q ∨
          ((t.1.map roundvect2).head? = some p ∧ (t.1.map roundvect2).getLast? = some q)) ∧ LineSet W H bits p q px py, color.toNat)]) := by
  obtain ⟨b1, ks, e1, c1, p1⟩ := C145_fill_partial h hf hne hin haway
  obtain ⟨b2, e2, p2⟩ := C93_plotpolylist_partial p1.valid hW hH hc (l := fs.map (fun t => t.1.map roundvect2)) (by
    intro g
    obtain ⟨t, ht, g⟩ := List.mem_map.mp g
    exact hne t ht (List.map_eq_nil_iff.mp g)) hok
  refine ⟨b2, ks, ?_, c1, p1.append (Layered.one (p2.congr ?_))⟩
  · unfold plot3d
    rw [if_pos rfl, e1, ok_bind]
    dsimp only
    rw [if_pos rfl]
    have : (sidesOf fs).1.mapM (fun p => p.mapM vert2) = .ok (fs.map (·.1)) := by
      unfold sidesOf
      dsimp only
      clear e1 c1 p1 e2 p2 hok hne hin haway
      induction fs with
      | nil => rfl
      | cons t l ih =>
        have e2 : (t.1.map fun v => [v.1, v.2]).mapM vert2 = .ok t.1 := by
          generalize t.1 = q
          induction q with
          | nil => rfl
          | cons v q ih => rw [List.map_cons, List.mapM_cons, ih]; rfl
        rw [List.map_cons, List.mapM_cons, ih, e2]; rfl
    rw [this, ok_bind, List.map_map]
    exact e2
  · intro px py _ _
    constructor
    · rintro ⟨t, ht, g⟩; exact ⟨_, List.mem_map.mpr ⟨t, ht, rfl⟩, g⟩
    · rintro ⟨v, hv, g⟩
      obtain ⟨t, ht, rfl⟩ := List.mem_map.mp hv
      exact ⟨t, ht, g⟩

/-- C145 is false for a face that looks exactly along the negative third axis: its brightness is -1, and the
call fails. -/
theorem C145_away_false : plotpolyfillist sample8 (sidesOf [([(0, 0), (2, 0), (2, 2), (0, 2)], (0, 0, -1))]) (1, 1, 1) =
    .error .overflowError := by
  obtain ⟨l, el, -, -, -, lm, -⟩ := C145_light 0 0 (-1)
  have := lm.mpr (by norm_num)
  subst this
  unfold plotpolyfillist sidesOf
  simp only [List.map_cons, List.map_nil, List.zipIdx_cons, List.zipIdx_nil, List.foldlM_cons, List.foldlM_nil]
  rw [show nth [[(0 : ℚ), 0, -1]] 0 = .ok [0, 0, -1] from rfl, ok_bind, el, ok_bind]
  rw [show palColour sample8 (colormixF ((-1 : Int) : ℚ) (1, 1, 1)) = .error .overflowError by decide +kernel]
  rfl

/-- Such faces occur: a square parallel to the screen, seen from the front. -/
example : (perspective [[0, 0, 0], [1, 0, 0], [1, 1, 0], [0, 1, 0]] (((0, 1), (0, 1), (0, 1)) : (ℚ × ℚ) × (ℚ × ℚ) × (ℚ × ℚ)) (0, 0, -2) 2 >>=
    fun p => gensides p [0, 0] [[0, 1, 2, 3], [3, 2, 1, 0]]) = .ok ([[[0, 0], [-1, 0], [-1, 1], [0, 1]]], [[0, 0, -1]]) := by
  decide +kernel

/-! ### Rotated ellipses -/

/-- The pixel `w` is the one nearest to `v` turned around `c` by an angle in degrees. -/
def Turned (deg : ℝ) (c v w : Int × Int) : Prop :=
  let t := deg * (Real.pi / 180)
  |(w.1 : ℝ) - (c.1 + ((v.1 - c.1) * Real.cos t - (v.2 - c.2) * Real.sin t))| ≤ 1 / 2 ∧
  |(w.2 : ℝ) - (c.2 + ((v.1 - c.1) * Real.sin t + (v.2 - c.2) * Real.cos t))| ≤ 1 / 2

/-- The image of `v` in a rotated ellipse. -/
noncomputable def turnPt (x y : Int) (deg : ℝ) (v : Int × Int) : Int × Int :=
  let w := rotvec2D ((v.1 : ℝ) - x, (v.2 : ℝ) - y) (computerotvec deg)
  (rndR (w.1 + x), rndR (w.2 + y))

theorem iterellipserot_eq (x y a b : Int) (deg : ℝ) : iterellipserot x y b a deg = (iterellipse x y b a).map (turnPt x y deg) := by
  unfold iterellipserot iterellipse turnPt
  rw [List.map_flatMap]

/-- C146: a rotated ellipse has the points of the ellipse, each turned by the angle and rounded. -/
theorem C146_turned (x y a b : Int) (deg : ℝ) : List.Forall₂ (Turned deg (x, y)) (iterellipse x y b a) (iterellipserot x y b a deg) := by
  rw [iterellipserot_eq, List.forall₂_map_right_iff]
  refine List.forall₂_same.mpr fun v _ => ?_
  unfold Turned turnPt rotvec2D computerotvec
  dsimp only
  constructor
  · have := rndR_near (((v.1 : ℝ) - x) * Real.cos (deg * (Real.pi / 180)) - ((v.2 : ℝ) - y) * Real.sin (deg * (Real.pi / 180)) + x)
    rwa [add_comm (x : ℝ)]
  · have := rndR_near (((v.1 : ℝ) - x) * Real.sin (deg * (Real.pi / 180)) + ((v.2 : ℝ) - y) * Real.cos (deg * (Real.pi / 180)) + y)
    rwa [add_comm (y : ℝ)]

/-- C146: turning keeps the distance from the centre, up to the rounding by half a pixel in each direction. -/
theorem C146_distance {deg : ℝ} {c v w : Int × Int} (h : Turned deg c v w) :
    |Real.sqrt (((w.1 : ℝ) - c.1) ^ 2 + ((w.2 : ℝ) - c.2) ^ 2) - Real.sqrt (((v.1 : ℝ) - c.1) ^ 2 + ((v.2 : ℝ) - c.2) ^ 2)| ≤ Real.sqrt (1 / 2) := by
  unfold Turned at h
  dsimp only at h
  set t := deg * (Real.pi / 180) with ht
  have hn : ∀ p q : ℝ, ‖(⟨p, q⟩ : ℂ)‖ = Real.sqrt (p ^ 2 + q ^ 2) := by
    intro p q
    rw [Complex.norm_def, Complex.normSq_mk]; congr 1; ring
  set p := ((v.1 : ℝ) - c.1) with hp
  set q := ((v.2 : ℝ) - c.2) with hq
  have e1 : Real.sqrt (p ^ 2 + q ^ 2) = ‖(⟨p * Real.cos t - q * Real.sin t, p * Real.sin t + q * Real.cos t⟩ : ℂ)‖ := by
    rw [hn]; congr 1
    have := Real.sin_sq_add_cos_sq t
    linear_combination (-(p ^ 2) - q ^ 2) * this
  rw [e1, ← hn]
  refine (abs_norm_sub_norm_le _ _).trans ?_
  rw [show (⟨(w.1 : ℝ) - c.1, (w.2 : ℝ) - c.2⟩ : ℂ) - ⟨p * Real.cos t - q * Real.sin t, p * Real.sin t + q * Real.cos t⟩ =
    ⟨(w.1 : ℝ) - (c.1 + (p * Real.cos t - q * Real.sin t)), (w.2 : ℝ) - (c.2 + (p * Real.sin t + q * Real.cos t))⟩ by
      apply Complex.ext <;> simp <;> ring, hn]
  apply Real.sqrt_le_sqrt
  have h1 := sq_le_sq' (by linarith [neg_abs_le ((w.1 : ℝ) - (c.1 + (p * Real.cos t - q * Real.sin t))), h.1]) ((le_abs_self _).trans h.1)
  have h2 := sq_le_sq' (by linarith [neg_abs_le ((w.2 : ℝ) - (c.2 + (p * Real.sin t + q * Real.cos t))), h.2]) ((le_abs_self _).trans h.2)
  linarith

theorem turnPt_of (x y : Int) (deg s c : ℝ) (hs : Real.sin (deg * (Real.pi / 180)) = s) (hc : Real.cos (deg * (Real.pi / 180)) = c) (v : Int × Int)
    {m n : Int} (hm : ((v.1 : ℝ) - x) * c - ((v.2 : ℝ) - y) * s + x = m) (hn : ((v.1 : ℝ) - x) * s + ((v.2 : ℝ) - y) * c + y = n) :
    turnPt x y deg v = (m, n) := by
  unfold turnPt rotvec2D computerotvec
  dsimp only
  rw [hs, hc, hm, hn, rndR_int, rndR_int]

/-- C146: no rotation, a quarter of a turn and half a turn are exact. -/
theorem C146_quarters (x y a b : Int) :
    iterellipserot x y b a 0 = iterellipse x y b a ∧
    iterellipserot x y b a 90 = (iterellipse x y b a).map (fun v => (x - (v.2 - y), y + (v.1 - x))) ∧
    iterellipserot x y b a 180 = (iterellipse x y b a).map (fun v => (2 * x - v.1, 2 * y - v.2)) := by
  refine ⟨?_, ?_, ?_⟩
  · rw [iterellipserot_eq]
    conv_rhs => rw [← List.map_id (iterellipse x y b a)]
    apply List.map_congr_left
    intro v _
    exact turnPt_of x y 0 0 1 (by simp) (by simp) v (by ring) (by ring)
  · rw [iterellipserot_eq]
    apply List.map_congr_left
    intro v _
    refine turnPt_of x y 90 1 0 ?_ ?_ v (by push_cast; ring) (by push_cast; ring)
    · rw [show (90 : ℝ) * (Real.pi / 180) = Real.pi / 2 by ring]; exact Real.sin_pi_div_two
    · rw [show (90 : ℝ) * (Real.pi / 180) = Real.pi / 2 by ring]; exact Real.cos_pi_div_two
  · rw [iterellipserot_eq]
    apply List.map_congr_left
    intro v _
    refine turnPt_of x y 180 0 (-1) ?_ ?_ v (by push_cast; ring) (by push_cast; ring)
    · rw [show (180 : ℝ) * (Real.pi / 180) = Real.pi by ring]; exact Real.sin_pi
    · rw [show (180 : ℝ) * (Real.pi / 180) = Real.pi by ring]; exact Real.cos_pi

/-- The discs around the points of a rotated ellipse. -/
def RotSet (W bits : Nat) (x y b a : Int) (deg : ℝ) (pen : Int) (px py : Nat) : Prop :=
  ∃ v ∈ iterellipse x y b a, ∃ w, Turned deg (x, y) v w ∧ w ∈ iterellipserot x y b a deg ∧ Mark W bits w.1 w.2 pen px py

/-- C146: a thick rotated ellipse is the union of the discs around the turned points. Missing:
points too far beside the image, see C27. -/
theorem C146_thick_partial (h : Valid b W H bits) {x y r s : Int} {deg : ℝ} (hx : ∀ p ∈ iterellipserot x y r s deg, PenOK W bits p.1)
    (pen : Int) {color : Int} (hc : IsColour bits color) :
    ∃ b', thickellipserot b x y r s deg pen color = .ok b' ∧ Paints b b' W H bits (RotSet W bits x y r s deg pen) color.toNat := by
  obtain ⟨b', e, p⟩ := foldl_paints (W := W) (H := H) (bits := bits) (c := color.toNat) (fun bmp (p : Int × Int) => filledcircle bmp p.1 p.2 pen color)
    (fun p => Mark W bits p.1 p.2 pen) (iterellipserot x y r s deg) (fun b hb p hp => C27_filledcircle_depths hb hc (hx p hp)) h
  refine ⟨b', e, p.congr ?_⟩
  intro px py _ _
  unfold RotSet
  constructor
  · rintro ⟨v, -, w, -, hw, g⟩; exact ⟨w, hw, g⟩
  · rintro ⟨w, hw, g⟩
    obtain ⟨i, hi, rfl⟩ := List.mem_iff_getElem.mp hw
    have hf := C146_turned x y s r deg
    have hi' : i < (iterellipse x y r s).length := by rw [hf.length_eq]; exact hi
    exact ⟨_, List.getElem_mem hi', _, hf.get hi' hi, hw, g⟩

/-- C146: the same with a gradient. -/
theorem C146_grad_partial (h : Valid b W H bits) {x y r s : Int} {deg : ℝ} (hx : ∀ p ∈ iterellipserot x y r s deg, PenOK W bits p.1)
    (pen : Int) {lum : Int × Int} (hl : Gradient.Lum lum) {f : ℚ × ℚ × ℚ} (hf : Pals.Unit f) :
    ∃ b', gradthickellipserot b x y r s deg pen lum f = .ok b' ∧
      Gradient.Graded b b' W H bits pen (fun i => RotSet W bits x y r s deg i) (Gradient.Step b bits lum f pen) := by
  apply Gradient.graded h
  intro i h1 h2 b' hv hh
  exact Gradient.layer_ok hv hh hf (Gradient.lumBlend_part hl (by omega) h2 (by omega)) (fun c hc => C146_thick_partial hv hx i hc)

example : iterellipserot 5 5 2 1 90 = [(3, 5), (3, 5), (7, 5), (7, 5), (4, 4), (4, 6), (6, 4), (6, 6), (5, 4), (5, 6), (5, 4), (5, 6)] := by
  rw [(C146_quarters 5 5 1 2).2.1]; decide +kernel

end Verif.Props.Plane
