import Verif.Props.FloatEscape
import Verif.Props.Lens
/-! Property C178: pictures of superellipses, whose values are not whole numbers. -/

namespace Verif.Props.Superellipse
open Verif Spec Model Props Props.FloatAttract Props.Escape Props.FloatEscape

/-! ### The values -/

theorem modQ_bounds (x : ℚ) {m : Nat} (hm : 0 < m) : 0 ≤ modQ x m ∧ modQ x m < m := by
  have hm' : (0 : ℚ) < m := by exact_mod_cast hm
  have h1 := Int.floor_le (x / m)
  have h2 := Int.lt_floor_add_one (x / m)
  unfold modQ
  constructor
  · rw [le_div_iff₀ hm'] at h1; linarith
  · rw [div_lt_iff₀ hm'] at h2; linarith

/-- C178: the value is the size of `P ** d + Q ** d`, up to 2 ^ -50 of the terms, less a multiple of the limit. -/
theorem C178_value {pw : ℚ → Nat → ℚ} {d : Nat} (hp : ∀ x, |pw x d - x ^ d| ≤ |x ^ d| / 2 ^ 52) (p q : ℚ) {m : Nat} (hm : 0 < m) :
    (0 ≤ multisuperellipseF pw p q d m ∧ multisuperellipseF pw p q d m < m) ∧
    ∃ k : Int, 0 ≤ k ∧ |multisuperellipseF pw p q d m + k * m - (|p ^ d + q ^ d|)| ≤ (|p ^ d| + |q ^ d|) / 2 ^ 50 := by
  have hm' : (0 : ℚ) < m := by exact_mod_cast hm
  refine ⟨modQ_bounds _ hm, ⌊|fl (pw p d + pw q d)| / m⌋, Int.floor_nonneg.mpr (by positivity), ?_⟩
  have e : multisuperellipseF pw p q d m + (⌊|fl (pw p d + pw q d)| / m⌋ : Int) * m = |fl (pw p d + pw q d)| := by
    unfold multisuperellipseF modQ; ring
  rw [e]
  refine (abs_abs_sub_abs_le _ _).trans ?_
  have h1 := fl_err (pw p d + pw q d)
  have h2 := hp p
  have h3 := hp q
  have a1 := abs_add_le (pw p d - p ^ d) (pw q d - q ^ d)
  have a2 := abs_add_le (fl (pw p d + pw q d) - (pw p d + pw q d)) (pw p d - p ^ d + (pw q d - q ^ d))
  rw [show fl (pw p d + pw q d) - (pw p d + pw q d) + (pw p d - p ^ d + (pw q d - q ^ d)) = fl (pw p d + pw q d) - (p ^ d + q ^ d) by ring] at a2
  have a3 := abs_add_le (pw p d - p ^ d + (pw q d - q ^ d)) (p ^ d + q ^ d)
  rw [show pw p d - p ^ d + (pw q d - q ^ d) + (p ^ d + q ^ d) = pw p d + pw q d by ring] at a3
  have a4 := abs_add_le (p ^ d) (q ^ d)
  have p0 := abs_nonneg (p ^ d)
  have q0 := abs_nonneg (q ^ d)
  linarith

/-! ### Luminosities -/

theorem fl_grid {v : ℚ} (h : 256 ≤ v) : ∃ k : Int, fl v = k / 2 ^ 44 := by
  have h8 : (8 : Int) ≤ Int.log 2 |v| := by
    rw [abs_of_pos (by linarith)]
    have h1 := Int.log_mono_right (b := 2) (by norm_num : (0 : ℚ) < 256) h
    have h2 := Int.log_zpow (R := ℚ) (b := 2) (by omega) 8
    norm_num at h1 h2
    omega
  obtain ⟨n, hn⟩ : ∃ n : ℕ, Int.log 2 |v| - 52 = n - 44 := ⟨(Int.log 2 |v| - 8).toNat, by omega⟩
  refine ⟨rnd (v / ulp v) * 2 ^ n, ?_⟩
  unfold fl
  have hu : ulp v = 2 ^ n / 2 ^ 44 := by
    unfold ulp
    rw [hn, zpow_sub₀ (by norm_num)]
    norm_cast
  conv_lhs => rw [show rnd (v / ulp v) * ulp v = (rnd (v / ulp v) : ℚ) * (ulp v) from rfl]
  push_cast
  rw [← mul_div_assoc', ← hu]

/-- A part of a luminosity is a byte after cutting. -/
theorem part_byte {v r : ℚ} (hv : 0 ≤ v) (h0 : 0 ≤ r) (h1 : r ≤ 1) :
    0 ≤ trunc (fl (r * modQ (fl v) 256)) ∧ trunc (fl (r * modQ (fl v) 256)) < 256 := by
  obtain ⟨m0, m1⟩ := modQ_bounds (fl v) (m := 256) (by norm_num)
  push_cast at m1
  have hp : 0 ≤ r * modQ (fl v) 256 := mul_nonneg h0 m0
  have hle : r * modQ (fl v) 256 ≤ modQ (fl v) 256 := by nlinarith
  have hf0 := fl_nonneg hp
  rw [trunc_nonneg hf0]
  refine ⟨Int.floor_nonneg.mpr hf0, Int.floor_lt.mpr ?_⟩
  push_cast
  have hfv := fl_nonneg hv
  by_cases hs : fl v < 256
  · have e : modQ (fl v) 256 = fl v := by
      unfold modQ
      have : ⌊fl v / ((256 : ℕ) : ℚ)⌋ = 0 := by
        rw [Int.floor_eq_zero_iff]
        push_cast
        exact ⟨by positivity, by rw [div_lt_iff₀ (by norm_num)]; linarith⟩
      rw [this]; simp
    rw [e] at hp hle ⊢
    have := fl_mono hp hle
    rw [fl_idem] at this
    linarith
  · have hs : 256 ≤ fl v := not_lt.mp hs
    have herr := abs_le.mp (fl_err (r * modQ (fl v) 256))
    rw [abs_of_nonneg hp] at herr
    by_cases hv2 : 256 ≤ v
    · obtain ⟨k, hk⟩ := fl_grid hv2
      have hL : modQ (fl v) 256 = ((k - 256 * 2 ^ 44 * ⌊fl v / ((256 : ℕ) : ℚ)⌋ : Int) : ℚ) / 2 ^ 44 := by
        unfold modQ
        conv_lhs => rw [show fl v - ((256 : ℕ) : ℚ) * ⌊fl v / ((256 : ℕ) : ℚ)⌋ = (k : ℚ) / 2 ^ 44 - ((256 : ℕ) : ℚ) * ⌊fl v / ((256 : ℕ) : ℚ)⌋ by rw [← hk]]
        push_cast
        ring
      have hlt : (k - 256 * 2 ^ 44 * ⌊fl v / ((256 : ℕ) : ℚ)⌋ : Int) < 256 * 2 ^ 44 := by
        rw [hL, div_lt_iff₀ (by positivity)] at m1
        exact_mod_cast m1
      have hle2 : modQ (fl v) 256 ≤ 256 - 1 / 2 ^ 44 := by
        rw [hL, div_le_iff₀ (by positivity)]
        have : ((k - 256 * 2 ^ 44 * ⌊fl v / ((256 : ℕ) : ℚ)⌋ : Int) : ℚ) ≤ ((256 * 2 ^ 44 - 1 : Int) : ℚ) := Int.cast_le.mpr (by omega)
        refine this.trans (le_of_eq ?_)
        norm_num
      have h2 := herr.2
      norm_num at h2 hle2 ⊢
      linarith
    · have he : fl v ≤ 256 := by
        have := fl_le_of_int (k := 256) (by norm_num) hv (by push_cast; linarith)
        exact_mod_cast this
      have e : modQ (fl v) 256 = 0 := by
        rw [le_antisymm he hs]
        unfold modQ
        norm_num
      rw [e, mul_zero, fl_zero]
      norm_num

/-- The colour for the float value `c` in a picture with 2 ^ 24 colours: the factors times `20 (255 - c)` modulo 256, cut. -/
def shadeQ (f : ℚ × ℚ × ℚ) (c : ℚ) : Nat :=
  let lum := modQ (fl (fl (255 - c) * 20)) 256
  (trunc (fl (f.1 * lum))).toNat * 65536 + (trunc (fl (f.2.1 * lum))).toNat * 256 + (trunc (fl (f.2.2 * lum))).toNat

theorem mix_ok {f : ℚ × ℚ × ℚ} (hf : Pals.Unit f) {c : ℚ} (hc : c ≤ 255) :
    colormixQ (modQ (fl (fl (255 - c) * 20)) 256) [f.1, f.2.1, f.2.2] = .ok (shadeQ f c : Int) ∧ shadeQ f c < 2 ^ 24 := by
  have hv : 0 ≤ fl (255 - c) * 20 := mul_nonneg (fl_nonneg (by linarith)) (by norm_num)
  obtain ⟨r0, r1⟩ := part_byte hv hf.1.1 hf.1.2
  obtain ⟨g0, g1⟩ := part_byte hv hf.2.1.1 hf.2.1.2
  obtain ⟨d0, d1⟩ := part_byte hv hf.2.2.1 hf.2.2.2
  unfold colormixQ shadeQ
  dsimp only
  generalize trunc (fl (f.1 * modQ (fl (fl (255 - c) * 20)) 256)) = a at *
  generalize trunc (fl (f.2.1 * modQ (fl (fl (255 - c) * 20)) 256)) = b at *
  generalize trunc (fl (f.2.2 * modQ (fl (fl (255 - c) * 20)) 256)) = e at *
  refine ⟨?_, by omega⟩
  rw [pure_eq_ok, RGB2int_eq, rgbValue]
  congr 1
  omega

/-! ### The points -/

theorem points (W H : Nat) (hW : 0 < W) (hH : 0 < H) (func : ℚ → ℚ → ℚ) (dom : ℚ × ℚ × ℚ × ℚ) :
    itermultifractalQ 0 0 W H func dom = .ok ((pyRange 0 H).flatMap fun y => (pyRange 0 W).map fun x =>
      (x, y, func (domainAt dom.1 dom.2.1 0 W x) (domainAt dom.2.2.1 dom.2.2.2 0 H y))) := by
  unfold itermultifractalQ mapfractaldomain
  rw [sortrec_eq]
  dsimp only
  rw [if_neg (by omega), min_eq_left (by omega), max_eq_right (by omega), min_eq_left (by omega), max_eq_right (by omega)]
  simp only [bind, Except.bind, pure, Except.pure, List.flatMap_map, List.map_map, Function.comp_def]

theorem fold_map {α β σ : Type} (f : σ → β → Py σ) (k : α → β) (l : List α) (s : σ) : l.foldlM (fun s a => f s (k a)) s = (l.map k).foldlM f s := by
  induction l generalizing s with
  | nil => rfl
  | cons a l ih =>
    rw [List.map_cons, List.foldlM_cons, List.foldlM_cons]
    cases f s (k a) with
    | error e => rfl
    | ok s' => exact ih s'

/-- All pixels of an image are given colours of their own. -/
theorem plot_all {n0 : Bytes} {W H bits : Nat} (v0 : Valid n0 W H bits) (col : Int → Int → Int)
    (hc : bits = 24 → ∀ x y, 0 ≤ col x y ∧ col x y < 2 ^ 24) :
    ∃ n, ((pyRange 0 H).flatMap fun y => (pyRange 0 W).map fun x => (x, y, col x y)).foldlM (fun b p => plotxybit b p.1 p.2.1 p.2.2) n0 = .ok n ∧
      Valid n W H bits ∧ SameHeader n0 n bits ∧ ∀ x y, x < W → y < H → pix n W H bits x y = reduce bits (col x y) := by
  obtain ⟨n, e, v, hh, px⟩ := plots_redraw (W := W) (H := H) (bits := bits) (fun b p => plotxybit b p.1 p.2.1 p.2.2)
    (fun p => reduce bits p.2.2) (fun x y => reduce bits (col x y)) ((pyRange 0 H).flatMap fun y => (pyRange 0 W).map fun x => (x, y, col x y))
    (by
      intro b hb p hp
      refine plot_paints hb p.1 p.2.1 (fun h24 => ?_)
      simp only [List.mem_flatMap, List.mem_map] at hp
      obtain ⟨y, -, x, -, rfl⟩ := hp
      exact hc h24 x y)
    (by
      intro p hp x y hx hy
      simp only [List.mem_flatMap, List.mem_map] at hp
      obtain ⟨y', -, x', -, rfl⟩ := hp
      dsimp only at hx hy ⊢
      rw [hx, hy]) v0
  refine ⟨n, e, v, hh, fun x y hx hy => (px x y hx hy).1 ⟨((x : Int), (y : Int), col x y), ?_, rfl, rfl⟩⟩
  simp only [List.mem_flatMap, List.mem_map, mem_pyRange]
  exact ⟨y, by omega, x, by omega, rfl⟩

/-- The value that belongs to a pixel. -/
def valueQ (pw : ℚ → Nat → ℚ) (W H d m : Nat) (dom : ℚ × ℚ × ℚ × ℚ) (x y : Nat) : ℚ :=
  multisuperellipseF pw (domainAt dom.1 dom.2.1 0 W x) (domainAt dom.2.2.1 dom.2.2.2 0 H y) d m

theorem new_mono {W H bits : Nat} (hd : Depth bits) (hW : W < 2 ^ 24) (hH : H < 2 ^ 24) {f : ℚ × ℚ × ℚ} (hf : Pals.Unit f) :
    ∃ n0, newBMPwithPAL W H bits (.mono f) = .ok n0 ∧ Valid n0 W H bits := by
  by_cases h24 : bits = 24
  · subst h24
    obtain ⟨b, e, v, -⟩ := C01_newBMP_valid W H 24 hd hW hH
    refine ⟨b, ?_, v⟩
    unfold newBMPwithPAL
    rw [e, ok_bind, if_neg (by norm_num)]; rfl
  · obtain ⟨b, pal, e, v, -⟩ := Pals.C127_new (bits := bits) (by unfold Depth at hd; omega) hW hH hf
    exact ⟨b, e, v⟩

/-- C178: a picture with 2 ^ 24 colours has the shade of its value at each pixel. -/
theorem C178_colours (pw : ℚ → Nat → ℚ) (fs : Files) (file : String) {W H : Nat} (hW : 0 < W ∧ W < 2 ^ 24) (hH : 0 < H ∧ H < 2 ^ 24)
    (d : Nat) (dom : ℚ × ℚ × ℚ × ℚ) {f : ℚ × ℚ × ℚ} (hf : Pals.Unit f) {m : Nat} (hm : 0 < m) (hm2 : m ≤ 255) :
    ∃ fs', savemultisuperellipsefractal2file pw fs file W H d dom (.mono f) 24 m = .ok fs' ∧
      Saved fs fs' file (fun n => Valid n W H 24 ∧ ∀ x y, x < W → y < H → pix n W H 24 x y = shadeQ f (valueQ pw W H d m dom x y)) := by
  obtain ⟨n0, e0, v0⟩ := new_mono (bits := 24) (by unfold Depth; omega) hW.2 hH.2 hf
  set val : Int → Int → ℚ := fun x y => multisuperellipseF pw (domainAt dom.1 dom.2.1 0 W x) (domainAt dom.2.2.1 dom.2.2.2 0 H y) d m with hval
  have hv : ∀ x y, val x y ≤ 255 := fun x y => by
    have h1 := (modQ_bounds |fl (pw (domainAt dom.1 dom.2.1 0 W x) d + pw (domainAt dom.2.2.1 dom.2.2.2 0 H y) d)| hm).2
    have h2 : (m : ℚ) ≤ 255 := by exact_mod_cast hm2
    rw [hval]
    unfold multisuperellipseF
    linarith
  obtain ⟨n, e, v, -, px⟩ := plot_all v0 (fun x y => (shadeQ f (val x y) : Int)) (fun _ x y => ⟨by positivity, by
    have := (mix_ok hf (hv x y)).2; omega⟩)
  refine ⟨writeFile fs file n, ?_, write_saved fs file ⟨v, fun x y hx hy => ?_⟩⟩
  · unfold savemultisuperellipsefractal2file
    rw [show ((24 : Int)) = ((24 : Nat) : Int) from rfl, e0, ok_bind, points W H hW.1 hH.1, ok_bind]
    unfold plotmultifractalQ
    rw [v0.bits_eq, ok_bind, if_pos (by norm_num)]
    have : ((pyRange 0 H).flatMap fun y => (pyRange 0 W).map fun x => (x, y, (shadeQ f (val x y) : Int))) =
        ((pyRange 0 H).flatMap fun y => (pyRange 0 W).map fun x => (x, y, val x y)).map fun p => (p.1, p.2.1, (shadeQ f p.2.2 : Int)) := by
      simp only [List.map_flatMap, List.map_map, Function.comp_def]
    rw [this, ← fold_map (fun b p => plotxybit b p.1 p.2.1 p.2.2) (fun p : Int × Int × ℚ => (p.1, p.2.1, (shadeQ f p.2.2 : Int)))] at e
    rw [Lens.foldlM_mem _ n0 (g := fun b p => plotxybit b p.1 p.2.1 (shadeQ f p.2.2 : Int)), e, ok_bind, pure_eq_ok]
    intro b p hp
    simp only [List.mem_flatMap, List.mem_map] at hp
    obtain ⟨y, -, x, -, rfl⟩ := hp
    dsimp only
    rw [show factorList (.mono f) = [f.1, f.2.1, f.2.2] from rfl, (mix_ok hf (hv x y)).1, ok_bind]
  · rw [px x y hx hy, reduce_24 (by positivity) (by have := (mix_ok hf (hv x y)).2; omega)]
    simp [valueQ, hval]

/-- C178: with two colours a pixel has the first one only where the value is an even whole number. -/
theorem C178_two (pw : ℚ → Nat → ℚ) (fs : Files) (file : String) {W H : Nat} (hW : 0 < W ∧ W < 2 ^ 24) (hH : 0 < H ∧ H < 2 ^ 24)
    (d : Nat) (dom : ℚ × ℚ × ℚ × ℚ) {f : ℚ × ℚ × ℚ} (hf : Pals.Unit f) (m : Nat) :
    ∃ fs', savemultisuperellipsefractal2file pw fs file W H d dom (.mono f) 1 m = .ok fs' ∧
      Saved fs fs' file (fun n => Valid n W H 1 ∧ ∀ x y, x < W → y < H →
        (pix n W H 1 x y = 0 ∨ pix n W H 1 x y = 1) ∧ (pix n W H 1 x y = 0 ↔ ∃ k : Int, valueQ pw W H d m dom x y = 2 * k)) := by
  obtain ⟨n0, e0, v0⟩ := new_mono (bits := 1) (by unfold Depth; omega) hW.2 hH.2 hf
  set val : Int → Int → ℚ := fun x y => multisuperellipseF pw (domainAt dom.1 dom.2.1 0 W x) (domainAt dom.2.2.1 dom.2.2.2 0 H y) d m with hval
  obtain ⟨n, e, v, -, px⟩ := plot_all v0 (fun x y => if 0 < modQ (val x y) 2 then 1 else 0) (by norm_num)
  refine ⟨writeFile fs file n, ?_, write_saved fs file ⟨v, fun x y hx hy => ?_⟩⟩
  · unfold savemultisuperellipsefractal2file
    rw [show ((1 : Int)) = ((1 : Nat) : Int) from rfl, e0, ok_bind, points W H hW.1 hH.1, ok_bind]
    unfold plotmultifractalQ
    rw [v0.bits_eq, ok_bind, if_neg (by norm_num), if_neg (by norm_num), if_pos (by norm_num)]
    have : ((pyRange 0 H).flatMap fun y => (pyRange 0 W).map fun x => (x, y, if 0 < modQ (val x y) 2 then (1 : Int) else 0)) =
        ((pyRange 0 H).flatMap fun y => (pyRange 0 W).map fun x => (x, y, val x y)).map fun p => (p.1, p.2.1, if 0 < modQ p.2.2 2 then (1 : Int) else 0) := by
      simp only [List.map_flatMap, List.map_map, Function.comp_def]
    rw [this, ← fold_map (fun b p => plotxybit b p.1 p.2.1 p.2.2) (fun p : Int × Int × ℚ => (p.1, p.2.1, if 0 < modQ p.2.2 2 then (1 : Int) else 0))] at e
    rw [e, ok_bind, pure_eq_ok]
  · have hp := px x y hx hy
    have hb := modQ_bounds (val x y) (m := 2) (by norm_num)
    rw [reduce_1] at hp
    have hv : valueQ pw W H d m dom x y = val x y := by simp [valueQ, hval]
    rw [hv]
    by_cases hz : 0 < modQ (val x y) 2
    · rw [if_pos hz, if_pos (by norm_num)] at hp
      refine ⟨Or.inr hp, ?_⟩
      rw [hp]
      refine ⟨fun h => absurd h (by norm_num), ?_⟩
      rintro ⟨k, hk⟩
      rw [hk] at hz
      unfold modQ at hz
      push_cast at hz
      rw [mul_div_cancel_left₀ _ (by norm_num), Int.floor_intCast, sub_self] at hz
      exact absurd hz (lt_irrefl _)
    · rw [if_neg hz, if_neg (by norm_num)] at hp
      refine ⟨Or.inl hp, ?_⟩
      rw [hp]
      refine ⟨fun _ => ⟨⌊val x y / (2 : ℕ)⌋, ?_⟩, fun _ => rfl⟩
      have : modQ (val x y) 2 = 0 := le_antisymm (not_lt.mp hz) hb.1
      unfold modQ at this
      push_cast at this ⊢
      linarith

/-- C178: pictures with 16 or 256 colours raise `TypeError`, and no file is written. -/
theorem C178_fails (pw : ℚ → Nat → ℚ) (fs : Files) (file : String) {W H bits : Nat} (hb : bits = 4 ∨ bits = 8) (hW : 0 < W ∧ W < 2 ^ 24)
    (hH : 0 < H ∧ H < 2 ^ 24) (d : Nat) (dom : ℚ × ℚ × ℚ × ℚ) (m : Nat) :
    (∀ {f : ℚ × ℚ × ℚ}, Pals.Unit f → savemultisuperellipsefractal2file pw fs file W H d dom (.mono f) bits m = .error .typeError) ∧
    ∀ {c1 c2 : Int}, 0 ≤ c1 ∧ c1 < 2 ^ 24 → 0 ≤ c2 ∧ c2 < 2 ^ 24 →
      savemultisuperellipsefractal2file pw fs file W H d dom (.two c1 c2) bits m = .error .typeError := by
  have key : ∀ (P : PalSpec) n0, newBMPwithPAL W H bits P = .ok n0 → Valid n0 W H bits →
      savemultisuperellipsefractal2file pw fs file W H d dom P bits m = .error .typeError := by
    intro P n0 e0 v0
    unfold savemultisuperellipsefractal2file
    rw [e0, ok_bind, points W H hW.1 hH.1, ok_bind]
    obtain ⟨W', rfl⟩ := Nat.exists_eq_succ_of_ne_zero hW.1.ne'
    obtain ⟨H', rfl⟩ := Nat.exists_eq_succ_of_ne_zero hH.1.ne'
    unfold plotmultifractalQ
    rw [v0.bits_eq, ok_bind, if_neg (by omega), pyRange_zero, pyRange_zero, List.range_succ_eq_map, List.range_succ_eq_map]
    by_cases h8 : bits = 8 ∧ (factorList P).length = 3
    · rw [if_pos h8]
      simp only [List.map_cons, List.flatMap_cons, List.cons_append, List.foldlM_cons]
      unfold bmofhd8
      have := v0.rowoff_eq 0
      rw [h8.1] at this
      simp [bind, Except.bind, show rowoff n0 0 8 = _ from this]
    · rw [if_neg h8, if_neg (by omega)]
      simp only [List.map_cons, List.flatMap_cons, List.cons_append, List.foldlM_cons]
      rw [v0.inb_true (x := 0) (y := 0) (by omega) (by omega)]
      rfl
  constructor
  · intro f hf
    obtain ⟨n0, e0, v0⟩ := new_mono (bits := bits) (by unfold Depth; omega) hW.2 hH.2 hf
    exact key _ n0 e0 v0
  · intro c1 c2 h1 h2
    obtain ⟨n0, e0, v0, -⟩ := Pals.C128_new (bits := bits) (by omega) hW.2 hH.2 h1 h2
    exact key _ n0 e0 v0

/-- C178: at (1/2, 1/2) with the exponent 2 the value is 1/2, for every library that computes 1/4 exactly. A picture of this point with
2 ^ 24 colours has the luminosity 226. -/
example : multisuperellipseF (fun x d => x ^ d) (1 / 2) (1 / 2) 2 255 = 1 / 2 ∧ shadeQ (1, 1 / 2, 0) (1 / 2) = 226 * 65536 + 113 * 256 := by decide +kernel

example : (do
    let fs ← savemultisuperellipsefractal2file (fun x d => x ^ d) (fun _ => none) "a" 2 1 2 (4, 0, 2, 0) (.mono (1, 1, 1)) 24 255
    pure ((fs "a").map fun n => (pix n 2 1 24 0 0, pix n 2 1 24 1 0))) = .ok (some (236 * 65793, 156 * 65793)) := by decide +kernel

end Verif.Props.Superellipse
