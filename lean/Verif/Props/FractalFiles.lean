import Verif.Model.FractalFiles
import Verif.Props.Escape
import Verif.Props.Hilbert
/-! Property C165: the saved pictures of fractals show, pixel by pixel, the values of the points. -/

namespace Verif.Props.FractalFiles
open Verif Spec Model Props Escape

/-- The point of the plane that belongs to a pixel. -/
noncomputable def point (W H : Nat) (dom : ℚ × ℚ × ℚ × ℚ) (x y : Nat) : ℂ := ⟨domainAt dom.1 dom.2.1 0 W x, domainAt dom.2.2.1 dom.2.2.2 0 H y⟩

/-- The saved file is a valid image with the palette of the factors, and every pixel shows the value `V` of its point. -/
def Shows (fs : Files) (r : Py Files) (file : String) (W H bits : Nat) (dom : ℚ × ℚ × ℚ × ℚ) (f : ℚ × ℚ × ℚ) (V : ℂ → Int → Prop) : Prop :=
  ∃ fs', r = .ok fs' ∧ Saved fs fs' file fun n => Valid n W H bits ∧
    (∀ x y, x < W → y < H → ∃ k, V (point W H dom x y) k ∧ pix n W H bits x y = shade bits f.1 f.2.1 f.2.2 k) ∧
    (bits ≠ 24 → ∀ k < 2 ^ bits, rgbI (palRGB n k) = shadeRGB f (lumOf (Pals.grey bits k)))

/-- `k` is the first number below `m` with the property, or `m` if there is none. -/
def First (P : Nat → Prop) (m : Nat) (k : Int) : Prop := (∃ i : Nat, i < m ∧ k = i ∧ P i ∧ ∀ j < i, ¬ P j) ∨ (k = m ∧ ∀ j < m, ¬ P j)

/-- The orbit of `z` is farther than 2 from 0 after `k + 1` steps for the first time. -/
def Escapes (step : ℂ → ℂ) (z : ℂ) (m : Nat) (k : Int) : Prop := First (fun j => 2 < ‖step^[j + 1] z‖) m k

/-- Biomorphs: both parts exceed 5 after `k + 1` steps, and none did before; otherwise the value is `m`. -/
def Bio (f : ℂ → ℂ) (z : ℂ) (m : Nat) (k : Int) : Prop :=
  let hit := fun i => (5 < |(f^[i + 1] z).re| ∧ 5 < |(f^[i + 1] z).im|) ∧ ∀ j < i, |(f^[j + 1] z).re| ≤ 5 ∧ |(f^[j + 1] z).im| ≤ 5
  (∃ i : Nat, i < m ∧ k = i ∧ hit i) ∨ (k = m ∧ ¬ ∃ i < m, hit i)

/-- The sum of the values `add` along the orbit exceeds `lim` after `i + 1` steps for the first time, and the value is `i % m`;
it is `m` if this does not happen in `lim` steps. -/
def SumEscapes (step : ℂ → ℂ) (add : ℂ → ℝ) (lim : Nat) (z : ℂ) (m : Nat) (k : Int) : Prop :=
  let sum := fun n => ∑ j ∈ Finset.range n, add (step^[j + 1] z)
  (∃ i : Nat, i < lim ∧ k = (i % m : Nat) ∧ (lim : ℝ) < |sum (i + 1)| ∧ ∀ j < i, |sum (j + 1)| ≤ lim) ∨ (k = m ∧ ∀ j < lim, |sum (j + 1)| ≤ lim)

theorem shows (fs : Files) (file : String) {W H bits : Nat} (hd : Depth bits) (hW : 0 < W ∧ W < 2 ^ 24) (hH : 0 < H ∧ H < 2 ^ 24)
    (dom : ℚ × ℚ × ℚ × ℚ) {f : ℚ × ℚ × ℚ} (hf : Pals.Unit f) (g : ℂ → Int) (hg : ∀ z, 0 ≤ g z ∧ g z < 256) (V : ℂ → Int → Prop) (hV : ∀ z, V z (g z)) :
    Shows fs (savePoints fs file W H g dom (.mono f) bits) file W H bits dom f V := by
  obtain ⟨fs', e, ⟨b, hb, hv, hp, hpal⟩, ho⟩ := C152_file fs file hd hW hH (fun p q => g ⟨p, q⟩) (fun p q => hg _) dom hf
  exact ⟨fs', e, ⟨b, hb, hv, fun x y hx hy => ⟨_, hV _, hp x y hx hy⟩, hpal⟩, ho⟩

theorem escapes {step : ℂ → ℂ} {out : ℂ → Bool} (ho : ∀ z, out z = true ↔ 2 < ‖z‖) (z : ℂ) (m : Nat) : Escapes step z m (escape step out z m) := by
  have hf : ∀ z, out z = false ↔ ¬ 2 < ‖z‖ := by
    intro z
    rw [← ho]
    simp
  rcases Nat.lt_or_ge (escape step out z m) m with h | h
  · obtain ⟨h1, h2⟩ := (C109_escape step out z m _ h).mp rfl
    exact .inl ⟨_, h, rfl, (ho _).mp h1, fun j hj => (hf _).mp (h2 j hj)⟩
  · have h := le_antisymm (C109_le step out z m) h
    exact .inr ⟨by rw [h], fun j hj => (hf _).mp ((C109_inside step out z m).mp h j hj)⟩

theorem escape_range (step : ℂ → ℂ) (out : ℂ → Bool) (z : ℂ) {m : Nat} (hm : m < 256) : 0 ≤ (escape step out z m : Int) ∧ (escape step out z m : Int) < 256 := by
  have := C109_le step out z m
  omega

theorem beyond2_iff (z : ℂ) : beyond2 z = true ↔ 2 < ‖z‖ := by
  unfold beyond2
  rw [decide_eq_true_iff]

theorem square_iff (z : ℂ) : decide (4 < (z * starRingEnd ℂ z).re) = true ↔ 2 < ‖z‖ := by
  rw [decide_eq_true_iff, Complex.mul_conj, Complex.ofReal_re, Complex.normSq_eq_norm_sq]
  have := norm_nonneg z
  constructor <;> intro h <;> nlinarith

variable {fs : Files} {file : String} {W H bits : Nat} {dom : ℚ × ℚ × ℚ × ℚ} {f : ℚ × ℚ × ℚ} {m : Nat}

/-- C165: Mandelbrot sets and their relatives: each pixel shows after how many steps the orbit of 0 under `z ↦ z ^ d + c` leaves the circle of radius 2, where
`c` is the point of the pixel; for the tricorn and its relatives with the conjugate of `z`. -/
theorem C165_mandelbrot (hd : Depth bits) (hW : 0 < W ∧ W < 2 ^ 24) (hH : 0 < H ∧ H < 2 ^ 24) (hf : Pals.Unit f) (hm : m < 256) (d : Nat) :
    Shows fs (savemandelbrotfractal2file fs file W H dom (.mono f) bits m) file W H bits dom f (fun c => Escapes (fun z => z ^ 2 + c) 0 m) ∧
    Shows fs (savemultibrotfractal2file fs file W H d dom (.mono f) bits m) file W H bits dom f (fun c => Escapes (fun z => z ^ d + c) 0 m) ∧
    Shows fs (savetricornfractal2file fs file W H dom (.mono f) bits m) file W H bits dom f (fun c => Escapes (fun z => (starRingEnd ℂ z) ^ 2 + c) 0 m) ∧
    Shows fs (savemulticornfractal2file fs file W H d dom (.mono f) bits m) file W H bits dom f (fun c => Escapes (fun z => (starRingEnd ℂ z) ^ d + c) 0 m) :=
  ⟨shows fs file hd hW hH dom hf _ (fun _ => escape_range _ _ _ hm) _ fun _ => escapes beyond2_iff _ _,
    shows fs file hd hW hH dom hf _ (fun _ => escape_range _ _ _ hm) _ fun _ => escapes beyond2_iff _ _,
    shows fs file hd hW hH dom hf _ (fun _ => escape_range _ _ _ hm) _ fun _ => escapes beyond2_iff _ _,
    shows fs file hd hW hH dom hf _ (fun _ => escape_range _ _ _ hm) _ fun _ => escapes beyond2_iff _ _⟩

/-- C165: Julia sets: each pixel shows after how many steps the orbit of its point leaves the circle of radius 2. -/
theorem C165_julia (hd : Depth bits) (hW : 0 < W ∧ W < 2 ^ 24) (hH : 0 < H ∧ H < 2 ^ 24) (hf : Pals.Unit f) (hm : m < 256) (c : ℂ) (d : Nat) :
    Shows fs (savejuliafractal2file fs file W H c dom (.mono f) bits m) file W H bits dom f (Escapes (fun z => z ^ 2 + c) · m) ∧
    Shows fs (savemultijuliafractal2file fs file W H c d dom (.mono f) bits m) file W H bits dom f (Escapes (fun z => z ^ d + c) · m) ∧
    Shows fs (savelambdafractal2file fs file W H c dom (.mono f) bits m) file W H bits dom f (Escapes (fun z => c * z * (1 - z)) · m) ∧
    Shows fs (savespiraljulia2file fs file W H c dom (.mono f) bits m) file W H bits dom f (Escapes (fun z => Complex.tan (z * z + c)) · m) ∧
    Shows fs (savebarnsleytreefractal2file fs file W H c dom (.mono f) bits m) file W H bits dom f
      (Escapes (fun z => c * (z - if 0 < z.re then 1 else if z.re < 0 then -1 else 0)) · m) := by
  refine ⟨shows fs file hd hW hH dom hf _ (fun _ => escape_range _ _ _ hm) _ fun _ => escapes square_iff _ _,
    shows fs file hd hW hH dom hf _ (fun _ => escape_range _ _ _ hm) _ fun _ => escapes square_iff _ _,
    shows fs file hd hW hH dom hf _ (fun _ => escape_range _ _ _ hm) _ fun _ => escapes beyond2_iff _ _,
    shows fs file hd hW hH dom hf _ (fun _ => escape_range _ _ _ hm) _ fun _ => escapes beyond2_iff _ _,
    shows fs file hd hW hH dom hf _ (fun _ => escape_range _ _ _ hm) _ fun w => ?_⟩
  have : (fun z : ℂ => c * (z - if 0 < z.re then 1 else if z.re < 0 then -1 else 0)) = fun z => c * (z - (signR z.re : ℂ)) := by
    funext z
    unfold signR
    rcases lt_trichotomy z.re 0 with h | h | h
    · rw [if_neg (by linarith), if_pos h, if_neg (by linarith), if_neg (by linarith)]; simp
    · rw [if_neg (by linarith), if_neg (by linarith), if_neg (by linarith), if_pos h]; simp
    · rw [if_pos h, if_pos h]; simp
  rw [this]
  exact escapes beyond2_iff _ _

theorem sum_escapes (step : ℂ → ℂ) (add : ℂ → ℝ) (lim : Nat) (z : ℂ) (m : Nat) : SumEscapes step add lim z m (sumEscape step add lim z m) := by
  obtain ⟨h1, h2⟩ := C151_sum step add lim z m
  by_cases h : ∀ j < lim, |partSum step add z (j + 1)| ≤ lim
  · exact .inr ⟨by rw [h2 h], h⟩
  · push Not at h
    classical
    have hex : ∃ j, j < lim ∧ (lim : ℝ) < |partSum step add z (j + 1)| := h
    obtain ⟨a1, a2⟩ := Nat.find_spec hex
    have hb : ∀ j < Nat.find hex, |partSum step add z (j + 1)| ≤ lim := by
      intro j hj
      have := Nat.find_min hex hj
      push Not at this
      exact this (by omega)
    exact .inl ⟨Nat.find hex, a1, by rw [h1 _ a1 a2 hb], a2, hb⟩

theorem sum_range (step : ℂ → ℂ) (add : ℂ → ℝ) (lim : Nat) (z : ℂ) {m : Nat} (hm : 0 < m ∧ m < 256) :
    0 ≤ (sumEscape step add lim z m : Int) ∧ (sumEscape step add lim z m : Int) < 256 := by
  have := sum_le step add lim z hm.1
  omega

/-- C165: pictures of sums along the orbits. -/
theorem C165_sums (hd : Depth bits) (hW : 0 < W ∧ W < 2 ^ 24) (hH : 0 < H ∧ H < 2 ^ 24) (hf : Pals.Unit f) (hm : 0 < m ∧ m < 256) (c : ℂ) (d : Nat) (t : ℝ) :
    Shows fs (savesinjulia2file fs file W H c dom (.mono f) bits m) file W H bits dom f (SumEscapes (fun z => c * Complex.sin z) Complex.im 50 · m) ∧
    Shows fs (savecosjulia2file fs file W H c dom (.mono f) bits m) file W H bits dom f (SumEscapes (fun z => c * Complex.cos z) Complex.im 50 · m) ∧
    Shows fs (savetetrationfractal2file fs file W H d dom (.mono f) bits m) file W H bits dom f (SumEscapes (fun z => z ^ z) Complex.im d · m) ∧
    Shows fs (savemarekdragon2file fs file W H t dom (.mono f) bits m) file W H bits dom f
      (SumEscapes (fun z => z * (⟨Real.cos (2 * Real.pi * t), Real.sin (2 * Real.pi * t)⟩ + z)) (fun z => |z.im|) 65 · m) := by
  refine ⟨shows fs file hd hW hH dom hf _ (fun _ => sum_range _ _ _ _ hm) _ fun _ => sum_escapes _ _ _ _ _,
    shows fs file hd hW hH dom hf _ (fun _ => sum_range _ _ _ _ hm) _ fun _ => sum_escapes _ _ _ _ _,
    shows fs file hd hW hH dom hf _ (fun _ => sum_range _ _ _ _ hm) _ fun _ => sum_escapes _ _ _ _ _,
    shows fs file hd hW hH dom hf _ (fun _ => sum_range _ _ _ _ hm) _ fun z => ?_⟩
  have : (⟨Real.cos (2 * Real.pi * t), Real.sin (2 * Real.pi * t)⟩ : ℂ) = Complex.exp (2 * Real.pi * Complex.I * t) := by
    rw [show (2 * Real.pi * Complex.I * t : ℂ) = ((2 * Real.pi * t : ℝ) : ℂ) * Complex.I by push_cast; ring, Complex.exp_mul_I,
      ← Complex.ofReal_cos, ← Complex.ofReal_sin]
    apply Complex.ext
    · rw [Complex.add_re, Complex.mul_I_re, Complex.ofReal_re, Complex.ofReal_im, neg_zero, add_zero]
    · rw [Complex.add_im, Complex.mul_I_im, Complex.ofReal_re, Complex.ofReal_im, zero_add]
  rw [this]
  exact sum_escapes _ _ _ _ _

theorem bio (g : ℂ → ℂ) (z : ℂ) (m : Nat) : Bio g z m (biomorph g 5 z m) := by
  classical
  have h := biomorphFrom_eq g (fun z => decide ((5 : ℝ) < |z.re|)) (fun z => decide ((5 : ℝ) < |z.im|)) m m 0 z (by omega)
  simp only [decide_eq_true_eq, decide_eq_false_iff_not, not_lt, zero_add] at h
  rcases h with ⟨k, hk, e, h1, h2⟩ | ⟨e, h⟩
  · exact .inl ⟨k, hk, by unfold biomorph biomorphfunc; convert congrArg (Nat.cast (R := Int)) e, h1, h2⟩
  · exact .inr ⟨by unfold biomorph biomorphfunc; convert congrArg (Nat.cast (R := Int)) e, h⟩

theorem bio_range (g : ℂ → ℂ) (z : ℂ) {m : Nat} (hm : m < 256) : 0 ≤ (biomorph g 5 z m : Int) ∧ (biomorph g 5 z m : Int) < 256 := by
  rcases bio g z m with ⟨i, hi, e, -⟩ | ⟨e, -⟩ <;> omega

/-- C165: pictures of biomorphs. -/
theorem C165_biomorphs (hd : Depth bits) (hW : 0 < W ∧ W < 2 ^ 24) (hH : 0 < H ∧ H < 2 ^ 24) (hf : Pals.Unit f) (hm : m < 256) (c : ℂ) (d : Nat) (t : ℝ) :
    Shows fs (savemultibiomorphfractal2file fs file W H c d dom (.mono f) bits m) file W H bits dom f (Bio (fun z => z ^ d + c) · m) ∧
    Shows fs (savemultizconjugatebiomorphfractal2file fs file W H c d dom (.mono f) bits m) file W H bits dom f (Bio (fun z => (starRingEnd ℂ z) ^ d + c) · m) ∧
    Shows fs (savemultibiomorphphasevariantfractal2file fs file W H c t dom (.mono f) bits m) file W H bits dom f
      (Bio (fun z => z ^ ((t + |Complex.arg z| : ℝ) : ℂ) + c) · m) ∧
    Shows fs (savemultisinbiomorphfractal2file fs file W H c d dom (.mono f) bits m) file W H bits dom f (Bio (fun z => Complex.sin z + z ^ d + c) · m) ∧
    Shows fs (savemulticosbiomorphfractal2file fs file W H c d dom (.mono f) bits m) file W H bits dom f (Bio (fun z => Complex.cos z + z ^ d + c) · m) ∧
    Shows fs (savemultisinhbiomorphfractal2file fs file W H c d dom (.mono f) bits m) file W H bits dom f (Bio (fun z => Complex.sinh z + z ^ d + c) · m) ∧
    Shows fs (savemulticoshbiomorphfractal2file fs file W H c d dom (.mono f) bits m) file W H bits dom f (Bio (fun z => Complex.cosh z + z ^ d + c) · m) ∧
    Shows fs (savemultitanbiomorphfractal2file fs file W H c d dom (.mono f) bits m) file W H bits dom f (Bio (fun z => Complex.tan z + z ^ d + c) · m) ∧
    Shows fs (savemultitanhbiomorphfractal2file fs file W H c d dom (.mono f) bits m) file W H bits dom f (Bio (fun z => Complex.tanh z + z ^ d + c) · m) ∧
    Shows fs (savemultiexpbiomorphfractal2file fs file W H c d dom (.mono f) bits m) file W H bits dom f (Bio (fun z => Complex.exp z + z ^ d + c) · m) ∧
    Shows fs (savemulti2ndtetrationbiomorphfractal2file fs file W H c d dom (.mono f) bits m) file W H bits dom f (Bio (fun z => z ^ z + z ^ d + c) · m) := by
  refine ⟨?_, ?_, ?_, ?_, ?_, ?_, ?_, ?_, ?_, ?_, ?_⟩ <;>
    exact shows fs file hd hW hH dom hf _ (fun _ => bio_range _ _ hm) _ fun _ => bio _ _ _

theorem ngon_first (c : ℂ) (n m : Nat) : ∀ (fuel i : Nat) (z : ℂ), i + fuel = m →
    (∃ j, j < fuel ∧ ngonfunc.loop c n m fuel i z = i + j ∧ ((fun z => (z ^ n + c) / z)^[j] z = 0 ∨ 2 < ‖(fun z => (z ^ n + c) / z)^[j + 1] z‖) ∧
      ∀ l < j, ¬ ((fun z => (z ^ n + c) / z)^[l] z = 0 ∨ 2 < ‖(fun z => (z ^ n + c) / z)^[l + 1] z‖)) ∨
    (ngonfunc.loop c n m fuel i z = m ∧ ∀ l < fuel, ¬ ((fun z => (z ^ n + c) / z)^[l] z = 0 ∨ 2 < ‖(fun z => (z ^ n + c) / z)^[l + 1] z‖))
  | 0, i, z, h => .inr ⟨rfl, fun l hl => by omega⟩
  | fuel + 1, i, z, h => by
    unfold ngonfunc.loop
    dsimp only
    split_ifs with h0 hb
    · exact .inl ⟨0, by omega, rfl, .inl h0, fun l hl => by omega⟩
    · exact .inl ⟨0, by omega, rfl, .inr ((beyond2_iff _).mp hb), fun l hl => by omega⟩
    · have hb' : ¬ 2 < ‖(z ^ n + c) / z‖ := fun h => hb ((beyond2_iff _).mpr h)
      rcases ngon_first c n m fuel (i + 1) ((z ^ n + c) / z) (by omega) with ⟨j, hj, e, h1, h2⟩ | ⟨e, h2⟩
      · refine .inl ⟨j + 1, by omega, by rw [e]; omega, h1, fun l hl => ?_⟩
        cases l with
        | zero => exact fun h => h.elim h0 hb'
        | succ l => exact h2 l (by omega)
      · refine .inr ⟨e, fun l hl => ?_⟩
        cases l with
        | zero => exact fun h => h.elim h0 hb'
        | succ l => exact h2 l (by omega)

/-- C165: pictures of the map `z ↦ (z ^ n + c) / z`: each pixel shows after how many steps its orbit meets 0 or leaves the circle of radius 2. -/
theorem C165_ngon (hd : Depth bits) (hW : 0 < W ∧ W < 2 ^ 24) (hH : 0 < H ∧ H < 2 ^ 24) (hf : Pals.Unit f) (hm : m < 256) (c : ℂ) (n : Nat) :
    Shows fs (savengonfractal2file fs file W H c n dom (.mono f) bits m) file W H bits dom f (fun z =>
      First (fun j => (fun z => (z ^ n + c) / z)^[j] z = 0 ∨ 2 < ‖(fun z => (z ^ n + c) / z)^[j + 1] z‖) m) := by
  have key : ∀ z, First (fun j => (fun z => (z ^ n + c) / z)^[j] z = 0 ∨ 2 < ‖(fun z => (z ^ n + c) / z)^[j + 1] z‖) m (ngonfunc z c n m) := by
    intro z
    rcases ngon_first c n m m 0 z (by omega) with ⟨j, hj, e, h1, h2⟩ | ⟨e, h2⟩
    · exact .inl ⟨j, hj, by unfold ngonfunc; rw [e]; omega, h1, h2⟩
    · exact .inr ⟨by unfold ngonfunc; rw [e], h2⟩
  refine shows fs file hd hW hH dom hf _ (fun z => ?_) _ key
  rcases key z with ⟨i, hi, e, -⟩ | ⟨e, -⟩ <;> omega

/-- `k` is an integer next to `t`, reduced modulo `m`. -/
def RoundMod (t : ℝ) (m : Nat) (k : Int) : Prop := ∃ j : Int, |(j : ℝ) - t| ≤ 1 / 2 ∧ k = j % m

theorem mod_range {m : Nat} (hm : 0 < m ∧ m ≤ 256) (j : Int) : 0 ≤ j % m ∧ j % m < 256 := by
  have h1 := Int.emod_nonneg j (by omega : (m : Int) ≠ 0)
  have h2 := Int.emod_lt_of_pos j (by omega : (0 : Int) < m)
  omega

/-- C165: pictures of functions of the coordinates. -/
theorem C165_curves (hd : Depth bits) (hW : 0 < W ∧ W < 2 ^ 24) (hH : 0 < H ∧ H < 2 ^ 24) (hf : Pals.Unit f) (hm : 0 < m ∧ m ≤ 256) (d : Nat) (r : ℝ) :
    Shows fs (savemulticirclefractal2file fs file W H r dom (.mono f) bits m) file W H bits dom f (fun z => RoundMod (‖z‖ ^ r) m) ∧
    Shows fs (savemultihyperbolafractal2file fs file W H d dom (.mono f) bits m) file W H bits dom f (fun z => RoundMod |z.re ^ d - z.im ^ d| m) ∧
    Shows fs (saveastroidfractal2file fs file W H r dom (.mono f) bits m) file W H bits dom f
      (fun z => RoundMod |(‖z‖ ^ 2 - r ^ 2) ^ 3 + 27 * z.re ^ 2 * z.im ^ 2 * r ^ 2| m) ∧
    Shows fs (savelemniscatefractal2file fs file W H r dom (.mono f) bits m) file W H bits dom f
      (fun z k => ∃ j : Int, k = j % m ∧ (j : ℝ) ≤ |(‖z - r‖ * ‖z + r‖) ^ 2 - r ^ 4| ∧ |(‖z - r‖ * ‖z + r‖) ^ 2 - r ^ 4| < j + 1) := by
  refine ⟨shows fs file hd hW hH dom hf _ (fun _ => mod_range hm _) _ fun z => ?_, shows fs file hd hW hH dom hf _ (fun _ => mod_range hm _) _ fun z => ?_,
    shows fs file hd hW hH dom hf _ (fun _ => mod_range hm _) _ fun z => ?_, shows fs file hd hW hH dom hf _ (fun _ => mod_range hm _) _ fun z => ?_⟩
  · have e := C151_circle z.re z.im r m
    have hn : Real.sqrt (z.re ^ 2 + z.im ^ 2) = ‖z‖ := by rw [Complex.norm_def, Complex.normSq_apply]; congr 1; ring
    rw [hn] at e
    exact ⟨_, Plane.rndR_near _, e⟩
  · exact ⟨_, Plane.rndR_near _, rfl⟩
  · refine ⟨_, Plane.rndR_near _, ?_⟩
    have hn : ‖z‖ ^ 2 = z.re * z.re + z.im * z.im := by rw [← Complex.normSq_eq_norm_sq, Complex.normSq_apply]
    rw [hn]
    have e : (z.re * z.re + z.im * z.im - r * r) ^ 3 + 27 * (z.re * z.re) * (z.im * z.im) * (r * r) =
        (z.re * z.re + z.im * z.im - r ^ 2) ^ 3 + 27 * z.re ^ 2 * z.im ^ 2 * r ^ 2 := by ring
    rw [← e]
  · have e := C151_lemniscate z.re z.im r m
    have h1 : (⟨z.re - r, z.im⟩ : ℂ) = z - r := by apply Complex.ext <;> simp
    have h2 : (⟨z.re + r, z.im⟩ : ℂ) = z + r := by apply Complex.ext <;> simp
    rw [h1, h2] at e
    refine ⟨_, e, ?_, ?_⟩
    · unfold truncR
      rw [if_pos (abs_nonneg _)]
      exact Int.floor_le _
    · unfold truncR
      rw [if_pos (abs_nonneg _)]
      exact Int.lt_floor_add_one _

/-- C165: pictures of exclusive or, for a domain without negative coordinates. -/
theorem C165_xor (hd : Depth bits) (hW : 0 < W ∧ W < 2 ^ 24) (hH : 0 < H ∧ H < 2 ^ 24) (hf : Pals.Unit f) (hm : 0 < m ∧ m ≤ 256) (d : Nat)
    (h0 : ∀ x y, x < W → y < H → 0 ≤ (point W H dom x y).re ∧ 0 ≤ (point W H dom x y).im) :
    Shows fs (savexorfractal2file fs file W H d dom (.mono f) bits m) file W H bits dom f (fun z k =>
      ∃ u v : Nat, (u : Int) = ⌊z.re⌋ ∧ (v : Int) = ⌊z.im⌋ ∧ k = ((u ^^^ v) % d % m : Nat)) ∧
    Shows fs (savexordivfractal2file fs file W H d dom (.mono f) bits m) file W H bits dom f (fun z k =>
      ∃ u v : Nat, (u : Int) = ⌊z.re⌋ ∧ (v : Int) = ⌊z.im⌋ ∧ k = ((u ^^^ v) / d % m : Nat)) := by
  have key : ∀ (g : ℝ → ℝ → Nat → Nat → Nat) (op : Nat → Nat), (∀ p q, g p q d m = op ((truncR p).toNat ^^^ (truncR q).toNat) % m) →
      Shows fs (savePoints fs file W H (fun z => (g z.re z.im d m : Nat)) dom (.mono f) bits) file W H bits dom f (fun z k =>
        ∃ u v : Nat, (u : Int) = ⌊z.re⌋ ∧ (v : Int) = ⌊z.im⌋ ∧ k = (op (u ^^^ v) % m : Nat)) := by
    intro g op hg
    obtain ⟨fs', e, ⟨b, hb, hv, hp, hpal⟩, ho⟩ := shows fs file hd hW hH dom hf (fun z => (g z.re z.im d m : Nat)) (fun z => by
      rw [hg]
      have := Nat.mod_lt (op ((truncR z.re).toNat ^^^ (truncR z.im).toNat)) hm.1
      omega) (fun z k => k = (g z.re z.im d m : Nat)) (fun z => rfl)
    refine ⟨fs', e, ⟨b, hb, hv, fun x y hx hy => ?_, hpal⟩, ho⟩
    obtain ⟨k, rfl, hk⟩ := hp x y hx hy
    refine ⟨_, ?_, hk⟩
    obtain ⟨p0, q0⟩ := h0 x y hx hy
    refine ⟨⌊(point W H dom x y).re⌋.toNat, ⌊(point W H dom x y).im⌋.toNat, ?_, ?_, ?_⟩
    · have := Int.floor_nonneg.mpr p0
      omega
    · have := Int.floor_nonneg.mpr q0
      omega
    · rw [hg]
      unfold truncR
      rw [if_pos p0, if_pos q0]
  exact ⟨key xorfn (· % d) fun _ _ => rfl, key xordivfn (· / d) fun _ _ => rfl⟩

/-- The picture in the file has the same pixel at places whose points are related by `R`. -/
def Symmetric (r : Py Files) (file : String) (W H bits : Nat) (dom : ℚ × ℚ × ℚ × ℚ) (R : ℂ → ℂ → Prop) : Prop :=
  ∃ fs' b, r = .ok fs' ∧ fs' file = some b ∧ Valid b W H bits ∧ ∀ x y x' y', x < W → y < H → x' < W → y' < H →
    R (point W H dom x y) (point W H dom x' y') → pix b W H bits x y = pix b W H bits x' y'

theorem symmetric (hd : Depth bits) (hW : 0 < W ∧ W < 2 ^ 24) (hH : 0 < H ∧ H < 2 ^ 24) (hf : Pals.Unit f) {g : ℂ → Int} (hg : ∀ z, 0 ≤ g z ∧ g z < 256)
    {R : ℂ → ℂ → Prop} (hR : ∀ z w, R z w → g z = g w) : Symmetric (savePoints fs file W H g dom (.mono f) bits) file W H bits dom R := by
  obtain ⟨fs', e, ⟨b, hb, hv, hp, -⟩, -⟩ := shows fs file hd hW hH dom hf g hg (fun z k => k = g z) (fun _ => rfl)
  refine ⟨fs', b, e, hb, hv, fun x y x' y' hx hy hx' hy' h => ?_⟩
  obtain ⟨k, rfl, e1⟩ := hp x y hx hy
  obtain ⟨k, rfl, e2⟩ := hp x' y' hx' hy'
  rw [e1, e2, hR _ _ h]

/-- C165: pictures of Mandelbrot sets are the same above and below the real axis, and pictures of Julia sets `z ^ 2 + c` the same on both sides of 0. -/
theorem C165_symmetric (hd : Depth bits) (hW : 0 < W ∧ W < 2 ^ 24) (hH : 0 < H ∧ H < 2 ^ 24) (hf : Pals.Unit f) (hm : m < 256) (c : ℂ) (d : Nat) :
    Symmetric (savemandelbrotfractal2file fs file W H dom (.mono f) bits m) file W H bits dom (fun z w => w = starRingEnd ℂ z) ∧
    Symmetric (savemultibrotfractal2file fs file W H d dom (.mono f) bits m) file W H bits dom (fun z w => w = starRingEnd ℂ z) ∧
    Symmetric (savejuliafractal2file fs file W H c dom (.mono f) bits m) file W H bits dom (fun z w => w = -z) := by
  refine ⟨symmetric hd hW hH hf (fun _ => escape_range _ _ _ hm) ?_, symmetric hd hW hH hf (fun _ => escape_range _ _ _ hm) ?_,
    symmetric hd hW hH hf (fun _ => escape_range _ _ _ hm) ?_⟩
  · rintro z w rfl
    exact congrArg Nat.cast (C109_mirror z 2 m).symm
  · rintro z w rfl
    exact congrArg Nat.cast (C109_mirror z d m).symm
  · rintro z w rfl
    have h : ∀ (n k : Nat), n + k = m → escapeFrom (fun z => z ^ 2 + c) (fun z => decide (4 < (z * starRingEnd ℂ z).re)) m n k (-z) =
        escapeFrom (fun z => z ^ 2 + c) (fun z => decide (4 < (z * starRingEnd ℂ z).re)) m n k z := by
      intro n k _
      cases n with
      | zero => rfl
      | succ n =>
        unfold escapeFrom
        dsimp only
        rw [neg_sq]
    unfold escape
    rw [h m 0 (by omega)]

/-- C165: with a domain that reaches equally far up and down and a power of two of rows, row `H - y` belongs to the points opposite to those of row `y`. -/
theorem C165_rows {R k y : Nat} (hR : R * 2 ^ (k + 1) ≤ 2 ^ 53) (hy : y ≤ 2 ^ k) :
    domainAt R (-R) 0 (2 ^ k : Nat) ((2 ^ k : Nat) - y) = - domainAt R (-R) 0 (2 ^ k : Nat) y := by
  have hp : (0 : ℚ) < 2 ^ k := by positivity
  have hR' : (R : ℚ) * 2 ^ (k + 1) ≤ 2 ^ 53 := by exact_mod_cast hR
  have h2 : ((2 * R : ℕ) : ℚ) * 2 ^ k ≤ 2 ^ 53 := by
    rw [pow_succ] at hR'
    push_cast
    linarith
  have hR0 : (0 : ℚ) ≤ R := Nat.cast_nonneg R
  have key : ∀ t : Nat, t ≤ 2 ^ k → domainAt R (-R) 0 (2 ^ k : Nat) t = -R + 2 * R * t / 2 ^ k := by
    intro t ht
    have ht' : (t : ℚ) ≤ 2 ^ k := by exact_mod_cast ht
    have ht0 : (0 : ℚ) ≤ t := Nat.cast_nonneg t
    have hle : 2 * (R : ℚ) * t / 2 ^ k ≤ 2 * R := by
      rw [div_le_iff₀ hp]
      exact mul_le_mul_of_nonneg_left ht' (by linarith)
    have h0 : 0 ≤ 2 * (R : ℚ) * t / 2 ^ k := by positivity
    unfold domainAt
    have e1 : fl ((R : ℚ) - -R) = 2 * R := by
      rw [show (R : ℚ) - -R = 2 * R by ring]
      refine fl_grid (M := k) (R := ((2 * R : ℕ) : ℚ)) ⟨2 * R * 2 ^ k, ?_⟩ ?_ h2
      · push_cast
        field_simp
      · rw [abs_of_nonneg (by linarith)]; push_cast; exact le_rfl
    have e2 : fl (2 * (R : ℚ) / (((2 ^ k : Nat) : Int) - 0 : Int)) = 2 * R / 2 ^ k := by
      rw [show ((((2 ^ k : Nat) : Int) - 0 : Int) : ℚ) = 2 ^ k by push_cast; ring]
      refine fl_grid (M := k) (R := ((2 * R : ℕ) : ℚ)) ⟨2 * R, ?_⟩ ?_ h2
      · push_cast; rfl
      · rw [abs_of_nonneg (by positivity)]
        push_cast
        exact div_le_self (by linarith) (one_le_pow₀ (by norm_num))
    have e3 : fl ((((t : Int) - 0 : Int) : ℚ) * (2 * R / 2 ^ k)) = 2 * R * t / 2 ^ k := by
      rw [show (((t : Int) - 0 : Int) : ℚ) * (2 * R / 2 ^ k) = 2 * R * t / 2 ^ k by push_cast; ring]
      refine fl_grid (M := k) (R := ((2 * R : ℕ) : ℚ)) ⟨2 * R * t, ?_⟩ ?_ h2
      · push_cast; rfl
      · rw [abs_of_nonneg h0]; push_cast; exact hle
    have e4 : fl (-(R : ℚ) + 2 * R * t / 2 ^ k) = -R + 2 * R * t / 2 ^ k := by
      refine fl_grid (M := k) (R := ((2 * R : ℕ) : ℚ)) ⟨-R * 2 ^ k + 2 * R * t, ?_⟩ ?_ h2
      · push_cast
        field_simp
      · push_cast
        rw [abs_le]
        constructor <;> linarith
    rw [e1, e2, e3, e4]
  have hsub : ((2 ^ k : Nat) : Int) - y = ((2 ^ k - y : Nat) : Int) := by omega
  rw [hsub, key _ (by omega), key _ hy, Nat.cast_sub hy]
  push_cast
  field_simp
  ring

/-- The rows of a picture with four rows of the domain from -2 to 2: row 1 belongs to -1, and row 3 to 1. -/
example : domainAt 2 (-2) 0 4 3 = - domainAt 2 (-2) 0 4 1 ∧ domainAt 2 (-2) 0 4 1 = -1 := by decide +kernel

theorem variant_first (c : ℂ) (d m : Nat) (a : ℝ) : ∀ (fuel : Nat) (z : ℂ),
    (∃ i, i < fuel ∧ multibiomorphvariant.loop c d m a fuel z = rndR ‖(fun z => z ^ d + c)^[i + 1] z‖ % m ∧
      (a < |((fun z => z ^ d + c)^[i + 1] z).re| ∨ a < |((fun z => z ^ d + c)^[i + 1] z).im|) ∧
      ∀ j < i, ¬ (a < |((fun z => z ^ d + c)^[j + 1] z).re| ∨ a < |((fun z => z ^ d + c)^[j + 1] z).im|)) ∨
    (multibiomorphvariant.loop c d m a fuel z = m ∧
      ∀ j < fuel, ¬ (a < |((fun z => z ^ d + c)^[j + 1] z).re| ∨ a < |((fun z => z ^ d + c)^[j + 1] z).im|))
  | 0, z => .inr ⟨rfl, fun j hj => by omega⟩
  | fuel + 1, z => by
    unfold multibiomorphvariant.loop
    dsimp only
    split_ifs with h
    · exact .inl ⟨0, by omega, rfl, h, fun j hj => by omega⟩
    · rcases variant_first c d m a fuel (z ^ d + c) with ⟨i, hi, e, h1, h2⟩ | ⟨e, h2⟩
      · refine .inl ⟨i + 1, by omega, e, h1, fun j hj => ?_⟩
        cases j with
        | zero => exact h
        | succ j => exact h2 j (by omega)
      · refine .inr ⟨e, fun j hj => ?_⟩
        cases j with
        | zero => exact h
        | succ j => exact h2 j (by omega)

/-- C165: the variant of the biomorphs shows the distance from 0, rounded and reduced modulo `m`, of the first point of the orbit with a part above 5;
other points have the value `m`. -/
theorem C165_variant (hd : Depth bits) (hW : 0 < W ∧ W < 2 ^ 24) (hH : 0 < H ∧ H < 2 ^ 24) (hf : Pals.Unit f) (hm : 0 < m ∧ m < 256) (c : ℂ) (d : Nat) :
    Shows fs (savemultibiomorphvariantfractal2file fs file W H c d dom (.mono f) bits m) file W H bits dom f (fun z k =>
      let orbit := fun n => (fun z => z ^ d + c)^[n] z
      let out := fun n => 5 < |(orbit n).re| ∨ 5 < |(orbit n).im|
      (∃ i < m, out (i + 1) ∧ (∀ j < i, ¬ out (j + 1)) ∧ RoundMod ‖orbit (i + 1)‖ m k) ∨ (k = m ∧ ∀ j < m, ¬ out (j + 1))) := by
  refine shows fs file hd hW hH dom hf _ (fun z => ?_) _ fun z => ?_
  · rcases variant_first c d m 5 m z with ⟨i, -, e, -⟩ | ⟨e, -⟩
    · unfold multibiomorphvariant
      rw [e]
      exact mod_range ⟨hm.1, by omega⟩ _
    · unfold multibiomorphvariant
      rw [e]
      omega
  · rcases variant_first c d m 5 m z with ⟨i, hi, e, h1, h2⟩ | ⟨e, h2⟩
    · exact .inl ⟨i, hi, h1, h2, _, Plane.rndR_near _, e⟩
    · exact .inr ⟨e, h2⟩

/-- A picture of the Mandelbrot set with two rows and columns: the point -2 - 2i of the first pixel is outside from the first step on, which is shown as a
light grey; the point 0 of the last one stays inside and is black. -/
example (fs : Files) : ∃ fs' b, savemandelbrotfractal2file fs "m.bmp" 2 2 (2, -2, 2, -2) (.mono (1, 1, 1)) 24 255 = .ok fs' ∧ fs' "m.bmp" = some b ∧
    pix b 2 2 24 0 0 = 236 * 65536 + 236 * 256 + 236 ∧ pix b 2 2 24 1 1 = 0 := by
  obtain ⟨fs', e, ⟨b, hb, -, hp, -⟩, -⟩ := (C165_mandelbrot (fs := fs) (file := "m.bmp") (W := 2) (H := 2) (bits := 24) (dom := (2, -2, 2, -2)) (f := (1, 1, 1))
    (m := 255) (.inr (.inr (.inr rfl))) (by decide) (by decide) (by unfold Pals.Unit; norm_num) (by decide) 2).1
  refine ⟨fs', b, e, hb, ?_, ?_⟩
  · obtain ⟨k, h, ek⟩ := hp 0 0 (by decide) (by decide)
    have e0 : point 2 2 (2, -2, 2, -2) 0 0 = ⟨-2, -2⟩ := by
      unfold point
      rw [show domainAt 2 (-2) 0 (2 : Nat) ((0 : Nat) : Int) = -2 by decide +kernel]
      norm_num
    rw [e0] at h
    have hout : (2 : ℝ) < ‖(fun z : ℂ => z ^ 2 + ⟨-2, -2⟩)^[0 + 1] 0‖ := by
      have : (fun z : ℂ => z ^ 2 + ⟨-2, -2⟩)^[0 + 1] 0 = ⟨-2, -2⟩ := by simp
      rw [this, Complex.norm_def, Real.lt_sqrt (by norm_num), Complex.normSq_apply]
      norm_num
    have k0 : k = 0 := by
      rcases h with ⟨i, -, rfl, -, h⟩ | ⟨-, h⟩
      · rcases Nat.eq_zero_or_pos i with rfl | hi
        · rfl
        · exact absurd hout (h 0 hi)
      · exact absurd hout (h 0 (by decide))
    rw [ek, k0]
    decide +kernel
  · obtain ⟨k, h, ek⟩ := hp 1 1 (by decide) (by decide)
    have e0 : point 2 2 (2, -2, 2, -2) 1 1 = 0 := by
      unfold point
      rw [show domainAt 2 (-2) 0 (2 : Nat) ((1 : Nat) : Int) = 0 by decide +kernel]
      apply Complex.ext <;> simp
    rw [e0] at h
    have orbit : ∀ n, (fun z : ℂ => z ^ 2 + 0)^[n] 0 = 0 := by
      intro n
      induction n with
      | zero => rfl
      | succ n ih => rw [Function.iterate_succ_apply', ih]; simp
    have k0 : k = 255 := by
      rcases h with ⟨i, -, -, h, -⟩ | ⟨h, -⟩
      · rw [orbit, norm_zero] at h
        norm_num at h
      · exact h
    rw [ek, k0]
    decide +kernel

end Verif.Props.FractalFiles
