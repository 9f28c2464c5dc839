import Verif.Model.HSL
import Verif.Props.Levels
/-! Property C172: `RGB2HSL` with floats. -/

namespace Verif.Props.HSL
open Verif Spec Model

/-- The greatest and the least of three numbers. -/
def IsMax (m r g b : Nat) : Prop := (r ≤ m ∧ g ≤ m ∧ b ≤ m) ∧ (m = r ∨ m = g ∨ m = b)
def IsMin (m r g b : Nat) : Prop := (m ≤ r ∧ m ≤ g ∧ m ≤ b) ∧ (m = r ∨ m = g ∨ m = b)

/-- The hue in degrees, as a fraction with the denominator `hi - lo`: 0 for red, 120 for green, 240 for blue, and for the
other colours as far from the greatest channel as the difference of the other two tells. -/
def hueNum (r g b hi lo : Nat) : Int :=
  if hi = r then 60 * ((g : Int) - b) + (if g < b then 360 * ((hi : Int) - lo) else 0)
  else if hi = g then 60 * ((b : Int) - r) + 120 * ((hi : Int) - lo)
  else 60 * ((r : Int) - g) + 240 * ((hi : Int) - lo)

/-- The greatest chroma for the luminosity `(hi + lo) / 2`, in steps of 1/255. -/
def chromaMax (hi lo : Nat) : Nat := if hi + lo ≤ 255 then hi + lo else 510 - (hi + lo)

/-! ### Error bounds -/

theorem byte_err {n : Nat} (hn : n ≤ 255) : |divF n 255 - (n : ℚ) / 255| ≤ 1 / 2 ^ 53 := by
  have h := fl_err ((n : ℚ) / 255)
  have h0 : (0 : ℚ) ≤ (n : ℚ) / 255 := by positivity
  have h1 : (n : ℚ) / 255 ≤ 1 := by
    rw [div_le_one (by norm_num)]; exact_mod_cast hn
  rw [abs_of_nonneg h0] at h
  unfold divF
  push_cast
  refine h.trans ?_
  exact div_le_div_of_nonneg_right h1 (by positivity)

theorem byte_lt {m n : Nat} (hm : m ≤ 255) (hn : n ≤ 255) (h : m < n) : divF m 255 < divF n 255 := by
  have h1 := abs_le.mp (byte_err hm)
  have h2 := abs_le.mp (byte_err hn)
  have h3 : (m : ℚ) + 1 ≤ n := by exact_mod_cast h
  have h4 : (1 : ℚ) / 2 ^ 53 < 1 / 1000 := by norm_num
  linarith [h1.1, h1.2, h2.1, h2.2]

theorem byte_lt_iff {m n : Nat} (hm : m ≤ 255) (hn : n ≤ 255) : divF m 255 < divF n 255 ↔ m < n := by
  refine ⟨fun h => ?_, byte_lt hm hn⟩
  by_contra hc
  rcases Nat.lt_or_eq_of_le (Nat.le_of_not_lt hc) with h' | h'
  · exact absurd h (not_lt.mpr (byte_lt hn hm h').le)
  · rw [h'] at h; exact lt_irrefl _ h

theorem byte_inj {m n : Nat} (hm : m ≤ 255) (hn : n ≤ 255) : divF m 255 = divF n 255 ↔ m = n := by
  refine ⟨fun h => ?_, fun h => by rw [h]⟩
  by_contra hc
  rcases Nat.lt_or_gt_of_ne hc with h' | h'
  · exact absurd h (byte_lt hm hn h').ne
  · exact absurd h (byte_lt hn hm h').ne'

/-- One rounded operation with an inexact argument. -/
theorem fl_step {x x0 ε B : ℚ} (h : |x - x0| ≤ ε) (hB : |x0| + ε ≤ B) : |fl x - x0| ≤ ε + B / 2 ^ 53 := by
  have h1 := fl_err x
  have h2 : |x| ≤ B := by
    have := abs_add_le (x - x0) x0
    rw [sub_add_cancel] at this
    linarith
  have h3 : |x| / 2 ^ 53 ≤ B / 2 ^ 53 := div_le_div_of_nonneg_right h2 (by positivity)
  calc |fl x - x0| = |(fl x - x) + (x - x0)| := by ring_nf
    _ ≤ |fl x - x| + |x - x0| := abs_add_le _ _
    _ ≤ _ := by linarith

theorem quot_near {p p0 q q0 : ℚ} (hp : |p - p0| ≤ 16 / 2 ^ 53) (hq : |q - q0| ≤ 16 / 2 ^ 53) (h : |p0| ≤ q0) (h0 : 1 / 255 ≤ q0) :
    |fl (p / q) - p0 / q0| ≤ 1 / 2 ^ 38 := by
  have q0pos : 0 < q0 := lt_of_lt_of_le (by norm_num) h0
  have hq' := abs_le.mp hq
  have hqb : 1 / 510 ≤ q := by
    have : (1 : ℚ) / 255 - 16 / 2 ^ 53 ≥ 1 / 510 := by norm_num
    linarith [hq'.1]
  have qpos : 0 < q := lt_of_lt_of_le (by norm_num) hqb
  have e : p / q - p0 / q0 = ((p - p0) - p0 / q0 * (q - q0)) / q := by field_simp; ring
  have hr : |p0 / q0| ≤ 1 := by rw [abs_div, abs_of_pos q0pos, div_le_one q0pos]; exact h
  have hn : |(p - p0) - p0 / q0 * (q - q0)| ≤ 32 / 2 ^ 53 := by
    have h1 := abs_sub (p - p0) (p0 / q0 * (q - q0))
    rw [abs_mul] at h1
    have h2 : |p0 / q0| * |q - q0| ≤ 1 * (16 / 2 ^ 53) := mul_le_mul hr hq (abs_nonneg _) (by norm_num)
    linarith
  have hd : |p / q - p0 / q0| ≤ 32 * 510 / 2 ^ 53 := by
    rw [e, abs_div, abs_of_pos qpos, div_le_iff₀ qpos]
    have : (32 : ℚ) * 510 / 2 ^ 53 * (1 / 510) ≤ 32 * 510 / 2 ^ 53 * q := mul_le_mul_of_nonneg_left hqb (by norm_num)
    have h3 : (32 : ℚ) * 510 / 2 ^ 53 * (1 / 510) = 32 / 2 ^ 53 := by norm_num
    linarith
  have := fl_step (B := 2) hd (by
    have : (32 : ℚ) * 510 / 2 ^ 53 ≤ 1 := by norm_num
    linarith)
  refine this.trans (by norm_num)

/-- The difference of two bytes. -/
theorem diff_near {m n : Nat} (hm : m ≤ 255) (hn : n ≤ 255) :
    |fl (divF m 255 - divF n 255) - ((m : ℚ) - n) / 255| ≤ 4 / 2 ^ 53 := by
  have h1 := byte_err hm
  have h2 := byte_err hn
  have h3 : |divF m 255 - divF n 255 - ((m : ℚ) - n) / 255| ≤ 2 / 2 ^ 53 := by
    have := abs_sub (divF m 255 - (m : ℚ) / 255) (divF n 255 - (n : ℚ) / 255)
    rw [show divF m 255 - (m : ℚ) / 255 - (divF n 255 - (n : ℚ) / 255) = divF m 255 - divF n 255 - ((m : ℚ) - n) / 255 by ring] at this
    linarith
  have hb : |((m : ℚ) - n) / 255| ≤ 1 := by
    have hm' : (m : ℚ) ≤ 255 := by exact_mod_cast hm
    have hn' : (n : ℚ) ≤ 255 := by exact_mod_cast hn
    have hm0 : (0 : ℚ) ≤ m := by positivity
    have hn0 : (0 : ℚ) ≤ n := by positivity
    rw [abs_le]; constructor <;> linarith
  exact (fl_step (B := 2) h3 (by
    have : (2 : ℚ) / 2 ^ 53 ≤ 1 := by norm_num
    linarith)).trans (by norm_num)

/-- Rounding a number close to a fraction with a small denominator gives a nearest whole number. -/
theorem nearest_of_near {x : ℚ} {a : Int} {d : Nat} (hd : 0 < d) (hd2 : d ≤ 510) (h : |x - (a : ℚ) / d| ≤ 1 / 2 ^ 20) :
    NearestInt (rnd x) a d := by
  have h1 := rnd_near x
  have hdp : (0 : ℚ) < d := by exact_mod_cast hd
  have hd' : (d : ℚ) ≤ 510 := by exact_mod_cast hd2
  have h2 : |(rnd x : ℚ) - (a : ℚ) / d| ≤ 1 / 2 + 1 / 2 ^ 20 := by
    have := abs_add_le ((rnd x : ℚ) - x) (x - (a : ℚ) / d)
    rw [sub_add_sub_cancel] at this
    linarith
  have h3 : |(rnd x : ℚ) * d - a| ≤ (1 / 2 + 1 / 2 ^ 20) * d := by
    have e : (rnd x : ℚ) * d - a = ((rnd x : ℚ) - (a : ℚ) / d) * d := by field_simp
    rw [e, abs_mul, abs_of_pos hdp]
    exact mul_le_mul_of_nonneg_right h2 hdp.le
  have h4 : (2 : ℚ) * |(rnd x : ℚ) * d - a| < d + 1 := by
    have : (1 : ℚ) / 2 ^ 20 * d ≤ 1 / 2 ^ 20 * 510 := mul_le_mul_of_nonneg_left hd' (by norm_num)
    have h5 : (1 : ℚ) / 2 ^ 20 * 510 < 1 / 2 := by norm_num
    linarith
  unfold NearestInt
  have h7 : (2 * |rnd x * (d : Int) - a| : Int) < d + 1 := by exact_mod_cast h4
  omega

theorem byte_max {m n : Nat} (hm : m ≤ 255) (hn : n ≤ 255) : max (divF m 255) (divF n 255) = divF (max m n) 255 := by
  rcases Nat.lt_or_ge m n with h | h
  · rw [max_eq_right (byte_lt hm hn h).le, Nat.max_eq_right h.le]
  · rw [max_eq_left (not_lt.mp (fun h' => absurd ((byte_lt_iff hm hn).mp h') (by omega))), Nat.max_eq_left h]

theorem byte_min {m n : Nat} (hm : m ≤ 255) (hn : n ≤ 255) : min (divF m 255) (divF n 255) = divF (min m n) 255 := by
  rcases Nat.lt_or_ge m n with h | h
  · rw [min_eq_left (byte_lt hm hn h).le, Nat.min_eq_left h.le]
  · rw [min_eq_right (not_lt.mp (fun h' => absurd ((byte_lt_iff hm hn).mp h') (by omega))), Nat.min_eq_right h]

theorem lum_near {m n : Nat} (hm : m ≤ 255) (hn : n ≤ 255) :
    |fl (fl (divF m 255 + divF n 255) / 2) - ((m : ℚ) + n) / 510| ≤ 4 / 2 ^ 53 := by
  have h1 := byte_err hm
  have h2 := byte_err hn
  have hm' : (m : ℚ) ≤ 255 := by exact_mod_cast hm
  have hn' : (n : ℚ) ≤ 255 := by exact_mod_cast hn
  have hm0 : (0 : ℚ) ≤ m := by positivity
  have hn0 : (0 : ℚ) ≤ n := by positivity
  have h3 : |divF m 255 + divF n 255 - ((m : ℚ) + n) / 255| ≤ 2 / 2 ^ 53 := by
    have := abs_add_le (divF m 255 - (m : ℚ) / 255) (divF n 255 - (n : ℚ) / 255)
    rw [show divF m 255 - (m : ℚ) / 255 + (divF n 255 - (n : ℚ) / 255) = divF m 255 + divF n 255 - ((m : ℚ) + n) / 255 by ring] at this
    linarith
  have h4 := fl_step (B := 2 + 2 / 2 ^ 53) h3 (by rw [abs_of_nonneg (by positivity)]; linarith)
  have h5 : |fl (divF m 255 + divF n 255) / 2 - ((m : ℚ) + n) / 510| ≤ (2 / 2 ^ 53 + (2 + 2 / 2 ^ 53) / 2 ^ 53) / 2 := by
    rw [show fl (divF m 255 + divF n 255) / 2 - ((m : ℚ) + n) / 510 = (fl (divF m 255 + divF n 255) - ((m : ℚ) + n) / 255) / 2 by ring,
      abs_div, abs_of_pos (by norm_num : (0 : ℚ) < 2)]
    linarith
  refine (fl_step (B := 3 / 2) h5 ?_).trans (by norm_num)
  rw [abs_of_nonneg (by positivity)]
  have : (2 / 2 ^ 53 + (2 + 2 / 2 ^ 53) / 2 ^ 53) / 2 ≤ (1 : ℚ) / 2 := by norm_num
  linarith

theorem width_near {m n : Nat} (hm : m ≤ 255) (hn : n ≤ 255) {lum : ℚ} (h : |lum - ((m : ℚ) + n) / 510| ≤ 4 / 2 ^ 53) :
    |fl (1 - |fl (fl (2 * lum) - 1)|) - (chromaMax m n : ℚ) / 255| ≤ 16 / 2 ^ 53 := by
  have hm' : (m : ℚ) ≤ 255 := by exact_mod_cast hm
  have hn' : (n : ℚ) ≤ 255 := by exact_mod_cast hn
  have hm0 : (0 : ℚ) ≤ m := by positivity
  have hn0 : (0 : ℚ) ≤ n := by positivity
  have hs : ((m : ℚ) + n) / 510 ≤ 1 := by linarith
  have hs0 : 0 ≤ ((m : ℚ) + n) / 510 := by positivity
  have a1 : |2 * lum - 2 * (((m : ℚ) + n) / 510)| ≤ 8 / 2 ^ 53 := by
    rw [← mul_sub, abs_mul, abs_of_pos (by norm_num : (0 : ℚ) < 2)]; linarith
  have a2 := fl_step (B := 2 + 8 / 2 ^ 53) a1 (by rw [abs_of_nonneg (by positivity)]; linarith)
  have a3 : |fl (2 * lum) - 1 - (2 * (((m : ℚ) + n) / 510) - 1)| ≤ 8 / 2 ^ 53 + (2 + 8 / 2 ^ 53) / 2 ^ 53 := by
    rw [show fl (2 * lum) - 1 - (2 * (((m : ℚ) + n) / 510) - 1) = fl (2 * lum) - 2 * (((m : ℚ) + n) / 510) by ring]; exact a2
  have hb : |2 * (((m : ℚ) + n) / 510) - 1| ≤ 1 := by rw [abs_le]; constructor <;> linarith
  have a4 := fl_step (B := 3 / 2) a3 (by
    have : (8 / 2 ^ 53 + (2 + 8 / 2 ^ 53) / 2 ^ 53 : ℚ) ≤ 1 / 2 := by norm_num
    linarith)
  have a5 := (abs_abs_sub_abs_le_abs_sub (fl (fl (2 * lum) - 1)) (2 * (((m : ℚ) + n) / 510) - 1)).trans a4
  have e : (chromaMax m n : ℚ) / 255 = 1 - |2 * (((m : ℚ) + n) / 510) - 1| := by
    unfold chromaMax
    split_ifs with c
    · have : (m : ℚ) + n ≤ 255 := by exact_mod_cast c
      rw [abs_of_nonpos (by linarith)]; push_cast; ring
    · have : (255 : ℚ) < (m : ℚ) + n := by exact_mod_cast Nat.lt_of_not_le c
      rw [abs_of_nonneg (by linarith), Nat.cast_sub (by omega)]; push_cast; ring
  rw [e]
  have a6 : |1 - |fl (fl (2 * lum) - 1)| - (1 - |2 * (((m : ℚ) + n) / 510) - 1|)| ≤
      8 / 2 ^ 53 + (2 + 8 / 2 ^ 53) / 2 ^ 53 + 3 / 2 / 2 ^ 53 := by
    rw [sub_sub_sub_cancel_left, abs_sub_comm]; exact a5
  refine (fl_step (B := 3 / 2) a6 ?_).trans (by norm_num)
  have h7 : abs (1 - abs (2 * (((m : ℚ) + n) / 510) - 1)) ≤ 1 := by
    have := abs_nonneg (2 * (((m : ℚ) + n) / 510) - 1)
    rw [abs_le]; constructor <;> linarith
  have : (8 / 2 ^ 53 + (2 + 8 / 2 ^ 53) / 2 ^ 53 + 3 / 2 / 2 ^ 53 : ℚ) ≤ 1 / 2 := by norm_num
  linarith

/-- The sixth part of a hue with a whole number added. -/
theorem sixth_near {p p0 q q0 : ℚ} (hp : |p - p0| ≤ 16 / 2 ^ 53) (hq : |q - q0| ≤ 16 / 2 ^ 53) (h : |p0| ≤ q0) (h0 : 1 / 255 ≤ q0)
    {k : ℚ} (hk : 0 ≤ k ∧ k ≤ 6) : |fl (fl (fl (p / q) + k) * 60) - (p0 / q0 + k) * 60| ≤ 1 / 2 ^ 20 := by
  have a := quot_near hp hq h h0
  have q0pos : 0 < q0 := lt_of_lt_of_le (by norm_num) h0
  have hr : |p0 / q0| ≤ 1 := by rw [abs_div, abs_of_pos q0pos, div_le_one q0pos]; exact h
  have hk7 : |p0 / q0 + k| ≤ 7 := by
    have := abs_le.mp hr
    rw [abs_le]; constructor <;> linarith
  have a1 : |fl (p / q) + k - (p0 / q0 + k)| ≤ 1 / 2 ^ 38 := by rw [add_sub_add_right_eq_sub]; exact a
  have a2 := fl_step (B := 8) a1 (by
    have : (1 : ℚ) / 2 ^ 38 ≤ 1 := by norm_num
    linarith)
  have a3 : |fl (fl (p / q) + k) * 60 - (p0 / q0 + k) * 60| ≤ (1 / 2 ^ 38 + 8 / 2 ^ 53) * 60 := by
    rw [← sub_mul, abs_mul, abs_of_pos (by norm_num : (0 : ℚ) < 60)]
    exact mul_le_mul_of_nonneg_right a2 (by norm_num)
  refine (fl_step (B := 480) a3 ?_).trans (by norm_num)
  rw [abs_mul, abs_of_pos (by norm_num : (0 : ℚ) < 60)]
  have : (1 / 2 ^ 38 + 8 / 2 ^ 53 : ℚ) * 60 ≤ 1 := by norm_num
  linarith

theorem times_near {x x0 : ℚ} (h : |x - x0| ≤ 1 / 2 ^ 38) (hb : |x0| ≤ 1) {k : ℚ} (hk : 0 ≤ k ∧ k ≤ 100) :
    |fl (x * k) - x0 * k| ≤ 1 / 2 ^ 20 := by
  have a : |x * k - x0 * k| ≤ 1 / 2 ^ 38 * 100 := by
    rw [← sub_mul, abs_mul, abs_of_nonneg hk.1]
    exact mul_le_mul h hk.2 hk.1 (by norm_num)
  refine (fl_step (B := 128) a ?_).trans (by norm_num)
  rw [abs_mul, abs_of_nonneg hk.1]
  have h1 : |x0| * k ≤ 1 * 100 := mul_le_mul hb hk.2 hk.1 (by norm_num)
  have : (1 / 2 ^ 38 * 100 : ℚ) ≤ 1 := by norm_num
  linarith

/-! ### The property -/

/-- C172: the luminosity, the saturation and the hue are nearest whole numbers to the exact ones. -/
theorem C172_hsl {r g b : Nat} (hr : r ≤ 255) (hg : g ≤ 255) (hb : b ≤ 255) {hi lo : Nat} (hM : IsMax hi r g b) (hm : IsMin lo r g b) :
    NearestInt (RGB2HSLF r g b).2.2 (100 * (hi + lo)) 510 ∧
    (hi = lo → (RGB2HSLF r g b).1 = 0 ∧ (RGB2HSLF r g b).2.1 = 0) ∧
    (hi ≠ lo → NearestInt (RGB2HSLF r g b).1 (hueNum r g b hi lo) (hi - lo) ∧
      NearestInt (RGB2HSLF r g b).2.1 (100 * ((hi : Int) - lo)) (chromaMax hi lo)) := by
  obtain ⟨⟨M1, M2, M3⟩, M4⟩ := hM
  obtain ⟨⟨m1, m2, m3⟩, m4⟩ := hm
  have eM : max (max (divF r 255) (divF g 255)) (divF b 255) = divF hi 255 := by
    rw [byte_max hr hg, byte_max (by omega) hb]; congr 1; omega
  have em : min (min (divF r 255) (divF g 255)) (divF b 255) = divF lo 255 := by
    rw [byte_min hr hg, byte_min (by omega) hb]; congr 1; omega
  have hhi : hi ≤ 255 := by omega
  have hlo : lo ≤ 255 := by omega
  have hl := lum_near hhi hlo
  have hl1 : |((hi : ℚ) + lo) / 510| ≤ 1 := by
    have h1 : (hi : ℚ) ≤ 255 := by exact_mod_cast hhi
    have h2 : (lo : ℚ) ≤ 255 := by exact_mod_cast hlo
    rw [abs_of_nonneg (by positivity)]; linarith
  have lum : NearestInt (rnd (fl (fl (fl (divF hi 255 + divF lo 255) / 2) * 100))) (100 * (hi + lo)) 510 := by
    refine nearest_of_near (by norm_num) (by norm_num) ?_
    have := times_near (hl.trans (by norm_num)) hl1 (k := 100) (by norm_num)
    rw [show (((100 * ((hi : Int) + lo) : Int) : ℚ)) / ((510 : Nat) : ℚ) = ((hi : ℚ) + lo) / 510 * 100 by push_cast; ring]
    exact this
  have z : rnd (fl (0 * 60)) = 0 ∧ rnd (fl (0 * 100)) = 0 := by decide +kernel
  unfold RGB2HSLF hslFloat
  dsimp only
  rw [eM, em]
  by_cases hne : hi = lo
  · rw [if_neg (by rw [hne]; simp)]
    exact ⟨lum, fun _ => z, fun h => absurd hne h⟩
  rw [if_pos (fun h => hne ((byte_inj hhi hlo).mp h))]
  refine ⟨lum, fun h => absurd h hne, fun _ => ?_⟩
  have hlt : lo < hi := by omega
  have hc := diff_near hhi hlo
  have hc' : |fl (divF hi 255 - divF lo 255) - ((hi : ℚ) - lo) / 255| ≤ 16 / 2 ^ 53 := hc.trans (by norm_num)
  have hq : (1 : ℚ) / 255 ≤ ((hi : ℚ) - lo) / 255 := by
    have : (lo : ℚ) + 1 ≤ hi := by exact_mod_cast hlt
    linarith
  have hd0 : (hi : ℚ) - lo ≠ 0 := by intro h; rw [h] at hq; norm_num at hq
  have hcast : ((hi - lo : Nat) : ℚ) = (hi : ℚ) - lo := Nat.cast_sub hlt.le
  have habs : ∀ {u v : Nat}, lo ≤ u → u ≤ hi → lo ≤ v → v ≤ hi → |((u : ℚ) - v) / 255| ≤ ((hi : ℚ) - lo) / 255 := by
    intro u v h1 h2 h3 h4
    have h1' : (lo : ℚ) ≤ u := by exact_mod_cast h1
    have h2' : (u : ℚ) ≤ hi := by exact_mod_cast h2
    have h3' : (lo : ℚ) ≤ v := by exact_mod_cast h3
    have h4' : (v : ℚ) ≤ hi := by exact_mod_cast h4
    rw [abs_le]; constructor <;> linarith
  dsimp only
  constructor
  · have near : ∀ {u v : Nat}, u ≤ 255 → v ≤ 255 → lo ≤ u → u ≤ hi → lo ≤ v → v ≤ hi → ∀ {k : Nat}, k ≤ 6 →
        NearestInt (rnd (fl (fl (fl (fl (divF u 255 - divF v 255) / fl (divF hi 255 - divF lo 255)) + (k : ℚ)) * 60)))
          (60 * ((u : Int) - v) + 60 * k * ((hi : Int) - lo)) (hi - lo) := by
      intro u v hu hv h1 h2 h3 h4 k hk
      refine nearest_of_near (by omega) (by omega) ?_
      have hk' : (k : ℚ) ≤ 6 := by exact_mod_cast hk
      have := sixth_near ((diff_near hu hv).trans (by norm_num)) hc' (habs h1 h2 h3 h4) hq (k := k) ⟨by positivity, hk'⟩
      rw [hcast, show ((60 * ((u : Int) - v) + 60 * k * ((hi : Int) - lo) : Int) : ℚ) / ((hi : ℚ) - lo) =
        (((u : ℚ) - v) / 255 / (((hi : ℚ) - lo) / 255) + k) * 60 by push_cast; field_simp]
      exact this
    unfold hueNum
    simp only [byte_inj hhi hr, byte_inj hhi hg, byte_inj hhi hb, byte_lt_iff hg hb]
    by_cases c1 : hi = r
    · rw [if_pos c1, if_pos c1]
      by_cases c2 : g < b
      · rw [if_pos c2, if_pos c2]
        exact near hg hb m2 M2 m3 M3 (k := 6) (by norm_num)
      · rw [if_neg c2, if_neg c2]
        have := near hg hb m2 M2 m3 M3 (k := 0) (by norm_num)
        rw [Nat.cast_zero, add_zero, fl_idem] at this
        simpa using this
    · rw [if_neg c1, if_neg c1]
      by_cases c2 : hi = g
      · rw [if_pos c2, if_pos c2]
        exact near hb hr m3 M3 m1 M1 (k := 2) (by norm_num)
      · rw [if_neg c2, if_neg c2, if_pos (by omega)]
        exact near hr hg m1 M1 m2 M2 (k := 4) (by norm_num)
  · have hw : hi - lo ≤ chromaMax hi lo ∧ chromaMax hi lo ≤ 255 := by unfold chromaMax; split_ifs <;> omega
    have hw' : ((hi : ℚ) - lo) ≤ chromaMax hi lo := by rw [← hcast]; exact_mod_cast hw.1
    have hn := width_near hhi hlo hl
    have hq2 : (1 : ℚ) / 255 ≤ (chromaMax hi lo : ℚ) / 255 := by linarith
    have hp : |((hi : ℚ) - lo) / 255| ≤ (chromaMax hi lo : ℚ) / 255 := by rw [abs_of_nonneg (by linarith)]; linarith
    have := quot_near hc' hn hp hq2
    have cpos : (0 : ℚ) < (chromaMax hi lo : ℚ) / 255 := by linarith [show (0 : ℚ) < 1 / 255 by norm_num]
    have t := times_near this (by rw [abs_div, abs_of_pos cpos, div_le_one cpos]; exact hp) (k := 100) (by norm_num)
    refine nearest_of_near (by omega) (by omega) ?_
    have cne : (chromaMax hi lo : ℚ) ≠ 0 := by intro h; rw [h] at cpos; norm_num at cpos
    rw [show ((100 * ((hi : Int) - lo) : Int) : ℚ) / (chromaMax hi lo : ℚ) = ((hi : ℚ) - lo) / 255 / ((chromaMax hi lo : ℚ) / 255) * 100 by
      push_cast; field_simp]
    exact t

theorem nearest_range {k a : Int} {d : Nat} {m : Int} (h : NearestInt k a d) (hd : 0 < d) (h0 : 0 ≤ a) (h1 : a ≤ m * d) :
    0 ≤ k ∧ k ≤ m := by
  unfold NearestInt at h
  have h2 := neg_abs_le (k * d - a)
  have h3 := le_abs_self (k * d - a)
  have hd' : (0 : Int) < d := by exact_mod_cast hd
  constructor
  · by_contra hc
    have : k * d ≤ (-1) * d := mul_le_mul_of_nonneg_right (by omega) hd'.le
    omega
  · by_contra hc
    have : (m + 1) * d ≤ k * d := mul_le_mul_of_nonneg_right (by omega) hd'.le
    rw [add_mul, one_mul] at this
    omega

/-- C172: hue from 0 to 360, saturation and luminosity from 0 to 100. -/
theorem C172_range {r g b : Nat} (hr : r ≤ 255) (hg : g ≤ 255) (hb : b ≤ 255) :
    (0 ≤ (RGB2HSLF r g b).1 ∧ (RGB2HSLF r g b).1 ≤ 360) ∧ (0 ≤ (RGB2HSLF r g b).2.1 ∧ (RGB2HSLF r g b).2.1 ≤ 100) ∧
      (0 ≤ (RGB2HSLF r g b).2.2 ∧ (RGB2HSLF r g b).2.2 ≤ 100) := by
  obtain ⟨hi, hM⟩ : ∃ hi, IsMax hi r g b := ⟨max (max r g) b, by unfold IsMax; omega⟩
  obtain ⟨lo, hm⟩ : ∃ lo, IsMin lo r g b := ⟨min (min r g) b, by unfold IsMin; omega⟩
  obtain ⟨l, e, n⟩ := C172_hsl hr hg hb hM hm
  unfold IsMax at hM
  unfold IsMin at hm
  refine ⟨?_, ?_, nearest_range l (by norm_num) (by omega) (by push_cast; omega)⟩ <;> by_cases c : hi = lo
  · rw [(e c).1]; omega
  · refine nearest_range (n c).1 (by omega) ?_ ?_ <;> unfold hueNum <;> split_ifs <;> omega
  · rw [(e c).2]; omega
  · have : hi - lo ≤ chromaMax hi lo := by unfold chromaMax; split_ifs <;> omega
    exact nearest_range (n c).2 (by omega) (by omega) (by omega)

/-- Halves are not always rounded to the even number, as exact arithmetic with `round` would give: the exact hue of
`(40, 35, 0)` is 52.5, the exact saturation of `(105, 7, 7)` and of `(15, 1, 1)` is 87.5. -/
theorem C172_halves_wrong : RGB2HSLF 40 35 0 = (53, 100, 8) ∧ RGB2HSL 40 35 0 = (52, 100, 8) ∧
    RGB2HSLF 105 7 7 = (0, 87, 22) ∧ RGB2HSL 105 7 7 = (0, 88, 22) ∧ RGB2HSLF 15 1 1 = (0, 88, 3) := by decide +kernel

/-- A colour that is not grey can have the saturation 0. -/
theorem C172_grey_wrong : RGB2HSLF 127 128 127 = (120, 0, 50) := by decide +kernel

example : RGB2HSLF 255 128 0 = (30, 100, 50) ∧ RGB2HSLF 0 64 128 = (210, 100, 25) ∧ RGB2HSLF 255 0 1 = (360, 100, 50) ∧
    hueNum 0 64 128 128 0 = 210 * 128 ∧ chromaMax 128 0 = 128 := by decide +kernel

end Verif.Props.HSL
