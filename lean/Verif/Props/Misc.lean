import Verif.Model.Misc
import Verif.Props.Float
import Mathlib.Tactic.FieldSimp
import Mathlib.Tactic.Linarith
/-! Property C166: the text of the elapsed time; and the palette with another brightness (C104). -/

namespace Verif.Props.Misc
open Verif Spec Model Props

/-! ### Times -/

/-- `l` writes the number `n` with decimal digits. -/
def Number (l : List Char) (n : Nat) : Prop :=
  l ≠ [] ∧ (∀ c ∈ l, c.isDigit = true) ∧ l.foldl (fun a c => 10 * a + (c.toNat - '0'.toNat)) 0 = n

/-- Read as hours, minutes, seconds and a decimal fraction of a second, the text `s` is `v` seconds. -/
def Reads (s : String) (v : ℚ) : Prop :=
  ∃ (h m c f : List Char) (nh nm nc nf : Nat), s.toList = h ++ ':' :: (m ++ ':' :: (c ++ '.' :: f)) ∧
    Number h nh ∧ 2 ≤ h.length ∧ Number m nm ∧ m.length = 2 ∧ nm < 60 ∧ Number c nc ∧ c.length = 2 ∧ nc < 60 ∧ Number f nf ∧
    v = 3600 * nh + 60 * nm + nc + nf / 10 ^ f.length

theorem number_toString (n : Nat) : Number (toString n).toList n := by
  rw [Nat.toString_eq_ofList_toDigits, String.toList_ofList]
  exact ⟨Nat.toDigits_ne_nil, fun c hc => Nat.isDigit_of_mem_toDigits (by omega) (by omega) hc, Nat.ofDigitChars_toDigits (by omega) (by omega)⟩

theorem length_toString (n : Nat) {k : Nat} (hk : 0 < k) : (toString n).toList.length ≤ k ↔ n < 10 ^ k := by
  rw [Nat.toString_eq_ofList_toDigits, String.toList_ofList]
  exact Nat.length_toDigits_le_iff (by omega) hk

theorem number_zfill2 (n : Nat) : Number (zfill2 n).toList n ∧ 2 ≤ (zfill2 n).toList.length ∧ (n < 100 → (zfill2 n).toList.length = 2) := by
  have h := number_toString n
  have h1 := length_toString n (k := 1) (by omega)
  have h2 := length_toString n (k := 2) (by omega)
  have h0 : 0 < (toString n).toList.length := List.length_pos_iff.mpr h.1
  unfold zfill2
  rw [← String.length_toList]
  split_ifs with c
  · rw [String.toList_append]
    refine ⟨⟨by simp, ?_, ?_⟩, ?_, ?_⟩
    · intro d hd
      rw [List.mem_append] at hd
      rcases hd with hd | hd
      · have : d = '0' := by simpa using hd
        rw [this]; rfl
      · exact h.2.1 d hd
    · rw [List.foldl_append]
      exact h.2.2
    · rw [List.length_append, show ("0" : String).toList.length = 1 from rfl]; omega
    · intro _; rw [List.length_append, show ("0" : String).toList.length = 1 from rfl]; omega
  · exact ⟨h, by omega, fun hn => by have := h2.mpr (by omega); omega⟩

/-- The parts before and after the first character that is not a digit. -/
theorem split_unique {a a' b b' : List Char} {x y : Char} (ha : ∀ c ∈ a, c.isDigit = true) (ha' : ∀ c ∈ a', c.isDigit = true)
    (hx : x.isDigit = false) (hy : y.isDigit = false) (e : a ++ x :: b = a' ++ y :: b') : a = a' ∧ b = b' := by
  induction a generalizing a' with
  | nil =>
    cases a' with
    | nil => simp at e; exact ⟨rfl, e.2⟩
    | cons c a' =>
      simp at e
      have := ha' c (by simp)
      rw [← e.1, hx] at this
      exact absurd this (by simp)
  | cons c a ih =>
    cases a' with
    | nil =>
      simp at e
      have := ha c (by simp)
      rw [e.1, hy] at this
      exact absurd this (by simp)
    | cons c' a' =>
      simp only [List.cons_append, List.cons.injEq] at e
      obtain ⟨h1, h2⟩ := ih (fun d hd => ha d (by simp [hd])) (fun d hd => ha' d (by simp [hd])) e.2
      exact ⟨by rw [e.1, h1], h2⟩

/-- A text has at most one reading. -/
theorem reads_unique {s : String} {v w : ℚ} (hv : Reads s v) (hw : Reads s w) : v = w := by
  obtain ⟨h, m, c, f, nh, nm, nc, nf, e, a1, _, a2, _, _, a3, _, _, a4, rfl⟩ := hv
  obtain ⟨h', m', c', f', nh', nm', nc', nf', e', b1, _, b2, _, _, b3, _, _, b4, rfl⟩ := hw
  rw [e] at e'
  obtain ⟨r1, e'⟩ := split_unique a1.2.1 b1.2.1 rfl rfl e'
  obtain ⟨r2, e'⟩ := split_unique a2.2.1 b2.2.1 rfl rfl e'
  obtain ⟨r3, e'⟩ := split_unique a3.2.1 b3.2.1 rfl rfl e'
  rw [← a1.2.2, ← b1.2.2, ← a2.2.2, ← b2.2.2, ← a3.2.2, ← b3.2.2, ← a4.2.2, ← b4.2.2, r1, r2, r3, e']

theorem reads_text (t : Nat) :
    Reads (hhmmsselaspedtime t) ((t / 10 ^ 9 : Nat) + (t % 10 ^ 9 : Nat) / 10 ^ (toString (t % 10 ^ 9)).toList.length) := by
  obtain ⟨h1, h2, _⟩ := number_zfill2 (t / 10 ^ 9 / 60 / 60)
  obtain ⟨m1, _, m2⟩ := number_zfill2 (t / 10 ^ 9 / 60 % 60)
  obtain ⟨s1, _, s2⟩ := number_zfill2 (t / 10 ^ 9 % 60)
  refine ⟨_, _, _, _, _, _, _, _, ?_, h1, h2, m1, m2 (by omega), by omega, s1, s2 (by omega), by omega, number_toString (t % 10 ^ 9), ?_⟩
  · unfold hhmmsselaspedtime
    simp [String.toList_append]
  · have : t / 10 ^ 9 = 3600 * (t / 10 ^ 9 / 60 / 60) + 60 * (t / 10 ^ 9 / 60 % 60) + t / 10 ^ 9 % 60 := by omega
    congr 1
    exact_mod_cast this

/-- C166: the text of an elapsed time has two digits for hours (or more), minutes and seconds, and the whole seconds are right. -/
theorem C166_seconds (t : Nat) : ∃ v : ℚ, Reads (hhmmsselaspedtime t) v ∧ (t / 10 ^ 9 : Nat) ≤ v ∧ v < (t / 10 ^ 9 : Nat) + 1 := by
  refine ⟨_, reads_text t, ?_, ?_⟩
  · have : (0 : ℚ) ≤ (t % 10 ^ 9 : Nat) / 10 ^ (toString (t % 10 ^ 9)).toList.length := by positivity
    linarith
  · have hlt := (length_toString (t % 10 ^ 9) (List.length_pos_iff.mpr (number_toString (t % 10 ^ 9)).1)).mp le_rfl
    have : ((t % 10 ^ 9 : Nat) : ℚ) / 10 ^ (toString (t % 10 ^ 9)).toList.length < 1 := by
      rw [div_lt_one (by positivity)]
      exact_mod_cast hlt
    linarith

/-- C166: the time is right exactly when the nanoseconds have nine digits, or there are none. -/
theorem C166_exact (t : Nat) : Reads (hhmmsselaspedtime t) ((t : ℚ) / 10 ^ 9) ↔ t % 10 ^ 9 = 0 ∨ 10 ^ 8 ≤ t % 10 ^ 9 := by
  have hr := reads_text t
  have hns : t % 10 ^ 9 < 10 ^ 9 := Nat.mod_lt _ (by norm_num)
  have ht : (t : ℚ) / 10 ^ 9 = (t / 10 ^ 9 : Nat) + ((t % 10 ^ 9 : Nat) : ℚ) / 10 ^ 9 := by
    have : (t : ℚ) = 10 ^ 9 * (t / 10 ^ 9 : Nat) + (t % 10 ^ 9 : Nat) := by exact_mod_cast (Nat.div_add_mod t (10 ^ 9)).symm
    rw [this]
    field_simp
  have h9 := length_toString (t % 10 ^ 9) (k := 9) (by omega)
  have h8 := length_toString (t % 10 ^ 9) (k := 8) (by omega)
  generalize t % 10 ^ 9 = ns at *
  constructor
  · intro h
    have := reads_unique h hr
    rw [ht] at this
    have e := add_left_cancel this
    rcases Nat.eq_zero_or_pos ns with h0 | h0
    · exact .inl h0
    · right
      have hq : (ns : ℚ) ≠ 0 := by positivity
      rw [div_eq_div_iff (by positivity) (by positivity)] at e
      have e2 := mul_left_cancel₀ hq e
      have e3 : (10 : Nat) ^ (toString ns).toList.length = 10 ^ 9 := by exact_mod_cast e2
      have e4 := Nat.pow_right_injective (le_refl 2 |>.trans (by norm_num : 2 ≤ 10)) e3
      by_contra hlt
      have := h8.mpr (by omega)
      omega
  · rintro (h0 | h0)
    · rw [ht]
      subst h0
      simpa using hr
    · rw [ht]
      have h9' := h9.mpr hns
      have h8' : ¬ (toString ns).toList.length ≤ 8 := fun h => by have := h8.mp h; omega
      have : (toString ns).toList.length = 9 := by omega
      rwa [this] at hr

/-- C166: one second and five nanoseconds is shown as one second and a half. -/
theorem C166_false : ¬ ∀ t : Nat, Reads (hhmmsselaspedtime t) ((t : ℚ) / 10 ^ 9) := by
  intro h
  have := (C166_exact 1000000005).mp (h _)
  norm_num at this

example : hhmmsselaspedtime 1000000005 = "00:00:01.5" ∧ hhmmsselaspedtime 90061500000000 = "25:01:01.500000000" := by decide +kernel

/-- C166: the other function gives the seconds up to one part in 2^53. -/
theorem C166_quotient (t : Nat) : |elaspedtimeinseconds t - (t : ℚ) / 10 ^ 9| ≤ (t : ℚ) / 10 ^ 9 / 2 ^ 53 := by
  have := fl_err ((t : ℚ) / 1000000000)
  rw [abs_of_nonneg (by positivity : (0 : ℚ) ≤ (t : ℚ) / 1000000000)] at this
  unfold elaspedtimeinseconds
  norm_num at this ⊢
  linarith

/-! ### Brightness of the palette -/

/-- C104: the list of palette colours with another brightness: each channel is an integer nearest to its exact value, limited to a byte. -/
theorem C104_palette {b : Bytes} {W H bits : Nat} (h : Valid b W H bits) (h24 : bits ≠ 24) {p : Int} (hp : |p| ≤ 10 ^ 6) :
    ∃ l, RGBpalbrightnessadjust (relumBright p) b = .ok l ∧ l.length = 2 ^ bits ∧ ∀ k < 2 ^ bits, ∃ q : Nat × Nat × Nat,
      l[k]? = some (rgbI q) ∧ BrightByte p (palRGB b k).1 q.1 ∧ BrightByte p (palRGB b k).2.1 q.2.1 ∧ BrightByte p (palRGB b k).2.2 q.2.2 := by
  refine ⟨_, by unfold RGBpalbrightnessadjust; rw [h.getallRGBpal_eq h24]; rfl, by simp, ?_⟩
  intro k hk
  obtain ⟨l1, l2, l3⟩ : (palRGB b k).1 < 256 ∧ (palRGB b k).2.1 < 256 ∧ (palRGB b k).2.2 < 256 :=
    ⟨byte_lt_of_mem h.bytes _, byte_lt_of_mem h.bytes _, byte_lt_of_mem h.bytes _⟩
  generalize hq : palRGB b k = q at *
  have hm : rgblum (rgbI q) < 256 := by unfold rgblum rgbI; dsimp only; split_ifs <;> omega
  have hm0 : 0 < rgblum (rgbI q) := by unfold rgblum rgbI; dsimp only; split_ifs <;> omega
  have hc : ∀ v : Nat, v = q.1 ∨ v = q.2.1 ∨ v = q.2.2 → ∃ w : Nat, setminmax (relumBright p (rgblum (rgbI q)) v) 0 255 = w ∧ BrightByte p v w := by
    intro v hv
    have hle : v ≤ rgblum (rgbI q) := by unfold rgblum rgbI; dsimp only; split_ifs <;> omega
    have e : setminmax (relumBright p (rgblum (rgbI q)) v) 0 255 = max 0 (min 255 (relumBright p (rgblum (rgbI q)) v)) := by
      unfold setminmax; dsimp only; split_ifs <;> omega
    refine ⟨(setminmax (relumBright p (rgblum (rgbI q)) v) 0 255).toNat, by omega, _, C104_relum hp hm hm0 hle, by omega⟩
  obtain ⟨w1, e1, b1⟩ := hc q.1 (.inl rfl)
  obtain ⟨w2, e2, b2⟩ := hc q.2.1 (.inr (.inl rfl))
  obtain ⟨w3, e3, b3⟩ := hc q.2.2 (.inr (.inr rfl))
  refine ⟨(w1, w2, w3), ?_, b1, b2, b3⟩
  rw [List.map_map, List.getElem?_map, List.getElem?_range hk]
  simp only [Option.map_some, Function.comp_apply, hq]
  refine congrArg some ?_
  unfold relumadjust
  simp only [rgbI, Int.toNat_natCast] at *
  rw [e1, e2, e3]

example : (newBMP 1 1 1 >>= RGBpalbrightnessadjust (relumBright (-50))) = .ok [(0, 0, 0), (128, 128, 128)] := by decide +kernel

end Verif.Props.Misc
