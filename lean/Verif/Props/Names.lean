import Verif.Model.Names
import Verif.Props.Pals
/-! Property C164: the dictionaries of named colours. -/

namespace Verif.Props.Names
open Verif Spec Model Props

/-- Red, green and blue of a colour number, as parts of the whole. -/
def parts (c : Nat) : ℚ × ℚ × ℚ := ((c / 65536 : Nat) / 255, (c / 256 % 256 : Nat) / 255, (c % 256 : Nat) / 255)

/-- All three parts differ by at most `e`. -/
def Within (e : ℚ) (u v : ℚ × ℚ × ℚ) : Prop := |u.1 - v.1| ≤ e ∧ |u.2.1 - v.2.1| ≤ e ∧ |u.2.2 - v.2.2| ≤ e

instance (e : ℚ) (u v : ℚ × ℚ × ℚ) : Decidable (Within e u v) := by unfold Within; infer_instance

/-- The colour of an entry with hue in degrees and saturation and lightness in percent. -/
def hslParts (e : Nat × Nat × Nat) : ℚ × ℚ × ℚ := Pals.hslColour (e.1 / 60) (e.2.1 / 100) (e.2.2 / 100)

/-- The factors of an entry, written in units of `1 / scale`. -/
def factorParts (scale : Nat) (e : Nat × Nat × Nat) : ℚ × ℚ × ℚ := (e.1 / scale, e.2.1 / scale, e.2.2 / scale)

/-- Hue, saturation and lightness give the colour up to four steps of 255. -/
def HSLok (hsl : Nat × Nat × Nat) (c : Nat) : Prop := c < 2 ^ 24 ∧ Within (4 / 255) (hslParts hsl) (parts c)

/-- The factors give the colour up to one millionth. -/
def FactorsOK (scale : Nat) (f : Nat × Nat × Nat) (c : Nat) : Prop := Within (1 / 10 ^ 6) (factorParts scale f) (parts c)

instance (hsl : Nat × Nat × Nat) (c : Nat) : Decidable (HSLok hsl c) := by unfold HSLok; infer_instance

instance (scale : Nat) (f : Nat × Nat × Nat) (c : Nat) : Decidable (FactorsOK scale f c) := by unfold FactorsOK; infer_instance

/-- Two dictionaries with the same keys in the same order: entries found under one key stand in the same place. -/
theorem dictGet_parallel {α β : Type} (R : String → α → β → Prop) : ∀ (u : List (String × α)) (v : List (String × β)), u.map Prod.fst = v.map Prod.fst →
    (∀ e ∈ u.zip v, R e.1.1 e.1.2 e.2.2) → ∀ k, (dictGet u k = none ∧ dictGet v k = none) ∨ ∃ a b, dictGet u k = some a ∧ dictGet v k = some b ∧ R k a b := by
  have key : ∀ (u : List (String × α)) (v : List (String × β)), u.map Prod.fst = v.map Prod.fst →
      (∀ e ∈ u.zip v, R e.1.1 e.1.2 e.2.2) → ∀ k, (u.find? (fun e => e.1 == k) = none ∧ v.find? (fun e => e.1 == k) = none) ∨
        ∃ a b, u.find? (fun e => e.1 == k) = some (k, a) ∧ v.find? (fun e => e.1 == k) = some (k, b) ∧ R k a b := by
    intro u
    induction u with
    | nil =>
      intro v hv _ k
      cases v with
      | nil => exact .inl ⟨rfl, rfl⟩
      | cons e v => simp at hv
    | cons e u ih =>
      intro v hv hR k
      cases v with
      | nil => simp at hv
      | cons e' v =>
        simp only [List.map_cons, List.cons.injEq] at hv
        obtain ⟨h1, h2⟩ := hv
        by_cases hk : e.1 = k
        · right
          refine ⟨e.2, e'.2, ?_, ?_, ?_⟩
          · rw [List.find?_cons_of_pos (by simpa using hk), ← hk]
          · rw [List.find?_cons_of_pos (by rw [← h1]; simpa using hk), ← hk, h1]
          · have := hR (e, e') (by simp)
            rwa [← hk]
        · rw [List.find?_cons_of_neg (by simpa using hk), List.find?_cons_of_neg (by rw [← h1]; simpa using hk)]
          exact ih v h2 (fun p hp => hR p (by simp [hp])) k
  intro u v huv hR k
  have hz : ∀ e ∈ u.reverse.zip v.reverse, R e.1.1 e.1.2 e.2.2 := by
    intro e he
    rw [List.zip_eq_zipWith, ← List.reverse_zipWith (by simpa using congrArg List.length huv), List.mem_reverse, ← List.zip_eq_zipWith] at he
    exact hR e he
  unfold dictGet
  rcases key u.reverse v.reverse (by rw [List.map_reverse, List.map_reverse, huv]) hz k with ⟨h1, h2⟩ | ⟨a, b, h1, h2, h3⟩
  · rw [h1, h2]; exact .inl ⟨rfl, rfl⟩
  · rw [h1, h2]; exact .inr ⟨a, b, rfl, rfl, h3⟩

theorem basic_keys : basicHSL.map Prod.fst = basicRGB.map Prod.fst ∧ basicFactors.map Prod.fst = basicRGB.map Prod.fst := by decide +kernel

theorem basic_hsl : ∀ e ∈ basicHSL.zip basicRGB, HSLok e.1.2 e.2.2 := by decide +kernel

theorem basic_factors : ∀ e ∈ basicFactors.zip basicRGB, FactorsOK (10 ^ 17) e.1.2 e.2.2 := by decide +kernel

/-- C164: the three dictionaries of basic colours have the same names, and every name the same colour in all of them. -/
theorem C164_basic (k : String) :
    (dictGet basicHSL k = none ∧ dictGet basicRGB k = none ∧ dictGet basicFactors k = none) ∨
    ∃ hsl c f, dictGet basicHSL k = some hsl ∧ dictGet basicRGB k = some c ∧ dictGet basicFactors k = some f ∧
      (HSLok hsl c) ∧ (FactorsOK (10 ^ 17) f c) := by
  have h1 := dictGet_parallel (fun k hsl c => HSLok hsl c) basicHSL basicRGB basic_keys.1 (by
    intro e he
    have := basic_hsl e he
    exact this) k
  have h2 := dictGet_parallel (fun k f c => FactorsOK (10 ^ 17) f c) basicFactors basicRGB basic_keys.2 (by
    intro e he
    have := basic_factors e he
    exact this) k
  rcases h1 with ⟨n1, n2⟩ | ⟨hsl, c, e1, e2, r1⟩
  · rcases h2 with ⟨n3, -⟩ | ⟨f, c', -, e4, -⟩
    · exact .inl ⟨n1, n2, n3⟩
    · rw [n2] at e4
      exact absurd e4 (by simp)
  · rcases h2 with ⟨-, n4⟩ | ⟨f, c', e3, e4, r2⟩
    · rw [n4] at e2
      exact absurd e2 (by simp)
    · rw [e2, Option.some.injEq] at e4
      subst e4
      exact .inr ⟨hsl, c, f, e1, e2, e3, r1, r2⟩

theorem xkcd_keys : xkcdHSL.map Prod.fst = xkcdRGB.map Prod.fst ∧ xkcdFactors.map Prod.fst = xkcdRGB.map Prod.fst := by decide +kernel

theorem xkcd_hsl : ∀ e ∈ xkcdHSL.zip xkcdRGB, HSLok e.1.2 e.2.2 := by decide +kernel

theorem xkcd_factors : ∀ e ∈ xkcdFactors.zip xkcdRGB, FactorsOK (10 ^ 6) e.1.2 e.2.2 := by decide +kernel

/-- C164: the three dictionaries of the XKCD colours have the same names, and every name the same colour in all of them. -/
theorem C164_xkcd (k : String) :
    (dictGet xkcdHSL k = none ∧ dictGet xkcdRGB k = none ∧ dictGet xkcdFactors k = none) ∨
    ∃ hsl c f, dictGet xkcdHSL k = some hsl ∧ dictGet xkcdRGB k = some c ∧ dictGet xkcdFactors k = some f ∧
      (HSLok hsl c) ∧ (FactorsOK (10 ^ 6) f c) := by
  have h1 := dictGet_parallel (fun k hsl c => HSLok hsl c) xkcdHSL xkcdRGB xkcd_keys.1 (by
    intro e he
    have := xkcd_hsl e he
    exact this) k
  have h2 := dictGet_parallel (fun k f c => FactorsOK (10 ^ 6) f c) xkcdFactors xkcdRGB xkcd_keys.2 (by
    intro e he
    have := xkcd_factors e he
    exact this) k
  rcases h1 with ⟨n1, n2⟩ | ⟨hsl, c, e1, e2, r1⟩
  · rcases h2 with ⟨n3, -⟩ | ⟨f, c', -, e4, -⟩
    · exact .inl ⟨n1, n2, n3⟩
    · rw [n2] at e4
      exact absurd e4 (by simp)
  · rcases h2 with ⟨-, n4⟩ | ⟨f, c', e3, e4, r2⟩
    · rw [n4] at e2
      exact absurd e2 (by simp)
    · rw [e2, Option.some.injEq] at e4
      subst e4
      exact .inr ⟨hsl, c, f, e1, e2, e3, r1, r2⟩

theorem x11_keys : x11HSL.map Prod.fst = x11RGB.map Prod.fst ∧ x11Factors.map Prod.fst = x11RGB.map Prod.fst := by decide +kernel

theorem x11_hsl : ∀ e ∈ x11HSL.zip x11RGB, HSLok e.1.2 e.2.2 ∨ e.1.1 = "aqua" := by decide +kernel

theorem x11_factors : ∀ e ∈ x11Factors.zip x11RGB, FactorsOK (10 ^ 6) e.1.2 e.2.2 ∨ e.1.1 = "darkblue" := by decide +kernel

/-- C164: the three dictionaries of the X11 colours have the same names, and every name but two the same colour in all of them. -/
theorem C164_x11_partial (k : String) :
    (dictGet x11HSL k = none ∧ dictGet x11RGB k = none ∧ dictGet x11Factors k = none) ∨
    ∃ hsl c f, dictGet x11HSL k = some hsl ∧ dictGet x11RGB k = some c ∧ dictGet x11Factors k = some f ∧
      (k ≠ "aqua" → HSLok hsl c) ∧ (k ≠ "darkblue" → FactorsOK (10 ^ 6) f c) := by
  have h1 := dictGet_parallel (fun k hsl c => k ≠ "aqua" → HSLok hsl c) x11HSL x11RGB x11_keys.1 (by
    intro e he hk
    have := x11_hsl e he
    exact this.resolve_right hk) k
  have h2 := dictGet_parallel (fun k f c => k ≠ "darkblue" → FactorsOK (10 ^ 6) f c) x11Factors x11RGB x11_keys.2 (by
    intro e he hk
    have := x11_factors e he
    exact this.resolve_right hk) k
  rcases h1 with ⟨n1, n2⟩ | ⟨hsl, c, e1, e2, r1⟩
  · rcases h2 with ⟨n3, -⟩ | ⟨f, c', -, e4, -⟩
    · exact .inl ⟨n1, n2, n3⟩
    · rw [n2] at e4
      exact absurd e4 (by simp)
  · rcases h2 with ⟨-, n4⟩ | ⟨f, c', e3, e4, r2⟩
    · rw [n4] at e2
      exact absurd e2 (by simp)
    · rw [e2, Option.some.injEq] at e4
      subst e4
      exact .inr ⟨hsl, c, f, e1, e2, e3, r1, r2⟩

/-- C164 is false for two X11 names: aqua is not the same colour in the dictionary of hues, darkblue not in the dictionary of factors. -/
theorem C164_x11_wrong :
    (dictGet x11HSL "aqua" = some (171, 85, 50) ∧ dictGet x11RGB "aqua" = some 0x00FFFF ∧ ¬ HSLok (171, 85, 50) 0x00FFFF) ∧
    (dictGet x11Factors "darkblue" = some (721569, 525490, 43137) ∧ dictGet x11RGB "darkblue" = some 0x00008B ∧
      ¬ FactorsOK (10 ^ 6) (721569, 525490, 43137) 0x00008B) := by decide +kernel

/-- C164: the greys of X11 with a number are that many percent of white, in both spellings. -/
theorem C164_greys : ∀ n : Nat, n ≤ 100 → ∃ v : Nat, dictGet x11RGB ("gray" ++ toString n) = some (v * 65536 + v * 256 + v) ∧
    dictGet x11RGB ("grey" ++ toString n) = some (v * 65536 + v * 256 + v) ∧ |100 * (v : Int) - 255 * n| ≤ 50 := by
  have h : ∀ n : Nat, n < 101 → (dictGet x11RGB ("gray" ++ toString n)).any (fun c =>
      c == c % 256 * 65536 + c % 256 * 256 + c % 256 && decide (|100 * ((c % 256 : Nat) : Int) - 255 * n| ≤ 50) &&
      dictGet x11RGB ("grey" ++ toString n) == some c) = true := by decide +kernel
  intro n hn
  have hn := h n (by omega)
  rw [Option.any_eq_true] at hn
  obtain ⟨c, e, hc⟩ := hn
  simp only [Bool.and_eq_true, beq_iff_eq, decide_eq_true_eq] at hc
  obtain ⟨⟨h1, h2⟩, h3⟩ := hc
  exact ⟨c % 256, by rw [← h1]; exact e, by rw [← h1]; exact h3, h2⟩

/-- C164 is false for the two spellings of other greys, and for dark red, which is a green: the values belong to the names before or after them. -/
theorem C164_spelling_wrong :
    dictGet x11RGB "darkgray" = some 0x556B2F ∧ dictGet x11RGB "darkgrey" = some 0xA9A9A9 ∧
    dictGet x11RGB "darkslategray" = some 0x2F4F4F ∧ dictGet x11RGB "darkslategrey" = some 0x9400D3 ∧
    dictGet x11RGB "webgray" = some 0x800080 ∧ dictGet x11RGB "webgrey" = some 0x808080 ∧
    dictGet x11RGB "x11gray" = some 0xA020F0 ∧ dictGet x11RGB "x11grey" = some 0xBEBEBE ∧
    dictGet x11RGB "darkred" = some 0x8FBC8F ∧ dictGet basicRGB "darkred" = some 0x5C0000 := by decide +kernel

/-- One colour in the three dictionaries; a later entry with the same name replaces the first one. -/
example : dictGet xkcdHSL "acidgreen" = some (87, 99, 52) ∧ dictGet xkcdRGB "acidgreen" = some 0x8FFE09 ∧
    dictGet xkcdFactors "acidgreen" = some (560784, 996078, 35294) ∧ dictGet x11RGB "antiquewhite" = some 0xFAEBD7 ∧
    dictGet x11RGB "no such colour" = none := by decide +kernel

end Verif.Props.Names
