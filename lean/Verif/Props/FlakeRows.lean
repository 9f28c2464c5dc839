import Verif.Props.DiagLines
import Verif.Props.CurveFiles
/-! Thin snowflakes of all depths (C163): their lines never end in the last row, so that only diagonals that end in the first row remain. -/

namespace Verif.Props.CurveFiles
open Verif Spec Model Verif.Props Verif.Props.Edge

/-- No diagonal of a thin snowflake ends in the last row of its image. -/
theorem flake_lineOK {r : Nat} {angle : ℝ} {n bits : Nat} {p q : Int × Int} (hpq : Consec (flake (r + 1 : Nat) (r + 1 : Nat) r angle n) p q)
    (ht : bits = 1 ∨ ¬ Tops (2 * r + 2 * 1 + 2) (2 * r + 2 * 1 + 2) p q) : LineOK (2 * r + 2 * 1 + 2) (2 * r + 2 * 1 + 2) bits p q := by
  intro g1 g2
  refine ht.imp id fun ht => Or.inl ?_
  have hq : q ∈ flake (r + 1 : Nat) (r + 1 : Nat) r angle n := by
    obtain ⟨s, t, e⟩ := hpq
    rw [e]; simp
  have i := (C163_inside (by omega) angle n q hq).2
  rw [abs_le] at i
  push_cast at i
  have h0 : clampTo q.2 (2 * r + 2 * 1 + 2) ≠ 0 := fun g => ht ⟨⟨g1, g2⟩, g⟩
  have hb : 0 ≤ clampTo q.2 (2 * r + 2 * 1 + 2) := le_max_left _ _
  have hl : clampTo q.2 (2 * r + 2 * 1 + 2) ≤ 2 * r + 2 := by unfold clampTo; push_cast; omega
  rcases Int.sign_trichotomy (clampTo q.2 (2 * r + 2 * 1 + 2) - clampTo p.2 (2 * r + 2 * 1 + 2)) with g | g | g <;> rw [g] <;> omega

/-- C163: thin snowflakes of all depths, unless one of their lines is a diagonal that ends in the first row. -/
theorem C163_snowflake_thin (fs : Files) (file : String) {r : Nat} (n : Nat) (angle : ℝ) {bits : Nat} (hd : Depth bits)
    (hs : 2 * r + 4 < 2 ^ 24) {color bg : Int} (hc : IsColour bits color) (hbg : IsColour bits bg) (hok : bg = 0 ∨ bits = 1 ∨ bits = 24)
    (ht : bits = 1 ∨ ∀ p q, Consec (flake (r + 1 : Nat) (r + 1 : Nat) r angle n) p q → ¬ Tops (2 * r + 4) (2 * r + 4) p q) :
    let N := 2 * r + 4
    let v := flake (r + 1 : Nat) (r + 1 : Nat) r angle n
    ∃ fs', savekochsnowflake2file fs file r n angle bits color bg 1 = .ok fs' ∧
      Saved fs fs' file (fun b => Valid b N N bits ∧ ∀ x y, x < N → y < N →
        let drawn := ∃ p q, (Consec v p q ∨ (v.head? = some p ∧ v.getLast? = some q)) ∧ LineSet N N bits p q x y
        (drawn → pix b N N bits x y = color.toNat) ∧ (¬ drawn → pix b N N bits x y = bg.toNat)) := by
  intro N v
  have := (C163_snowflake_partial fs file (pen := 1) le_rfl n angle hd (by omega) hc hbg hok (fun _ => by
    rcases ht with ht | ht
    · exact Or.inl ht
    · exact Or.inr fun p q hpq => flake_lineOK hpq (Or.inr (ht p q hpq)))).2
  simp only [if_pos] at this
  exact this

/-- The triangle of radius 4: none of its lines is a diagonal. -/
example (fs : Files) : ∃ fs', savekochsnowflake2file fs "a.bmp" (4 : Nat) 0 0 (8 : Nat) 7 0 1 = .ok fs' := by
  obtain ⟨fs', e, -⟩ := C163_snowflake_thin fs "a.bmp" (r := 4) 0 0 (bits := 8) (by unfold Depth; tauto) (by norm_num) (color := 7) (bg := 0)
    ⟨by norm_num, by norm_num⟩ ⟨by norm_num, by norm_num⟩ (Or.inl rfl) (Or.inr fun p q hpq => by
      rw [show ((4 + 1 : Nat) : Int) = 5 by norm_num, show ((4 : Nat) : Int) = 4 from rfl, flake_sample, ← mem_zip_tail] at hpq
      rintro ⟨-, g⟩
      simp only [List.tail_cons, List.zip_cons_cons, List.zip_nil_right, List.mem_cons, Prod.mk.injEq, List.not_mem_nil, or_false] at hpq
      unfold clampTo at g
      rcases hpq with ⟨-, rfl⟩ | ⟨-, rfl⟩ | ⟨-, rfl⟩ | ⟨-, rfl⟩ | ⟨-, rfl⟩ <;> norm_num at g)
  exact ⟨fs', e⟩

end Verif.Props.CurveFiles
