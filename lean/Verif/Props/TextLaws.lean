import Verif.Props.Legible
/-! Property C186: laws of texts. They hold byte for byte and include the exceptions. -/

namespace Verif.Props.Fonts
open Verif Spec Model Lemmas Props Dots

variable {font : Bytes} {scale pixspace space x y c : Int}

/-- `s` and `t` one after the other, in the order in which the text function sets its letters. -/
def joined (fl : Flow) (s t : List Nat) : List Nat :=
  match fl with
  | .backwards => t ++ s
  | _ => s ++ t

theorem letters_joined (fl : Flow) (s t : List Nat) : letters (joined fl s t) fl = letters s fl ++ letters t fl := by
  cases fl <;> simp [letters, joined]

section chars
variable {render : RenderFn} {color : PatColor} {nl tab adv : Int × Int → Int × Int}

/-- The loop over `s ++ t` is the loop over `s` and then the loop over `t`. -/
theorem plotChars_append (pos : Nat → Nat → Int × Int) (hn : ∀ c l, nl (pos c l) = pos 0 (l + 1)) (ht : ∀ c l, tab (pos c l) = pos (c + 4) l)
    (ha : ∀ c l, adv (pos c l) = pos (c + 1) l) (t : List Nat) : ∀ (s pre : List Nat) (b : Bytes),
    plotChars render font scale pixspace color nl tab adv (s ++ t) b (pos (columnNo pre) (lineNo pre)) =
      (do let b1 ← plotChars render font scale pixspace color nl tab adv s b (pos (columnNo pre) (lineNo pre))
          plotChars render font scale pixspace color nl tab adv t b1 (pos (columnNo (pre ++ s)) (lineNo (pre ++ s)))) := by
  intro s
  induction s with
  | nil => intro pre b; rw [List.append_nil]; rfl
  | cons a s ih =>
    intro pre b
    rw [List.cons_append, plotChars, plotChars]
    have step := ih (pre ++ [a])
    rw [List.append_assoc, List.singleton_append, column_append, line_append] at step
    by_cases h10 : a = 10
    · rw [if_pos h10, if_pos h10, hn]
      rw [if_pos h10, if_pos h10] at step
      exact step b
    · rw [if_neg h10, if_neg h10]
      rw [if_neg h10, if_neg h10] at step
      by_cases h9 : a = 9
      · rw [if_pos h9, if_pos h9, ht]
        rw [if_pos h9] at step
        exact step b
      · rw [if_neg h9, if_neg h9, ha]
        rw [if_neg h9] at step
        simp only [bind_assoc]
        congr 1; funext g; congr 1; funext b1
        exact step b1

/-- The move to the next line does not matter in a text of one line. -/
theorem plotChars_line {nl' : Int × Int → Int × Int} : ∀ (t : List Nat), 10 ∉ t → ∀ b p,
    plotChars render font scale pixspace color nl tab adv t b p = plotChars render font scale pixspace color nl' tab adv t b p := by
  intro t
  induction t with
  | nil => intro _ b p; rfl
  | cons a t ih =>
    intro h b p
    have h1 : 10 ≠ a := fun e => h (e ▸ List.mem_cons_self ..)
    have h2 : 10 ∉ t := fun e => h (List.mem_cons_of_mem _ e)
    rw [plotChars, plotChars, if_neg (Ne.symm h1), if_neg (Ne.symm h1)]
    split_ifs
    · exact ih h2 b _
    · congr 1; funext g; congr 1; funext b1
      exact ih h2 b1 _
end chars

/-- The text functions without a font. -/
theorem setText_nil (render : RenderFn) (color : PatColor) (b : Bytes) (str : List Nat) (fl : Flow) :
    setText render color b x y str scale pixspace space [] fl = .error .indexError := by
  cases fl <;> rfl

/-- The place of the letter in column `col` and line `l` of the second text, if it starts in column `k` and line `m` of the first one. -/
theorem spot_spot (fl : Flow) (k m col l : Nat) :
    spot font scale space (spot font scale space x y k m fl).1 (spot font scale space x y k m fl).2 col l fl = spot font scale space x y (k + col) (m + l) fl := by
  cases fl <;> simp only [spot] <;> push_cast <;> ext <;> dsimp only <;> ring

theorem lineNo_zero {t : List Nat} (h : 10 ∉ t) : lineNo t = 0 := List.count_eq_zero.mpr h

/-- C186: a text can be drawn in two parts: the second part, one line of text, starts where the first one has stopped. -/
theorem C186_join (f : TextFn) (b : Bytes) (s : List Nat) {t : List Nat} (ht : 10 ∉ t) :
    f.run b x y (joined f.flow s t) scale pixspace space c font = (do
      let b1 ← f.run b x y s scale pixspace space c font
      f.run b1 (spot font scale space x y (columnNo (letters s f.flow)) (lineNo (letters s f.flow)) f.flow).1
        (spot font scale space x y (columnNo (letters s f.flow)) (lineNo (letters s f.flow)) f.flow).2 t scale pixspace space c font) := by
  simp only [TextFn.run_eq]
  generalize glyphFn c f.shape f.style = render
  generalize f.flow = fl
  by_cases hf : font = []
  · subst hf
    rw [setText_nil, setText_nil]; rfl
  have ht' : 10 ∉ letters t fl := by
    cases fl with
    | backwards => exact fun g => ht (List.mem_reverse.mp g)
    | _ => exact ht
  obtain ⟨h1, h2, e⟩ := setText_chars (pixspace := pixspace) (scale := scale) (space := space) (x := x) (y := y) hf render (.one c) b
    (str := joined fl s t) (fl := fl)
  obtain ⟨-, -, e1⟩ := setText_chars (pixspace := pixspace) (scale := scale) (space := space) (x := x) (y := y) hf render (.one c) b (str := s) (fl := fl)
  rw [e, e1, letters_joined]
  have key := plotChars_append (render := render) (font := font) (scale := scale) (pixspace := pixspace) (color := .one c)
    (fun k l => spot font scale space x y k l fl) h1 (fun c l => h2 c l 4) (fun c l => h2 c l 1) (letters t fl) (letters s fl) [] b
  rw [List.nil_append] at key
  refine key.trans ?_
  congr 1
  funext b1
  obtain ⟨-, -, e2⟩ := setText_chars (pixspace := pixspace) (scale := scale) (space := space)
    (x := (spot font scale space x y (columnNo (letters s fl)) (lineNo (letters s fl)) fl).1)
    (y := (spot font scale space x y (columnNo (letters s fl)) (lineNo (letters s fl)) fl).2) hf render (.one c) b1 (str := t) (fl := fl)
  rw [e2, spot_spot, add_zero, add_zero]
  exact plotChars_line _ ht' _ _

/-- C186: a text can be drawn line by line: the text after a newline is drawn at the beginning of the next line. -/
theorem C186_lines (f : TextFn) (b : Bytes) (s t : List Nat) :
    f.run b x y (joined f.flow s (joined f.flow [10] t)) scale pixspace space c font = (do
      let b1 ← f.run b x y s scale pixspace space c font
      f.run b1 (spot font scale space x y 0 (lineNo s + 1) f.flow).1 (spot font scale space x y 0 (lineNo s + 1) f.flow).2 t
        scale pixspace space c font) := by
  simp only [TextFn.run_eq]
  generalize glyphFn c f.shape f.style = render
  generalize f.flow = fl
  by_cases hf : font = []
  · subst hf
    rw [setText_nil, setText_nil]; rfl
  have hl : lineNo (letters s fl) = lineNo s := by
    cases fl with
    | backwards => exact List.count_reverse
    | _ => rfl
  obtain ⟨h1, h2, e⟩ := setText_chars (pixspace := pixspace) (scale := scale) (space := space) (x := x) (y := y) hf render (.one c) b
    (str := joined fl s (joined fl [10] t)) (fl := fl)
  obtain ⟨-, -, e1⟩ := setText_chars (pixspace := pixspace) (scale := scale) (space := space) (x := x) (y := y) hf render (.one c) b (str := s) (fl := fl)
  rw [e, e1, letters_joined, letters_joined]
  have key := plotChars_append (render := render) (font := font) (scale := scale) (pixspace := pixspace) (color := .one c)
    (fun k l => spot font scale space x y k l fl) h1 (fun c l => h2 c l 4) (fun c l => h2 c l 1) (letters [10] fl ++ letters t fl) (letters s fl) [] b
  rw [List.nil_append] at key
  refine key.trans ?_
  congr 1
  funext b1
  have e10 : letters [10] fl = [10] := by cases fl <;> rfl
  rw [e10, List.singleton_append, plotChars, if_pos rfl]
  rw [h1, hl]
  obtain ⟨-, -, e2⟩ := setText_chars (pixspace := pixspace) (scale := scale) (space := space)
    (x := (spot font scale space x y 0 (lineNo s + 1) fl).1) (y := (spot font scale space x y 0 (lineNo s + 1) fl).2) hf render (.one c) b1 (str := t) (fl := fl)
  rw [e2, spot_spot, add_zero, add_zero]
  have en : newline font scale space (spot font scale space x y 0 (lineNo s + 1) fl).1 (spot font scale space x y 0 (lineNo s + 1) fl).2 fl =
      newline font scale space x y fl := by
    cases fl <;> simp [newline, spot]
  rw [en]
  rfl

/-! ### Blanks and tabs -/

theorem patRow_zero (put : Bytes → Int → Int → Py Bytes) (dx dy : Int) : ∀ (ms : List Nat) (b : Bytes) (x y : Int),
    patRow put dx dy 0 ms b x y = .ok b := by
  intro ms
  induction ms with
  | nil => intros; rfl
  | cons m ms ih =>
    intro b x y
    rw [patRow, if_neg (by simp)]
    exact ih b _ _

theorem patRows_zero (put : Int → Bytes → Int → Int → Py Bytes) (dx dy : Int) (next : Int × Int → Int × Int) (steps : Nat) (c : Int) :
    ∀ (g : List Nat), (∀ v ∈ g, v = 0) → ∀ ci b p, patRows put dx dy next steps (.one c) g ci b p = .ok b := by
  intro g
  induction g with
  | nil => intros; rfl
  | cons v g ih =>
    intro h ci b p
    obtain rfl := h v (List.mem_cons_self ..)
    rw [patRows]
    simp only [rowColor, ok_bind, patRow_zero]
    exact ih (fun w hw => h w (List.mem_cons_of_mem _ hw)) _ _ _

theorem glyph_zero (sh : Shape) (st : Style) (b : Bytes) {g : List Nat} (h : ∀ v ∈ g, v = 0) :
    glyphFn c sh st b x y g scale pixspace (.one c) = .ok b := by
  have hr : ∀ v ∈ g.reverse, v = 0 := fun v hv => h v (List.mem_reverse.mp hv)
  have hm : ∀ v ∈ g.map rotatebits, v = 0 := by
    intro v hv
    obtain ⟨w, hw, rfl⟩ := List.mem_map.mp hv
    rw [h w hw]; rfl
  rw [glyphFn_eq]
  cases st <;> exact patRows_zero _ _ _ _ _ _ _ (by first | exact h | exact hr | exact hm) _ _ _

theorem blank_zero (hf : font ∈ shipped) {ch : Nat} (hc : ch < 256) (hb : Blank ch) : getcharfont font ch = .ok (glyph font ch) ∧ ∀ v ∈ glyph font ch, v = 0 := by
  obtain ⟨e, n, m⟩ := C169_glyphs font hf ch hc
  refine ⟨e, fun v hv => ?_⟩
  obtain ⟨i, hi, rfl⟩ := List.mem_iff_getElem.mp hv
  apply byte_zero (m _ hv)
  intro j hj g
  apply blank_dark hf hc hb (i := i) (j := j) (by omega) hj
  unfold Lit
  rwa [List.getD_eq_getElem _ _ hi]

/-- Tabs as four spaces and all blanks as spaces. -/
def plain (s : List Nat) : List Nat := s.flatMap fun a => if a = 9 then [32, 32, 32, 32] else if a = 0 ∨ a = 255 then [32] else [a]

theorem plain_letters (s : List Nat) (fl : Flow) : letters (plain s) fl = plain (letters s fl) := by
  cases fl with
  | backwards =>
    show (plain s).reverse = plain s.reverse
    unfold plain
    rw [List.reverse_flatMap]
    congr 1
    funext a
    simp only [Function.comp]
    split_ifs <;> rfl
  | _ => rfl

/-- The loop over the letters sees no difference. -/
theorem plotChars_plain (hf : font ∈ shipped) {sh : Shape} {st : Style} {nl tab adv : Int × Int → Int × Int}
    (ht : ∀ p, tab p = adv (adv (adv (adv p)))) : ∀ (s : List Nat) (p : Int × Int) (b0 : Bytes),
    plotChars (glyphFn c sh st) font scale pixspace (.one c) nl tab adv (plain s) b0 p =
      plotChars (glyphFn c sh st) font scale pixspace (.one c) nl tab adv s b0 p := by
  have skip : ∀ {ch : Nat}, Blank ch → ∀ (s : List Nat) (p : Int × Int) (b : Bytes),
      plotChars (glyphFn c sh st) font scale pixspace (.one c) nl tab adv (ch :: s) b p =
        plotChars (glyphFn c sh st) font scale pixspace (.one c) nl tab adv s b (adv p) := by
    intro ch hb s p b
    obtain ⟨e, z⟩ := blank_zero hf (ch := ch) (by unfold Blank at hb; omega) hb
    rw [plotChars, if_neg (by unfold Blank at hb; omega), if_neg (by unfold Blank at hb; omega), e, ok_bind, glyph_zero _ _ _ z, ok_bind]
  have h32 : Blank 32 := Or.inr (Or.inl rfl)
  intro s
  induction s with
  | nil => intros; rfl
  | cons a s ih =>
    intro p b
    have e : plain (a :: s) = (if a = 9 then [32, 32, 32, 32] else if a = 0 ∨ a = 255 then [32] else [a]) ++ plain s := by
      unfold plain; rw [List.flatMap_cons]
    rw [e]
    by_cases h9 : a = 9
    · rw [if_pos h9, h9]
      simp only [List.cons_append, List.nil_append, skip h32]
      rw [ih, plotChars, if_neg (by norm_num), if_pos rfl, ht]
    · rw [if_neg h9]
      by_cases hb : a = 0 ∨ a = 255
      · rw [if_pos hb, List.singleton_append, skip h32, skip (by unfold Blank; omega), ih]
      · rw [if_neg hb, List.singleton_append, plotChars, plotChars]
        simp only [ih]

/-- C186: a tab moves as far as four spaces, and the three blank characters of the fonts do the same: nothing. -/
theorem C186_tabs (hf : font ∈ shipped) (f : TextFn) (b : Bytes) (s : List Nat) :
    f.run b x y (plain s) scale pixspace space c font = f.run b x y s scale pixspace space c font := by
  simp only [TextFn.run_eq]
  generalize f.shape = sh
  generalize f.style = st
  generalize f.flow = fl
  obtain ⟨hne, -, -⟩ := font_facts hf
  obtain ⟨-, -, e⟩ := setText_chars (pixspace := pixspace) (scale := scale) (space := space) (x := x) (y := y) hne (glyphFn c sh st) (.one c) b
    (str := plain s) (fl := fl)
  obtain ⟨-, -, e1⟩ := setText_chars (pixspace := pixspace) (scale := scale) (space := space) (x := x) (y := y) hne (glyphFn c sh st) (.one c) b
    (str := s) (fl := fl)
  rw [e, e1, plain_letters]
  refine plotChars_plain hf ?_ _ _ _
  intro p
  cases fl <;> simp only [along] <;> ext <;> dsimp only <;> ring

/-- The codes that leave no trace: blanks, tabs and newlines. -/
def Traceless (a : Nat) : Prop := Blank a ∨ a = 9 ∨ a = 10

theorem plotChars_traceless (hf : font ∈ shipped) {sh : Shape} {st : Style} {nl tab adv : Int × Int → Int × Int} :
    ∀ (s : List Nat), (∀ a ∈ s, Traceless a) → ∀ (p : Int × Int) (b : Bytes),
    plotChars (glyphFn c sh st) font scale pixspace (.one c) nl tab adv s b p = .ok b := by
  intro s
  induction s with
  | nil => intros; rfl
  | cons a s ih =>
    intro h p b
    have hs := ih fun v hv => h v (List.mem_cons_of_mem _ hv)
    rw [plotChars]
    split_ifs with h10 h9
    · exact hs _ _
    · exact hs _ _
    · have hb : Blank a := by
        have := h a (List.mem_cons_self ..)
        rcases this with g | g | g
        · exact g
        · exact absurd g h9
        · exact absurd g h10
      obtain ⟨e, z⟩ := blank_zero hf (ch := a) (by unfold Blank at hb; omega) hb
      rw [e, ok_bind, glyph_zero _ _ _ z, ok_bind]
      exact hs _ _

/-- C186: a text without visible characters changes nothing, whatever the image, place, scale and colour. -/
theorem C186_traceless (hf : font ∈ shipped) (f : TextFn) (b : Bytes) {s : List Nat} (h : ∀ a ∈ s, Traceless a) :
    f.run b x y s scale pixspace space c font = .ok b := by
  simp only [TextFn.run_eq]
  generalize f.shape = sh
  generalize f.style = st
  generalize f.flow = fl
  obtain ⟨hne, -, -⟩ := font_facts hf
  obtain ⟨-, -, e1⟩ := setText_chars (pixspace := pixspace) (scale := scale) (space := space) (x := x) (y := y) hne (glyphFn c sh st) (.one c) b
    (str := s) (fl := fl)
  rw [e1]
  refine plotChars_traceless hf _ ?_ _ _
  intro a ha
  cases fl with
  | backwards => exact h a (List.mem_reverse.mp ha)
  | _ => exact h a ha

/-- `Hi` in two parts on a 1-bit image, with the second letter at column 9. -/
example : (do let b ← newBMP 24 8 1
              let b1 ← plotstring b 0 0 [72, 105] 1 0 0 (.one 1) font8x8
              let b2 ← plotstring b 0 0 [72] 1 0 0 (.one 1) font8x8
              let b3 ← plotstring b2 9 0 [105] 1 0 0 (.one 1) font8x8
              pure (decide (b1 = b3), decide (b1 = b2)) : Py (Bool × Bool)) = .ok (true, false) ∧
    spot font8x8 1 0 0 0 (columnNo (letters [72] .across)) (lineNo (letters [72] .across)) .across = (9, 0) := by
  constructor <;> decide +kernel

/-- Without the condition on newlines the law of the parts fails: the second line of the second part would start below its first one. -/
theorem C186_join_wrong : ∃ s t : List Nat, (do
    let b ← newBMP 24 24 1
    let b1 ← plotstring b 0 0 (s ++ t) 1 0 0 (.one 1) font8x8
    let b2 ← plotstring b 0 0 s 1 0 0 (.one 1) font8x8
    let b3 ← plotstring b2 9 0 t 1 0 0 (.one 1) font8x8
    pure (decide (b1 = b3)) : Py Bool) = .ok false := ⟨[72], [105, 10, 105], by decide +kernel⟩

end Verif.Props.Fonts
