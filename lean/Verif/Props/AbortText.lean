import Verif.Model.AbortText
import Verif.Props.AbortMore
import Verif.Props.Text
/-! Property C200 for patterns and text. -/

namespace Verif.Props.Abort
open Verif Spec Model Model.Run Lemmas Verif.Props Verif.Props.Beyond Verif.Props.Far Verif.Props.Overlay

variable {b b' : Bytes} {W H bits : Nat}

/-! ### The programs agree with the first model -/

theorem outcome_patRow {put : Int → Int → Run Unit} {put' : Bytes → Int → Int → Py Bytes}
    (hp : ∀ x y b, outcome (put x y) b = put' b x y) (dx dy : Int) (v : Nat) (ms : List Nat) (x y : Int) (b : Bytes) :
    outcome (patRowR put dx dy v ms x y) b = patRow put' dx dy v ms b x y := by
  induction ms generalizing x y b with
  | nil => rfl
  | cons m ms ih =>
    unfold patRowR patRow
    rw [outcome_seq, outcome_ite, hp, outcome_pure]
    exact bind_congr fun b' => ih _ _ b'

theorem outcome_patRows {put : Int → Int → Int → Run Unit} {put' : Int → Bytes → Int → Int → Py Bytes}
    (hp : ∀ c x y b, outcome (put c x y) b = put' c b x y) (dx dy : Int) (next : Int × Int → Int × Int) (steps : Nat)
    (color : PatColor) (rows : List Nat) (ci : Nat) (p : Int × Int) (b : Bytes) :
    outcome (patRowsR put dx dy next steps color rows ci p) b = patRows put' dx dy next steps color rows ci b p := by
  induction rows generalizing ci p b with
  | nil => rfl
  | cons v rows ih =>
    unfold patRowsR patRows
    rw [outcome_look]
    refine bind_congr fun cl => ?_
    rw [outcome_seq, outcome_patRow (hp cl)]
    exact bind_congr fun b' => ih _ _ b'

theorem outcome_patPut (scale inc c x y : Int) (b : Bytes) : outcome (patPutR scale inc c x y) b = patPut patSquare scale inc c b x y := by
  unfold patPutR patPut patSquare
  rw [outcome_ite, C200_plotxybit, C200_filledrect]

theorem C200_plot8bitpattern (x y : Int) (g : List Nat) (s ps : Int) (c : PatColor) (b : Bytes) :
    outcome (plot8bitpatternR x y g s ps c) b = plot8bitpattern b x y g s ps c := outcome_patRows (outcome_patPut _ _) ..

theorem C200_plot8bitpatternupsidedown (x y : Int) (g : List Nat) (s ps : Int) (c : PatColor) (b : Bytes) :
    outcome (plot8bitpatternupsidedownR x y g s ps c) b = plot8bitpatternupsidedown b x y g s ps c := C200_plot8bitpattern ..

theorem C200_plot8bitpatternsideway (x y : Int) (g : List Nat) (s ps : Int) (c : PatColor) (b : Bytes) :
    outcome (plot8bitpatternsidewayR x y g s ps c) b = plot8bitpatternsideway b x y g s ps c := outcome_patRows (outcome_patPut _ _) ..

theorem C200_plotitalic8bitpattern (x y : Int) (g : List Nat) (s ps : Int) (c : PatColor) (b : Bytes) :
    outcome (plotitalic8bitpatternR x y g s ps c) b = plotitalic8bitpattern b x y g s ps c := outcome_patRows (outcome_patPut _ _) ..

/-- The two kinds of rendering functions do the same. -/
def Agree (r : RenderR) (r' : RenderFn) : Prop := ∀ x y g s ps c b, outcome (r x y g s ps c) b = r' b x y g s ps c

theorem outcome_plotChars {r : RenderR} {r' : RenderFn} (hr : Agree r r') (font : Bytes) (s ps : Int) (c : PatColor)
    (nl tab adv : Int × Int → Int × Int) (str : List Nat) (p : Int × Int) (b : Bytes) :
    outcome (plotCharsR r font s ps c nl tab adv str p) b = plotChars r' font s ps c nl tab adv str b p := by
  induction str generalizing p b with
  | nil => rfl
  | cons ch str ih =>
    unfold plotCharsR plotChars
    rw [outcome_ite, outcome_ite, ih, ih, outcome_look]
    by_cases h1 : ch = 10
    · rw [if_pos h1, if_pos h1]
    by_cases h2 : ch = 9
    · rw [if_neg h1, if_pos h2, if_neg h1, if_pos h2]
    rw [if_neg h1, if_neg h2, if_neg h1, if_neg h2]
    refine bind_congr fun g => ?_
    rw [outcome_seq, hr]
    exact bind_congr fun b' => ih _ b'

theorem outcome_stringfunc {r : RenderR} {r' : RenderFn} (hr : Agree r r') (order : List Nat → List Nat) (x y : Int) (str : List Nat)
    (s ps sp : Int) (c : PatColor) (font b : Bytes) :
    outcome (plotstringfuncR order r x y str s ps sp c font) b = plotstringfunc order r' b x y str s ps sp c font := by
  unfold plotstringfuncR plotstringfunc
  rw [outcome_look]
  exact bind_congr fun h => outcome_plotChars hr ..

theorem C200_plotstring (x y : Int) (str : List Nat) (s ps sp : Int) (c : PatColor) (font b : Bytes) :
    outcome (plotstringR x y str s ps sp c font) b = plotstring b x y str s ps sp c font :=
  outcome_stringfunc C200_plot8bitpattern ..

theorem C200_plotitalicstring (x y : Int) (str : List Nat) (s ps sp : Int) (c : PatColor) (font b : Bytes) :
    outcome (plotitalicstringR x y str s ps sp c font) b = plotitalicstring b x y str s ps sp c font :=
  outcome_stringfunc C200_plotitalic8bitpattern ..

theorem C200_plotstringupsidedown (x y : Int) (str : List Nat) (s ps sp : Int) (c : PatColor) (font b : Bytes) :
    outcome (plotstringupsidedownR x y str s ps sp c font) b = plotstringupsidedown b x y str s ps sp c font :=
  outcome_stringfunc C200_plot8bitpatternupsidedown ..

theorem C200_plotstringsideway (x y : Int) (str : List Nat) (s ps sp : Int) (c : PatColor) (font b : Bytes) :
    outcome (plotstringsidewayR x y str s ps sp c font) b = plotstringsideway b x y str s ps sp c font := by
  unfold plotstringsidewayR plotstringsideway plotstringsidewayfn
  rw [outcome_look]
  exact bind_congr fun h => outcome_plotChars C200_plot8bitpatternsideway ..

/-! ### A character that the font does not have -/

theorem chars_left {r : RenderR} {r' : RenderFn} (hr : Agree r r') {font : Bytes} {s ps : Int} {c : PatColor}
    {nl tab adv : Int × Int → Int × Int} {u v : List Nat} {ch : Nat} {e : PyErr} (h10 : ch ≠ 10) (h9 : ch ≠ 9)
    (he : getcharfont font ch = .error e) {p : Int × Int} (hu : plotChars r' font s ps c nl tab adv u b p = .ok b') :
    plotCharsR r font s ps c nl tab adv (u ++ ch :: v) p b = (.error e, b') := by
  induction u generalizing p b with
  | nil =>
    cases hu
    rw [List.nil_append, plotCharsR, if_neg h10, if_neg h9]
    exact run_look_error he
  | cons a u ih =>
    rw [List.cons_append]
    unfold plotCharsR
    unfold plotChars at hu
    by_cases g1 : a = 10
    · rw [if_pos g1] at hu ⊢; exact ih hu
    by_cases g2 : a = 9
    · rw [if_neg g1, if_pos g2] at hu ⊢; exact ih hu
    rw [if_neg g1, if_neg g2] at hu ⊢
    rcases hg : getcharfont font a with e1 | g
    · rw [hg] at hu; cases hu
    rw [hg, ok_bind, ← hr] at hu
    rcases hb : outcome (r p.1 p.2 g s ps c) b with e1 | b1
    · rw [hb] at hu; cases hu
    rw [hb, ok_bind] at hu
    exact (run_look (f := fun _ => .ok g) (a := g) rfl).trans ((run_seq (run_ok hb)).trans (ih hu))

/-- The font does not have the character `ch`. -/
def Missing (font : Bytes) (ch : Nat) : Prop := ch ≠ 10 ∧ ch ≠ 9 ∧ 0 < byte font 0 ∧ font.length ≤ (ch + 1) * byte font 0

theorem Missing.nonempty {font : Bytes} {ch : Nat} (h : Missing font ch) : font ≠ [] := by
  rintro rfl
  exact absurd h.2.2.1 (by decide)

theorem Missing.raises {font : Bytes} {ch : Nat} (h : Missing font ch) : getcharfont font ch = .error .indexError :=
  getcharfont_err h.nonempty h.2.2.1 h.2.2.2

theorem stringfunc_left {r : RenderR} {r' : RenderFn} (hr : Agree r r') {order : List Nat → List Nat} {x y : Int} {s ps sp : Int}
    {c : PatColor} {font : Bytes} {u v w : List Nat} {ch : Nat} (hm : Missing font ch) (ho : order w = order u ++ ch :: v)
    (hu : plotstringfunc order r' b x y u s ps sp c font = .ok b') :
    plotstringfuncR order r x y w s ps sp c font b = (.error .indexError, b') := by
  unfold plotstringfuncR
  unfold plotstringfunc at hu
  have h0 := height_ok hm.nonempty
  rw [h0, ok_bind] at hu
  rw [run_look (a := byte font 0) h0, ho]
  exact chars_left hr hm.1 hm.2.1 hm.raises hu

/-- C200: a text with a character that the font does not have raises `IndexError` and leaves the image with the text before
that character. -/
theorem C200_text_left (h : Valid b W H bits) (x y : Int) {u v : List Nat} {ch : Nat} {font : Bytes} (hm : Missing font ch)
    (hs : InFont font u) {s ps c : Int} (sp : Int) (hd : DotOK bits s ps c) :
    ∃ b', plotstringR x y (u ++ ch :: v) s ps sp (.one c) font b = (.error .indexError, b') ∧
      Paints b b' W H bits (fun px py =>
        ∃ k a i j : Nat, Stands u k a ∧ i < byte font 0 ∧ j < 8 ∧ Lit (glyph font a) i j ∧
          Square W H (dotSide s ps) (x + columnNo (u.take k) * colStep s sp + j * s)
            (y + lineNo (u.take k) * lineStep font s sp + i * s) px py) (reduce bits c) := by
  obtain ⟨b', e, p⟩ := C66_plotstring_partial h x y hm.nonempty hs sp hd
  exact ⟨b', stringfunc_left C200_plot8bitpattern hm (v := v) rfl e, p⟩

/-- C200: the same for any colours and images, said with the image of the text before the character. -/
theorem C200_text_before {x y : Int} {u v : List Nat} {ch : Nat} {font : Bytes} (hm : Missing font ch) {s ps sp : Int} {c : PatColor}
    (hu : plotstring b x y u s ps sp c font = .ok b') :
    plotstringR x y (u ++ ch :: v) s ps sp c font b = (.error .indexError, b') :=
  stringfunc_left C200_plot8bitpattern hm (v := v) rfl hu

/-- C200: italic text. -/
theorem C200_italic_before {x y : Int} {u v : List Nat} {ch : Nat} {font : Bytes} (hm : Missing font ch) {s ps sp : Int} {c : PatColor}
    (hu : plotitalicstring b x y u s ps sp c font = .ok b') :
    plotitalicstringR x y (u ++ ch :: v) s ps sp c font b = (.error .indexError, b') :=
  stringfunc_left C200_plotitalic8bitpattern hm (v := v) rfl hu

/-- C200: of an upside down text the part after the character is left, since the characters are drawn from the last to the first. -/
theorem C200_upsidedown_after {x y : Int} {u v : List Nat} {ch : Nat} {font : Bytes} (hm : Missing font ch) {s ps sp : Int} {c : PatColor}
    (hu : plotstringupsidedown b x y u s ps sp c font = .ok b') :
    plotstringupsidedownR x y (v ++ ch :: u) s ps sp c font b = (.error .indexError, b') := by
  refine stringfunc_left C200_plot8bitpatternupsidedown hm (v := v.reverse) ?_ hu
  unfold enumreverseletters
  simp

/-- C200: sideways text. -/
theorem C200_sideway_before {x y : Int} {u v : List Nat} {ch : Nat} {font : Bytes} (hm : Missing font ch) {s ps sp : Int} {c : PatColor}
    (hu : plotstringsideway b x y u s ps sp c font = .ok b') :
    plotstringsidewayR x y (u ++ ch :: v) s ps sp c font b = (.error .indexError, b') := by
  unfold plotstringsidewayR
  unfold plotstringsideway plotstringsidewayfn at hu
  have h0 := height_ok hm.nonempty
  rw [h0, ok_bind] at hu
  rw [run_look (a := byte font 0) h0]
  exact chars_left C200_plot8bitpatternsideway hm.1 hm.2.1 hm.raises hu

/-! ### Numbers that are no colours -/

/-- The program changes nothing, whether it raises an exception or not. -/
def Still (r : Run Unit) (b : Bytes) : Prop := r b = (.ok (), b) ∨ ∃ e, r b = (.error e, b)

theorem still_seq {p q : Run Unit} (hp : Still p b) (hq : Still q b) : Still (p >>= fun _ => q) b := by
  rcases hp with g | ⟨e, g⟩
  · unfold Still
    rw [run_seq g]
    exact hq
  · exact .inr ⟨e, run_seq_error g⟩

theorem still_look {α : Type} {f : Bytes → Py α} {g : α → Run Unit} (h : ∀ a, f b = .ok a → Still (g a) b) : Still (look f >>= g) b := by
  rcases hf : f b with e | a
  · exact .inr ⟨e, run_look_error hf⟩
  · unfold Still
    rw [run_look hf]
    exact h a hf

theorem still_put (h : Valid b W H 24) {c : Int} (hc : TooWide c) (s inc x y : Int) : Still (patPutR s inc c x y) b := by
  unfold patPutR
  by_cases hs : s = 1 ∨ inc ≤ 0
  · rw [if_pos hs]
    by_cases hf : Fails W H (.point x y)
    · exact .inr ⟨_, run_assign_error ((C196_truecolour h (f := .point x y) hc trivial).1 hf)⟩
    · refine .inl (run_assign ?_)
      have hf : ¬ (0 ≤ x ∧ x < W ∧ 0 ≤ y ∧ y < H) := hf
      unfold plotxybit
      rw [h.inb_eq, ok_bind, if_pos (by simpa using hf)]
      rfl
  rw [if_neg hs]
  unfold filledrectR
  refine still_look fun a _ => still_look fun d _ => ?_
  rcases d
  · exact .inl rfl
  rw [if_neg (by simp)]
  refine still_look fun n hn => ?_
  rw [h.bits_eq] at hn
  cases hn
  unfold sortrecpoints
  simp only
  rw [if_neg (by simp)]
  refine still_look fun _ _ => .inr ⟨.overflowError, run_look_error ?_⟩
  rw [if_pos trivial]
  exact mk_bad hc (by simp) (by simp only [swapif]; split_ifs <;> simp_all; omega)

theorem still_row {put : Int → Int → Run Unit} (hp : ∀ x y, Still (put x y) b) (dx dy : Int) (v : Nat) (ms : List Nat) (x y : Int) :
    Still (patRowR put dx dy v ms x y) b := by
  induction ms generalizing x y with
  | nil => exact .inl rfl
  | cons m ms ih =>
    unfold patRowR
    refine still_seq ?_ (ih _ _)
    split_ifs
    · exact hp x y
    · exact .inl rfl

/-- Each colour of the pattern is no colour of a 24-bit image. -/
def AllWide : PatColor → Prop
  | .one c => TooWide c
  | .cycle cs => ∀ c ∈ cs, TooWide c

theorem still_rows (h : Valid b W H 24) {color : PatColor} (hc : AllWide color) (s inc dx dy : Int) (next : Int × Int → Int × Int)
    (steps : Nat) (rows : List Nat) (ci : Nat) (p : Int × Int) : Still (patRowsR (patPutR s inc) dx dy next steps color rows ci p) b := by
  induction rows generalizing ci p with
  | nil => exact .inl rfl
  | cons v rows ih =>
    unfold patRowsR
    refine still_look fun cl hcl => still_seq (still_row (still_put h ?_ s inc) ..) (ih _ _)
    cases color with
    | one c => cases hcl; exact hc
    | cycle cs =>
      simp only [rowColor] at hcl
      rcases hg : cs[ci]? with _ | c
      · rw [hg] at hcl; cases hcl
      · rw [hg] at hcl
        cases hcl
        exact hc _ (List.mem_of_getElem? hg)

theorem still_unharmed {r : Run Unit} (h : Still r b) : Unharmed r b := by
  rcases h with g | ⟨e, g⟩
  · exact unharmed_ok (b' := b) (by unfold outcome; rw [g]; rfl)
  · exact unharmed_error g

/-- C200: a pattern in numbers that are no colours of a 24-bit image leaves the image as it is. -/
theorem C200_pattern_wide (h : Valid b W H 24) (x y : Int) (g : List Nat) (s ps : Int) {color : PatColor} (hc : AllWide color) :
    Unharmed (plot8bitpatternR x y g s ps color) b := still_unharmed (still_rows h hc ..)

theorem still_chars {r : RenderR} {font : Bytes} {s ps : Int} {c : PatColor} (hr : ∀ x y g, Still (r x y g s ps c) b)
    (nl tab adv : Int × Int → Int × Int) (str : List Nat) (p : Int × Int) : Still (plotCharsR r font s ps c nl tab adv str p) b := by
  induction str generalizing p with
  | nil => exact .inl rfl
  | cons ch str ih =>
    unfold plotCharsR
    split_ifs
    · exact ih _
    · exact ih _
    · exact still_look fun g _ => still_seq (hr ..) (ih _)

/-- C200: a text in numbers that are no colours of a 24-bit image leaves the image as it is, in every font. -/
theorem C200_text_wide (h : Valid b W H 24) (x y : Int) (str : List Nat) (s ps sp : Int) {color : PatColor} (hc : AllWide color)
    (font : Bytes) : Unharmed (plotstringR x y str s ps sp color font) b ∧ Unharmed (plotitalicstringR x y str s ps sp color font) b ∧
      Unharmed (plotstringupsidedownR x y str s ps sp color font) b ∧ Unharmed (plotstringsidewayR x y str s ps sp color font) b := by
  refine ⟨?_, ?_, ?_, ?_⟩ <;> exact still_unharmed (still_look fun _ _ => still_chars (fun _ _ _ => still_rows h hc ..) ..)

example : Missing tinyFont 12 ∧ InFont tinyFont [0] := by
  refine ⟨⟨by decide, by decide, by decide, by decide⟩, ?_⟩
  intro c hc _ _
  simp only [List.mem_singleton] at hc
  subst hc
  decide

/-- C200 is false for text: the character 12 is not in the font, the character 0 before it stays drawn. -/
theorem C200_text_false :
    (do let b ← newBMP 20 3 24; let r := plotstringR 0 0 [0, 12, 1] 1 0 0 (.one 7) tinyFont b
        pure (r.1, (List.range 3).map fun y => (List.range 3).map fun x => pix r.2 20 3 24 x y)) =
      .ok (.error .indexError, [[7, 0, 0], [0, 7, 0], [0, 0, 0]]) := by decide +kernel

/-- C200 is false for a pattern in several colours: the rows before the number that is no colour stay drawn. -/
theorem C200_pattern_false :
    (do let b ← newBMP 20 3 24; let r := plot8bitpatternR 0 0 [128, 64] 1 0 (.cycle [5, 2 ^ 24]) b
        pure (r.1, (List.range 3).map fun y => (List.range 3).map fun x => pix r.2 20 3 24 x y)) =
      .ok (.error .overflowError, [[5, 0, 0], [0, 0, 0], [0, 0, 0]]) := by decide +kernel

example : (do let b ← newBMP 20 3 24; let r := plotstringR 0 0 [0, 1] 1 0 0 (.one (2 ^ 24)) tinyFont b; pure (r.1, decide (r.2 = b))) =
    .ok (.error .overflowError, true) := by decide +kernel

end Verif.Props.Abort
