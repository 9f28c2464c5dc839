import Verif.Lemmas.Pattern
import Verif.Lemmas.Header
/-! The loop over the characters of a string. -/

namespace Verif.Lemmas
open Verif Spec Model

theorem mapM_err {α β : Type} (l : List α) (f : α → Py β) (e : PyErr)
    (h : ∀ a ∈ l, (∃ v, f a = .ok v) ∨ f a = .error e) (hex : ∃ a ∈ l, f a = .error e) : l.mapM f = .error e := by
  induction l with
  | nil => obtain ⟨a, ha, -⟩ := hex; simp at ha
  | cons a l ih =>
    rw [List.mapM_cons]
    rcases h a (by simp) with ⟨v, hv⟩ | hv
    · rw [hv]
      simp only [ok_bind]
      obtain ⟨a', ha', he⟩ := hex
      have : a' ∈ l := by
        rcases List.mem_cons.mp ha' with e1 | e1
        · subst e1; rw [hv] at he; simp at he
        · exact e1
      rw [ih (fun a'' h'' => h a'' (by simp [h''])) ⟨a', this, he⟩]
      rfl
    · rw [hv]; rfl

theorem getcharfont_ok {font : Bytes} (hf : font ≠ []) {c : Nat} (hc : (c + 1) * byte font 0 < font.length) :
    getcharfont font c = .ok (glyph font c) := by
  have h0 : 0 < font.length := List.length_pos_iff.mpr hf
  unfold getcharfont glyph
  have e0 : getItem font 0 = .ok (byte font 0) := by
    exact getItem_ok rfl h0
  rw [e0]
  simp only [ok_bind]
  apply mapM_ok
  intro i hi
  rw [List.mem_range] at hi
  refine getItem_ok rfl ?_
  have : (c + 1) * byte font 0 = c * byte font 0 + byte font 0 := by ring
  omega

theorem getcharfont_err {font : Bytes} (hf : font ≠ []) {c : Nat} (hh : 0 < byte font 0)
    (hc : font.length ≤ (c + 1) * byte font 0) : getcharfont font c = .error .indexError := by
  have h0 : 0 < font.length := List.length_pos_iff.mpr hf
  unfold getcharfont
  have e0 : getItem font 0 = .ok (byte font 0) := getItem_ok rfl h0
  rw [e0]
  simp only [ok_bind]
  have hm : (c + 1) * byte font 0 = c * byte font 0 + byte font 0 := by ring
  apply mapM_err
  · intro i _
    by_cases hi : c * byte font 0 + 1 + i < font.length
    · exact Or.inl ⟨_, getItem_ok rfl hi⟩
    · exact Or.inr (getItem_ge (by omega))
  · exact ⟨byte font 0 - 1, List.mem_range.mpr (by omega), getItem_ge (by omega)⟩

theorem column_append (pre : List Nat) (c : Nat) :
    columnNo (pre ++ [c]) = if c = 10 then 0 else if c = 9 then columnNo pre + 4 else columnNo pre + 1 := by
  unfold columnNo; rw [List.foldl_append]; rfl

theorem line_append (pre : List Nat) (c : Nat) : lineNo (pre ++ [c]) = if c = 10 then lineNo pre + 1 else lineNo pre := by
  unfold lineNo
  rw [List.count_append]
  by_cases h : c = 10 <;> simp [h]

/-- What a whole string paints, for any way `G` of painting a glyph at a place and any positions `P col line`. -/
theorem plotChars_paints_at {W H bits col : Nat} {render : RenderFn} {font : Bytes} {scale pixspace : Int} {color : PatColor}
    {nl tab adv : Int × Int → Int × Int} (P : Nat → Nat → Int × Int) (hnl : ∀ c l, nl (P c l) = P 0 (l + 1))
    (htab : ∀ c l, tab (P c l) = P (c + 4) l) (hadv : ∀ c l, adv (P c l) = P (c + 1) l)
    (G : List Nat → Int × Int → Nat → Nat → Prop) (hf : font ≠ [])
    (pre str : List Nat) {b0 : Bytes} (hr : ∀ k c, Stands str k c → ∀ b, Valid b W H bits → SameHeader b0 b bits →
      (c + 1) * byte font 0 < font.length → ∃ b',
      render b (P (columnNo (pre ++ str.take k)) (lineNo (pre ++ str.take k))).1
        (P (columnNo (pre ++ str.take k)) (lineNo (pre ++ str.take k))).2 (glyph font c) scale pixspace color = .ok b' ∧
      Paints b b' W H bits (G (glyph font c) (P (columnNo (pre ++ str.take k)) (lineNo (pre ++ str.take k)))) col)
    (hs : InFont font str) {b : Bytes} (h : Valid b W H bits) (h0 : SameHeader b0 b bits) :
    ∃ b', plotChars render font scale pixspace color nl tab adv str b (P (columnNo pre) (lineNo pre)) = .ok b' ∧
      Paints b b' W H bits (fun px py => ∃ k c, Stands str k c ∧
        G (glyph font c) (P (columnNo (pre ++ str.take k)) (lineNo (pre ++ str.take k))) px py) col := by
  induction str generalizing pre b with
  | nil => exact ⟨b, rfl, Paints.refl h _ (by rintro _ _ _ _ ⟨k, c, hk, -⟩; simp [Stands] at hk)⟩
  | cons a str ih =>
    have hs' : InFont font str := fun c hc => hs c (List.mem_cons_of_mem _ hc)
    have shift : ∀ px py, (∃ k c, Stands (a :: str) k c ∧
        G (glyph font c) (P (columnNo (pre ++ (a :: str).take k)) (lineNo (pre ++ (a :: str).take k))) px py) ↔
        ((a ≠ 10 ∧ a ≠ 9) ∧ G (glyph font a) (P (columnNo pre) (lineNo pre)) px py) ∨
        (∃ k c, Stands str k c ∧ G (glyph font c) (P (columnNo ((pre ++ [a]) ++ str.take k))
          (lineNo ((pre ++ [a]) ++ str.take k))) px py) := by
      intro px py
      constructor
      · rintro ⟨k, c, hk, hg⟩
        rcases k with _ | k
        · left
          obtain ⟨e, h1⟩ := hk
          simp at e
          subst e
          exact ⟨h1, by simpa using hg⟩
        · right
          refine ⟨k, c, hk, ?_⟩
          simpa using hg
      · rintro (⟨h1, hg⟩ | ⟨k, c, hk, hg⟩)
        · exact ⟨0, a, ⟨rfl, h1⟩, by simpa using hg⟩
        · exact ⟨k + 1, c, hk, by simpa using hg⟩
    have hr' : ∀ k c, Stands str k c → ∀ b, Valid b W H bits → SameHeader b0 b bits → (c + 1) * byte font 0 < font.length → ∃ b',
        render b (P (columnNo (pre ++ [a] ++ str.take k)) (lineNo (pre ++ [a] ++ str.take k))).1
          (P (columnNo (pre ++ [a] ++ str.take k)) (lineNo (pre ++ [a] ++ str.take k))).2 (glyph font c) scale pixspace color
          = .ok b' ∧
        Paints b b' W H bits
          (G (glyph font c) (P (columnNo (pre ++ [a] ++ str.take k)) (lineNo (pre ++ [a] ++ str.take k)))) col := by
      intro k c hk
      have := hr (k + 1) c hk
      simpa using this
    have hcol := column_append pre a
    have hline := line_append pre a
    by_cases h10 : a = 10
    · obtain ⟨b', e, p⟩ := ih (pre ++ [a]) hr' hs' h h0
      refine ⟨b', ?_, p.congr ?_⟩
      · rw [plotChars, if_pos h10, hnl]
        rw [hcol, hline, if_pos h10, if_pos h10] at e
        exact e
      · intro px py _ _
        rw [shift]
        simp [h10]
    · by_cases h9 : a = 9
      · obtain ⟨b', e, p⟩ := ih (pre ++ [a]) hr' hs' h h0
        refine ⟨b', ?_, p.congr ?_⟩
        · rw [plotChars, if_neg h10, if_pos h9, htab]
          rw [hcol, hline, if_neg h10, if_neg h10, if_pos h9] at e
          exact e
        · intro px py _ _
          rw [shift]
          simp [h9]
      · have ha : (a + 1) * byte font 0 < font.length := hs a (by simp) h10 h9
        obtain ⟨b1, e1, p1⟩ := hr 0 a ⟨rfl, h10, h9⟩ b h h0 ha
        simp only [List.take_zero, List.append_nil] at e1 p1
        obtain ⟨b2, e2, p2⟩ := ih (pre ++ [a]) hr' hs' p1.valid (SameHeader_trans h0 p1.header)
        refine ⟨b2, ?_, p1.trans p2 ?_⟩
        · rw [plotChars, if_neg h10, if_neg h9, getcharfont_ok hf ha, hadv]
          simp only [ok_bind, e1]
          rw [hcol, hline, if_neg h10, if_neg h10, if_neg h9] at e2
          exact e2
        · intro px py _ _
          rw [shift]
          simp [h10, h9]

/-- The same for glyphs that can be painted everywhere, for any way `G` of painting a glyph at a place and any positions `P col line`. -/
theorem plotChars_paints {W H bits col : Nat} {render : RenderFn} {font : Bytes} {scale pixspace : Int} {color : PatColor}
    {nl tab adv : Int × Int → Int × Int} (P : Nat → Nat → Int × Int) (hnl : ∀ c l, nl (P c l) = P 0 (l + 1))
    (htab : ∀ c l, tab (P c l) = P (c + 4) l) (hadv : ∀ c l, adv (P c l) = P (c + 1) l)
    (G : List Nat → Int × Int → Nat → Nat → Prop) (hf : font ≠ [])
    (hr : ∀ b, Valid b W H bits → ∀ x y c, (c + 1) * byte font 0 < font.length → ∃ b',
      render b x y (glyph font c) scale pixspace color = .ok b' ∧ Paints b b' W H bits (G (glyph font c) (x, y)) col)
    (pre str : List Nat) (hs : InFont font str) {b : Bytes} (h : Valid b W H bits) :
    ∃ b', plotChars render font scale pixspace color nl tab adv str b (P (columnNo pre) (lineNo pre)) = .ok b' ∧
      Paints b b' W H bits (fun px py => ∃ k c, Stands str k c ∧
        G (glyph font c) (P (columnNo (pre ++ str.take k)) (lineNo (pre ++ str.take k))) px py) col :=
  plotChars_paints_at P hnl htab hadv G hf pre str (b0 := b) (fun _ c _ b hb _ hc => hr b hb _ _ c hc) hs h ⟨rfl, fun _ _ => rfl⟩

end Verif.Lemmas
