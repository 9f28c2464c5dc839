import Verif.Props.Marks
import Verif.Props.PensFar
/-! C134 and C135 at all places where no row of a painted disc deletes bytes or raises an exception (C19). -/

namespace Verif.Props.Dots
open Verif Spec Model Lemmas

/-- The colours and places for which `MarkD` and `MarkValue` describe the marks: for discs, all places that are safe. -/
def MarkSafe (W H bits : Nat) (scale pixspace c x y : Int) : Shape → Prop
  | .square => (bits = 24 → 0 ≤ c ∧ c < 2 ^ 24) ∧ (dotSide scale pixspace = 1 ∨ IsColour bits c)
  | .dot => (bits = 24 → 0 ≤ c ∧ c < 2 ^ 24) ∧ (dotSide scale pixspace = 1 ∨ (IsColour bits c ∧
      Far.DiscSafe W H bits (dotRadius scale pixspace) (x + dotRadius scale pixspace) (y + dotRadius scale pixspace)))

theorem markSafe_of_ok {W H bits : Nat} (hd : Depth bits) {scale pixspace c x : Int} (y : Int) {sh : Shape} (h : MarkOKD W bits scale pixspace c x sh) :
    MarkSafe W H bits scale pixspace c x y sh := by
  cases sh with
  | square => exact h
  | dot =>
    refine ⟨h.1, h.2.imp id fun g => ⟨g.1, Far.discSafe_of_penOK hd g.2 _ _⟩⟩

/-- A disc of radius 1 far left of a 24-bit image is safe, but not one of the places of `MarkOKD`. -/
example : MarkSafe 4 4 24 4 0 9 (-300) 0 .dot ∧ ¬ MarkOKD 4 24 4 0 9 (-300) .dot := by
  refine ⟨⟨by omega, Or.inr ⟨⟨by decide, by decide⟩, Far.discSafe_of_far (Or.inr (Or.inr (Or.inr rfl))) (by decide)⟩⟩, ?_⟩
  rintro ⟨-, h | ⟨-, h⟩⟩
  · revert h; decide
  · unfold PenOK at h; revert h; decide

theorem markD_put_safe {b0 : Bytes} {W H bits : Nat} {scale pixspace c x y : Int} (sh : Shape) (hd : MarkSafe W H bits scale pixspace c x y sh)
    {v : Nat} (hv : MarkValue b0 bits scale pixspace c sh v) {b : Bytes} (h : Valid b W H bits) (h0 : SameHeader b0 b bits) :
    ∃ b', patPut (shapeFn sh) scale (scale - 1 - pixspace) c b x y = .ok b' ∧
      Paints b b' W H bits (MarkD W H bits scale pixspace x y sh) v := by
  cases sh with
  | square => exact markD_put .square hd hv h h0 y
  | dot =>
    by_cases hne : dotSide scale pixspace = 1
    · exact markD_put .dot ⟨hd.1, Or.inl hne⟩ hv h h0 y
    obtain ⟨hc, hok⟩ := hd.2.resolve_left hne
    have hs : ¬ (scale = 1 ∨ scale - 1 - pixspace ≤ 0) := by
      intro g; apply hne; unfold dotSide; split_ifs <;> omega
    have h1 : dotSide scale pixspace = scale - pixspace := by unfold dotSide; rw [if_neg (by omega)]; omega
    have hv : v = reduce bits c := by
      unfold MarkValue at hv; rwa [if_neg (by simp)] at hv
    unfold patPut
    rw [if_neg hs, hv, reduce_of_colour h.depth hc]
    unfold shapeFn plotcircinsqr
    have hr : pyShr (scale - 1 - pixspace) 1 = dotRadius scale pixspace := by
      unfold dotRadius; rw [pyShr_1, h1]; congr 1; ring
    simp only [hr]
    obtain ⟨b', e, p⟩ := Far.disc_safe h hc hok
    refine ⟨b', e, p.congr fun px py _ _ => ?_⟩
    simp only [MarkD, hne, if_false]

/-- C134 where all painted dots are safe. -/
theorem C134_glyph_safe {b : Bytes} {W H bits : Nat} (h : Valid b W H bits) (x y : Int) {pat : List Nat}
    (hp : ∀ v ∈ pat, v < 256) {scale pixspace c : Int} (hs : 1 ≤ scale) (sh : Shape) (st : Style)
    (hd : ∀ i j, i < pat.length → Seen j st → Lit pat i j → MarkSafe W H bits scale pixspace c (place scale pat.length x y i j st).1
      (place scale pat.length x y i j st).2 sh) {v : Nat} (hv : MarkValue b bits scale pixspace c sh v) :
    ∃ b', glyphFn c sh st b x y pat scale pixspace (.one c) = .ok b' ∧ Paints b b' W H bits (fun px py =>
      ∃ i j : Nat, i < pat.length ∧ Seen j st ∧ Lit pat i j ∧ MarkD W H bits scale pixspace
        (place scale pat.length x y i j st).1 (place scale pat.length x y i j st).2 sh px py) v := by
  rw [glyphFn_eq]
  exact style_paints (S := fun x y => MarkD W H bits scale pixspace x y sh) hs h x y hp st
    (fun i j hi hj hl b hb h0 => markD_put_safe sh (hd i j hi hj hl) hv hb h0)

/-- C135 where all painted dots are safe. -/
theorem C135_text_safe {b : Bytes} {W H bits : Nat} (h : Valid b W H bits) (x y : Int) {str : List Nat} {font : Bytes}
    (hf : font ≠ []) (hb : ∀ v ∈ font, v < 256) (hi : InFont font str) {scale pixspace c : Int} (space : Int)
    (hs : 1 ≤ scale) (f : TextFn)
    (hd : ∀ k ch i j, Stands (letters str f.flow) k ch → i < byte font 0 → Seen j f.style → Lit (glyph font ch) i j →
      MarkSafe W H bits scale pixspace c (dotAt font scale space x y str f.flow f.style k i j).1
        (dotAt font scale space x y str f.flow f.style k i j).2 f.shape)
    {v : Nat} (hv : MarkValue b bits scale pixspace c f.shape v) :
    ∃ b', f.run b x y str scale pixspace space c font = .ok b' ∧
      Paints b b' W H bits (fun px py => ∃ k ch i j : Nat, Stands (letters str f.flow) k ch ∧ i < byte font 0 ∧
        Seen j f.style ∧ Lit (glyph font ch) i j ∧ MarkD W H bits scale pixspace
          (dotAt font scale space x y str f.flow f.style k i j).1
          (dotAt font scale space x y str f.flow f.style k i j).2 f.shape px py) v := by
  rw [f.run_eq]
  obtain ⟨h1, h2, e⟩ := setText_chars hf (glyphFn c f.shape f.style) (.one c) b x y str scale pixspace space f.flow
  obtain ⟨b', e', p⟩ := plotChars_paints_at (col := v) (render := glyphFn c f.shape f.style) (color := .one c) (scale := scale)
    (pixspace := pixspace) (fun k l => spot font scale space x y k l f.flow) h1 (fun c l => h2 c l 4)
    (fun c l => h2 c l 1)
    (fun g p px py => ∃ i j : Nat, i < g.length ∧ Seen j f.style ∧ Lit g i j ∧ MarkD W H bits scale pixspace
        (place scale g.length p.1 p.2 i j f.style).1 (place scale g.length p.1 p.2 i j f.style).2 f.shape px py) hf [] (letters str f.flow) (b0 := b)
    (by
      intro k ch hk b1 hv1 h0 _
      refine C134_glyph_safe hv1 _ _ (glyph_lt hb ch) hs f.shape f.style ?_ ?_
      · intro i j hi hj hl
        rw [length_glyph] at hi ⊢
        exact hd k ch i j hk hi hj hl
      · exact (markValue_same h0 f.shape v).mpr hv) (inFont_letters hi f.flow) h ⟨rfl, fun _ _ => rfl⟩
  refine ⟨b', ?_, p.congr ?_⟩
  · rw [e]
    simpa [columnNo, lineNo] using e'
  · intro px py _ _
    simp only [length_glyph, List.nil_append]
    constructor
    · rintro ⟨k, ch, i, j, hk, hi, hj, hl, hq⟩
      exact ⟨k, ch, hk, i, j, hi, hj, hl, hq⟩
    · rintro ⟨k, ch, hk, i, j, hi, hj, hl, hq⟩
      exact ⟨k, ch, i, j, hk, hi, hj, hl, hq⟩

/-- C134 for `plotitalic8bitpatternupdsidedownasdots`, which no text function uses: the marks of an upside down italic glyph. -/
theorem C134_updsidedown {b : Bytes} {W H bits : Nat} (h : Valid b W H bits) (x y : Int) {pat : List Nat}
    (hp : ∀ v ∈ pat, v < 256) {scale pixspace c : Int} (hs : 1 ≤ scale)
    (hd : ∀ i j, i < pat.length → Seen j .italicdown → Lit pat i j → MarkSafe W H bits scale pixspace c (place scale pat.length x y i j .italicdown).1
      (place scale pat.length x y i j .italicdown).2 .dot) {v : Nat} (hv : MarkValue b bits scale pixspace c .dot v) :
    ∃ b', plotitalic8bitpatternupdsidedownasdots b x y pat scale pixspace (.one c) = .ok b' ∧ Paints b b' W H bits (fun px py =>
      ∃ i j : Nat, i < pat.length ∧ Seen j .italicdown ∧ Lit pat i j ∧ MarkD W H bits scale pixspace
        (place scale pat.length x y i j .italicdown).1 (place scale pat.length x y i j .italicdown).2 .dot px py) v :=
  C134_glyph_safe h x y hp hs .dot .italicdown hd hv

/-- C135: a text of discs wholly left of the image can delete bytes of the file. -/
theorem C135_far_wrong : ∃ b b', newBMP 2 2 24 = .ok b ∧ plotstringasdots b (-24) 0 [0] 4 0 0 (.one 9) tinyFont = .ok b' ∧
    b'.length < b.length := by
  refine ⟨_, _, rfl, rfl, ?_⟩
  decide +kernel

/-- The same text 90 pixels left of the image changes nothing; partly inside it is painted. -/
example : (do let b ← newBMP 4 4 24
              let b1 ← plotstringasdots b (-90) 0 [0] 4 0 0 (.one 9) tinyFont
              let b2 ← plotstringasdots b 0 0 [0] 4 0 0 (.one 9) tinyFont
              pure (decide (b1 = b), (List.range 4).map fun y => (List.range 4).map fun x => decide (pix b2 4 4 24 x y = 9))) =
    .ok (true, [[false, true, false, false], [true, true, true, false], [false, true, false, false], [false, false, false, false]]) := by
  decide +kernel

end Verif.Props.Dots
