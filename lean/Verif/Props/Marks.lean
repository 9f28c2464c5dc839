import Verif.Props.Dots
import Verif.Props.Nibbles
/-! Glyphs and texts of C134 and C135 with one statement for all depths, with the exact marks on 4-bit images and the exact
colours on 8-bit images. -/

namespace Verif.Props.Dots
open Verif Spec Model Lemmas

/-- The pixels of a square or disc put at `(x, y)`, for each depth. A square on a 4-bit image lacks its right column unless
it consists of whole bytes; a disc on a 4-bit image has the rows of C19. -/
def MarkD (W H bits : Nat) (scale pixspace x y : Int) : Shape → Nat → Nat → Prop
  | .square => fun px py => Square W H (dotSide scale pixspace) x y px py ∧
      (bits = 4 → dotSide scale pixspace ≠ 1 → (px : Int) = x + dotSide scale pixspace - 1 → x % 2 = 0 ∧ dotSide scale pixspace % 2 = 0)
  | .dot => fun px py => if dotSide scale pixspace = 1 then (px : Int) = x ∧ (py : Int) = y else
      Props.Mark W bits (x + dotRadius scale pixspace) (y + dotRadius scale pixspace) (dotRadius scale pixspace) px py

/-- The colours and places for which `MarkD` and `MarkValue` describe the marks. -/
def MarkOKD (W bits : Nat) (scale pixspace c x : Int) : Shape → Prop
  | .square => (bits = 24 → 0 ≤ c ∧ c < 2 ^ 24) ∧ (dotSide scale pixspace = 1 ∨ IsColour bits c)
  | .dot => (bits = 24 → 0 ≤ c ∧ c < 2 ^ 24) ∧
      (dotSide scale pixspace = 1 ∨ (IsColour bits c ∧ PenOK W bits (x + dotRadius scale pixspace)))

/-- The value painted for colour `c`: squares of more than one pixel on an 8-bit image get the entry nearest to the shade of
blue `(0, 0, c)` (see C22). -/
def MarkValue (b : Bytes) (bits : Nat) (scale pixspace c : Int) (sh : Shape) (v : Nat) : Prop :=
  if bits = 8 ∧ sh = .square ∧ dotSide scale pixspace ≠ 1 then v < 256 ∧ FirstNearest b (0, 0, c) v else v = reduce bits c

theorem firstNearest_unique {b : Bytes} {rgb : RGB} {c c' : Nat} (h1 : c < 256) (h2 : c' < 256) (h : FirstNearest b rgb c)
    (h' : FirstNearest b rgb c') : c = c' := by
  rcases h with ⟨rfl, h⟩ | ⟨n, h⟩ <;> rcases h' with ⟨rfl, h'⟩ | ⟨n', h'⟩
  · rfl
  · exact absurd (h _ h2) n'
  · exact absurd (h' _ h1) n
  · obtain ⟨a1, a2⟩ := h c' h2 n'
    obtain ⟨b1, b2⟩ := h' c h1 n
    by_contra hne
    rcases Nat.lt_or_gt_of_ne hne with hl | hl
    · have := b2 hl; omega
    · have := a2 hl; omega

theorem palRGB_same {b b' : Bytes} (h : SameHeader b b' 8) {i : Nat} (hi : i < 256) : palRGB b' i = palRGB b i := by
  have hd : dataOff 8 = 1078 := by decide
  unfold palRGB
  rw [h.2 _ (by omega), h.2 _ (by omega), h.2 _ (by omega)]

theorem firstNearest_same {b b' : Bytes} (h : SameHeader b b' 8) {rgb : RGB} {c : Nat} (hc : c < 256) :
    FirstNearest b' rgb c ↔ FirstNearest b rgb c := by
  unfold FirstNearest
  rw [palRGB_same h hc]
  constructor
  · rintro (⟨e, g⟩ | ⟨n, g⟩)
    · exact Or.inl ⟨e, fun i hi => by rw [← palRGB_same h hi]; exact g i hi⟩
    · exact Or.inr ⟨n, fun i hi => by rw [← palRGB_same h hi]; exact g i hi⟩
  · rintro (⟨e, g⟩ | ⟨n, g⟩)
    · exact Or.inl ⟨e, fun i hi => by rw [palRGB_same h hi]; exact g i hi⟩
    · exact Or.inr ⟨n, fun i hi => by rw [palRGB_same h hi]; exact g i hi⟩

theorem markValue_same {b b' : Bytes} {bits : Nat} (h : SameHeader b b' bits) {scale pixspace c : Int} (sh : Shape) (v : Nat) :
    MarkValue b' bits scale pixspace c sh v ↔ MarkValue b bits scale pixspace c sh v := by
  unfold MarkValue
  split_ifs with e
  · obtain ⟨rfl, -⟩ := e
    exact and_congr_right fun hv => firstNearest_same h hv
  · exact Iff.rfl

/-- There is exactly one value for every colour. -/
theorem C134_value {b : Bytes} {W H bits : Nat} (h : Valid b W H bits) (hW : 0 < W) (hH : 0 < H) {scale pixspace c x : Int} (sh : Shape)
    (hd : MarkOKD W bits scale pixspace c x sh) :
    (∃ v, MarkValue b bits scale pixspace c sh v) ∧
    ∀ v v', MarkValue b bits scale pixspace c sh v → MarkValue b bits scale pixspace c sh v' → v = v' := by
  unfold MarkValue
  split_ifs with e
  · obtain ⟨rfl, rfl, hs⟩ := e
    refine ⟨?_, fun v v' h1 h2 => firstNearest_unique h1.1 h2.1 h1.2 h2.2⟩
    obtain ⟨-, k, hk, hf, -⟩ := C22_exact (x1 := 0) (y1 := 0) (x2 := 0) (y2 := 0) h (by omega) (by omega) (hd.2.resolve_left hs)
    exact ⟨k, hk, hf⟩
  · exact ⟨⟨_, rfl⟩, fun v v' h1 h2 => h1.trans h2.symm⟩

theorem markD_put {b0 : Bytes} {W H bits : Nat} {scale pixspace c x : Int} (sh : Shape) (hd : MarkOKD W bits scale pixspace c x sh)
    {v : Nat} (hv : MarkValue b0 bits scale pixspace c sh v) {b : Bytes} (h : Valid b W H bits) (h0 : SameHeader b0 b bits) (y : Int) :
    ∃ b', patPut (shapeFn sh) scale (scale - 1 - pixspace) c b x y = .ok b' ∧
      Paints b b' W H bits (MarkD W H bits scale pixspace x y sh) v := by
  unfold patPut
  by_cases hs : scale = 1 ∨ scale - 1 - pixspace ≤ 0
  · have h1 : dotSide scale pixspace = 1 := by unfold dotSide; split_ifs <;> omega
    have hv : v = reduce bits c := by
      unfold MarkValue at hv; rwa [if_neg (by simp [h1])] at hv
    rw [if_pos hs, hv]
    have h24 : bits = 24 → 0 ≤ c ∧ c < 2 ^ 24 := by cases sh <;> exact hd.1
    obtain ⟨b', e, p⟩ := plot_paints h x y h24
    refine ⟨b', e, p.congr ?_⟩
    intro px py hx hy
    cases sh with
    | square =>
      simp only [MarkD, h1, ne_eq, not_true_eq_false, false_implies, implies_true, and_true]
      unfold Square
      omega
    | dot => simp only [MarkD, h1, if_true]
  have h1 : dotSide scale pixspace = scale - pixspace := by unfold dotSide; rw [if_neg (by omega)]; omega
  have hne : dotSide scale pixspace ≠ 1 := by omega
  rw [if_neg hs]
  cases sh with
  | dot =>
    have hv : v = reduce bits c := by
      unfold MarkValue at hv; rwa [if_neg (by simp)] at hv
    obtain ⟨hc, hok⟩ := hd.2.resolve_left hne
    rw [hv, reduce_of_colour h.depth hc]
    unfold shapeFn plotcircinsqr
    have hr : pyShr (scale - 1 - pixspace) 1 = dotRadius scale pixspace := by
      unfold dotRadius; rw [pyShr_1, h1]; congr 1; ring
    simp only [hr]
    obtain ⟨b', e, p⟩ := C27_filledcircle_depths (y := y + dotRadius scale pixspace) (r := dotRadius scale pixspace) h hc hok
    refine ⟨b', e, p.congr fun px py _ _ => ?_⟩
    simp only [MarkD, hne, if_false]
  | square =>
    have hc := hd.2.resolve_left hne
    unfold shapeFn patSquare
    by_cases hin : (0 ≤ x ∧ x < W ∧ 0 ≤ y ∧ y < H) ∧
        (0 ≤ x + (scale - 1 - pixspace) ∧ x + (scale - 1 - pixspace) < W ∧
         0 ≤ y + (scale - 1 - pixspace) ∧ y + (scale - 1 - pixspace) < H)
    · rcases h.depth with rfl | rfl | rfl | rfl
      · have hv : v = reduce 1 c := by unfold MarkValue at hv; rwa [if_neg (by simp)] at hv
        rw [hv, reduce_of_colour h.depth hc]
        obtain ⟨b', e, p⟩ := C21_filledrect_partial (color := c) h hin.1 hin.2 hc (by omega)
        refine ⟨b', e, p.congr fun px py hx hy => ?_⟩
        unfold MarkD Square RectSet
        dsimp only
        omega
      · have hv : v = reduce 4 c := by unfold MarkValue at hv; rwa [if_neg (by simp)] at hv
        rw [hv]
        obtain ⟨b', e, p⟩ := C21_filledrect_4bit (color := c) h hin.1 hin.2
        refine ⟨b', e, p.congr fun px py hx hy => ?_⟩
        unfold MarkD Square Nib
        dsimp only
        omega
      · unfold MarkValue at hv
        rw [if_pos ⟨rfl, rfl, hne⟩] at hv
        obtain ⟨b', k, hk, hf, e, p⟩ := C22_exact h hin.1 hin.2 hc
        have : k = v := firstNearest_unique hk hv.1 ((firstNearest_same h0 hk).mp hf) hv.2
        subst this
        refine ⟨b', e, p.congr fun px py hx hy => ?_⟩
        unfold MarkD Square RectSet
        dsimp only
        omega
      · have hv : v = reduce 24 c := by unfold MarkValue at hv; rwa [if_neg (by simp)] at hv
        rw [hv, reduce_of_colour h.depth hc]
        obtain ⟨b', e, p⟩ := C21_filledrect_partial (color := c) h hin.1 hin.2 hc (by omega)
        refine ⟨b', e, p.congr fun px py hx hy => ?_⟩
        unfold MarkD Square RectSet
        dsimp only
        omega
    · refine ⟨b, C21_rejected h c hin, Paints.refl h _ ?_⟩
      intro px py hx hy
      unfold MarkD Square
      dsimp only
      omega

/-- C134 for all depths: every glyph function paints exactly the marks of the set bits of the glyph, in one value. -/
theorem C134_glyph_depths {b : Bytes} {W H bits : Nat} (h : Valid b W H bits) (x y : Int) {pat : List Nat}
    (hp : ∀ v ∈ pat, v < 256) {scale pixspace c : Int} (hs : 1 ≤ scale) (sh : Shape) (st : Style)
    (hd : ∀ i j, i < pat.length → j < 8 → MarkOKD W bits scale pixspace c (place scale pat.length x y i j st).1 sh)
    {v : Nat} (hv : MarkValue b bits scale pixspace c sh v) :
    ∃ b', glyphFn c sh st b x y pat scale pixspace (.one c) = .ok b' ∧ Paints b b' W H bits (fun px py =>
      ∃ i j : Nat, i < pat.length ∧ Seen j st ∧ Lit pat i j ∧ MarkD W H bits scale pixspace
        (place scale pat.length x y i j st).1 (place scale pat.length x y i j st).2 sh px py) v := by
  rw [glyphFn_eq]
  exact style_paints (S := fun x y => MarkD W H bits scale pixspace x y sh) hs h x y hp st
    (fun i j hi hj _ b hb h0 => markD_put sh (hd i j hi (seen_lt hj)) hv hb h0 _)

theorem setText_depths {b : Bytes} {W H bits : Nat} (h : Valid b W H bits) (x y : Int) {str : List Nat} {font : Bytes}
    (hf : font ≠ []) (hb : ∀ v ∈ font, v < 256) (hi : InFont font str) {scale pixspace c : Int} (space : Int)
    (hs : 1 ≤ scale) (fl : Flow) (sh : Shape) (st : Style)
    (hd : ∀ k ch i j, Stands (letters str fl) k ch → i < byte font 0 → j < 8 →
      MarkOKD W bits scale pixspace c (dotAt font scale space x y str fl st k i j).1 sh)
    {v : Nat} (hv : MarkValue b bits scale pixspace c sh v) :
    ∃ b', setText (glyphFn c sh st) (.one c) b x y str scale pixspace space font fl = .ok b' ∧
      Paints b b' W H bits (fun px py => ∃ k ch i j : Nat, Stands (letters str fl) k ch ∧ i < byte font 0 ∧ Seen j st ∧
        Lit (glyph font ch) i j ∧ MarkD W H bits scale pixspace (dotAt font scale space x y str fl st k i j).1
          (dotAt font scale space x y str fl st k i j).2 sh px py) v := by
  obtain ⟨h1, h2, e⟩ := setText_chars hf (glyphFn c sh st) (.one c) b x y str scale pixspace space fl
  obtain ⟨b', e', p⟩ := plotChars_paints_at (col := v) (render := glyphFn c sh st) (color := .one c) (scale := scale)
    (pixspace := pixspace) (fun k l => spot font scale space x y k l fl) h1 (fun c l => h2 c l 4)
    (fun c l => h2 c l 1)
    (fun g p px py => ∃ i j : Nat, i < g.length ∧ Seen j st ∧ Lit g i j ∧ MarkD W H bits scale pixspace
        (place scale g.length p.1 p.2 i j st).1 (place scale g.length p.1 p.2 i j st).2 sh px py) hf [] (letters str fl) (b0 := b)
    (by
      intro k ch hk b1 hv1 h0 _
      refine C134_glyph_depths hv1 _ _ (glyph_lt hb ch) hs sh st ?_ ?_
      · intro i j hi hj
        rw [length_glyph] at hi ⊢
        exact hd k ch i j hk hi hj
      · exact (markValue_same h0 sh v).mpr hv) (inFont_letters hi fl) h ⟨rfl, fun _ _ => rfl⟩
  refine ⟨b', ?_, p.congr ?_⟩
  · rw [e]
    simpa [columnNo, lineNo] using e'
  · intro px py _ _
    simp only [length_glyph, List.nil_append]
    constructor
    · rintro ⟨k, ch, i, j, hk, hi, hj, hl, hq⟩
      exact ⟨k, ch, hk, i, j, hi, hj, hl, hq⟩
    · rintro ⟨k, ch, hk, i, j, hi, hj, hl, hq⟩
      exact ⟨k, ch, i, j, hk, hi, hj, hl, hq⟩

/-- C135 for all depths: every text function paints exactly the marks of the glyphs of the visible characters, each in its
column and line, in one value. -/
theorem C135_text_depths {b : Bytes} {W H bits : Nat} (h : Valid b W H bits) (x y : Int) {str : List Nat} {font : Bytes}
    (hf : font ≠ []) (hb : ∀ v ∈ font, v < 256) (hi : InFont font str) {scale pixspace c : Int} (space : Int)
    (hs : 1 ≤ scale) (f : TextFn)
    (hd : ∀ k ch i j, Stands (letters str f.flow) k ch → i < byte font 0 → j < 8 →
      MarkOKD W bits scale pixspace c (dotAt font scale space x y str f.flow f.style k i j).1 f.shape)
    {v : Nat} (hv : MarkValue b bits scale pixspace c f.shape v) :
    ∃ b', f.run b x y str scale pixspace space c font = .ok b' ∧
      Paints b b' W H bits (fun px py => ∃ k ch i j : Nat, Stands (letters str f.flow) k ch ∧ i < byte font 0 ∧
        Seen j f.style ∧ Lit (glyph font ch) i j ∧ MarkD W H bits scale pixspace
          (dotAt font scale space x y str f.flow f.style k i j).1
          (dotAt font scale space x y str f.flow f.style k i j).2 f.shape px py) v := by
  rw [f.run_eq]
  exact setText_depths h x y hf hb hi space hs f.flow f.shape f.style hd hv

/-! ### Files -/

/-- The value of the background of a new image: nothing is painted for 0; on 8-bit images see C22. -/
def GroundValue (b : Bytes) (bits : Nat) (bg : Int) (g : Nat) : Prop :=
  if bg ≤ 0 then g = 0 else if bits = 8 then g < 256 ∧ FirstNearest b (0, 0, bg) g else g = reduce bits bg

theorem groundValue_same {b b' : Bytes} {bits : Nat} (h : SameHeader b b' bits) {bg : Int} (g : Nat) :
    GroundValue b' bits bg g ↔ GroundValue b bits bg g := by
  unfold GroundValue
  split_ifs with e1 e2
  · exact Iff.rfl
  · subst e2
    exact and_congr_right fun hv => firstNearest_same h hv
  · exact Iff.rfl

/-- A new image with its background, for all depths: on 4-bit images of odd width the last column stays 0. -/
theorem new_ground_depths {W H bits : Nat} (hd : Depth bits) (hW : 0 < W ∧ W < 2 ^ 24) (hH : 0 < H ∧ H < 2 ^ 24) {bg : Int}
    (hb : bg ≤ 0 ∨ IsColour bits bg) :
    ∃ b g, (do let bmp ← newBMP W H bits
               (if bg > 0 then filledrect bmp 0 0 ((W : Int) - 1) ((H : Int) - 1) bg else pure bmp : Py Bytes)) = .ok b ∧
      Valid b W H bits ∧ GroundValue b bits bg g ∧
      ∀ x y, x < W → y < H → pix b W H bits x y = if bits = 4 ∧ W % 2 = 1 ∧ x + 1 = W then 0 else g := by
  obtain ⟨b0, e0, v0, -, -, -, -, z0, -⟩ := C01_newBMP_valid W H bits hd hW.2 hH.2
  rw [e0]
  simp only [ok_bind]
  by_cases hg : bg ≤ 0
  · rw [if_neg (by omega)]
    refine ⟨b0, 0, rfl, v0, by unfold GroundValue; rw [if_pos hg], fun x y hx hy => ?_⟩
    rw [z0 x y hx hy]; simp
  rw [if_pos (by omega)]
  have hc := hb.resolve_left hg
  have i1 : 0 ≤ (0 : Int) ∧ (0 : Int) < W ∧ 0 ≤ (0 : Int) ∧ (0 : Int) < H := by omega
  have i2 : 0 ≤ (W : Int) - 1 ∧ (W : Int) - 1 < W ∧ 0 ≤ (H : Int) - 1 ∧ (H : Int) - 1 < H := by omega
  by_cases h8 : bits = 8
  · subst h8
    obtain ⟨b', k, hk, hf, e, p⟩ := C22_exact v0 i1 i2 hc
    refine ⟨b', k, e, p.valid, ?_, fun x y hx hy => ?_⟩
    · unfold GroundValue
      rw [if_neg hg, if_pos rfl]
      exact ⟨hk, (firstNearest_same p.header hk).mpr hf⟩
    · rw [if_neg (by omega)]
      exact p.inside x y hx hy (by unfold RectSet; omega)
  by_cases h4 : bits = 4
  · subst h4
    obtain ⟨b', e, p⟩ := C21_filledrect_4bit (color := bg) v0 i1 i2
    refine ⟨b', reduce 4 bg, e, p.valid, ?_, fun x y hx hy => ?_⟩
    · unfold GroundValue
      rw [if_neg hg, if_neg (by omega)]
    · split_ifs with c
      · rw [p.outside x y hx hy (by unfold Nib; omega)]
        exact z0 x y hx hy
      · exact p.inside x y hx hy (by unfold Nib; omega)
  · obtain ⟨b', e, p⟩ := C21_filledrect_partial (color := bg) v0 i1 i2 hc (by rcases hd with e | e | e | e <;> omega)
    refine ⟨b', reduce bits bg, e, p.valid, ?_, fun x y hx hy => ?_⟩
    · unfold GroundValue
      rw [if_neg hg, if_neg h8]
    · rw [if_neg (by omega), reduce_of_colour v0.depth hc]
      exact p.inside x y hx hy (by unfold RectSet; omega)

/-- C136 for all depths: the file written for a text shows, over the background, exactly the marks of the visible characters;
they all have their place in the image; no other file changes. -/
theorem C136_textfile_depths (f : FileFn) {str : List Nat} {w : Nat} (hw : IsWidth str w) {font : Bytes} (hf : font ≠ [])
    (hb : ∀ v ∈ font, v < 256) (hi : InFont font str) (fs : Files) (file : String) {bits : Nat} (hdep : Depth bits)
    {scale pixspace space c bg : Int} (hs : 1 ≤ scale) (hps : 0 ≤ pixspace) (hsp : 0 ≤ space)
    (hc : IsColour bits c) (hbg : bg ≤ 0 ∨ IsColour bits bg) {W H : Nat}
    (hW : (W : Int) = (textSize font scale space w (lineNo str + 1) f.style f.flow).1) (hW' : W < 2 ^ 24)
    (hH : (H : Int) = (textSize font scale space w (lineNo str + 1) f.style f.flow).2) (hH' : H < 2 ^ 24) :
    ∃ fs', f.run fs file str scale pixspace space c font bg bits = .ok fs' ∧ Saved fs fs' file (fun b =>
      Valid b W H bits ∧ (∀ k ch i j px py : Nat, Stands (letters str f.flow) k ch → i < byte font 0 → Seen j f.style →
        FullMark scale pixspace (dotAt font scale space scale scale str f.flow f.style k i j).1
          (dotAt font scale space scale scale str f.flow f.style k i j).2 f.shape px py → px < W ∧ py < H) ∧
      ∃ v g, MarkValue b bits scale pixspace c f.shape v ∧ GroundValue b bits bg g ∧ ∀ px py : Nat, px < W → py < H →
        ((∃ k ch i j : Nat, Stands (letters str f.flow) k ch ∧ i < byte font 0 ∧ Seen j f.style ∧ Lit (glyph font ch) i j ∧
          MarkD W H bits scale pixspace (dotAt font scale space scale scale str f.flow f.style k i j).1
            (dotAt font scale space scale scale str f.flow f.style k i j).2 f.shape px py) → pix b W H bits px py = v) ∧
        ((¬ ∃ k ch i j : Nat, Stands (letters str f.flow) k ch ∧ i < byte font 0 ∧ Seen j f.style ∧ Lit (glyph font ch) i j ∧
          MarkD W H bits scale pixspace (dotAt font scale space scale scale str f.flow f.style k i j).1
            (dotAt font scale space scale scale str f.flow f.style k i j).2 f.shape px py) →
          pix b W H bits px py = if bits = 4 ∧ W % 2 = 1 ∧ px + 1 = W then 0 else g)) := by
  have hst : f.style = .upright ∨ f.style = .upsidedown ∨ f.style = .mirrored ∨ f.style = .italic ∨
      f.style = .italicmirrored := by cases f <;> simp [FileFn.style]
  have hfl : f.flow ≠ .up := by cases f <;> simp [FileFn.flow]
  have side := dotSide_le hs hps
  have side1 : 1 ≤ dotSide scale pixspace := by unfold dotSide; split_ifs <;> omega
  have hrad : 0 ≤ dotRadius scale pixspace ∧ 2 * dotRadius scale pixspace + 1 ≤ dotSide scale pixspace := by
    unfold dotRadius; omega
  have seen : ∀ j, Seen j f.style → j < 8 := by
    intro j hj
    rcases hst with e | e | e | e | e <;> rw [e] at hj <;> unfold Seen at hj <;> dsimp only at hj <;> omega
  have fits := fun k ch i j (hk : Stands (letters str f.flow) k ch) (hi : i < byte font 0) (hj : j < 8) =>
    text_fits (space := space) hw hs hsp hst hfl hk hi hj
  have hpos : 0 < W ∧ 0 < H := by
    have hcs : 0 ≤ colStep scale space := by unfold colStep; split_ifs <;> omega
    have hl0 : 0 ≤ (byte font 0 : Int) * scale := mul_nonneg (by omega) (by omega)
    have hls : 0 ≤ lineStep font scale space := by unfold lineStep; split_ifs <;> omega
    have hsl : 0 ≤ slant scale (byte font 0) 0 0 := by
      unfold slant
      split_ifs
      · omega
      · exact mul_nonneg (by omega) (by omega)
    have hlean : 0 ≤ lean font scale f.style := by unfold lean; cases f.style <;> dsimp only <;> omega
    have hm : ∀ (n : Nat) (a : Int), 0 ≤ a → 0 ≤ (n : Int) * a := fun n a ha => mul_nonneg (by omega) ha
    have a1 := hm w _ hcs
    have a2 := hm (lineNo str + 1) _ hcs
    have a3 := hm w _ hls
    have a4 := hm (lineNo str + 1) _ hls
    rw [textSize.eq_def] at hW hH
    revert hW hH
    cases f.flow <;> dsimp only <;> intro hW hH <;> omega
  obtain ⟨b0, g, e0, v0, hg, g0⟩ := new_ground_depths (bg := bg) hdep ⟨hpos.1, hW'⟩ ⟨hpos.2, hH'⟩ hbg
  have h24 : bits = 24 → 0 ≤ c ∧ c < 2 ^ 24 := by intro e; subst e; exact hc
  have hmark : ∀ X : Int, 0 ≤ X → X + dotSide scale pixspace ≤ W → MarkOKD W bits scale pixspace c X f.shape := by
    intro X hX hX2
    cases f.shape with
    | square => exact ⟨h24, Or.inr hc⟩
    | dot => exact ⟨h24, Or.inr ⟨hc, penOK_in hdep (by omega) (by omega)⟩⟩
  obtain ⟨v, hv⟩ : ∃ v, MarkValue b0 bits scale pixspace c f.shape v := by
    unfold MarkValue
    split_ifs with e
    · obtain ⟨rfl, -, -⟩ := e
      obtain ⟨-, k, hk, hf, -⟩ := C22_exact (x1 := 0) (y1 := 0) (x2 := 0) (y2 := 0) v0 (by omega) (by omega) hc
      exact ⟨k, hk, hf⟩
    · exact ⟨_, rfl⟩
  obtain ⟨b', e, p⟩ := setText_depths (c := c) (pixspace := pixspace) v0 scale scale hf hb hi space hs f.flow f.shape f.style (by
    intro k ch i j hk hi hj
    have := fits k ch i j hk hi hj
    rw [← hW, ← hH] at this
    exact hmark _ (by omega) (by omega)) hv
  refine ⟨writeFile fs file b', ?_, writeFile_saved fs file ⟨p.valid, ?_, v, g, ?_, ?_, ?_⟩⟩
  · rw [f.run_eq hw hf fs file hs bg bits W H hW hH, e0]
    simp only [ok_bind, e]
    rfl
  · intro k ch i j px py hk hi hj hq
    have ft := fits k ch i j hk hi (seen j hj)
    rw [← hW, ← hH] at ft
    cases hsh : f.shape with
    | square =>
      rw [hsh] at hq
      unfold FullMark FullSquare at hq
      dsimp only at hq
      omega
    | dot =>
      rw [hsh] at hq
      have := disc_bounds hq
      omega
  · exact (markValue_same p.header _ v).mpr hv
  · exact (groundValue_same p.header g).mpr hg
  · intro px py hx hy
    refine ⟨p.inside px py hx hy, fun hn => ?_⟩
    rw [p.outside px py hx hy hn, g0 px py hx hy]

/-- C134 is false on 4-bit images: of squares of two pixels at an odd column the right half is missing. -/
theorem C134_false :
    (do let b ← newBMP 6 4 4
        let b ← plot8bitpattern b 1 0 [64, 192] 2 0 (.one 5)
        pure ((List.range 4).map fun y => (List.range 6).map fun x => pix b 6 4 4 x y)) =
    .ok [[0, 0, 0, 5, 0, 0], [0, 0, 0, 5, 0, 0], [0, 5, 0, 5, 0, 0], [0, 5, 0, 5, 0, 0]] := by decide +kernel

/-- A 4-bit file of odd width with a background: its last column is not painted. -/
example : (do let fs ← plotverticalstringasdots2file (fun _ => none) "t.bmp" [0, 1] 1 0 0 (.one 7) tinyFont 3 4
              match fs "t.bmp" with
              | some b => pure ((List.range 8).map fun y => (List.range 11).map fun x => pix b 11 8 4 x y)
              | none => .error .keyError) =
    .ok [[3, 3, 3, 3, 3, 3, 3, 3, 3, 3, 0], [3, 7, 3, 3, 3, 3, 3, 3, 3, 3, 0], [3, 3, 7, 3, 3, 3, 3, 3, 3, 3, 0],
      [3, 3, 3, 3, 3, 3, 3, 3, 3, 3, 0], [3, 7, 7, 3, 3, 3, 3, 3, 3, 3, 0], [3, 3, 7, 3, 3, 3, 3, 3, 3, 3, 0],
      [3, 3, 3, 3, 3, 3, 3, 3, 3, 3, 0], [3, 3, 3, 3, 3, 3, 3, 3, 3, 3, 0]] := by
  decide +kernel

end Verif.Props.Dots
