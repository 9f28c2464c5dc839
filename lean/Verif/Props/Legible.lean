import Verif.Props.Fonts
import Verif.Props.Marks
/-! Property C170 for all depths, and for texts made of discs. -/

namespace Verif.Props.Fonts
open Verif Spec Model Lemmas Props Dots

variable {b : Bytes} {W H bits : Nat} {font : Bytes} {scale pixspace space x y : Int}

/-- Where the dot `(i, j)` of the character in column `col` of line `l` is put. -/
def dotPos (font : Bytes) (scale space x y : Int) (f : TextFn) (col l i j : Nat) : Int × Int :=
  place scale (byte font 0) (spot font scale space x y col l f.flow).1 (spot font scale space x y col l f.flow).2 i j f.style

/-- The pixels of a text (C135). -/
def Ink (W H bits : Nat) (font : Bytes) (scale pixspace space x y : Int) (f : TextFn) (str : List Nat) (px py : Nat) : Prop :=
  ∃ l col ch i j : Nat, At (letters str f.flow) l col ch ∧ i < byte font 0 ∧ Seen j f.style ∧ Lit (glyph font ch) i j ∧
    MarkD W H bits scale pixspace (dotPos font scale space x y f col l i j).1 (dotPos font scale space x y f col l i j).2 f.shape px py

/-- `cell_unique` for dots that are less than `scale` apart. -/
theorem cell_near {n a a' j j' : Nat} {scale step p p' x : Int} (hs : 1 ≤ scale) (hstep : n * scale + 1 ≤ step) (hj : j < n) (hj' : j' < n)
    (hp : p = x + a * step + j * scale) (hp' : p' = x + a' * step + j' * scale) (h1 : p - p' < scale) (h2 : p' - p < scale) :
    a = a' ∧ j = j' := by
  rcases le_total p' p with g | g
  · exact cell_unique (a := a) (a' := a') (p := p) (x := x) (side := scale) hs le_rfl hstep hj hj' hp (by omega) (by omega)
  · obtain ⟨e1, e2⟩ := cell_unique (a := a') (a' := a) (p := p') (x := x) (side := scale) hs le_rfl hstep hj' hj hp' (by omega) (by omega)
    exact ⟨e1.symm, e2.symm⟩

/-- The pixel of a dot by which it is recognised: the corner of a square and the centre of a disc. -/
def core (scale pixspace : Int) : Shape → Int
  | .square => 0
  | .dot => dotRadius scale pixspace

theorem core_bounds (hs : 1 ≤ scale) (hps : 0 ≤ pixspace) (sh : Shape) : 0 ≤ core scale pixspace sh ∧ 2 * core scale pixspace sh < scale := by
  have side := dotSide_le hs hps
  have side1 : 1 ≤ dotSide scale pixspace := by unfold dotSide; split_ifs <;> omega
  cases sh
  · exact ⟨le_rfl, by show 2 * (0 : Int) < scale; omega⟩
  · unfold core dotRadius; dsimp only; omega

theorem near_axis {r : Int} (hr : 0 ≤ r) : OnCircle r r 0 := by
  refine ⟨hr, le_rfl, ?_⟩
  rcases hr.lt_or_eq with g | g
  · refine Or.inr ⟨g, ?_⟩
    rw [min_eq_right hr, max_eq_left hr]
    unfold Near
    constructor <;> nlinarith
  · exact Or.inl ⟨g.symm, g.symm, rfl⟩

/-- A dot contains its own core and not that of another dot. -/
theorem mark_core (hs : 1 ≤ scale) (hps : 0 ≤ pixspace) {sh : Shape} (h4 : sh = .dot → bits = 4 → dotSide scale pixspace ≠ 2)
    {u v u' v' : Int} {px py : Nat} (hx : (px : Int) = u + core scale pixspace sh) (hy : (py : Int) = v + core scale pixspace sh) :
    (0 ≤ u' → u' + scale ≤ W → MarkD W H bits scale pixspace u' v' sh px py → |u - u'| < scale ∧ |v - v'| < scale) ∧
    (0 ≤ u → 0 ≤ v → u + scale ≤ W → v + scale ≤ H → MarkD W H bits scale pixspace u v sh px py) := by
  have side := dotSide_le hs hps
  have side1 : 1 ≤ dotSide scale pixspace := by unfold dotSide; split_ifs <;> omega
  obtain ⟨c0, c1⟩ := core_bounds hs hps sh
  cases sh with
  | square =>
    replace hx : (px : Int) = u + 0 := hx
    replace hy : (py : Int) = v + 0 := hy
    constructor
    · rintro _ _ ⟨⟨-, q1, q2, q3, q4⟩, -⟩
      rw [abs_lt, abs_lt]
      omega
    · intro k1 k2 k3 k4
      refine ⟨?_, fun _ g1 g2 => ?_⟩
      · unfold Square; omega
      · omega
  | dot =>
    replace hx : (px : Int) = u + dotRadius scale pixspace := hx
    replace hy : (py : Int) = v + dotRadius scale pixspace := hy
    replace c0 : 0 ≤ dotRadius scale pixspace := c0
    replace c1 : 2 * dotRadius scale pixspace < scale := c1
    have h4 := h4 rfl
    have er : dotRadius scale pixspace = (dotSide scale pixspace - 1) / 2 := rfl
    unfold MarkD
    dsimp only
    split_ifs with g
    · have : dotRadius scale pixspace = 0 := by omega
      rw [abs_lt, abs_lt]
      refine ⟨fun _ _ k => by omega, fun _ _ _ _ => by omega⟩
    · by_cases e4 : bits = 4
      · have h4 := h4 e4
        unfold Props.Mark
        rw [if_pos e4, if_pos e4]
        constructor
        · rintro k1 k2 ⟨hw, q, k⟩
          obtain ⟨w1, w2, w3, w4⟩ := halfWidth_bounds q
          rw [abs_le] at w4
          unfold Row4 at k
          rw [abs_lt, abs_lt]
          omega
        · intro k1 k2 k3 k4
          refine ⟨dotRadius scale pixspace, ⟨?_, ?_⟩, ?_⟩
          · rw [hy, sub_self, abs_zero]
            exact near_axis c0
          · intro dx hdx
            obtain ⟨w, hw⟩ := halfWidth_exists (abs_nonneg ((py : Int) - (v + dotRadius scale pixspace))) (r := dotRadius scale pixspace)
              (by rw [hy, sub_self, abs_zero]; exact c0)
            exact (hw.2 dx hdx).trans (halfWidth_bounds hw).2.1
          · unfold Row4
            omega
      · rw [mark_of_ne e4, mark_of_ne e4]
        constructor
        · intro _ _ k
          have := disc_bounds k
          rw [abs_lt, abs_lt]
          omega
        · intro _ _ _ _
          refine ⟨dotRadius scale pixspace, ?_, ?_⟩
          · rw [hy, sub_self, abs_zero]
            exact near_axis c0
          · rw [hx, sub_self, abs_zero]
            exact c0

theorem seen_lt {j : Nat} {st : Style} (h : Seen j st) : j < 8 := by
  cases st <;> simp only [Seen] at h <;> omega

/-- Dots that are less than `scale` apart are the same dot of the same character. -/
theorem dot_near (hs : 1 ≤ scale) (hsp : 0 ≤ space) (f : TextFn) {col col' l l' i i' j j' : Nat} (hi : i < byte font 0) (hi' : i' < byte font 0)
    (hj : j < 8) (hj' : j' < 8)
    (h1 : |(dotPos font scale space x y f col l i j).1 - (dotPos font scale space x y f col' l' i' j').1| < scale)
    (h2 : |(dotPos font scale space x y f col l i j).2 - (dotPos font scale space x y f col' l' i' j').2| < scale) :
    col = col' ∧ l = l' ∧ i = i' ∧ j = j' := by
  have cs : ((8 : Nat) : Int) * scale + 1 ≤ colStep scale space := by unfold colStep; split_ifs <;> push_cast <;> omega
  have ls : (byte font 0 : Int) * scale + 1 ≤ lineStep font scale space := by unfold lineStep; split_ifs <;> omega
  rw [abs_lt] at h1 h2
  -- the two axes of a text
  have lines : ∀ {a a' i i' : Nat} (o : Int), i < byte font 0 → i' < byte font 0 →
      (o + a * lineStep font scale space + i * scale) - (o + a' * lineStep font scale space + i' * scale) < scale →
      (o + a' * lineStep font scale space + i' * scale) - (o + a * lineStep font scale space + i * scale) < scale → a = a' ∧ i = i' :=
    fun o hi hi' k1 k2 => cell_near hs ls hi hi' rfl rfl k1 k2
  have cols : ∀ {a a' j j' : Nat} (o : Int), j < 8 → j' < 8 →
      (o + a * colStep scale space + j * scale) - (o + a' * colStep scale space + j' * scale) < scale →
      (o + a' * colStep scale space + j' * scale) - (o + a * colStep scale space + j * scale) < scale → a = a' ∧ j = j' :=
    fun o hj hj' k1 k2 => cell_near hs cs hj hj' rfl rfl k1 k2
  unfold dotPos at h1 h2
  cases f with
  | plotstring | plotstringasdots | plotitalicstring | plotitalicstringasdots =>
    simp only [TextFn.flow, TextFn.style, spot, place] at h1 h2
    obtain ⟨rfl, rfl⟩ := lines (a := l) (a' := l') y hi hi' (by omega) (by omega)
    obtain ⟨rfl, rfl⟩ := cols (a := col) (a' := col') x hj hj' (by omega) (by omega)
    exact ⟨rfl, rfl, rfl, rfl⟩
  | plotreversestring | plotreversestringasdots | plotreverseditalicstring | plotreverseditalicstringasdots =>
    simp only [TextFn.flow, TextFn.style, spot, place] at h1 h2
    obtain ⟨rfl, rfl⟩ := lines (a := l) (a' := l') y hi hi' (by omega) (by omega)
    obtain ⟨rfl, e⟩ := cols (a := col) (a' := col') (j := 7 - j) (j' := 7 - j') x (by omega) (by omega) (by omega) (by omega)
    exact ⟨rfl, rfl, rfl, by omega⟩
  | plotstringupsidedown | plotstringupsidedownasdots | plotupsidedownitalicstring | plotupsidedownitalicstringasdots =>
    simp only [TextFn.flow, TextFn.style, spot, place] at h1 h2
    obtain ⟨rfl, e⟩ := lines (a := l) (a' := l') (i := byte font 0 - 1 - i) (i' := byte font 0 - 1 - i') y (by omega) (by omega) (by omega) (by omega)
    obtain rfl : i = i' := by omega
    obtain ⟨rfl, rfl⟩ := cols (a := col) (a' := col') x hj hj' (by omega) (by omega)
    exact ⟨rfl, rfl, rfl, rfl⟩
  | plotstringsideway | plotstringsidewayasdots | plotitalicstringsideway | plotitalicstringsidewayasdots =>
    simp only [TextFn.flow, TextFn.style, spot, place] at h1 h2
    obtain ⟨rfl, rfl⟩ := lines (a := l) (a' := l') x hi hi' (by omega) (by omega)
    obtain ⟨rfl, rfl⟩ := cols (a := col) (a' := col') (-y) hj hj' (by omega) (by omega)
    exact ⟨rfl, rfl, rfl, rfl⟩
  | plotstringvertical | plotstringverticalasdots | plotitalicstringvertical | plotitalicstringverticalasdots =>
    simp only [TextFn.flow, TextFn.style, spot, place] at h1 h2
    obtain ⟨rfl, rfl⟩ := lines (a := col) (a' := col') y hi hi' (by omega) (by omega)
    obtain ⟨rfl, rfl⟩ := cols (a := l) (a' := l') x hj hj' (by omega) (by omega)
    exact ⟨rfl, rfl, rfl, rfl⟩

/-- The text lies inside the image: every dot of every character has room. -/
def Inside (W H : Nat) (font : Bytes) (scale space x y : Int) (f : TextFn) (str : List Nat) : Prop :=
  ∀ l col ch i j, At (letters str f.flow) l col ch → i < byte font 0 → j < 8 →
    0 ≤ (dotPos font scale space x y f col l i j).1 ∧ (dotPos font scale space x y f col l i j).1 + scale ≤ W ∧
    0 ≤ (dotPos font scale space x y f col l i j).2 ∧ (dotPos font scale space x y f col l i j).2 + scale ≤ H

/-- What a text shows at the core of a dot: a dot of the character in this place. -/
theorem ink_core (hs : 1 ≤ scale) (hps : 0 ≤ pixspace) (hsp : 0 ≤ space) {f : TextFn}
    (h4 : f.shape = .dot → bits = 4 → dotSide scale pixspace ≠ 2) {str : List Nat}
    (hfit : Inside W H font scale space x y f str) {l col i j px py : Nat} (hi : i < byte font 0) (hj : Seen j f.style)
    (hx : (px : Int) = (dotPos font scale space x y f col l i j).1 + core scale pixspace f.shape)
    (hy : (py : Int) = (dotPos font scale space x y f col l i j).2 + core scale pixspace f.shape) :
    Ink W H bits font scale pixspace space x y f str px py ↔ ∃ ch, At (letters str f.flow) l col ch ∧ Lit (glyph font ch) i j := by
  constructor
  · rintro ⟨l', col', ch, i', j', hat, hi', hj', hl, q⟩
    obtain ⟨f1, f2, -, -⟩ := hfit _ _ _ _ _ hat hi' (seen_lt hj')
    obtain ⟨q1, q2⟩ := (mark_core hs hps h4 hx hy).1 f1 f2 q
    obtain ⟨rfl, rfl, rfl, rfl⟩ := dot_near hs hsp f hi hi' (seen_lt hj) (seen_lt hj') q1 q2
    exact ⟨ch, hat, hl⟩
  · rintro ⟨ch, hat, hl⟩
    obtain ⟨f1, f2, f3, f4⟩ := hfit _ _ _ _ _ hat hi (seen_lt hj)
    exact ⟨l, col, ch, i, j, hat, hi, hj, hl, (mark_core (u' := 0) (v' := 0) hs hps h4 hx hy).2 f1 f3 f2 f4⟩

theorem font_facts (hf : font ∈ shipped) : font ≠ [] ∧ (∀ v ∈ font, v < 256) ∧ ∀ {u : List Nat}, (∀ c ∈ u, c < 256) → InFont font u := by
  obtain ⟨hh, hlen, hby⟩ := C169_tables font hf
  refine ⟨?_, hby, ?_⟩
  · rintro rfl; rw [List.length_nil] at hlen; omega
  · intro u hu c hc _ _
    have := hu c hc
    rw [hlen]; rcases hh with g | g <;> rw [g] <;> omega

/-- The colours and places for which all dots of a text come out as `MarkD` says. -/
def DotsOK (W bits : Nat) (font : Bytes) (scale pixspace space x y c : Int) (f : TextFn) (str : List Nat) : Prop :=
  ∀ l col ch i j, At (letters str f.flow) l col ch → i < byte font 0 → j < 8 →
    MarkOKD W bits scale pixspace c (dotPos font scale space x y f col l i j).1 f.shape

/-- What the text functions paint. -/
theorem text_ink (h : Valid b W H bits) (hf : font ∈ shipped) {str : List Nat} (h1 : ∀ c ∈ str, c < 256) {c : Int} (hs : 1 ≤ scale) {f : TextFn}
    (hd : DotsOK W bits font scale pixspace space x y c f str) {v : Nat} (hv : MarkValue b bits scale pixspace c f.shape v) :
    ∃ b', f.run b x y str scale pixspace space c font = .ok b' ∧
      Paints b b' W H bits (Ink W H bits font scale pixspace space x y f str) v := by
  obtain ⟨hne, hby, inF⟩ := font_facts hf
  obtain ⟨b', e, p⟩ := C135_text_depths h x y hne hby (inF h1) space hs f (fun k ch i j hk hi hj => hd _ _ ch i j ⟨k, hk, rfl, rfl⟩ hi hj) hv
  refine ⟨b', e, p.congr ?_⟩
  intro px py _ _
  constructor
  · rintro ⟨l, col, ch, i, j, ⟨k, hk, rfl, rfl⟩, hi, hj, hl, q⟩
    exact ⟨k, ch, i, j, hk, hi, hj, hl, q⟩
  · rintro ⟨k, ch, i, j, hk, hi, hj, hl, q⟩
    exact ⟨_, _, ch, i, j, ⟨k, hk, rfl, rfl⟩, hi, hj, hl, q⟩

/-- The glyphs of `ch` and `ch'` show the same dots. -/
def Alike (font : Bytes) (st : Style) (ch ch' : Nat) : Prop :=
  ∀ i j, i < byte font 0 → Seen j st → (Lit (glyph font ch) i j ↔ Lit (glyph font ch') i j)

/-- The glyph of `ch` shows at least one dot. -/
def Visible (font : Bytes) (st : Style) (ch : Nat) : Prop := ∃ i j, i < byte font 0 ∧ Seen j st ∧ Lit (glyph font ch) i j

/-- C170 for all twenty text functions and all depths: if two texts, drawn in one of the fonts of the library, give the same picture,
then characters of the same look stand in the same places. Excluded are discs of side 2 on 4-bit images. -/
theorem C170_picture {b1 b2 : Bytes} (h : Valid b W H bits) (hf : font ∈ shipped) {s t : List Nat}
    (h1 : ∀ c ∈ s, c < 256) (h2 : ∀ c ∈ t, c < 256) {c : Int} (hs : 1 ≤ scale) (hps : 0 ≤ pixspace) (hsp : 0 ≤ space) {f : TextFn}
    (h4 : f.shape = .dot → bits = 4 → dotSide scale pixspace ≠ 2)
    (d1 : DotsOK W bits font scale pixspace space x y c f s) (d2 : DotsOK W bits font scale pixspace space x y c f t)
    (f1 : Inside W H font scale space x y f s) (f2 : Inside W H font scale space x y f t) {v : Nat} (hv : MarkValue b bits scale pixspace c f.shape v)
    (hbg : ∀ px py, px < W → py < H → pix b W H bits px py ≠ v)
    (e1 : f.run b x y s scale pixspace space c font = .ok b1) (e2 : f.run b x y t scale pixspace space c font = .ok b2)
    (same : ∀ px py, px < W → py < H → pix b1 W H bits px py = pix b2 W H bits px py) {l col ch : Nat}
    (hat : At (letters s f.flow) l col ch) (hv : Visible font f.style ch) :
    ∃ ch', At (letters t f.flow) l col ch' ∧ Alike font f.style ch ch' := by
  obtain ⟨b1', e1', p1⟩ := text_ink h hf h1 hs d1 ‹_›
  obtain ⟨b2', e2', p2⟩ := text_ink h hf h2 hs d2 ‹_›
  rw [e1] at e1'; rw [e2] at e2'
  obtain rfl := Except.ok.inj e1'
  obtain rfl := Except.ok.inj e2'
  -- the two pictures agree in every dot of the cell
  have dots : ∀ i j, i < byte font 0 → Seen j f.style →
      (Lit (glyph font ch) i j ↔ ∃ ch', At (letters t f.flow) l col ch' ∧ Lit (glyph font ch') i j) := by
    intro i j hi hj
    obtain ⟨g1, g2, g3, g4⟩ := f1 _ _ _ _ _ hat hi (seen_lt hj)
    obtain ⟨c0, c1⟩ := core_bounds hs hps f.shape
    obtain ⟨px, hpx⟩ := Int.eq_ofNat_of_zero_le (a := (dotPos font scale space x y f col l i j).1 + core scale pixspace f.shape) (by omega)
    obtain ⟨py, hpy⟩ := Int.eq_ofNat_of_zero_le (a := (dotPos font scale space x y f col l i j).2 + core scale pixspace f.shape) (by omega)
    have hpW : px < W := by omega
    have hpH : py < H := by omega
    have s1 := ink_core (bits := bits) hs hps hsp h4 f1 hi hj hpx.symm hpy.symm
    have s2 := ink_core (bits := bits) hs hps hsp h4 f2 hi hj hpx.symm hpy.symm
    have sm := same px py hpW hpH
    have v1 : (∃ ch, At (letters s f.flow) l col ch ∧ Lit (glyph font ch) i j) ↔ pix b1 W H bits px py = v := by
      rw [← s1]
      constructor
      · exact p1.inside px py hpW hpH
      · intro e; by_contra g
        exact hbg px py hpW hpH ((p1.outside px py hpW hpH g).symm.trans e)
    have v2 : (∃ ch, At (letters t f.flow) l col ch ∧ Lit (glyph font ch) i j) ↔ pix b2 W H bits px py = v := by
      rw [← s2]
      constructor
      · exact p2.inside px py hpW hpH
      · intro e; by_contra g
        exact hbg px py hpW hpH ((p2.outside px py hpW hpH g).symm.trans e)
    rw [sm, ← v2] at v1
    rw [← v1]
    constructor
    · intro g; exact ⟨ch, hat, g⟩
    · rintro ⟨ch', hat', g⟩
      rwa [at_unique hat hat']
  obtain ⟨i0, j0, hi0, hj0, hl0⟩ := hv
  obtain ⟨ch', hat', -⟩ := (dots i0 j0 hi0 hj0).mp hl0
  refine ⟨ch', hat', fun i j hi hj => (dots i j hi hj).trans ?_⟩
  constructor
  · rintro ⟨ch2, hat2, g⟩
    rwa [at_unique hat' hat2]
  · intro g
    exact ⟨ch', hat', g⟩

theorem at_lt {s : List Nat} (h : ∀ c ∈ s, c < 256) (fl : Flow) {l col ch : Nat} (hat : At (letters s fl) l col ch) : ch < 256 := by
  obtain ⟨k, hk, -⟩ := hat
  have := List.mem_of_getElem? hk.1
  cases fl with
  | backwards => exact h ch (List.mem_reverse.mp this)
  | _ => exact h ch this

/-- The style shows all eight columns of the glyphs. -/
def Whole (st : Style) : Prop := st ≠ .mirrored ∧ st ≠ .italicmirrored

theorem whole_seen {st : Style} (h : Whole st) {j : Nat} (hj : j < 8) : Seen j st := by
  cases st <;> first | exact hj | exact absurd rfl h.1 | exact absurd rfl h.2

theorem alike_eq (hf : font ∈ shipped) {st : Style} (hw : Whole st) {ch ch' : Nat} (hc : ch < 256) (hc' : ch' < 256) (nb : ¬ Blank ch)
    (ha : Alike font st ch ch') : ch = ch' := by
  have eg : glyph font ch = glyph font ch' := by
    obtain ⟨-, n1, m1⟩ := C169_glyphs font hf ch hc
    obtain ⟨-, n2, m2⟩ := C169_glyphs font hf ch' hc'
    apply List.ext_getElem (by rw [n1, n2])
    intro i hi hi'
    apply byte_bits (m1 _ (List.getElem_mem _)) (m2 _ (List.getElem_mem _))
    intro j hj
    have := ha i j (by omega) (whole_seen hw hj)
    unfold Lit at this
    rwa [List.getD_eq_getElem _ _ hi, List.getD_eq_getElem _ _ hi'] at this
  rcases (C169_distinct font hf ch hc ch' hc').mp eg with e | ⟨e, -⟩
  · exact e
  · exact absurd e nb

/-- C170 for all depths and the sixteen text functions that show whole glyphs: if two texts, drawn in one of the fonts of the library,
give the same picture, then the same visible characters stand in the same places. Excluded are discs of side 2 on 4-bit images. -/
theorem C170_legible_all {b1 b2 : Bytes} (h : Valid b W H bits) (hf : font ∈ shipped) {s t : List Nat}
    (h1 : ∀ c ∈ s, c < 256) (h2 : ∀ c ∈ t, c < 256) {c : Int} (hs : 1 ≤ scale) (hps : 0 ≤ pixspace) (hsp : 0 ≤ space) {f : TextFn}
    (hw : Whole f.style) (h4 : f.shape = .dot → bits = 4 → dotSide scale pixspace ≠ 2)
    (d1 : DotsOK W bits font scale pixspace space x y c f s) (d2 : DotsOK W bits font scale pixspace space x y c f t)
    (f1 : Inside W H font scale space x y f s) (f2 : Inside W H font scale space x y f t) {v : Nat} (hv : MarkValue b bits scale pixspace c f.shape v)
    (hbg : ∀ px py, px < W → py < H → pix b W H bits px py ≠ v)
    (e1 : f.run b x y s scale pixspace space c font = .ok b1) (e2 : f.run b x y t scale pixspace space c font = .ok b2)
    (same : ∀ px py, px < W → py < H → pix b1 W H bits px py = pix b2 W H bits px py) :
    ∀ l col ch, ¬ Blank ch → (At (letters s f.flow) l col ch ↔ At (letters t f.flow) l col ch) := by
  intro l col ch nb
  have vis : ch < 256 → Visible font f.style ch := fun hc => by
    obtain ⟨i, j, hi, hj, hl⟩ := (C169_blank font hf ch hc).mpr nb
    exact ⟨i, j, hi, whole_seen hw hj, hl⟩
  constructor
  · intro hat
    have hc := at_lt h1 _ hat
    obtain ⟨ch', hat', ha⟩ := C170_picture h hf h1 h2 hs hps hsp h4 d1 d2 f1 f2 hv hbg e1 e2 same hat (vis hc)
    rwa [alike_eq hf hw hc (at_lt h2 _ hat') nb ha]
  · intro hat
    have hc := at_lt h2 _ hat
    obtain ⟨ch', hat', ha⟩ := C170_picture h hf h2 h1 hs hps hsp h4 d2 d1 f2 f1 hv hbg e2 e1
      (fun px py hx hy => (same px py hx hy).symm) hat (vis hc)
    rwa [alike_eq hf hw hc (at_lt h1 _ hat') nb ha]

/-- The fonts whose glyphs differ in the first seven columns. -/
def sevenWide : List Bytes := [font8x8thin, font8x8sanserif]

theorem sevenWide_shipped (hf : font ∈ sevenWide) : font ∈ shipped := by
  unfold sevenWide at hf
  unfold shipped
  simp only [List.mem_cons, List.not_mem_nil, or_false] at hf ⊢
  tauto

/-- Numbers for the first seven columns of the glyphs between the first and the last one. -/
def codes7 (f : Bytes) : List Nat := (((cells (byte f 0) 256 f.tail).drop 1).take 254).map fun l => code (l.map (· / 2))

theorem codes7_noDup : ∀ f ∈ sevenWide, noDup (codes7 f) = true := by
  decide +kernel

theorem half_bits {u v : Nat} (hu : u < 256) (hv : v < 256) (h : ∀ j < 7, u / 2 ^ (7 - j) % 2 = 1 ↔ v / 2 ^ (7 - j) % 2 = 1) : u / 2 = v / 2 := by
  have key : ∀ j < 7, u / 2 ^ (7 - j) % 2 = v / 2 ^ (7 - j) % 2 := fun j hj => by have := h j hj; omega
  have h0 := key 0 (by norm_num)
  have h1 := key 1 (by norm_num)
  have h2 := key 2 (by norm_num)
  have h3 := key 3 (by norm_num)
  have h4 := key 4 (by norm_num)
  have h5 := key 5 (by norm_num)
  have h6 := key 6 (by norm_num)
  norm_num at h0 h1 h2 h3 h4 h5 h6
  omega

/-- In these fonts different characters differ in the first seven columns. -/
theorem seven_eq (hf : font ∈ sevenWide) {st : Style} {ch ch' : Nat} (h0 : 1 ≤ ch) (hc : ch < 255) (h0' : 1 ≤ ch') (hc' : ch' < 255)
    (ha : Alike font st ch ch') (hst : ∀ j, j < 7 → Seen j st) : ch = ch' := by
  have hs := sevenWide_shipped hf
  have eg : (glyph font ch).map (· / 2) = (glyph font ch').map (· / 2) := by
    obtain ⟨-, n1, m1⟩ := C169_glyphs font hs ch (by omega)
    obtain ⟨-, n2, m2⟩ := C169_glyphs font hs ch' (by omega)
    apply List.ext_getElem (by rw [List.length_map, List.length_map, n1, n2])
    intro i hi hi'
    rw [List.length_map] at hi hi'
    rw [List.getElem_map, List.getElem_map]
    apply half_bits (m1 _ (List.getElem_mem _)) (m2 _ (List.getElem_mem _))
    intro j hj
    have := ha i j (by omega) (hst j hj)
    unfold Lit at this
    rwa [List.getD_eq_getElem _ _ hi, List.getD_eq_getElem _ _ hi'] at this
  have nd := nodup_of_noDup (codes7_noDup font hf)
  have g : ∀ k, 1 ≤ k → k < 255 → (codes7 font)[k - 1]? = some (code ((glyph font k).map (· / 2))) := by
    intro k k1 k2
    unfold codes7
    rw [List.getElem?_map, List.getElem?_take_of_lt (by omega), List.getElem?_drop, show 1 + (k - 1) = k by omega, glyph_cell hs (by omega)]
    rfl
  have ga := g ch h0 hc
  have gc := g ch' h0' hc'
  rw [eg] at ga
  obtain ⟨la, ea⟩ := List.getElem?_eq_some_iff.mp ga
  obtain ⟨lc, ec⟩ := List.getElem?_eq_some_iff.mp gc
  have := (List.Nodup.getElem_inj_iff nd (hi := la) (hj := lc)).mp (ea.trans ec.symm)
  omega

theorem seven_seen (st : Style) : ∀ j, j < 7 → Seen j st := by
  intro j hj
  cases st <;> simp only [Seen] <;> omega

theorem blank_dark (hf : font ∈ shipped) {ch : Nat} (hc : ch < 256) (hb : Blank ch) {i j : Nat} (hi : i < byte font 0) (hj : j < 8) :
    ¬ Lit (glyph font ch) i j := fun g => (C169_blank font hf ch hc).mp ⟨i, j, hi, hj, g⟩ hb

theorem seven_visible (hf : font ∈ sevenWide) (st : Style) {ch : Nat} (hc : ch < 256) (nb : ¬ Blank ch) : Visible font st ch := by
  by_contra hv
  have hs := sevenWide_shipped hf
  have : ch = 32 := by
    refine seven_eq (st := st) hf (by unfold Blank at nb; omega) (by unfold Blank at nb; omega) (by norm_num) (by norm_num) ?_ (seven_seen st)
    intro i j hi hj
    exact iff_of_false (fun g => hv ⟨i, j, hi, hj, g⟩) (blank_dark hs (by norm_num) (Or.inr (Or.inl rfl)) hi (seen_lt hj))
  exact nb (Or.inr (Or.inl this))

/-- C170 for all twenty text functions with the two fonts whose glyphs differ in the first seven columns. -/
theorem C170_legible_mirrored {b1 b2 : Bytes} (h : Valid b W H bits) (hf : font ∈ sevenWide) {s t : List Nat}
    (h1 : ∀ c ∈ s, c < 256) (h2 : ∀ c ∈ t, c < 256) {c : Int} (hs : 1 ≤ scale) (hps : 0 ≤ pixspace) (hsp : 0 ≤ space) {f : TextFn}
    (h4 : f.shape = .dot → bits = 4 → dotSide scale pixspace ≠ 2)
    (d1 : DotsOK W bits font scale pixspace space x y c f s) (d2 : DotsOK W bits font scale pixspace space x y c f t)
    (f1 : Inside W H font scale space x y f s) (f2 : Inside W H font scale space x y f t) {v : Nat} (hv : MarkValue b bits scale pixspace c f.shape v)
    (hbg : ∀ px py, px < W → py < H → pix b W H bits px py ≠ v)
    (e1 : f.run b x y s scale pixspace space c font = .ok b1) (e2 : f.run b x y t scale pixspace space c font = .ok b2)
    (same : ∀ px py, px < W → py < H → pix b1 W H bits px py = pix b2 W H bits px py) :
    ∀ l col ch, ¬ Blank ch → (At (letters s f.flow) l col ch ↔ At (letters t f.flow) l col ch) := by
  have hsh := sevenWide_shipped hf
  intro l col ch nb
  have eq : ∀ {ch'}, ch < 256 → ch' < 256 → Alike font f.style ch ch' → ch = ch' := by
    intro ch' hc hc' ha
    have nb' : ¬ Blank ch' := by
      intro hb
      obtain ⟨i, j, hi, hj, hl⟩ := seven_visible hf f.style hc nb
      exact blank_dark hsh hc' hb hi (seen_lt hj) ((ha i j hi hj).mp hl)
    unfold Blank at nb nb'
    exact seven_eq hf (by omega) (by omega) (by omega) (by omega) ha (seven_seen _)
  constructor
  · intro hat
    have hc := at_lt h1 _ hat
    obtain ⟨ch', hat', ha⟩ := C170_picture h hsh h1 h2 hs hps hsp h4 d1 d2 f1 f2 hv hbg e1 e2 same hat (seven_visible hf _ hc nb)
    rwa [eq hc (at_lt h2 _ hat') ha]
  · intro hat
    have hc := at_lt h2 _ hat
    obtain ⟨ch', hat', ha⟩ := C170_picture h hsh h2 h1 hs hps hsp h4 d2 d1 f2 f1 hv hbg e2 e1
      (fun px py hx hy => (same px py hx hy).symm) hat (seven_visible hf _ hc nb)
    rwa [eq hc (at_lt h1 _ hat') ha]

/-- C170 for all twenty text functions and all depths: the picture of a text depends on its visible characters only. -/
theorem C170_same_all {b1 b2 : Bytes} (h : Valid b W H bits) (hf : font ∈ shipped) {s t : List Nat}
    (h1 : ∀ c ∈ s, c < 256) (h2 : ∀ c ∈ t, c < 256) {c : Int} (hs : 1 ≤ scale) {f : TextFn}
    (d1 : DotsOK W bits font scale pixspace space x y c f s) (d2 : DotsOK W bits font scale pixspace space x y c f t)
    {v : Nat} (hv : MarkValue b bits scale pixspace c f.shape v)
    (e1 : f.run b x y s scale pixspace space c font = .ok b1) (e2 : f.run b x y t scale pixspace space c font = .ok b2)
    (same : ∀ l col ch, ¬ Blank ch → (At (letters s f.flow) l col ch ↔ At (letters t f.flow) l col ch)) :
    ∀ px py, px < W → py < H → pix b1 W H bits px py = pix b2 W H bits px py := by
  obtain ⟨b1', e1', p1⟩ := text_ink h hf h1 hs d1 hv
  obtain ⟨b2', e2', p2⟩ := text_ink h hf h2 hs d2 hv
  rw [e1] at e1'; rw [e2] at e2'
  obtain rfl := Except.ok.inj e1'
  obtain rfl := Except.ok.inj e2'
  -- the sets of the two pictures
  have key : ∀ {s t : List Nat} {px py : Nat}, (∀ c ∈ s, c < 256) →
      (∀ l col ch, ¬ Blank ch → (At (letters s f.flow) l col ch ↔ At (letters t f.flow) l col ch)) →
      Ink W H bits font scale pixspace space x y f s px py → Ink W H bits font scale pixspace space x y f t px py := by
    rintro s t px py h1 same ⟨l, col, ch, i, j, hat, hi, hj, hl, q⟩
    have nb : ¬ Blank ch := (C169_blank font hf ch (at_lt h1 _ hat)).mp ⟨i, j, hi, seen_lt hj, hl⟩
    exact ⟨l, col, ch, i, j, (same _ _ ch nb).mp hat, hi, hj, hl, q⟩
  intro px py hx hy
  by_cases g : Ink W H bits font scale pixspace space x y f s px py
  · rw [p1.inside px py hx hy g, p2.inside px py hx hy (key h1 same g)]
  · rw [p1.outside px py hx hy g, p2.outside px py hx hy (fun g' => g (key h2 (fun l col ch nb => (same l col ch nb).symm) g'))]

/-- C170 fails for discs of side 2 on 4-bit images: the full stop and the hyphen drawn at an even column leave the image as it was. -/
theorem C170_dots_wrong : (do let b ← newBMP 16 16 4
                              let b1 ← plotstringasdots b 0 0 [46] 2 0 0 (.one 5) font8x8
                              let b2 ← plotstringasdots b 0 0 [45] 2 0 0 (.one 5) font8x8
                              pure (decide (b1 = b), decide (b2 = b)) : Py (Bool × Bool)) = .ok (true, true) := by decide +kernel

/-- C170 fails for mirrored texts, which lack the last column of the glyphs: `P` and `R` give the same picture. -/
theorem C170_mirrored_wrong : (do let b ← newBMP 8 14 1
                                  let b1 ← plotreversestring b 0 0 [80] 1 0 0 1 font8x14sanserif
                                  let b2 ← plotreversestring b 0 0 [82] 1 0 0 1 font8x14sanserif
                                  pure (decide (b1 = b), decide (b1 = b2)) : Py (Bool × Bool)) = .ok (false, true) := by decide +kernel

/-- The hypotheses can be met: with discs of side 3 on a 4-bit image the full stop and the hyphen differ. -/
example : (do let b ← newBMP 24 24 4
              let b1 ← plotstringasdots b 0 0 [46] 3 0 0 (.one 5) font8x8
              let b2 ← plotstringasdots b 0 0 [45] 3 0 0 (.one 5) font8x8
              pure (decide (b1 = b), decide (b1 = b2)) : Py (Bool × Bool)) = .ok (false, false) := by decide +kernel

theorem one_letter {c l col ch : Nat} (h : At [c] l col ch) : l = 0 ∧ col = 0 := by
  obtain ⟨k, ⟨hk, -, -⟩, rfl, rfl⟩ := h
  have : k = 0 := by
    have := (List.getElem?_eq_some_iff.mp hk).1
    simpa using this
  subst this
  exact ⟨rfl, rfl⟩

example : DotsOK 24 4 font8x8 3 0 0 0 0 5 .plotstringasdots [46] := by
  intro l col ch i j hat hi hj
  obtain ⟨rfl, rfl⟩ := one_letter hat
  have e2 : rowLen 24 4 = 12 := by decide
  refine ⟨by omega, Or.inr ⟨by unfold IsColour; omega, Or.inr (Or.inl ⟨rfl, ?_, ?_⟩)⟩⟩
  all_goals simp only [dotPos, place, spot, TextFn.flow, TextFn.style, dotRadius, dotSide, e2]; omega

example : Inside 24 24 font8x8 3 0 0 0 .plotstringasdots [46] := by
  intro l col ch i j hat hi hj
  obtain ⟨rfl, rfl⟩ := one_letter hat
  have : byte font8x8 0 = 8 := rfl
  simp only [dotPos, place, spot, TextFn.flow, TextFn.style]
  omega

end Verif.Props.Fonts
