import Verif.Props.OverlayTone
import Verif.Props.Pipeline
import Verif.Props.MarksFar
import Verif.Props.Pie
import Verif.Props.PolyFill
import Verif.Props.Verts
import Verif.Props.Escape
import Verif.Props.Resize
import Verif.Props.FlipXY
import Verif.Model.Fonts
/-! Property C197: every function that draws in one colour is a stencil. The pixels it reaches depend on its arguments and on the size and
depth of the image only, not on what the image shows and not on the colour. So all laws of figures (C180 to C184, C194) hold for texts,
polygons, ellipses, arcs, curves, arrows, grids and ferns as well, in any mixture. -/

namespace Verif.Props.Stencils
open Verif Spec Model Verif.Props Verif.Props.Far Verif.Props.Plane Verif.Props.Overlay Verif.Props.Laws Verif.Props.Dots Verif.Props.Chains
  Verif.Props.PolyFill Verif.Props.Pie Verif.Props.Escape

variable {b : Bytes} {W H bits : Nat}

/-- A function of a colour and an image that paints the same pixels in every image of this size and depth, each in the given colour. -/
def Stencil (W H bits : Nat) (run : Int → Bytes → Py Bytes) (S : Nat → Nat → Prop) : Prop :=
  ∀ (b : Bytes) (c : Int), Valid b W H bits → IsColour bits c → ∃ b', run c b = .ok b' ∧ Paints b b' W H bits S c.toNat

/-- A call of a drawing function without the image and the colour, and the pixels it paints. -/
structure Drawing (W H bits : Nat) where
  run : Int → Bytes → Py Bytes
  area : Nat → Nat → Prop
  paints : Stencil W H bits run area

/-- Calls with their colours, one after the other. -/
def drawAll (l : List (Drawing W H bits × Int)) (b : Bytes) : Py Bytes := l.foldlM (fun b t => t.1.run t.2 b) b

/-- The colours exist in the image. -/
def Coloured (l : List (Drawing W H bits × Int)) : Prop := ∀ t ∈ l, IsColour bits t.2

def layer (t : Drawing W H bits × Int) : (Nat → Nat → Prop) × Nat := (t.1.area, t.2.toNat)

/-- **C197**: each pixel shows the colour of the last drawing that covers it, and is as before if there is none. -/
theorem C197_layers (h : Valid b W H bits) {l : List (Drawing W H bits × Int)} (hl : Coloured l) :
    ∃ b', drawAll l b = .ok b' ∧ Layered b b' W H bits (l.map layer) := by
  have := foldl_layers (W := W) (H := H) (bits := bits) (fun b (t : Drawing W H bits × Int) => t.1.run t.2 b) (fun t => [layer t]) l
    (fun b hb t ht => by
      obtain ⟨b', e, p⟩ := t.1.paints b t.2 hb (hl t ht)
      exact ⟨b', e, Layered.one p⟩) h
  rw [← List.map_eq_flatMap] at this
  exact this

/-- The painted pixels are determined by the function: in the image there is just one set of them. -/
theorem C197_unique {run : Int → Bytes → Py Bytes} {S S' : Nat → Nat → Prop} (h : Valid b W H bits) (hs : Stencil W H bits run S)
    (hs' : Stencil W H bits run S') {x y : Nat} (hx : x < W) (hy : y < H) : S x y ↔ S' x y := by
  have hp : (2 : Int) ^ 1 ≤ 2 ^ bits := by
    have := h.depth
    rcases this with rfl | rfl | rfl | rfl <;> norm_num
  have c0 : IsColour bits 0 := ⟨le_refl _, by omega⟩
  have c1 : IsColour bits 1 := ⟨by omega, by omega⟩
  obtain ⟨b0, e0, p0⟩ := hs b 0 h c0
  obtain ⟨b1, e1, p1⟩ := hs b 1 h c1
  obtain ⟨b0', e0', p0'⟩ := hs' b 0 h c0
  obtain ⟨b1', e1', p1'⟩ := hs' b 1 h c1
  obtain rfl : b0 = b0' := Except.ok.inj (e0.symm.trans e0')
  obtain rfl : b1 = b1' := Except.ok.inj (e1.symm.trans e1')
  by_cases g : S x y <;> by_cases g' : S' x y <;> simp only [g, g']
  · have := (p0.inside x y hx hy g).symm.trans (p0'.outside x y hx hy g')
    have := (p1.inside x y hx hy g).symm.trans (p1'.outside x y hx hy g')
    simp at *
    omega
  · have := (p0'.inside x y hx hy g').symm.trans (p0.outside x y hx hy g)
    have := (p1'.inside x y hx hy g').symm.trans (p1.outside x y hx hy g)
    simp at *
    omega

/-- Drawings without common pixels, or of the same colour, may be made in any order, and any number of times. -/
theorem C197_order (h : Valid b W H bits) {l l' : List (Drawing W H bits × Int)} (hl : Coloured l) (hm : ∀ t, t ∈ l ↔ t ∈ l')
    (hd : ∀ s ∈ l, ∀ t ∈ l, s.2 = t.2 ∨ ∀ x y, x < W → y < H → ¬ (s.1.area x y ∧ t.1.area x y)) :
    ∃ n n', drawAll l b = .ok n ∧ drawAll l' b = .ok n' ∧ SamePicture W H bits n n' := by
  obtain ⟨n, e, p⟩ := C197_layers h hl
  obtain ⟨n', e', p'⟩ := C197_layers h (l := l') (fun t ht => hl t ((hm t).mpr ht))
  refine ⟨n, n', e, e', SameHeader.trans (header_symm p.header) p'.header, fun x y hx hy => ?_⟩
  have t1 := top_covered (p.pixels x y hx hy)
  have t2 := top_covered (p'.pixels x y hx hy)
  simp only [List.mem_map, exists_exists_and_eq_and, forall_exists_index, and_imp, forall_apply_eq_imp_iff₂, layer] at t1 t2
  rcases t1 with ⟨s, hs, g1, e1⟩ | ⟨g1, e1⟩ <;> rcases t2 with ⟨t, ht, g2, e2⟩ | ⟨g2, e2⟩
  · rcases hd s hs t ((hm t).mpr ht) with k | k
    · rw [e1, e2, k]
    · exact absurd ⟨g1, g2⟩ (k x y hx hy)
  · exact absurd g1 (g2 s ((hm s).mp hs))
  · exact absurd g2 (g1 t ((hm t).mpr ht))
  · rw [e1, e2]

/-- A picture drawn twice is the picture drawn once. -/
theorem C197_twice (h : Valid b W H bits) {l : List (Drawing W H bits × Int)} (hl : Coloured l) :
    ∃ n n', drawAll l b = .ok n ∧ drawAll (l ++ l) b = .ok n' ∧ SamePicture W H bits n n' := by
  obtain ⟨n, e, p⟩ := C197_layers h hl
  obtain ⟨n', e', p'⟩ := C197_layers p.valid hl
  refine ⟨n, n', e, ?_, p'.header, fun x y hx hy => ?_⟩
  · unfold drawAll at *; rw [List.foldlM_append, e]; exact e'
  · rcases p'.pixels x y hx hy with ⟨u, S, c, v, e1, g1, g2, g3⟩ | ⟨-, g⟩
    · exact Top.unique (Or.inl ⟨u, S, c, v, e1, g1, g2, g3⟩) (p.pixels x y hx hy)
    · exact g

/-- A drawing that the next one covers might as well be left out. In particular the same drawing in another colour replaces the first one. -/
theorem C197_hidden (h : Valid b W H bits) {f g : Drawing W H bits} {c d : Int} (hc : IsColour bits c) (hd : IsColour bits d)
    (hs : ∀ x y, x < W → y < H → f.area x y → g.area x y) :
    ∃ n n', g.run d b = .ok n ∧ (f.run c b >>= g.run d) = .ok n' ∧ SamePicture W H bits n n' := by
  obtain ⟨n, e, p⟩ := g.paints b d h hd
  obtain ⟨n1, e1, p1⟩ := f.paints b c h hc
  obtain ⟨n', e', p'⟩ := g.paints n1 d p1.valid hd
  refine ⟨n, n', e, by rw [e1]; exact e', SameHeader.trans (header_symm p.header) (SameHeader.trans p1.header p'.header), fun x y hx hy => ?_⟩
  by_cases k : g.area x y
  · rw [p.inside x y hx hy k, p'.inside x y hx hy k]
  · rw [p.outside x y hx hy k, p'.outside x y hx hy k, p1.outside x y hx hy (fun q => k (hs x y hx hy q))]

/-- Drawing again in the colour of the ground erases a drawing. -/
theorem C197_erased (h : Valid b W H bits) (f : Drawing W H bits) {c g : Int} (hc : IsColour bits c) (hg : IsColour bits g)
    (hb : ∀ x y, x < W → y < H → f.area x y → pix b W H bits x y = g.toNat) :
    ∃ n, (f.run c b >>= f.run g) = .ok n ∧ SamePicture W H bits b n := by
  obtain ⟨n1, e1, p1⟩ := f.paints b c h hc
  obtain ⟨n, e, p⟩ := f.paints n1 g p1.valid hg
  refine ⟨n, by rw [e1]; exact e, SameHeader.trans p1.header p.header, fun x y hx hy => ?_⟩
  by_cases k : f.area x y
  · rw [p.inside x y hx hy k, hb x y hx hy k]
  · rw [p.outside x y hx hy k, p1.outside x y hx hy k]

/-- Drawing a picture and inverting the image is the same as inverting the image and drawing the picture in the inverted colours. -/
theorem C197_inverted (h : Valid b W H bits) {l : List (Drawing W H bits × Int)} (hl : Coloured l) :
    ∃ n' m', (drawAll l b >>= invertimagebits) = .ok n' ∧
      (invertimagebits b >>= drawAll (l.map fun t => (t.1, 2 ^ bits - 1 - t.2))) = .ok m' ∧ SamePicture W H bits n' m' := by
  have hl' : Coloured (l.map fun t => (t.1, 2 ^ bits - 1 - t.2)) := by
    intro s hs
    obtain ⟨t, ht, rfl⟩ := List.mem_map.mp hs
    have k2 := hl t ht
    unfold IsColour at k2 ⊢
    dsimp only; omega
  obtain ⟨n, e1, p1⟩ := C197_layers h hl
  obtain ⟨n', e2, p2, -⟩ := C32_invertimagebits p1.valid
  obtain ⟨m, e3, p3, -⟩ := C32_invertimagebits h
  obtain ⟨m', e4, p4⟩ := C197_layers p3.valid hl'
  refine ⟨n', m', by rw [e1]; exact e2, by rw [e3]; exact e4,
    SameHeader.trans (header_symm (SameHeader.trans p1.header p2.header)) (SameHeader.trans p3.header p4.header), fun x y hx hy => ?_⟩
  rw [p2.pixels x y hx hy]
  have k := p1.pixels x y hx hy
  have k' := p4.pixels x y hx hy
  rw [p3.pixels x y hx hy, List.map_map] at k'
  refine Top.unique k' (top_image (f := layer) (g := layer ∘ fun t => (t.1, 2 ^ bits - 1 - t.2)) (fun c => 2 ^ bits - 1 - c)
    (fun t ht => ⟨Iff.rfl, ?_⟩) k)
  have k2 := hl t ht
  unfold IsColour at k2
  have e : ((2 : Int) ^ bits) = ((2 ^ bits : Nat) : Int) := by push_cast; rfl
  simp only [Function.comp, layer]
  rw [e] at k2 ⊢
  omega

/-- Drawing a picture in a 24-bit image and making it grey, brighter, darker, gamma corrected or limited in brightness is the same as changing
the image and drawing the picture in the changed colours. -/
theorem C197_tone (h : Valid b W H 24) (hW : 0 < W) (hH : 0 < H) (t : Tone) {l : List (Drawing W H 24 × Int)} (hl : Coloured l) :
    Agree (drawAll l b >>= adjust t) (adjust t b >>= drawAll (l.map fun s => (s.1, (toned t s.2.toNat : Int)))) W H 24 := by
  have hl' : Coloured (l.map fun s => (s.1, (toned t s.2.toNat : Int))) := by
    intro s hs
    obtain ⟨u, hu, rfl⟩ := List.mem_map.mp hs
    have k := hl u hu
    unfold IsColour at k ⊢
    have := toned_lt t (c := u.2.toNat) (by omega)
    dsimp only
    omega
  obtain ⟨n, e1, p1⟩ := C197_layers h hl
  obtain ⟨n', e2, p2⟩ := adjusted p1.valid hW hH t
  obtain ⟨m, e3, p3⟩ := adjusted h hW hH t
  obtain ⟨m', e4, p4⟩ := C197_layers p3.valid hl'
  refine ⟨n', m', by rw [e1]; exact e2, by rw [e3]; exact e4, p2.valid, p4.valid, fun g => absurd rfl g, fun x y hx hy => ?_⟩
  rw [p2.pixels x y hx hy]
  have k := p1.pixels x y hx hy
  have k' := p4.pixels x y hx hy
  rw [p3.pixels x y hx hy, List.map_map] at k'
  exact (Top.unique k' (top_image (f := layer) (g := layer ∘ fun s => (s.1, (toned t s.2.toNat : Int))) (toned t)
    (fun s _ => ⟨Iff.rfl, rfl⟩) k)).symm

/-- It does not matter whether the palette is changed before or after a picture is drawn. -/
theorem C197_palette (h : Valid b W H bits) (h24 : bits ≠ 24) {t : Repaint} (ht : t.Ok bits) {l : List (Drawing W H bits × Int)} (hl : Coloured l) :
    Agree (drawAll l b >>= repaint t) (repaint t b >>= drawAll l) W H bits := by
  obtain ⟨n, e1, p1⟩ := C197_layers h hl
  obtain ⟨n', m, e2, e3, v2, v3, s2, s3, q⟩ := repainted ht h24 p1.valid h (fun k hk => palRGB_same p1.header h.depth h24 hk)
  obtain ⟨m', e4, p4⟩ := C197_layers v3 hl
  refine ⟨n', m', by rw [e1]; exact e2, by rw [e3]; exact e4, v2, p4.valid, fun _ k hk => ?_, fun x y hx hy => ?_⟩
  · rw [q k hk, palRGB_same p4.header v3.depth h24 hk]
  · rw [s2.pix]
    have k := p1.pixels x y hx hy
    have k' := p4.pixels x y hx hy
    rw [s3.pix] at k'
    exact Top.unique k k'

/-- The programs that take every pixel from another place: flips and mirrors of images and rectangles. -/
def Moves : Program → Prop
  | .invert | .outline | .erase _ | .invertR _ _ _ _ => False
  | _ => True

/-- The place from which a pixel is taken. -/
def origin (W H : Nat) (p : Program) (x y : Nat) : Nat × Nat :=
  match p with
  | .flipV => (x, H - 1 - y)
  | .flipH => (W - 1 - x, y)
  | .mirrorT => (x, min y (H - 1 - y))
  | .mirrorB => (x, max y (H - 1 - y))
  | .mirrorL => (min x (W - 1 - x), y)
  | .mirrorR => (max x (W - 1 - x), y)
  | .mirrorTL => (min x (W - 1 - x), min y (H - 1 - y))
  | .mirrorTR => (max x (W - 1 - x), min y (H - 1 - y))
  | .mirrorBL => (min x (W - 1 - x), max y (H - 1 - y))
  | .mirrorBR => (max x (W - 1 - x), max y (H - 1 - y))
  | .flipVR x1 y1 x2 y2 => if inRect x1 y1 x2 y2 x y then (x, (y1 + y2 - y).toNat) else (x, y)
  | .flipHR x1 y1 x2 y2 => if inRect x1 y1 x2 y2 x y then ((x1 + x2 - x).toNat, y) else (x, y)
  | .mirrorTR' x1 y1 x2 y2 => if inRect x1 y1 x2 y2 x y then (x, (min (y : Int) (y1 + y2 - y)).toNat) else (x, y)
  | .mirrorBR' x1 y1 x2 y2 => if inRect x1 y1 x2 y2 x y then (x, (max (y : Int) (y1 + y2 - y)).toNat) else (x, y)
  | .mirrorLR x1 y1 x2 y2 => if inRect x1 y1 x2 y2 x y then ((min (x : Int) (x1 + x2 - x)).toNat, y) else (x, y)
  | .mirrorRR x1 y1 x2 y2 => if inRect x1 y1 x2 y2 x y then ((max (x : Int) (x1 + x2 - x)).toNat, y) else (x, y)
  | _ => (x, y)

theorem effect_origin {p : Program} (hp : Moves p) (g : Nat → Nat → Nat) (x y : Nat) :
    effect W H bits p g x y = g (origin W H p x y).1 (origin W H p x y).2 := by
  cases p <;> simp only [Moves] at hp <;> simp only [effect, origin] <;> (try split_ifs) <;> rfl

theorem origin_in {p : Program} (hp : Fitting W H bits p) {x y : Nat} (hx : x < W) (hy : y < H) :
    (origin W H p x y).1 < W ∧ (origin W H p x y).2 < H := by
  cases p <;> simp only [origin] <;> try (exact ⟨by omega, by omega⟩)
  all_goals
    simp only [Fitting, InImage] at hp
    split_ifs with g
    · simp only [inRect, decide_eq_true_eq] at g
      exact ⟨by dsimp only; omega, by dsimp only; omega⟩
    · exact ⟨hx, hy⟩

/-- Drawing a picture and then turning or mirroring the image, or a rectangle of it, is the same as painting the turned or mirrored drawings over the
turned or mirrored image. -/
theorem C197_moved (h : Valid b W H bits) {l : List (Drawing W H bits × Int)} (hl : Coloured l) {p : Program} (hp : Fitting W H bits p) (hm : Moves p) :
    ∃ m n, inMemory p b = .ok m ∧ (drawAll l b >>= inMemory p) = .ok n ∧
      Layered m n W H bits (l.map fun t => (fun x y => t.1.area (origin W H p x y).1 (origin W H p x y).2, t.2.toNat)) := by
  obtain ⟨n1, e1, p1⟩ := C197_layers h hl
  obtain ⟨n, e2, p2⟩ := inMemory_ok p1.valid hp
  obtain ⟨m, e3, p3⟩ := inMemory_ok h hp
  refine ⟨m, n, e3, by rw [e1]; exact e2, p2.valid, SameHeader.trans (header_symm p3.header) (SameHeader.trans p1.header p2.header), fun x y hx hy => ?_⟩
  obtain ⟨ox, oy⟩ := origin_in hp hx hy
  rw [p2.pixels x y hx hy, p3.pixels x y hx hy, effect_origin hm, effect_origin hm]
  exact top_image (f := layer) (g := fun t : Drawing W H bits × Int => (fun x y => t.1.area (origin W H p x y).1 (origin W H p x y).2, t.2.toNat)) id
    (fun t _ => ⟨Iff.rfl, rfl⟩) (p1.pixels _ _ ox oy)

/-- The image `n` is the image `m` with the drawings painted over it, each taken from the places `o`; both have the same palette. -/
structure Pulled (m n : Bytes) (W' H' bits : Nat) (o : Nat → Nat → Nat × Nat) (l : List (Drawing W H bits × Int)) : Prop where
  valid : Valid m W' H' bits
  valid' : Valid n W' H' bits
  palette : bits ≠ 24 → ∀ c < 2 ^ bits, palRGB n c = palRGB m c
  pixels : ∀ x y, x < W' → y < H' → Top (l.map fun t => (fun x y => t.1.area (o x y).1 (o x y).2, t.2.toNat)) x y
    (pix m W' H' bits x y) (pix n W' H' bits x y)

theorem pulled (h : Valid b W H bits) {l : List (Drawing W H bits × Int)} (hl : Coloured l) {W' H' : Nat} (f : Bytes → Py Bytes)
    (o : Nat → Nat → Nat × Nat) (ho : ∀ x y, x < W' → y < H' → (o x y).1 < W ∧ (o x y).2 < H)
    (pal : Bytes → Nat → Nat × Nat × Nat) (hp : ∀ {b n}, SameHeader b n bits → bits ≠ 24 → ∀ c < 2 ^ bits, pal n c = pal b c)
    (hf : ∀ b, Valid b W H bits → ∃ n, f b = .ok n ∧ Shows n W' H' bits (pal b) (fun x y => pix b W H bits (o x y).1 (o x y).2)) :
    ∃ m n, f b = .ok m ∧ (drawAll l b >>= f) = .ok n ∧ Pulled m n W' H' bits o l := by
  obtain ⟨n1, e1, p1⟩ := C197_layers h hl
  obtain ⟨n, e2, p2⟩ := hf n1 p1.valid
  obtain ⟨m, e3, p3⟩ := hf b h
  refine ⟨m, n, e3, by rw [e1]; exact e2, p3.valid, p2.valid, fun h24 c hc => ?_, fun x y hx hy => ?_⟩
  · rw [p2.palette h24 c hc, p3.palette h24 c hc, hp p1.header h24 c hc]
  · obtain ⟨ox, oy⟩ := ho x y hx hy
    rw [p2.pixels x y hx hy, p3.pixels x y hx hy]
    exact top_image (f := layer) (g := fun t : Drawing W H bits × Int => (fun x y => t.1.area (o x y).1 (o x y).2, t.2.toNat)) id
      (fun t _ => ⟨Iff.rfl, rfl⟩) (p1.pixels _ _ ox oy)

/-- A part of a picture shows the parts of its drawings. -/
theorem C197_cropped (h : Valid b W H bits) {l : List (Drawing W H bits × Int)} (hl : Coloured l) {x1 y1 x2 y2 : Int} (hi : InImage W H x1 y1 x2 y2) :
    ∃ m n, crop b x1 y1 x2 y2 = .ok (some m) ∧ (drawAll l b >>= fun b => crop b x1 y1 x2 y2) = .ok (some n) ∧
      Pulled m n ((max x1 x2 - min x1 x2).toNat + 1) ((max y1 y2 - min y1 y2).toNat + 1) bits
        (fun x y => ((min x1 x2).toNat + x, (min y1 y2).toNat + y)) l := by
  have hf : ∀ b, Valid b W H bits → ∃ n, (do match ← crop b x1 y1 x2 y2 with | some n => pure n | none => .error .typeError : Py Bytes) = .ok n ∧
      Shows n ((max x1 x2 - min x1 x2).toNat + 1) ((max y1 y2 - min y1 y2).toNat + 1) bits (if bits < 8 then palRGB b else freshPal bits)
        (fun x y => pix b W H bits ((min x1 x2).toNat + x) ((min y1 y2).toNat + y)) := by
    intro b hb
    obtain ⟨n, e, s⟩ := C35_crop_partial hb hi
    exact ⟨n, by rw [e]; rfl, s⟩
  have hd := h.depth
  obtain ⟨n1, e1, p1⟩ := C197_layers h hl
  obtain ⟨n0, c0, -⟩ := C35_crop_partial h hi
  obtain ⟨n2, c2, -⟩ := C35_crop_partial p1.valid hi
  obtain ⟨m, n, em, en, k⟩ := pulled h hl (fun b => do match ← crop b x1 y1 x2 y2 with | some n => pure n | none => .error .typeError)
    (fun x y => ((min x1 x2).toNat + x, (min y1 y2).toNat + y)) (fun x y hx hy => by
      unfold InImage at hi
      exact ⟨by dsimp only; omega, by dsimp only; omega⟩)
    (fun b => if bits < 8 then palRGB b else freshPal bits) (fun {b n} hh h24 c hc => by
      split_ifs
      · exact (palRGB_same hh hd h24 hc)
      · rfl) hf
  rw [c0] at em
  rw [e1] at en
  have en' : (crop n1 x1 y1 x2 y2 >>= fun r => match r with | some n => pure n | none => .error .typeError) = .ok n := en
  rw [c2] at en'
  obtain rfl : n0 = m := Except.ok.inj em
  obtain rfl : n2 = n := Except.ok.inj en'
  exact ⟨n0, n2, c0, by rw [e1]; exact c2, k⟩

/-- An enlarged picture shows its drawings enlarged. -/
theorem C197_enlarged (h : Valid b W H bits) (hW : 0 < W) (hH : 0 < H) {l : List (Drawing W H bits × Int)} (hl : Coloured l) {n : Nat} (hn : 0 < n)
    (hnW : W * n < 2 ^ 24) (hnH : H * n < 2 ^ 24) (hb : bits = 8 ∨ (bits = 4 ∨ bits = 24) ∧ W % 2 = 0) :
    ∃ m m', resizeNtimesbigger b (n : Int) = .ok m ∧ (drawAll l b >>= fun b => resizeNtimesbigger b (n : Int)) = .ok m' ∧
      Pulled m m' (W * n) (H * n) bits (fun x y => (x / n, y / n)) l :=
  pulled h hl (fun b => resizeNtimesbigger b (n : Int)) (fun x y => (x / n, y / n))
    (fun x y hx hy => ⟨Nat.div_lt_of_lt_mul (by rw [Nat.mul_comm]; exact hx), Nat.div_lt_of_lt_mul (by rw [Nat.mul_comm]; exact hy)⟩)
    palRGB (fun hh h24 c hc => palRGB_same hh h.depth h24 hc) (fun b hv => C40_resize_partial hv hW hH hn hnW hnH hb)

/-- A picture with exchanged axes shows its drawings with exchanged axes; on 8- and 24-bit images flipXY reflects in the other diagonal (C34). -/
theorem C197_exchanged (h : Valid b W H bits) (hH : 0 < H) {l : List (Drawing W H bits × Int)} (hl : Coloured l) :
    ∃ m m', flipXY b = .ok m ∧ (drawAll l b >>= flipXY) = .ok m' ∧
      Pulled m m' H W bits (fun x y => if bits = 1 ∨ bits = 4 then (y, x) else (W - 1 - y, H - 1 - x)) l := by
  by_cases hb : bits = 1 ∨ bits = 4
  · simp only [if_pos hb]
    exact pulled h hl flipXY (fun x y => (y, x)) (fun x y hx hy => ⟨hy, hx⟩) palRGB (fun hh h24 c hc => palRGB_same hh h.depth h24 hc)
      (fun b hv => C34_flipXY_packed_partial hv hb)
  · simp only [if_neg hb]
    exact pulled h hl flipXY (fun x y => (W - 1 - y, H - 1 - x)) (fun x y hx hy => ⟨by dsimp only; omega, by dsimp only; omega⟩) palRGB
      (fun hh h24 c hc => palRGB_same hh h.depth h24 hc)
      (fun b hv => C34_flipXY_bytes hv (by have := h.depth; unfold Depth at this; omega) hH)

/-- From drawings to files: a new image, drawings in it, the file written, a chain of file programs, the last file loaded again. -/
theorem C197_pipeline (hd : Depth bits) (hW : 0 < W ∧ W < 2 ^ 24) (hH : 0 < H ∧ H < 2 ^ 24) {l : List (Drawing W H bits × Int)} (hl : Coloured l)
    (fs : Files) (file : String) {ch : List (Program × String)} (hc : ∀ t ∈ ch, Fitting W H bits t.1) :
    ∃ g : Nat → Nat → Nat, (∀ x y, x < W → y < H → Top (l.map layer) x y 0 (g x y)) ∧
      ∃ b n fs' c, newBMP W H bits = .ok b ∧ drawAll l b = .ok n ∧ runAll (writeFile fs file n) file ch = .ok fs' ∧
        fs' (lastFile file ch) = some c ∧ loadBMP c = .ok c ∧ getmaxxy c = .ok ((W : Int), (H : Int)) ∧
        (∀ x y : Nat, x < W → y < H → getxybit c x y = .ok (shown W H bits ch g x y : Int)) ∧
        ∀ m, m ≠ file → (∀ t ∈ ch, t.2 ≠ m) → fs' m = fs m := by
  obtain ⟨b, e1, v1, -, -, -, -, h0, -⟩ := C01_newBMP_valid W H bits hd hW.2 hH.2
  obtain ⟨n, e2, k⟩ := C197_layers v1 hl
  have hs : Stored (writeFile fs file n) file n W H bits :=
    ⟨by simp [writeFile, saveBMP], k.valid, C15_longer k.valid (Or.inl ⟨hW.1, hH.1⟩)⟩
  obtain ⟨fs', c, e3, s3, r, hn⟩ := C194_chain hs hc
  refine ⟨pix n W H bits, fun x y hx hy => h0 x y hx hy ▸ k.pixels x y hx hy, b, n, fs', c, e1, e2, e3, s3.content, C15_save_load s3.valid s3.long, ?_, ?_, ?_⟩
  · unfold getmaxxy
    rw [s3.valid.getmaxx_eq, s3.valid.getmaxy_eq]
    rfl
  · intro x y hx hy
    rw [s3.valid.getxybit_eq hx hy, r.pixels x y hx hy]
  · intro m hm hmc
    rw [hn m hmc]
    simp [writeFile, hm]

/-! ### The drawing functions -/

theorem C197_figure {f : Figure} (hs : Safe W H bits f) : Stencil W H bits (fun c b => draw f c b) (area W H bits f) :=
  fun _ _ h hc => drawn h hs hc

theorem C197_plotxypointlist {pen : Int} {v : List (Int × Int)} (hs : pen ≤ 1 ∨ ∀ p ∈ v, DiscSafe W H bits pen p.1 p.2) :
    Stencil W H bits (fun c b => plotxypointlist b v pen c) (fun px py => ∃ p ∈ v, PenSet W bits pen p.1 p.2 px py) :=
  fun _ _ h hc => C92_pointlist_safe h hc hs

theorem C197_plotlines (hW : 0 < W) (hH : 0 < H) {v : List (Int × Int)} (hok : ∀ p q, Consec v p q → LineOK W H bits p q) {pen : Int} (hp : pen ≤ 1) :
    Stencil W H bits (fun c b => plotlines b v c pen) (fun px py => ∃ p q, Consec v p q ∧ LineSet W H bits p q px py) :=
  fun _ _ h hc => C93_plotlines_partial h hW hH hc hp hok

theorem C197_thicklines {pen : Int} (hp : 1 < pen) {v : List (Int × Int)} (hs : ∀ p q, Consec v p q → StrokeSafe W H bits pen p q) :
    Stencil W H bits (fun c b => plotlines b v c pen) (fun px py => ∃ p q, Consec v p q ∧ StrokeSet W bits pen p q px py) :=
  fun _ _ h hc => C95_plotlines_safe h hc hp hs

theorem C197_plotpolylist (hW : 0 < W) (hH : 0 < H) {l : List (List (Int × Int))} (hne : [] ∉ l)
    (hok : ∀ v ∈ l, ∀ p q, Consec v p q ∨ (v.head? = some p ∧ v.getLast? = some q) → LineOK W H bits p q) :
    Stencil W H bits (fun c b => plotpolylist b l c) (fun px py => ∃ v ∈ l, ∃ p q,
      (Consec v p q ∨ (v.head? = some p ∧ v.getLast? = some q)) ∧ LineSet W H bits p q px py) :=
  fun _ _ h hc => C93_plotpolylist_partial h hW hH hc hne hok

theorem C197_plotpoly (hW : 0 < W) (hH : 0 < H) {v : List (Int × Int)} {u w : Int × Int} (hu : v.head? = some u) (hw : v.getLast? = some w)
    (hok : ∀ p q, Consec v p q ∨ (p = u ∧ q = w) → LineOK W H bits p q) :
    Stencil W H bits (fun c b => plotpoly b v c) (fun px py => ∃ p q, (Consec v p q ∨ (p = u ∧ q = w)) ∧ LineSet W H bits p q px py) :=
  fun _ _ h hc => C93_plotpoly_partial h hW hH hc hu hw hok

theorem C197_thickplotpoly {pen : Int} {v : List (Int × Int)} {u w : Int × Int} (hu : v.head? = some u) (hw : v.getLast? = some w)
    (hs : ∀ p q, Consec v p q ∨ (p = u ∧ q = w) → StrokeSafe W H bits pen p q) :
    Stencil W H bits (fun c b => thickplotpoly b v pen c) (fun px py => ∃ p q, (Consec v p q ∨ (p = u ∧ q = w)) ∧ StrokeSet W bits pen p q px py) :=
  fun _ _ h hc => C95_thickplotpoly_safe h hc hu hw hs

theorem C197_plotpolyfill {v : List (ℚ × ℚ)} (hv : v ≠ []) (hin : ∀ r, OnBoundary v r → 0 ≤ r.1 ∧ r.1 < W ∧ 0 ≤ r.2 ∧ r.2 < H) :
    Stencil W H bits (fun c b => plotpolyfill b v c) (Between W bits (OnBoundary v)) :=
  fun _ _ h hc => C119_polyfill_partial h hc hv hin

theorem C197_filledparallelogram (hW : 0 < W) (hH : 0 < H) {p1 p2 p3 : Int × Int}
    (hok : ∀ u ∈ iterline p1 p3, LineOK W H bits u (u.1 + (p2.1 - p1.1), u.2 + (p2.2 - p1.2))) :
    Stencil W H bits (fun c b => filledparallelogram b p1 p2 p3 c) (fun px py => ∃ u ∈ iterline p1 p3,
      LineSet W H bits u (u.1 + (p2.1 - p1.1), u.2 + (p2.2 - p1.2)) px py) :=
  fun _ _ h hc => C99_filledparallelogram_partial h hW hH hc hok

theorem C197_fillboundary {d : List (Int × List Int)} (hs : ∀ e ∈ d, ∀ s ∈ e.2.zip e.2.tail, LineSafe W H bits s.1 s.2 e.1) :
    Stencil W H bits (fun c b => fillboundary b d c) (fun px py => ∃ e ∈ d, FillRow W bits e.1 e.2 px py) :=
  fun _ _ h hc => C96_fillboundary_safe h hc hs

theorem C197_ellipse {x y b₀ a₀ : Int} (hb0 : 1 ≤ b₀) (ha0 : a₀ ≠ 0)
    (hok : bits = 1 ∨ bits = 4 ∨
      ¬ ((0 ≤ x - b₀ ∧ x - b₀ < W ∧ 0 ≤ x + b₀ ∧ x + b₀ < W) ∧ (0 ≤ y - a₀ ∧ y - a₀ < H ∧ 0 ≤ y + a₀ ∧ y + a₀ < H)) ∨
      ∀ p ∈ iterellipsepart b₀ a₀, 0 ≤ x - p.1 ∧ x + p.1 < W ∧ 0 ≤ y - p.2 ∧ y + p.2 < H) :
    Stencil W H bits (fun c b => ellipse b x y b₀ a₀ c) (EllipseSet x y b₀ a₀) :=
  fun _ _ h hc => C98_ellipse_partial h hb0 ha0 hc hok

theorem C197_filledellipse {x y b₀ a₀ : Int} (hb0 : 1 ≤ b₀) (ha0 : a₀ ≠ 0) (hs : EllipseSafe W H bits x y b₀ a₀) :
    Stencil W H bits (fun c b => filledellipse b x y b₀ a₀ c) (EllipseFill W bits x y b₀ a₀) :=
  fun _ _ h hc => C98_filledellipse_safe h hb0 ha0 hc hs

theorem C197_thickellipserot {x y r s pen : Int} {deg : ℝ} (hs : ∀ p ∈ iterellipserot x y r s deg, DiscSafe W H bits pen p.1 p.2) :
    Stencil W H bits (fun c b => thickellipserot b x y r s deg pen c) (RotSet W bits x y r s deg pen) :=
  fun _ _ h hc => C146_thick_safe h pen hs hc

theorem C197_drawarc (x y : Int) {r : Int} (hr : 0 < r) (s e : ℝ) (o : Bool) (fc : Int) :
    Stencil W H bits (fun c b => drawarc b x y r s e c o fc false) (fun px py => OnArc x y r s e ((px : Int), (py : Int))) :=
  fun _ _ h hc => C122_drawarc h hr s e hc o fc

theorem C197_fillarc {x y r : Int} (hr : 0 < r) {s e : ℝ} (o : Bool) (hne : ∃ q, OnArc x y r s e q)
    (hin : ∀ q, OnArc x y r s e q → 0 ≤ q.1 ∧ q.1 < W ∧ 0 ≤ q.2 ∧ q.2 < H) :
    Stencil W H bits (fun c b => drawarc b x y r s e c o c true) (InArc W bits x y r s e) :=
  fun _ _ h hc => C122_fillarc_partial h hr hc o hne hin

theorem C197_bspline {pen : Int} {pts : List (ℚ × ℚ)} (isclosed curveback : Bool) {l : List (Int × Int)}
    (hl : iterbspline pts isclosed curveback = .ok l) (hs : pen ≤ 1 ∨ ∀ v ∈ l, DiscSafe W H bits pen v.1 v.2) :
    Stencil W H bits (fun c b => bspline b pts pen c isclosed curveback) (fun px py => ∃ v ∈ l, PenSet W bits pen v.1 v.2 px py) :=
  fun _ _ h hc => C120_drawn_safe h hc isclosed curveback hl hs

theorem C197_beziercurve {pen : Int} {pts : List (ℚ × ℚ)} {l : List (Int × Int)} (hl : iterbeziercurve pts = .ok l)
    (hs : pen ≤ 1 ∨ ∀ v ∈ l, DiscSafe W H bits pen v.1 v.2) :
    Stencil W H bits (fun c b => beziercurve b pts pen c) (fun px py => ∃ v ∈ l, PenSet W bits pen v.1 v.2 px py) :=
  fun _ _ h hc => C120_bezier_safe h hc hl hs

theorem C197_drawvec (hW : 0 < W) (hH : 0 < H) {u v : Int × Int} {headsize : Int} (hok : ∀ s ∈ iterdrawvec u v headsize, LineOK W H bits s.1 s.2) :
    Stencil W H bits (fun c b => drawvec b u v headsize c) (fun px py => ∃ s ∈ iterdrawvec u v headsize, LineSet W H bits s.1 s.2 px py) :=
  fun _ _ h hc => C141_drawvec_partial h hW hH hc hok

theorem C197_thickvec {u v : Int × Int} {headsize pen : Int} (hs : ∀ s ∈ iterdrawvec u v headsize, StrokeSafe W H bits pen s.1 s.2) :
    Stencil W H bits (fun c b => drawvec b u v headsize c (some pen)) (fun px py => ∃ s ∈ iterdrawvec u v headsize, StrokeSet W bits pen s.1 s.2 px py) :=
  fun _ _ h hc => C141_thick_safe h hc hs

theorem C197_xygrid {x1 y1 x2 y2 sx sy : Int} (hi : InImage W H x1 y1 x2 y2) (hx : 0 < sx) (hy : 0 < sy) :
    Stencil W H bits (fun c b => xygrid b x1 y1 x2 y2 (sx, sy) c) (GridSet W bits (min x1 x2) (min y1 y2) (max x1 x2) (max y1 y2) sx sy) :=
  fun _ _ h hc => C96_xygrid_partial h hc hi hx hy

/-- The fern, for any list of random numbers. -/
theorem C197_fern (rd : ℚ → ℚ) {x1 y1 x2 y2 : Int} (hi : InImage W H x1 y1 x2 y2) (js : List ℚ) :
    Stencil W H bits (fun c b => fern rd b x1 y1 x2 y2 c js) (fun x y => (∃ n < js.length, ((x : Int), (y : Int)) =
        ifsPixel rd (min x1 x2) (min y1 y2) (max y1 y2) (|y2 - y1| / 10) (|y2 - y1| / 10) (|x2 - x1| / 2) 0
          (orbit IFSfern.1 IFSfern.2 rd ((min x1 x2 : Int), (min y1 y2 : Int)) (js.take (n + 1)))) ∧
      (min x1 x2 < x ∧ (x : Int) < max x1 x2) ∧ (min y1 y2 < y ∧ (y : Int) < max y1 y2)) :=
  fun _ _ h hc => (C153_fern h rd x1 y1 x2 y2 js hc).1 hi

/-- All twenty text functions, except squares of more than one pixel on 8-bit images (C22). -/
theorem C197_text (x y : Int) {str : List Nat} {font : Bytes} (hf : font ≠ []) (hb : ∀ v ∈ font, v < 256) (hi : InFont font str)
    {scale pixspace : Int} (space : Int) (hs : 1 ≤ scale) (f : TextFn) (h8 : ¬ (bits = 8 ∧ f.shape = .square ∧ dotSide scale pixspace ≠ 1))
    (hd : f.shape = .dot → dotSide scale pixspace = 1 ∨ ∀ k ch i j, Stands (letters str f.flow) k ch → i < byte font 0 → Seen j f.style → Lit (glyph font ch) i j →
      DiscSafe W H bits (dotRadius scale pixspace) ((dotAt font scale space x y str f.flow f.style k i j).1 + dotRadius scale pixspace)
        ((dotAt font scale space x y str f.flow f.style k i j).2 + dotRadius scale pixspace)) :
    Stencil W H bits (fun c b => f.run b x y str scale pixspace space c font)
      (fun px py => ∃ k ch i j : Nat, Stands (letters str f.flow) k ch ∧ i < byte font 0 ∧
        Seen j f.style ∧ Lit (glyph font ch) i j ∧ MarkD W H bits scale pixspace
          (dotAt font scale space x y str f.flow f.style k i j).1
          (dotAt font scale space x y str f.flow f.style k i j).2 f.shape px py) := by
  intro b c h hc
  have h24 : bits = 24 → 0 ≤ c ∧ c < 2 ^ 24 := by rintro rfl; exact hc
  refine C135_text_safe h x y hf hb hi space hs f (fun k ch i j a1 a2 a3 a4 => ?_) ?_
  · generalize hsh : f.shape = sh at *
    cases sh with
    | square => exact ⟨h24, .inr hc⟩
    | dot => exact ⟨h24, (hd rfl).imp id fun g => ⟨hc, g k ch i j a1 a2 a3 a4⟩⟩
  · unfold MarkValue
    rw [if_neg h8, reduce_colour h.depth hc]

/-- A filled rectangle of an 8-bit image is no stencil: it takes the entry of the palette that is nearest to the blue 200 for the colour 200 (C22). -/
theorem C197_box_wrong : ¬ ∃ S, Stencil 3 4 8 (fun c b => filledrect b 0 0 1 1 c) S := by
  rintro ⟨S, hs⟩
  obtain ⟨b', e, p⟩ := hs sample8 200 sample8_valid (by unfold IsColour; norm_num)
  have k : (do let b ← filledrect sample8 0 0 1 1 200; pure (← getxybit b 0 0, ← getxybit sample8 0 0)) = Except.ok (67, 0) := by decide +kernel
  have k' : (filledrect sample8 0 0 1 1 200) = .ok b' := e
  rw [k'] at k
  have v1 := p.valid.getxybit_eq (x := 0) (y := 0) (by norm_num) (by norm_num)
  have v2 := sample8_valid.getxybit_eq (x := 0) (y := 0) (by norm_num) (by norm_num)
  simp only [Nat.cast_zero] at v1 v2
  rw [show (Except.ok b' >>= fun b => (do pure (← getxybit b 0 0, ← getxybit sample8 0 0) : Py (Int × Int))) =
    (do pure (← getxybit b' 0 0, ← getxybit sample8 0 0) : Py (Int × Int)) from rfl, v1, v2] at k
  have k2 := Prod.mk.inj (Except.ok.inj k)
  by_cases g : S 0 0
  · have := p.inside 0 0 (by norm_num) (by norm_num) g
    rw [this] at k2
    exact absurd k2.1 (by norm_num)
  · have := p.outside 0 0 (by norm_num) (by norm_num) g
    rw [this] at k2
    omega

/-- An ellipse, a grid and a letter in one image. -/
def mixed : List (Drawing 12 9 4 × Int) := [
  (⟨_, _, C197_ellipse (x := 5) (y := 4) (b₀ := 3) (a₀ := 2) (by norm_num) (by norm_num) (.inr (.inl rfl))⟩, 9),
  (⟨_, _, C197_xygrid (x1 := 0) (y1 := 0) (x2 := 7) (y2 := 7) (sx := 4) (sy := 4) (by unfold InImage; omega) (by norm_num) (by norm_num)⟩, 5),
  (⟨_, _, C197_text (pixspace := 0) (scale := 1) 3 1 (str := [65]) (font := Model.font8x8) (by decide) (by decide +kernel) (by unfold InFont; decide +kernel) 0 (le_refl _)
    .plotstring (by omega) (fun h => absurd h (by decide))⟩, 12)]

theorem mixed_coloured : Coloured mixed := by
  intro t ht
  simp only [mixed, List.mem_cons, List.not_mem_nil, or_false] at ht
  rcases ht with rfl | rfl | rfl <;> (unfold IsColour; norm_num)

-- The picture, and the same picture in inverted colours on an inverted ground, inverted again
example : (do
    let b ← newBMP 12 9 4
    let n ← drawAll mixed b
    let m ← (invertimagebits b >>= drawAll (mixed.map fun t : Drawing 12 9 4 × Int => (t.1, 15 - t.2)) >>= invertimagebits)
    pure (decide (n = m), ← [(5, 2), (5, 6), (4, 4), (8, 4), (3, 4), (2, 4), (0, 1), (11, 8)].mapM fun q : Int × Int => getxybit n q.1 q.2)) =
    .ok (true, [12, 0, 12, 12, 12, 5, 5, 0]) := by decide +kernel

end Verif.Props.Stencils
