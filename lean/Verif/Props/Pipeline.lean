import Verif.Props.Chains
import Verif.Props.Overlay

/-! From figures to files: a new image, figures drawn in it, the file written, file programs applied one after the
other, and the last file loaded again (C195). -/

namespace Verif.Props.Pipeline
open Verif Spec Model Props Plane Overlay Chains

variable {W H bits : Nat}

/-- `g` is the picture of the figures on a black ground: the colour of the last figure that covers the pixel. -/
def Drawn (W H bits : Nat) (l : List (Figure × Int)) (g : Nat → Nat → Nat) : Prop :=
  ∀ x y, x < W → y < H →
    (∀ (below above : List (Figure × Int)) (f : Figure) (c : Int), l = below ++ (f, c) :: above → area W H bits f x y →
      (∀ t ∈ above, ¬ area W H bits t.1 x y) → g x y = c.toNat) ∧
    ((∀ t ∈ l, ¬ area W H bits t.1 x y) → g x y = 0)

theorem drawn_eq {l : List (Figure × Int)} {b b' : Bytes} (h : Layered b b' W H bits (l.map (layer W H bits)))
    (h0 : ∀ x y, x < W → y < H → pix b W H bits x y = 0) {g : Nat → Nat → Nat} (hg : Drawn W H bits l g) {x y : Nat} (hx : x < W) (hy : y < H) :
    pix b' W H bits x y = g x y := by
  have ht := h.pixels x y hx hy
  rw [h0 x y hx hy] at ht
  rcases ht with ⟨p, S, c, q, e, k1, k2, k3⟩ | ⟨k1, k2⟩
  · obtain ⟨l1, l2, rfl, rfl, e2⟩ := List.map_eq_append_iff.mp e
    obtain ⟨t, l3, rfl, e3, rfl⟩ := List.map_eq_cons_iff.mp e2
    have e4 : S = area W H bits t.1 ∧ c = t.2.toNat := by
      have := e3.symm
      simp only [layer, Prod.mk.injEq] at this
      exact this
    rw [k3, e4.2, ((hg x y hx hy).1 l1 l3 t.1 t.2 rfl (e4.1 ▸ k1) fun s hs => k2 _ (List.mem_map.2 ⟨s, hs, rfl⟩))]
  · rw [k2, (hg x y hx hy).2 fun s hs => k1 _ (List.mem_map.2 ⟨s, hs, rfl⟩)]

/-- C195: a new image, figures drawn in it, the file written, file programs in a chain, the last file loaded: every pixel
then has the colour that the effects of the programs give to the picture of the figures, and no file outside of the
chain is touched. -/
theorem C195_pipeline (hd : Depth bits) (hW : 0 < W ∧ W < 2 ^ 24) (hH : 0 < H ∧ H < 2 ^ 24) {l : List (Figure × Int)} (hl : AllSafe W H bits l)
    {g : Nat → Nat → Nat} (hg : Drawn W H bits l g) (fs : Files) (file : String) {ch : List (Program × String)}
    (hc : ∀ t ∈ ch, Fitting W H bits t.1) :
    ∃ b n fs' c, newBMP W H bits = .ok b ∧ drawAll l b = .ok n ∧ runAll (writeFile fs file n) file ch = .ok fs' ∧
      fs' (lastFile file ch) = some c ∧ loadBMP c = .ok c ∧ getmaxxy c = .ok ((W : Int), (H : Int)) ∧
      (∀ x y : Nat, x < W → y < H → getxybit c x y = .ok (shown W H bits ch g x y : Int)) ∧
      ∀ m, m ≠ file → (∀ t ∈ ch, t.2 ≠ m) → fs' m = fs m := by
  obtain ⟨b, e1, v1, -, -, -, -, h0, -⟩ := C01_newBMP_valid W H bits hd hW.2 hH.2
  obtain ⟨n, e2, k⟩ := C180_layers v1 hl
  have hs : Stored (writeFile fs file n) file n W H bits :=
    ⟨by simp [writeFile, saveBMP], k.valid, C15_longer k.valid (Or.inl ⟨hW.1, hH.1⟩)⟩
  obtain ⟨fs', c, e3, s3, r, hn⟩ := C194_chain hs hc
  refine ⟨b, n, fs', c, e1, e2, e3, s3.content, C15_save_load s3.valid s3.long, ?_, ?_, ?_⟩
  · unfold getmaxxy
    rw [s3.valid.getmaxx_eq, s3.valid.getmaxy_eq]
    rfl
  · intro x y hx hy
    rw [s3.valid.getxybit_eq hx hy, r.pixels x y hx hy, shown_congr hc (fun x y hx hy => drawn_eq k h0 hg hx hy) hx hy]
  · intro m hm hmc
    rw [hn m hmc]
    simp [writeFile, hm]

/-- C195: there is just one picture of a list of figures on a black ground. -/
theorem C195_drawn_unique {l : List (Figure × Int)} (hd : Depth bits) (hW : W < 2 ^ 24) (hH : H < 2 ^ 24) (hl : AllSafe W H bits l) :
    (∃ g, Drawn W H bits l g) ∧ ∀ g g', Drawn W H bits l g → Drawn W H bits l g' → ∀ x y, x < W → y < H → g x y = g' x y := by
  obtain ⟨b, e1, v1, -, -, -, -, h0, -⟩ := C01_newBMP_valid W H bits hd hW hH
  obtain ⟨n, e2, k⟩ := C180_layers v1 hl
  refine ⟨⟨pix n W H bits, fun x y hx hy => ⟨?_, ?_⟩⟩, fun g g' hg hg' x y hx hy => by
    rw [← drawn_eq k h0 hg hx hy, drawn_eq k h0 hg' hx hy]⟩
  · intro below above f c e hf ha
    have ht := k.pixels x y hx hy
    refine ht.unique (Or.inl ⟨below.map (layer W H bits), area W H bits f, c.toNat, above.map (layer W H bits), ?_, hf, ?_, rfl⟩)
    · rw [e, List.map_append, List.map_cons]; rfl
    · intro t ht
      obtain ⟨s, hs, rfl⟩ := List.mem_map.1 ht
      exact ha s hs
  · intro ha
    have ht := k.pixels x y hx hy
    rw [h0 x y hx hy] at ht
    refine ht.unique (Or.inr ⟨?_, rfl⟩)
    intro t ht
    obtain ⟨s, hs, rfl⟩ := List.mem_map.1 ht
    exact ha s hs

/-- C195: the difference of an image and the same image with figures drawn over it (imagediff2file) is black outside of
the figures; the similar parts (showsimilarparts2file) show the image there. -/
theorem C195_difference {b : Bytes} (h : Valid b W H bits) (hW : 0 < W) (hH : 0 < H) {l : List (Figure × Int)} (hl : AllSafe W H bits l)
    (fs : Files) {f1 f2 : String} (hf : f1 ≠ f2) (out : String) :
    ∃ n, drawAll l b = .ok n ∧
      (∃ fs', imagediff2file (writeFile (writeFile fs f1 b) f2 n) f1 f2 out = .ok fs' ∧ ∃ c, fs' out = some c ∧ Valid c W H bits ∧
        ∀ x y, x < W → y < H → (pix c W H bits x y = 0 ↔ pix n W H bits x y = pix b W H bits x y) ∧
          ((∀ t ∈ l, ¬ area W H bits t.1 x y) → pix c W H bits x y = 0)) ∧
      (∃ fs', showsimilarparts2file (writeFile (writeFile fs f1 b) f2 n) f1 f2 out = .ok fs' ∧ ∃ c, fs' out = some c ∧ Valid c W H bits ∧
        ∀ x y, x < W → y < H → (∀ t ∈ l, ¬ area W H bits t.1 x y) → pix c W H bits x y = pix b W H bits x y) := by
  obtain ⟨n, e2, k⟩ := C180_layers h hl
  have hs1 : Stored (writeFile (writeFile fs f1 b) f2 n) f1 b W H bits :=
    ⟨by simp [writeFile, saveBMP, hf], h, C15_longer h (Or.inl ⟨hW, hH⟩)⟩
  have hs2 : Stored (writeFile (writeFile fs f1 b) f2 n) f2 n W H bits :=
    ⟨by simp [writeFile, saveBMP], k.valid, C15_longer k.valid (Or.inl ⟨hW, hH⟩)⟩
  have out' : ∀ x y, x < W → y < H → (∀ t ∈ l, ¬ area W H bits t.1 x y) → pix n W H bits x y = pix b W H bits x y := by
    intro x y hx hy ha
    refine (k.pixels x y hx hy).unique (Or.inr ⟨?_, rfl⟩)
    intro t ht
    obtain ⟨s, hs, rfl⟩ := List.mem_map.1 ht
    exact ha s hs
  obtain ⟨⟨fs1, a1, ⟨c1, q1, w1⟩, -⟩, ⟨fs2, a2, ⟨c2, q2, w2⟩, -⟩⟩ := C91_compare (out := out) hs1 hs2
  refine ⟨n, e2, ⟨fs1, a1, c1, q1, w1.valid, fun x y hx hy => ⟨?_, fun ha => ?_⟩⟩, ⟨fs2, a2, c2, q2, w2.valid, fun x y hx hy ha => ?_⟩⟩
  · rw [w1.pixels x y hx hy, Nat.xor_eq_zero_iff]
    exact eq_comm
  · rw [w1.pixels x y hx hy, out' x y hx hy ha, Nat.xor_self]
  · rw [w2.pixels x y hx hy, out' x y hx hy ha, Nat.and_self]

/-- A frame with a point on it, turned upside down and complemented in files. -/
example : (do
    let b ← newBMP 4 3 1
    let n ← drawAll [(.border 0 0 3 2, 1), (.point 1 0, 0)] b
    let fs ← runAll (oneFile n) "a" [(.flipV, "u"), (.invert, "v")]
    pure (← look fs "u" [(0, 2), (1, 2), (1, 1), (1, 0)], ← look fs "v" [(0, 2), (1, 2), (1, 1), (1, 0)])) =
    .ok ([1, 0, 0, 1], [0, 1, 1, 0]) := by decide +kernel

end Verif.Props.Pipeline
