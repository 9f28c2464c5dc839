import Verif.Lemmas.NewImage
import Verif.Props.Iterate
import Verif.Props.Blt
/-! C34: exchanging the axes. -/

namespace Verif.Props
open Verif Spec Model

variable {b : Bytes} {W H bits : Nat}

/-- A pixel as bytes in the file (8 and 24 bit). -/
theorem byte_flatten_enc {bits : Nat} (hb : bits = 8 ∨ bits = 24) (n : Nat) (c : Nat → Nat) (hc : ∀ j, c j < 2 ^ bits)
    (i : Nat) (hi : i < n) :
    bufPx bits ((List.range n).map fun j => if bits = 24 then [c j % 256, c j / 256 % 256, c j / 65536] else [c j]).flatten i
      = c i := by
  unfold bufPx
  have hci := hc i
  rcases hb with rfl | rfl
  · simp only [show ((8 : Nat) = 24) = False by simp, if_false]
    rw [flatten_singletons, show i * 8 / 8 = i by omega, byte_eq_getElem _ _ (by simpa using hi)]
    have : shiftOf 8 i = 0 := by unfold shiftOf; omega
    rw [this]
    simp only [List.getElem_map, List.getElem_range]
    omega
  · simp only [if_true]
    have key : ∀ (n : Nat) (i t : Nat), i < n → t < 3 →
        byte ((List.range n).map fun j => [c j % 256, c j / 256 % 256, c j / 65536]).flatten (3 * i + t)
          = byte [c i % 256, c i / 256 % 256, c i / 65536] t := by
      intro n
      induction n with
      | zero => intro i t hi; omega
      | succ n ih =>
        intro i t hi ht
        have hl : ((List.range n).map fun j => [c j % 256, c j / 256 % 256, c j / 65536]).flatten.length = 3 * n := by
          clear ih hi
          induction n with
          | zero => rfl
          | succ n ih => rw [List.range_succ, List.map_append, List.flatten_append, List.length_append, ih]; simp; omega
        rw [List.range_succ, List.map_append, List.flatten_append, byte_append, hl]
        by_cases he : i < n
        · rw [if_pos (by omega), ih i t he ht]
        · have : i = n := by omega
          subst this
          rw [if_neg (by omega)]
          simp
    have h0 := key n i 0 hi (by omega)
    have h1 := key n i 1 hi (by omega)
    have h2 := key n i 2 hi (by omega)
    rw [Nat.add_zero] at h0
    rw [h0, h1, h2]
    simp [byte]
    omega

theorem length_flatten_enc (bits n : Nat) (c : Nat → Nat) :
    ((List.range n).map fun j => if bits = 24 then [c j % 256, c j / 256 % 256, c j / 65536] else [c j]).flatten.length
      = bpp bits * n := by
  unfold bpp
  induction n with
  | zero => simp
  | succ n ih =>
    rw [List.range_succ, List.map_append, List.flatten_append, List.length_append, ih]
    split_ifs <;> simp <;> ring

theorem flatten_enc_bytes {bits n : Nat} (hb : bits = 8 ∨ bits = 24) {c : Nat → Nat} (hc : ∀ j, c j < 2 ^ bits) :
    ∀ v ∈ ((List.range n).map fun j => if bits = 24 then [c j % 256, c j / 256 % 256, c j / 65536] else [c j]).flatten,
      v < 256 := by
  intro v hv
  rw [List.mem_flatten] at hv
  obtain ⟨l, hl, hvl⟩ := hv
  rw [List.mem_map] at hl
  obtain ⟨j, _, rfl⟩ := hl
  have := hc j
  rcases hb with rfl | rfl
  · simp at hvl; omega
  · simp at hvl; omega

/-- C34 for 1- and 4-bit images: pixel `(a, b)` of the result is pixel `(b, a)` of the source,
with the same palette. -/
theorem C34_flipXY_packed_partial (h : Valid b W H bits) (hb : bits = 1 ∨ bits = 4) :
    ∃ n, flipXY b = .ok n ∧ Shows n H W bits (palRGB b) (fun x y => pix b W H bits y x) := by
  obtain ⟨n0, e0, v0, _⟩ := C01_newBMP_valid H W bits h.depth h.hlt h.wlt
  obtain ⟨n1, e1, v1, pal1, pix1⟩ := copyPal h v0
  unfold flipXY getmaxx getmaxy
  rw [h.getmaxx_eq, h.getmaxy_eq]
  simp only [ok_bind]
  rw [h.bits_eq]
  simp only [ok_bind]
  rw [e0]
  simp only [ok_bind]
  rw [if_neg (by omega), e1]
  simp only [ok_bind]
  rw [C38_iterimagecolor h]
  simp only [ok_bind]
  have hmem : ∀ v, v ∈ scan W H (fun x y => (pix b W H bits x y : Int)) ↔
      ∃ x y : Nat, x < W ∧ y < H ∧ v = (((x : Int), (y : Int)), (pix b W H bits x y : Int)) := by
    intro v
    unfold scan scanRow
    simp only [List.mem_flatMap, List.mem_reverse, List.mem_range, List.mem_map]
    constructor
    · rintro ⟨y, hy, x, hx, rfl⟩; exact ⟨x, y, hx, hy, rfl⟩
    · rintro ⟨x, y, hx, hy, rfl⟩; exact ⟨y, hy, x, hx, rfl⟩
  obtain ⟨n2, e2, v2, s2, p2⟩ := foldl_plot (W := H) (H := W) (bits := bits)
    (fun (nbmp : Bytes) (v : (Int × Int) × Int) => plotxybit nbmp v.1.2 v.1.1 v.2)
    (scan W H fun x y => (pix b W H bits x y : Int)) (fun v => v.1.2.toNat) (fun v => v.1.1.toNat) (fun v => v.2.toNat)
    (fun x y => pix b W H bits y x)
    (by
      intro v hv
      obtain ⟨x, y, hx, hy, rfl⟩ := (hmem v).mp hv
      have := h.pix_lt x y
      exact ⟨by simpa using hy, by simpa using hx, by simpa using this, by simp⟩)
    (by
      intro nb hnb v hv
      obtain ⟨x, y, hx, hy, rfl⟩ := (hmem v).mp hv
      have := h.pix_lt x y
      dsimp only
      rw [hnb.plot_eq hy hx (fun h24 => by omega), reduce_of_colour h.depth ⟨by omega, by exact_mod_cast this⟩]
      rfl) v1
  refine ⟨n2, e2, v2, ?_, ?_⟩
  · intro h24 c hc
    rw [samePal s2 h24 hc, pal1 h24 c hc]
  · intro x y hx hy
    apply (p2 x y hx hy).1
    exact ⟨(((y : Int), (x : Int)), (pix b W H bits y x : Int)), (hmem _).mpr ⟨y, x, hy, hx, rfl⟩, rfl, rfl⟩

/-- C34 for 8- and 24-bit images: the result is mirrored at the other diagonal. Pixel `(a, b)` is
pixel `(W-1-b, H-1-a)` of the source; the palette is the same. -/
theorem C34_flipXY_bytes (h : Valid b W H bits) (hb : bits = 8 ∨ bits = 24) (hH : 0 < H) :
    ∃ n, flipXY b = .ok n ∧ Shows n H W bits (palRGB b) (fun x y => pix b W H bits (W - 1 - y) (H - 1 - x)) := by
  obtain ⟨n0, e0, v0, _⟩ := C01_newBMP_valid H W bits h.depth h.hlt h.wlt
  unfold flipXY getmaxx getmaxy
  rw [h.getmaxx_eq, h.getmaxy_eq]
  simp only [ok_bind]
  rw [h.bits_eq]
  simp only [ok_bind]
  rw [e0]
  simp only [ok_bind]
  rw [if_pos hb, v0.xchrcnt_eq]
  simp only [ok_bind]
  have hpal : ∃ n1, (if bits < 24 then copyRGBpal b n0 else pure n0 : Py Bytes) = .ok n1 ∧ Valid n1 H W bits ∧
      (bits ≠ 24 → ∀ c < 2 ^ bits, palRGB n1 c = palRGB b c) := by
    rcases hb with rfl | rfl
    · obtain ⟨n1, e1, v1, pal1, _⟩ := copyPal h v0
      exact ⟨n1, by rw [if_pos (by omega)]; exact e1, v1, pal1⟩
    · exact ⟨n0, rfl, v0, fun hne => absurd rfl hne⟩
  obtain ⟨n1, e1, v1, pal1⟩ := hpal
  rw [e1]
  simp only [ok_bind]
  rw [pyRange_zero]
  set g : Nat → Nat → Nat := fun x y => pix b W H bits (W - 1 - y) (H - 1 - x) with hg
  have hbuf : ∀ k, k < W → vertBMPbitBLTget b (k : Int) 0 ((H : Int) - 1) = .ok (some ((List.range H).map fun j =>
      let c := pix b W H bits k (H - 1 - j)
      if bits = 24 then [c % 256, c / 256 % 256, c / 65536] else [c]).flatten) := by
    intro k hk
    have := C18_vertical_get h hb hk (y1 := 0) (y2 := (H : Int) - 1) (lo := 0) (hi := H - 1) (by omega) (by omega) (by omega)
    rwa [show H - 1 - 0 + 1 = H by omega] at this
  have key : ∀ m, m ≤ W → ∃ n2, ((List.range m).map fun (i : Nat) => (i : Int)).foldlM (fun (st : Bytes × Int) y => do
      let v ← vertBMPbitBLTget b y 0 ((H : Int) - 1)
      let buf ← orTypeError v
      let nbmp ← BMPbitBLTput st.1 st.2 buf
      pure (nbmp, st.2 + (rowLen H bits : Int))) (n1, (0 : Int)) = .ok (n2, ((m * rowLen H bits : Nat) : Int)) ∧
      RowsDone n1 n2 H W bits m g := by
    intro m
    induction m with
    | zero => exact fun _ => ⟨n1, by simp [pure_eq_ok], RowsDone.start v1 g⟩
    | succ m ih =>
      intro hm
      obtain ⟨n2, e2, r2⟩ := ih (by omega)
      have hcl : ∀ j, pix b W H bits m (H - 1 - j) < 2 ^ bits := fun j => h.pix_lt _ _
      obtain ⟨n3, e3, r3⟩ := r2.step (by omega)
        (buf := ((List.range H).map fun j =>
          if bits = 24 then [pix b W H bits m (H - 1 - j) % 256, pix b W H bits m (H - 1 - j) / 256 % 256,
            pix b W H bits m (H - 1 - j) / 65536] else [pix b W H bits m (H - 1 - j)]).flatten)
        (flatten_enc_bytes hb hcl)
        (by
          rw [length_flatten_enc bits H (fun j => pix b W H bits m (H - 1 - j))]
          unfold bpp rowLen
          rcases hb with rfl | rfl <;> simp <;> omega)
        (by
          intro x hx
          rw [length_flatten_enc bits H (fun j => pix b W H bits m (H - 1 - j))]
          unfold bpp
          rcases hb with rfl | rfl <;> simp <;> omega)
        (by
          intro x hx
          rw [byte_flatten_enc hb H (fun j => pix b W H bits m (H - 1 - j)) hcl x hx, hg]
          dsimp only
          rw [show W - 1 - (W - 1 - m) = m by omega])
      refine ⟨n3, ?_, r3⟩
      rw [List.range_succ, List.map_append, List.foldlM_append, e2]
      simp only [ok_bind, List.map_cons, List.map_nil, List.foldlM_cons, List.foldlM_nil]
      rw [hbuf m (by omega)]
      simp only [ok_bind, pure_eq_ok, orTypeError]
      rw [e3]
      simp only [ok_bind]
      congr 2
      push_cast; ring
  obtain ⟨n2, e2, r2⟩ := key W (le_refl _)
  rw [e2]
  refine ⟨n2, rfl, r2.valid, ?_, fun x y hx hy => r2.rows x y hx hy (by omega)⟩
  intro h24 c hc
  rw [samePal r2.header h24 hc, pal1 h24 c hc]

/-- The two depth classes disagree, so C34 is false as stated: in an 8-bit image the source pixel
`(0, 0)` ends up at the far corner instead of staying. -/
theorem C34_false : ¬ ∀ (b : Bytes) (W H bits : Nat), Valid b W H bits → ∃ n, flipXY b = .ok n ∧
    Shows n H W bits (palRGB b) (fun x y => pix b W H bits y x) := by
  intro hall
  have h8 := sample8_valid
  have e := h8.plot_eq (x := 0) (y := 0) (by omega) (by omega) (c := 5) (by omega)
  have v := h8.valid_plotP (x := 0) (y := 0) (n := 5) (by omega) (by omega) (by norm_num)
  obtain ⟨n, e1, s1⟩ := hall _ _ _ _ v
  obtain ⟨n', e2, s2⟩ := C34_flipXY_bytes v (Or.inl rfl) (by omega)
  rw [e1] at e2
  obtain rfl := Except.ok.inj e2
  have h1 := s1.pixels 0 0 (by omega) (by omega)
  have h2 := s2.pixels 0 0 (by omega) (by omega)
  rw [h1, h8.pix_plotP (by omega) (by omega) (by omega) (by omega) (by norm_num),
    h8.pix_plotP (by omega) (by omega) (by omega) (by omega) (by norm_num)] at h2
  have : pix sample8 3 4 8 2 3 = 0 := by decide +kernel
  simp [this] at h2

example : (do let n ← flipXY (← plotxybit (← newBMP 3 2 4) 2 0 7)
              pure (← getmaxxy n, ← getxybit n 0 2, ← getxybit n 1 0)) = .ok ((2, 3), 7, 0) := by decide +kernel
example : (do let n ← flipXY (← plotxybit (← newBMP 3 2 24) 2 0 7)
              pure (← getmaxxy n, ← getxybit n 0 2, ← getxybit n 1 0)) = .ok ((2, 3), 0, 7) := by decide +kernel

end Verif.Props
