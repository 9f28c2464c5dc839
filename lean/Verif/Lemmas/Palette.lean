import Verif.Lemmas.Pixel
/-! Evaluation of palette functions and of `newBMP`. -/

namespace Verif
open Spec Model

/-- All components of a colour are bytes. -/
def ByteRGB (p : RGB) : Prop :=
  (0 ≤ p.1 ∧ p.1 < 256) ∧ (0 ≤ p.2.1 ∧ p.2.1 < 256) ∧ (0 ≤ p.2.2 ∧ p.2.2 < 256)

instance (p : RGB) : Decidable (ByteRGB p) := by unfold ByteRGB; infer_instance

/-- The three stored bytes of a colour. -/
def bgr (p : RGB) : Bytes := [p.2.2.toNat, p.2.1.toNat, p.1.toNat]

theorem bgr_bytes {p : RGB} (h : ByteRGB p) : ∀ v ∈ bgr p, v < 256 := by
  obtain ⟨h1, h2, h3⟩ := h
  intro v hv; simp [bgr] at hv; omega

theorem mkArray_bgr {p : RGB} (h : ByteRGB p) : mkArray [p.2.2, p.2.1, p.1] = .ok (bgr p) := by
  obtain ⟨h1, h2, h3⟩ := h
  exact mkArray3_ok (by omega) (by omega) (by omega) (by omega) (by omega) (by omega)

/-- Effect of the loop of `setbmppal`. -/
def palW : List RGB → Nat → Bytes → Bytes
  | [], _, b => b
  | p :: ps, s, b => palW ps (s + 4) (ow b s (bgr p))

theorem setpalLoop_eq (pal : List RGB) (s : Nat) (b : Bytes) (hp : ∀ p ∈ pal, ByteRGB p)
    (hl : s + 4 * pal.length ≤ b.length) :
    setpalLoop pal (s : Int) b = .ok (palW pal s b) := by
  induction pal generalizing s b with
  | nil => rfl
  | cons p ps ih =>
    obtain ⟨r, g, bl⟩ := p
    have h1 : mkArray [bl, g, r] = .ok (bgr (r, g, bl)) := mkArray_bgr (p := (r, g, bl)) (hp _ (by simp))
    have h3 : (bgr (r, g, bl)).length = 3 := rfl
    simp only [List.length_cons] at hl
    unfold setpalLoop palW
    rw [h1]
    simp only [ok_bind]
    rw [setSlice_ok (n := s) rfl (by rw [h3]; rfl) (by rw [h3]; omega)]
    have := ih (s + 4) (ow b s (bgr (r, g, bl))) (fun p hp' => hp p (by simp [hp']))
      (by rw [length_ow (by rw [h3]; omega)]; omega)
    push_cast at this
    exact this

theorem length_palW (pal : List RGB) (s : Nat) (b : Bytes) (hl : s + 4 * pal.length ≤ b.length) :
    (palW pal s b).length = b.length := by
  induction pal generalizing s b with
  | nil => rfl
  | cons p ps ih =>
    simp only [List.length_cons] at hl
    have h3 : (bgr p).length = 3 := rfl
    rw [palW, ih, length_ow (by omega)]
    rw [length_ow (by omega)]; omega

theorem palW_bytes (pal : List RGB) (s : Nat) (b : Bytes) (hp : ∀ p ∈ pal, ByteRGB p)
    (hb : ∀ v ∈ b, v < 256) : ∀ v ∈ palW pal s b, v < 256 := by
  induction pal generalizing s b with
  | nil => exact hb
  | cons p ps ih =>
    rw [palW]
    exact ih _ _ (fun q hq => hp q (by simp [hq])) (ow_bytes hb (bgr_bytes (hp p (by simp))))

theorem byte_palW_outside (pal : List RGB) (s : Nat) (b : Bytes) (hl : s + 4 * pal.length ≤ b.length)
    (i : Nat) (hi : i < s ∨ s + 4 * pal.length ≤ i ∨ (i - s) % 4 = 3) :
    byte (palW pal s b) i = byte b i := by
  induction pal generalizing s b with
  | nil => rfl
  | cons p ps ih =>
    simp only [List.length_cons] at hl hi
    have h3 : (bgr p).length = 3 := rfl
    rw [palW, ih, byte_ow (by omega), if_neg (by omega)]
    · rw [length_ow (by omega)]; omega
    · omega

theorem byte_palW (pal : List RGB) (s : Nat) (b : Bytes) (hl : s + 4 * pal.length ≤ b.length)
    (c k : Nat) (hc : c < pal.length) (hk : k < 3) :
    byte (palW pal s b) (s + 4 * c + k) = byte (bgr pal[c]) k := by
  induction pal generalizing s b c with
  | nil => simp at hc
  | cons p ps ih =>
    simp only [List.length_cons] at hl hc
    have h3 : (bgr p).length = 3 := rfl
    have hl2 : s + 4 + 4 * ps.length ≤ (ow b s (bgr p)).length := by rw [length_ow (by omega)]; omega
    rw [palW]
    cases c with
    | zero =>
      rw [byte_palW_outside _ _ _ hl2 _ (by omega), byte_ow (by omega), if_pos (by omega)]
      simp
    | succ c =>
      have := ih (s + 4) (ow b s (bgr p)) hl2 c (by omega)
      rw [show s + 4 * (c + 1) + k = s + 4 + 4 * c + k by ring, this]
      simp

/-! ### Reading palette entries -/

theorem getRGBpal_eq {b : Bytes} {c : Nat} (h : 54 + 4 * c + 2 < b.length) :
    getRGBpal b (c : Int) = .ok (rgbI (palRGB b c)) := by
  unfold getRGBpal
  dsimp only
  rw [getItem_ok (n := 54 + 4 * c + 2) (by simp [bmppal, pyShl]; omega) h,
    getItem_ok (n := 54 + 4 * c + 1) (by simp [bmppal, pyShl]; omega) (by omega),
    getItem_ok (n := 54 + 4 * c) (by simp [bmppal, pyShl]; omega) (by omega)]
  rfl

theorem Spec.Valid.pal_fits {b : Bytes} {W H bits c : Nat} (_h : Valid b W H bits) (h24 : bits ≠ 24)
    (hc : c < 2 ^ bits) : 54 + 4 * c + 4 ≤ dataOff bits := by
  rw [dataOff, palSize, if_neg h24]; omega

theorem Spec.Valid.getallRGBpal_eq {b : Bytes} {W H bits : Nat} (h : Valid b W H bits) (h24 : bits ≠ 24) :
    getallRGBpal b = .ok ((List.range (2 ^ bits)).map fun c => rgbI (palRGB b c)) := by
  unfold getallRGBpal
  rw [h.getmaxcolors_eq]
  simp only [ok_bind]
  rw [pyRange_zero, List.mapM_map]
  apply mapM_ok
  intro c hc
  simp only [List.mem_range] at hc
  have := h.pal_fits h24 hc
  have := h.len
  exact getRGBpal_eq (by omega)

theorem palRGB_palW (pal : List RGB) (b : Bytes) (hl : 54 + 4 * pal.length ≤ b.length)
    (c : Nat) (hc : c < pal.length) (hp : ∀ p ∈ pal, ByteRGB p) :
    rgbI (palRGB (palW pal 54 b) c) = pal[c] := by
  obtain ⟨h1, h2, h3⟩ := hp _ (List.getElem_mem hc)
  unfold palRGB rgbI
  have e0 := byte_palW _ _ _ hl c 0 hc (by omega)
  rw [Nat.add_zero] at e0
  rw [byte_palW _ _ _ hl c 2 hc (by omega), byte_palW _ _ _ hl c 1 hc (by omega), e0]
  simp only [bgr, byte, List.getD_cons_zero, List.getD_cons_succ]
  apply Prod.ext
  · simp; omega
  · apply Prod.ext <;> simp <;> omega

/-! ### Default palettes -/

theorem stdpal_facts {bits : Nat} (hd : bits = 1 ∨ bits = 4 ∨ bits = 8) :
    ∃ pal, getdefaultbitpal (bits : Int) = .ok pal ∧ pal.length = 2 ^ bits ∧ ∀ p ∈ pal, ByteRGB p := by
  rcases hd with rfl | rfl | rfl
  · exact ⟨stdpal1, rfl, rfl, by decide +kernel⟩
  · exact ⟨stdpal4, rfl, rfl, by decide +kernel⟩
  · exact ⟨stdpal8, rfl, by decide +kernel, by decide +kernel⟩

/-! ### Header writes -/

theorem le_ow_outside {b : Bytes} {s : Nat} {buf : Bytes} {off n : Nat} (hl : s + buf.length ≤ b.length)
    (h : off + n ≤ s ∨ s + buf.length ≤ off) : le (ow b s buf) off n = le b off n := by
  apply le_congr
  intro i h1 h2
  rw [byte_ow hl, if_neg (by omega)]

theorem le_buf {b buf : Bytes} {s : Nat} (hl : s + buf.length ≤ b.length) (k n : Nat) (hn : k + n ≤ buf.length) :
    le (ow b s buf) (s + k) n = le buf k n := by
  induction n generalizing k with
  | zero => rfl
  | succ n ih =>
    rw [le, le, show s + k + 1 = s + (k + 1) by omega, ih (k + 1) (by omega), byte_ow hl, if_pos (by omega)]
    congr 2; omega

theorem byte_cons_succ (a : Nat) (l : Bytes) (i : Nat) : byte (a :: l) (i + 1) = byte l i := by
  simp [byte]

theorem le_cons (a : Nat) (l : Bytes) (k n : Nat) : le (a :: l) (k + 1) n = le l k n := by
  induction n generalizing k with
  | zero => rfl
  | succ n ih => rw [le, le, byte_cons_succ, ih]

theorem le_digits (v : Nat) (n : Nat) (h : v < 256 ^ n) : le (digits (v : Int) n) 0 n = v := by
  induction n generalizing v with
  | zero => simp at h; subst h; rfl
  | succ n ih =>
    rw [digits, le, le_cons]
    have e : ((v : Int) / 256) = ((v / 256 : Nat) : Int) := by push_cast; rfl
    rw [e, ih (v / 256) (by rw [pow_succ] at h; omega)]
    simp [byte]; omega

theorem le_ow_digits {b : Bytes} {s v n : Nat} (hl : s + n ≤ b.length) (h : v < 256 ^ n) :
    le (ow b s (digits (v : Int) n)) s n = v := by
  have := le_buf (b := b) (buf := digits (v : Int) n) (s := s) (by rw [length_digits]; exact hl) 0 n
    (by rw [length_digits]; omega)
  rw [Nat.add_zero] at this
  rw [this, le_digits v n h]

theorem byte_eq_le (b : Bytes) (i : Nat) : byte b i = le b i 1 := by simp [le]

end Verif
