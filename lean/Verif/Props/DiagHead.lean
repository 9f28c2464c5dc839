import Verif.Props.DiagWide
/-! Property C24, diagonals that end in the last row: files in which bytes of the header are overwritten, and 24-bit files
that get longer. -/

namespace Verif.Props
open Verif Spec Model

variable {b : Bytes} {W H bits : Nat} {x1 y1 x2 y2 color : Int}

/-- The position of a pixel in the last row does not depend on the width in the header. -/
theorem BMoffsethd_last (h : Valid b W H bits) {c : Bytes} (hl : 30 ≤ c.length)
    (hc : ∀ i, i = 22 ∨ i = 23 ∨ i = 24 ∨ i = 28 → byte c i = byte b i) (x : Int) :
    BMoffsethd c x ((H : Int) - 1) = .ok ((dataOff bits : Int) + x * bits / 8) := by
  have hbl : 54 ≤ b.length := by rw [h.len]; unfold dataOff; omega
  have g : ∀ i : Nat, i = 22 ∨ i = 23 ∨ i = 24 ∨ i = 28 → getItem c (i : Int) = getItem b (i : Int) := by
    intro i hi
    rw [getItem_ok rfl (by omega), getItem_ok rfl (by omega), hc i hi]
  have rdy : readint bmpy 4 c = readint bmpy 4 b := by
    unfold readint
    rw [show pyRange 0 (4 - 1) = [0, 1, 2] from rfl]
    simp only [List.foldlM_cons, List.foldlM_nil]
    rw [show (bmpy : Int) + 0 = ((22 : Nat) : Int) from rfl, show (bmpy : Int) + 1 = ((23 : Nat) : Int) from rfl,
      show (bmpy : Int) + 2 = ((24 : Nat) : Int) from rfl, g 22 (by omega), g 23 (by omega), g 24 (by omega)]
  have rdx : ∃ m, readint bmpx 4 c = .ok m := by
    unfold readint
    rw [show pyRange 0 (4 - 1) = [0, 1, 2] from rfl]
    simp only [List.foldlM_cons, List.foldlM_nil]
    rw [show (bmpx : Int) + 0 = ((18 : Nat) : Int) from rfl, show (bmpx : Int) + 1 = ((19 : Nat) : Int) from rfl,
      show (bmpx : Int) + 2 = ((20 : Nat) : Int) from rfl, getItem_ok rfl (by omega), getItem_ok rfl (by omega), getItem_ok rfl (by omega)]
    exact ⟨_, rfl⟩
  obtain ⟨m, hm⟩ := rdx
  have ro : rowoff c ((H : Int) - 1) bits = .ok 0 := by
    unfold rowoff
    rw [rdy, hm, h.getmaxy_eq]
    simp only [ok_bind]
    rcases h.depth with rfl | rfl | rfl | rfl <;> simp [xbytes, pyDiv, pyMod]
  have hb := h.bits_eq
  unfold BMoffsethd
  rw [show getItem c bmpcolorbits = getItem b bmpcolorbits from g 28 (by omega), hb]
  rcases h.depth with rfl | rfl | rfl | rfl
  all_goals
    norm_num at ro
    norm_num [bmofhd24, bmofhd8, bmofhd4, bmofhd1, ro, dataOff, palSize]
    try rw [pyShr_3]
    try rw [pyShr_1]
    try omega

/-- How many bytes a pixel outside the image overwrites. -/
def wideOf (bits : Nat) : Nat := if bits = 24 then 3 else 1

theorem belowBytes_length (bits : Nat) (x : Int) (c v : Nat) : (belowBytes bits x c v).length = wideOf bits := by
  unfold belowBytes wideOf; split_ifs <;> rfl

/-- One point, written at the position `A` of any file. -/
theorem diagStep_at (hd : Depth bits) (h1 : bits ≠ 1) (hc : IsColour bits color) {c : Bytes} {x y : Int} {A : Nat}
    (ho : BMoffsethd c x y = .ok (A : Int)) (hA : A + wideOf bits ≤ c.length) (hb : byte c A < 256) :
    diagStep bits color c (x, y) = .ok (ow c A (belowBytes bits x color.toNat (byte c A))) := by
  have hc0 := hc.1
  have hc1 := hc.2
  have hpos : 0 < wideOf bits := by unfold wideOf; split_ifs <;> omega
  have hset : ∀ v : Nat, c.set A v = ow c A [v] := fun v => set_eq_ow (by omega)
  unfold diagStep
  dsimp only
  rw [ho, ok_bind]
  unfold belowBytes
  rcases hd with rfl | rfl | rfl | rfl
  · omega
  · norm_num at hc1
    simp only [if_neg (show ¬ (4 : Nat) = 24 by omega), if_neg (show ¬ (4 : Nat) = 8 by omega)]
    rw [getItem_ok rfl (by omega), ok_bind, pyAnd_1, and_f0 _ hb, and_0f]
    by_cases ho : x % 2 = 1
    · rw [if_pos ho, if_pos ho, setItem_ok (w := byte c A / 16 * 16 + color.toNat) rfl (by omega) (by omega) (by omega), hset]
    · rw [if_neg ho, if_neg ho, setItem_ok (w := color.toNat * 16 + byte c A % 16) rfl (by omega)
        (by rw [show pyShl color 4 = color * 16 from rfl]; omega) (by omega), hset]
  · norm_num at hc1
    rw [if_neg (by omega), if_pos rfl, if_neg (by omega), if_pos rfl,
      setItem_ok (w := color.toNat) rfl (by omega) (by omega) (by omega), hset]
  · rw [if_pos rfl, if_pos rfl, setSlice_ok (n := A) (b := c) (e := (A : Int) + 3)
      (buf := [color.toNat % 256, color.toNat / 256 % 256, color.toNat / 65536]) rfl rfl hA]
    rfl

theorem ow_swap {c u v : Bytes} {m n : Nat} (hm : m + u.length ≤ n) (hn : n + v.length ≤ c.length) :
    ow (ow c m u) n v = ow (ow c n v) m u := by
  have l1 : (ow c m u).length = c.length := length_ow (by omega)
  have l2 : (ow c n v).length = c.length := length_ow hn
  apply bytes_ext
  · rw [length_ow (by omega), l1, length_ow (by omega), l2]
  · intro i _
    rw [byte_ow (by omega), byte_ow (by omega), byte_ow (by omega), byte_ow (by omega)]
    split_ifs <;> first | rfl | omega

/-- C24: a diagonal that ends in the last row of an image that is not wide is painted, and bytes of the header or of the palette are
overwritten with the colour. Only the bytes with the height and the depth must not be among them; the magic number, the length of the
file, the position of the data and the width may be. -/
theorem C24_diagonal_head (h : Valid b W H bits) (h1 : bits ≠ 1) (hW : 0 < W) (hH : 0 < H)
    (hc : IsColour bits color) (hd : |clampTo x2 W - clampTo x1 W| = |clampTo y2 H - clampTo y1 H|)
    (hne : clampTo x1 W ≠ clampTo x2 W) (hy : clampTo y2 H = (H : Int) - 1) {n : Nat}
    (hn : belowOff W bits (clampTo x2 W) = n) (hg : n + wideOf bits ≤ 22 ∨ (25 ≤ n ∧ (n + wideOf bits ≤ 28 ∨ 29 ≤ n))) :
    ∃ b', line b x1 y1 x2 y2 color = .ok (ow b' n (belowBytes bits (clampTo x2 W) color.toNat (byte b n))) ∧
      Paints b b' W H bits (DiagSet (clampTo x1 W) (clampTo y1 H) (clampTo x2 W) (clampTo y2 H)) color.toNat := by
  obtain ⟨b1, p, e⟩ := diag_run h h1 hW hH hc hd hne
  have hX2 : 0 ≤ clampTo x2 W ∧ clampTo x2 W < W := by unfold clampTo; omega
  have hY1 : 0 ≤ clampTo y1 H ∧ clampTo y1 H < H := by unfold clampTo; omega
  have hs : (clampTo y2 H - clampTo y1 H).sign = 1 := by
    apply Int.sign_eq_one_of_pos
    rw [Int.abs_eq_natAbs, Int.abs_eq_natAbs] at hd
    omega
  obtain ⟨X, hX⟩ := Int.eq_ofNat_of_zero_le hX2.1
  have hXW : X < W := by omega
  rw [hX] at hn hne hd ⊢
  unfold belowOff at hn
  have hlen := h.len
  have hl1 := p.header.1
  have hc0 := hc.1
  have hc1 := hc.2
  have hoff : n + wideOf bits ≤ dataOff bits := by
    unfold wideOf
    unfold rowLen at hn
    rcases h.depth with rfl | rfl | rfl | rfl
    · omega
    all_goals norm_num at hn ⊢; omega
  have hpos : 0 < wideOf bits := by unfold wideOf; split_ifs <;> omega
  have hbn : byte b1 n = byte b n := p.header.2 n (by omega)
  have hbl : byte b n < 256 := byte_lt_of_mem h.bytes _
  have hd54 : 54 ≤ dataOff bits := by unfold dataOff; omega
  have key : diagStep bits color b1 ((X : Int), clampTo y2 H + (clampTo y2 H - clampTo y1 H).sign) =
      .ok (ow b1 n (belowBytes bits (X : Int) color.toNat (byte b n))) := by
    rw [← hbn]
    refine diagStep_at h.depth h1 hc ?_ (by omega) (by omega)
    rw [hs, hy, BMoffsethd_any p.valid, ← hn]
    congr 1; ring
  have hHn : H - 1 < H := by omega
  have hx : (H : Int) - 1 = ((H - 1 : Nat) : Int) := by omega
  have ha : addr W H bits X (H - 1) + wideOf bits ≤ b1.length := addr_lt p.valid hXW hHn
  have ha0 : dataOff bits ≤ addr W H bits X (H - 1) := by unfold addr; omega
  have ea : ((dataOff bits : Int) + (X : Int) * bits / 8) = (addr W H bits X (H - 1) : Int) := by
    unfold addr rel
    rw [show H - 1 - (H - 1) = 0 by omega]; push_cast; ring
  have hbl1 : byte b1 (addr W H bits X (H - 1)) < 256 := byte_lt_of_mem p.valid.bytes _
  have plain : plotP b1 W H bits X (H - 1) color.toNat =
      ow b1 (addr W H bits X (H - 1)) (belowBytes bits X color.toNat (byte b1 (addr W H bits X (H - 1)))) := by
    have e1 := diagStep_plot h.depth h1 hc p.valid hXW hHn
    rw [diagStep_at h.depth h1 hc (p.valid.BMoffsethd_eq X _ hHn) ha hbl1] at e1
    exact (Except.ok.inj e1).symm
  have hlb := belowBytes_length bits (X : Int) color.toNat (byte b n)
  have last : diagStep bits color (ow b1 n (belowBytes bits (X : Int) color.toNat (byte b n))) ((X : Int), (H : Int) - 1) =
      .ok (ow (plotP b1 W H bits X (H - 1) color.toNat) n (belowBytes bits (X : Int) color.toNat (byte b n))) := by
    generalize belowBytes bits (X : Int) color.toNat (byte b n) = buf at *
    have hll : (ow b1 n buf).length = b1.length := length_ow (by omega)
    have hbb : byte (ow b1 n buf) (addr W H bits X (H - 1)) = byte b1 (addr W H bits X (H - 1)) := by
      rw [byte_ow (by omega), if_neg (by omega)]
    have oc := BMoffsethd_last p.valid (c := ow b1 n buf) (by omega) (fun i hi => by
      rw [byte_ow (by omega), if_neg (by omega)]) (X : Int)
    rw [ea] at oc
    rw [diagStep_at h.depth h1 hc oc (by omega) (by omega), hbb, plain, ow_swap (by omega) (by rw [belowBytes_length]; omega)]
  refine ⟨plotP b1 W H bits X (H - 1) color.toNat, ?_, ?_⟩
  · rw [e, hX, key, ok_bind, hy, last]
  · refine paints_two p (plotP_paints p.valid hXW hHn (colour_lt hc)) fun px py hpx hpy => ?_
    rw [diagSet_edge (H := H) hd hpy (Or.inr (by rw [hs, hy]; norm_num)), hX, hy]
    constructor
    · rintro (g | ⟨g1, g2⟩)
      · exact Or.inl g
      · exact Or.inr ⟨by omega, by omega⟩
    · rintro (g | ⟨g1, g2⟩)
      · exact Or.inl g
      · exact Or.inr ⟨by omega, by omega⟩

/- On a 4x4 image with 16 colours the diagonal from the upper left to the lower right corner with colour 5
   also changes byte 115: the green of palette entry 15, which was 255, is 245 afterwards. -/
example : belowOff 4 4 3 = 115 ∧ ((newBMP 4 4 4).bind fun b => (line b 0 0 3 3 5).map fun b' =>
    (byte b 115, byte b' 115)).toOption = some (255, 245) := by
  decide +kernel

end Verif.Props
