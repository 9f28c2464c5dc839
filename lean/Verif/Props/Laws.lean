import Verif.Props.Vertical
import Verif.Props.Horizontal
import Verif.Props.FlipXY
import Verif.Props.Crop
import Verif.Props.Invert
import Verif.Props.Resize
import Verif.Props.Smaller
import Verif.Props.Float
import Verif.Props.Upgrade
/-! Property C173: turning, reflecting, cutting, enlarging and inverting fit together. -/

namespace Verif.Props.Laws
open Verif Spec Model

/-- Two files show the same image: same size and depth, same palette, same pixels. -/
structure SameImage (u v : Bytes) (W H bits : Nat) : Prop where
  left : Valid u W H bits
  right : Valid v W H bits
  palette : bits ≠ 24 → ∀ c < 2 ^ bits, palRGB u c = palRGB v c
  pixels : ∀ x y, x < W → y < H → pix u W H bits x y = pix v W H bits x y

/-- Both computations succeed and give the same image. -/
def Agree (r s : Py Bytes) (W H bits : Nat) : Prop := ∃ u v, r = .ok u ∧ s = .ok v ∧ SameImage u v W H bits

/-! ### Single steps on an image that is known by what it shows -/

section
variable {n : Bytes} {W H bits : Nat} {pal : Nat → Nat × Nat × Nat} {f : Nat → Nat → Nat}

theorem palRGB_same {b b' : Bytes} {bits : Nat} (h : SameHeader b b' bits) (hd : Depth bits) (h24 : bits ≠ 24) {c : Nat}
    (hc : c < 2 ^ bits) : palRGB b' c = palRGB b c := by
  have hoff : 54 + 4 * c + 2 < dataOff bits := by
    rcases hd with rfl | rfl | rfl | rfl
    · have : dataOff 1 = 62 := by decide
      omega
    · have : dataOff 4 = 118 := by decide
      omega
    · have : dataOff 8 = 1078 := by decide
      omega
    · exact absurd rfl h24
  unfold palRGB
  rw [h.2 _ (by omega), h.2 _ (by omega), h.2 _ (by omega)]

theorem shows_of_redraws {b n : Bytes} {W H bits : Nat} {g : Nat → Nat → Nat} (p : Redraws b n W H bits g) :
    Spec.Shows n W H bits (palRGB b) g :=
  ⟨p.valid, fun h24 c hc => palRGB_same p.header p.valid.depth h24 hc, p.pixels⟩

theorem same_of_shows {u v : Bytes} {g : Nat → Nat → Nat} (hu : Spec.Shows u W H bits pal f) (hv : Spec.Shows v W H bits pal g)
    (h : ∀ x y, x < W → y < H → f x y = g x y) : SameImage u v W H bits :=
  ⟨hu.valid, hv.valid, fun h24 c hc => (hu.palette h24 c hc).trans (hv.palette h24 c hc).symm,
    fun x y hx hy => (hu.pixels x y hx hy).trans ((h x y hx hy).trans (hv.pixels x y hx hy).symm)⟩

theorem shows_self {b : Bytes} (h : Valid b W H bits) : Spec.Shows b W H bits (palRGB b) (pix b W H bits) :=
  ⟨h, fun _ _ _ => rfl, fun _ _ _ _ => rfl⟩

theorem shows_trans {n' : Bytes} {W' H' : Nat} {g : Nat → Nat → Nat} (h : Spec.Shows n W H bits pal f)
    (h' : Spec.Shows n' W' H' bits (palRGB n) g) {g' : Nat → Nat → Nat} (hg : ∀ x y, x < W' → y < H' → g x y = g' x y) :
    Spec.Shows n' W' H' bits pal g' :=
  ⟨h'.valid, fun h24 c hc => (h'.palette h24 c hc).trans (h.palette h24 c hc),
    fun x y hx hy => (h'.pixels x y hx hy).trans (hg x y hx hy)⟩

theorem flipV (h : Spec.Shows n W H bits pal f) :
    ∃ n', flipvertical n = .ok n' ∧ Spec.Shows n' W H bits pal (fun x y => f x (H - 1 - y)) := by
  obtain ⟨n', e, p, -⟩ := C28_flipvertical h.valid
  exact ⟨n', e, shows_trans h (shows_of_redraws p) fun x y hx hy => h.pixels x _ hx (by omega)⟩

theorem flipH (h : Spec.Shows n W H bits pal f) (hb : bits = 8 ∨ bits = 24 ∨ (bits = 4 ∧ W % 2 = 0)) :
    ∃ n', fliphorizontal n = .ok n' ∧ Spec.Shows n' W H bits pal (fun x y => f (W - 1 - x) y) := by
  obtain ⟨n', e, p, -⟩ := C30_fliphorizontal_partial h.valid hb
  exact ⟨n', e, shows_trans h (shows_of_redraws p) fun x y hx hy => h.pixels _ y (by omega) hy⟩

theorem invert (h : Spec.Shows n W H bits pal f) :
    ∃ n', invertimagebits n = .ok n' ∧ Spec.Shows n' W H bits pal (fun x y => 2 ^ bits - 1 - f x y) := by
  obtain ⟨n', e, p, -⟩ := C32_invertimagebits h.valid
  exact ⟨n', e, shows_trans h (shows_of_redraws p) fun x y hx hy => by rw [h.pixels x y hx hy]⟩

theorem flipD (h : Spec.Shows n W H bits pal f) (hH : 0 < H) :
    ∃ n', flipXY n = .ok n' ∧ Spec.Shows n' H W bits pal (fun x y => if bits = 1 ∨ bits = 4 then f y x else f (W - 1 - y) (H - 1 - x)) := by
  by_cases hb : bits = 1 ∨ bits = 4
  · obtain ⟨n', e, p⟩ := C34_flipXY_packed_partial h.valid hb
    exact ⟨n', e, shows_trans h p fun x y hx hy => by rw [if_pos hb]; exact h.pixels _ _ hy hx⟩
  · obtain ⟨n', e, p⟩ := C34_flipXY_bytes h.valid (by rcases h.valid.depth with c | c | c | c <;> omega) hH
    exact ⟨n', e, shows_trans h p fun x y hx hy => by rw [if_neg hb]; exact h.pixels _ _ (by omega) (by omega)⟩

theorem enlarge (h : Spec.Shows n W H bits pal f) (hW : 0 < W) (hH : 0 < H) {k : Nat} (hk : 0 < k) (hnW : W * k < 2 ^ 24) (hnH : H * k < 2 ^ 24) :
    ∃ n', resizeNtimesbigger n (k : Int) = .ok n' ∧ Spec.Shows n' (W * k) (H * k) bits pal (fun x y =>
      if x < keepCols W bits * k then f (rotCol bits x / k) (y / k) else 0) := by
  obtain ⟨n', e, p⟩ := C40_resize_exact h.valid hW hH hk hnW hnH
  refine ⟨n', e, shows_trans h p fun x y hx hy => ?_⟩
  split_ifs with c
  · refine h.pixels _ _ ?_ ((Nat.div_lt_iff_lt_mul hk).mpr hy)
    rw [Nat.div_lt_iff_lt_mul hk]
    have h1 := (rotCol_lt (bits := bits) (x := x) (keepCols W bits) k (by intro e; subst e; unfold keepCols; simp)).mpr c
    exact lt_of_lt_of_le h1 (Nat.mul_le_mul_right k (keep_le W bits))
  · rfl

end

/-! ### Turning and reflecting -/

variable {b : Bytes} {W H bits : Nat}

/-- C173: both reflections in either order turn the image by half a turn. -/
theorem C173_half_turn (h : Valid b W H bits) (hb : bits = 8 ∨ bits = 24 ∨ (bits = 4 ∧ W % 2 = 0)) :
    Agree (do let v ← flipvertical b; fliphorizontal v) (do let v ← fliphorizontal b; flipvertical v) W H bits ∧
    ∃ u, (do let v ← flipvertical b; fliphorizontal v) = .ok u ∧
      Spec.Shows u W H bits (palRGB b) (fun x y => pix b W H bits (W - 1 - x) (H - 1 - y)) := by
  obtain ⟨v1, e1, s1⟩ := flipV (shows_self h)
  obtain ⟨v2, e2, s2⟩ := flipH s1 hb
  obtain ⟨w1, e3, t1⟩ := flipH (shows_self h) hb
  obtain ⟨w2, e4, t2⟩ := flipV t1
  rw [e1, e3]
  simp only [ok_bind]
  exact ⟨⟨v2, w2, e2, e4, same_of_shows s2 t2 fun _ _ _ _ => rfl⟩, v2, e2, s2⟩

/-- A quarter turn: upside down, then the axes exchanged. -/
def turn (b : Bytes) : Py Bytes := do let v ← flipvertical b; flipXY v

theorem turn_shows {n : Bytes} {pal : Nat → Nat × Nat × Nat} {f : Nat → Nat → Nat} (h : Spec.Shows n W H bits pal f) (hH : 0 < H) :
    ∃ n', turn n = .ok n' ∧ Spec.Shows n' H W bits pal (fun x y => if bits = 1 ∨ bits = 4 then f y (H - 1 - x) else f (W - 1 - y) x) := by
  obtain ⟨v1, e1, s1⟩ := flipV h
  obtain ⟨v2, e2, s2⟩ := flipD s1 hH
  refine ⟨v2, by unfold turn; rw [e1]; simp only [ok_bind]; exact e2, s2.valid, s2.palette, fun x y hx hy => ?_⟩
  rw [s2.pixels x y hx hy]
  split_ifs
  · rfl
  · congr 1; omega

/-- C173: this turns images of one and four bits one way and all others the other way. -/
theorem C173_quarter_turn (h : Valid b W H bits) (hH : 0 < H) :
    ∃ u, turn b = .ok u ∧ Spec.Shows u H W bits (palRGB b) (fun x y =>
      if bits = 1 ∨ bits = 4 then pix b W H bits y (H - 1 - x) else pix b W H bits (W - 1 - y) x) :=
  turn_shows (shows_self h) hH

/-- C173: the depth decides about the direction: the same picture, the same call, another result. -/
theorem C173_direction_wrong :
    (do let b ← newBMP 2 1 4; let b ← plotxybit b 0 0 1; let u ← turn b; pure (← getxybit u 0 0, ← getxybit u 0 1)) = .ok (1, 0) ∧
    (do let b ← newBMP 2 1 24; let b ← plotxybit b 0 0 1; let u ← turn b; pure (← getxybit u 0 0, ← getxybit u 0 1)) = .ok (0, 1) := by
  decide +kernel

/-- C173: four quarter turns give the image back, for every depth. -/
theorem C173_four_turns (h : Valid b W H bits) (hW : 0 < W) (hH : 0 < H) :
    Agree (do let u ← turn b; let u ← turn u; let u ← turn u; turn u) (.ok b) W H bits := by
  obtain ⟨u1, e1, s1⟩ := turn_shows (shows_self h) hH
  obtain ⟨u2, e2, s2⟩ := turn_shows s1 hW
  obtain ⟨u3, e3, s3⟩ := turn_shows s2 hH
  obtain ⟨u4, e4, s4⟩ := turn_shows s3 hW
  refine ⟨u4, b, by rw [e1]; simp only [ok_bind]; rw [e2]; simp only [ok_bind]; rw [e3]; simp only [ok_bind]; exact e4, rfl,
    same_of_shows s4 (shows_self h) fun x y hx hy => ?_⟩
  split_ifs <;> congr 1 <;> omega

/-- C173: two quarter turns are half a turn, for every depth. -/
theorem C173_two_turns (h : Valid b W H bits) (hW : 0 < W) (hH : 0 < H) :
    ∃ u, (do let u ← turn b; turn u) = .ok u ∧
      Spec.Shows u W H bits (palRGB b) (fun x y => pix b W H bits (W - 1 - x) (H - 1 - y)) := by
  obtain ⟨u1, e1, s1⟩ := turn_shows (shows_self h) hH
  obtain ⟨u2, e2, s2⟩ := turn_shows s1 hW
  refine ⟨u2, by rw [e1]; simp only [ok_bind]; exact e2, s2.valid, s2.palette, fun x y hx hy => ?_⟩
  rw [s2.pixels x y hx hy]
  split_ifs <;> rfl

/-! ### Cutting -/

theorem cut {n : Bytes} {pal : Nat → Nat × Nat × Nat} {f : Nat → Nat → Nat} (h : Spec.Shows n W H bits pal f) {x1 y1 x2 y2 : Int}
    (hi : InImage W H x1 y1 x2 y2) : ∃ n', crop n x1 y1 x2 y2 = .ok (some n') ∧
      Spec.Shows n' ((max x1 x2 - min x1 x2).toNat + 1) ((max y1 y2 - min y1 y2).toNat + 1) bits
        (if bits < 8 then pal else freshPal bits) (fun x y => f ((min x1 x2).toNat + x) ((min y1 y2).toNat + y)) := by
  obtain ⟨n', e, p⟩ := C35_crop_partial h.valid hi
  unfold InImage at hi
  refine ⟨n', e, p.valid, fun h24 c hc => ?_, fun x y hx hy => ?_⟩
  · rw [p.palette h24 c hc]
    split_ifs with c8
    · exact h.palette h24 c hc
    · rfl
  · rw [p.pixels x y hx hy]
    exact h.pixels _ _ (by omega) (by omega)

/-- `crop` followed by another step on the image it gives. -/
def cropThen (b : Bytes) (x1 y1 x2 y2 : Int) (g : Bytes → Py Bytes) : Py Bytes := do
  match ← crop b x1 y1 x2 y2 with
  | some n => g n
  | none => .error .typeError

/-- C173: the part of the image upside down is the reflected part upside down. -/
theorem C173_crop_vertical (h : Valid b W H bits) {x1 y1 x2 y2 : Int} (hi : InImage W H x1 y1 x2 y2) :
    Agree (do let v ← flipvertical b; cropThen v x1 (H - 1 - y1) x2 (H - 1 - y2) pure) (cropThen b x1 y1 x2 y2 flipvertical)
      ((max x1 x2 - min x1 x2).toNat + 1) ((max y1 y2 - min y1 y2).toNat + 1) bits := by
  obtain ⟨v1, e1, s1⟩ := flipV (shows_self h)
  have hi' : InImage W H x1 (H - 1 - y1) x2 (H - 1 - y2) := by unfold InImage at *; omega
  obtain ⟨v2, e2, s2⟩ := cut s1 hi'
  obtain ⟨w1, e3, t1⟩ := cut (shows_self h) hi
  obtain ⟨w2, e4, t2⟩ := flipV t1
  have eH : (max ((H : Int) - 1 - y1) (H - 1 - y2) - min ((H : Int) - 1 - y1) (H - 1 - y2)).toNat = (max y1 y2 - min y1 y2).toNat := by omega
  rw [eH] at s2
  refine ⟨v2, w2, ?_, ?_, same_of_shows s2 t2 fun x y hx hy => ?_⟩
  · rw [e1]; simp only [ok_bind, cropThen, e2]; rfl
  · unfold cropThen; rw [e3]; simp only [ok_bind]; exact e4
  · unfold InImage at hi
    congr 1
    omega

/-- C173: the same for left and right. -/
theorem C173_crop_horizontal (h : Valid b W H bits) {x1 y1 x2 y2 : Int} (hi : InImage W H x1 y1 x2 y2)
    (hb : bits = 8 ∨ bits = 24 ∨ (bits = 4 ∧ W % 2 = 0 ∧ (x2 - x1) % 2 = 1)) :
    Agree (do let v ← fliphorizontal b; cropThen v (W - 1 - x1) y1 (W - 1 - x2) y2 pure) (cropThen b x1 y1 x2 y2 fliphorizontal)
      ((max x1 x2 - min x1 x2).toNat + 1) ((max y1 y2 - min y1 y2).toNat + 1) bits := by
  obtain ⟨v1, e1, s1⟩ := flipH (shows_self h) (by omega)
  have hi' : InImage W H (W - 1 - x1) y1 (W - 1 - x2) y2 := by unfold InImage at *; omega
  obtain ⟨v2, e2, s2⟩ := cut s1 hi'
  obtain ⟨w1, e3, t1⟩ := cut (shows_self h) hi
  obtain ⟨w2, e4, t2⟩ := flipH t1 (by omega)
  have eW : (max ((W : Int) - 1 - x1) (W - 1 - x2) - min ((W : Int) - 1 - x1) (W - 1 - x2)).toNat = (max x1 x2 - min x1 x2).toNat := by omega
  rw [eW] at s2
  refine ⟨v2, w2, ?_, ?_, same_of_shows s2 t2 fun x y hx hy => ?_⟩
  · rw [e1]; simp only [ok_bind, cropThen, e2]; rfl
  · unfold cropThen; rw [e3]; simp only [ok_bind]; exact e4
  · unfold InImage at hi
    congr 1
    omega

/-- C173: a part of a part is a part of the whole. -/
theorem C173_crop_crop (h : Valid b W H bits) {x1 y1 x2 y2 : Int} (hx : x1 ≤ x2) (hy : y1 ≤ y2) (hi : InImage W H x1 y1 x2 y2)
    {u1 v1 u2 v2 : Int} (hu : u1 ≤ u2) (hv : v1 ≤ v2) (h0 : 0 ≤ u1 ∧ 0 ≤ v1 ∧ u2 ≤ x2 - x1 ∧ v2 ≤ y2 - y1) :
    Agree (cropThen b x1 y1 x2 y2 fun n => cropThen n u1 v1 u2 v2 pure) (cropThen b (x1 + u1) (y1 + v1) (x1 + u2) (y1 + v2) pure)
      ((u2 - u1).toNat + 1) ((v2 - v1).toNat + 1) bits := by
  obtain ⟨n1, e1, s1⟩ := cut (shows_self h) hi
  obtain ⟨n2, e2, s2⟩ := cut (x1 := u1) (y1 := v1) (x2 := u2) (y2 := v2) s1 (by unfold InImage at *; omega)
  obtain ⟨n3, e3, s3⟩ := cut (x1 := x1 + u1) (y1 := y1 + v1) (x2 := x1 + u2) (y2 := y1 + v2) (shows_self h) (by unfold InImage at *; omega)
  have a1 : (max u1 u2 - min u1 u2).toNat = (u2 - u1).toNat := by omega
  have a2 : (max v1 v2 - min v1 v2).toNat = (v2 - v1).toNat := by omega
  have a3 : (max (x1 + u1) (x1 + u2) - min (x1 + u1) (x1 + u2)).toNat = (u2 - u1).toNat := by omega
  have a4 : (max (y1 + v1) (y1 + v2) - min (y1 + v1) (y1 + v2)).toNat = (v2 - v1).toNat := by omega
  rw [a1, a2] at s2
  rw [a3, a4] at s3
  refine ⟨n2, n3, ?_, ?_, ⟨s2.valid, s3.valid, fun h24 c hc => ?_, fun x y hx hy => ?_⟩⟩
  · unfold cropThen; rw [e1]; simp only [ok_bind]; rw [e2]; rfl
  · unfold cropThen; rw [e3]; rfl
  · rw [s2.palette h24 c hc, s3.palette h24 c hc]
    split_ifs <;> rfl
  · rw [s2.pixels x y hx hy, s3.pixels x y hx hy]
    unfold InImage at hi
    congr 1 <;> omega

/-! ### Enlarging -/

theorem mirror_div {m k y : Nat} (hk : 0 < k) (hy : y < m * k) : (m * k - 1 - y) / k = m - 1 - y / k := by
  have h1 := Nat.div_add_mod y k
  have h2 := Nat.mod_lt y hk
  have h3 : y / k < m := (Nat.div_lt_iff_lt_mul hk).mpr hy
  obtain ⟨d, hd⟩ : ∃ d, m = y / k + 1 + d := ⟨m - 1 - y / k, by omega⟩
  have e : m * k - 1 - y = d * k + (k - 1 - y % k) := by
    have : m * k = k * (y / k) + k + d * k := by rw [hd]; ring
    omega
  rw [e, Nat.add_comm, Nat.add_mul_div_right _ _ hk, Nat.div_eq_of_lt (by omega)]
  omega

/-- C173: an enlarged image upside down is the image upside down, enlarged, for every depth. -/
theorem C173_enlarge_vertical (h : Valid b W H bits) (hW : 0 < W) (hH : 0 < H) {k : Nat} (hk : 0 < k) (hkW : W * k < 2 ^ 24)
    (hkH : H * k < 2 ^ 24) :
    Agree (do let v ← flipvertical b; resizeNtimesbigger v k) (do let v ← resizeNtimesbigger b k; flipvertical v) (W * k) (H * k) bits := by
  obtain ⟨v1, e1, s1⟩ := flipV (shows_self h)
  obtain ⟨v2, e2, s2⟩ := enlarge s1 hW hH hk hkW hkH
  obtain ⟨w1, e3, t1⟩ := enlarge (shows_self h) hW hH hk hkW hkH
  obtain ⟨w2, e4, t2⟩ := flipV t1
  refine ⟨v2, w2, by rw [e1]; simp only [ok_bind]; exact e2, by rw [e3]; simp only [ok_bind]; exact e4,
    same_of_shows s2 t2 fun x y hx hy => ?_⟩
  split_ifs
  · congr 1
    exact (mirror_div hk hy).symm
  · rfl

/-- Depths and widths for which enlarging is right (C40). -/
def Sound (W bits : Nat) : Prop := bits = 8 ∨ (bits = 4 ∨ bits = 24) ∧ W % 2 = 0

theorem enlarge_sound {n : Bytes} {pal : Nat → Nat × Nat × Nat} {f : Nat → Nat → Nat} (h : Spec.Shows n W H bits pal f) (hs : Sound W bits)
    (hW : 0 < W) (hH : 0 < H) {k : Nat} (hk : 0 < k) (hnW : W * k < 2 ^ 24) (hnH : H * k < 2 ^ 24) :
    ∃ n', resizeNtimesbigger n (k : Int) = .ok n' ∧ Spec.Shows n' (W * k) (H * k) bits pal (fun x y => f (x / k) (y / k)) := by
  obtain ⟨n', e, p⟩ := C40_resize_partial h.valid hW hH hk hnW hnH hs
  exact ⟨n', e, shows_trans h p fun x y hx hy =>
    h.pixels _ _ ((Nat.div_lt_iff_lt_mul hk).mpr hx) ((Nat.div_lt_iff_lt_mul hk).mpr hy)⟩

/-- C173: the same for left and right. -/
theorem C173_enlarge_horizontal (h : Valid b W H bits) (hs : Sound W bits) (hW : 0 < W) (hH : 0 < H) {k : Nat} (hk : 0 < k)
    (hkW : W * k < 2 ^ 24) (hkH : H * k < 2 ^ 24) :
    Agree (do let v ← fliphorizontal b; resizeNtimesbigger v k) (do let v ← resizeNtimesbigger b k; fliphorizontal v)
      (W * k) (H * k) bits := by
  have ev : W % 2 = 0 → W * k % 2 = 0 := by intro e; rw [Nat.mul_mod, e]; simp
  unfold Sound at hs
  obtain ⟨v1, e1, s1⟩ := flipH (shows_self h) (by omega)
  obtain ⟨v2, e2, s2⟩ := enlarge_sound s1 hs hW hH hk hkW hkH
  obtain ⟨w1, e3, t1⟩ := enlarge_sound (shows_self h) hs hW hH hk hkW hkH
  obtain ⟨w2, e4, t2⟩ := flipH t1 (by omega)
  refine ⟨v2, w2, by rw [e1]; simp only [ok_bind]; exact e2, by rw [e3]; simp only [ok_bind]; exact e4,
    same_of_shows s2 t2 fun x y hx hy => ?_⟩
  congr 1
  exact (mirror_div hk hx).symm

/-- C173: enlarging twice is enlarging by the product. -/
theorem C173_enlarge_twice (h : Valid b W H bits) (hs : Sound W bits) (hW : 0 < W) (hH : 0 < H) {j k : Nat} (hj : 0 < j) (hk : 0 < k)
    (hkW : W * j * k < 2 ^ 24) (hkH : H * j * k < 2 ^ 24) :
    Agree (do let v ← resizeNtimesbigger b j; resizeNtimesbigger v k) (resizeNtimesbigger b ((j * k : Nat) : Int))
      (W * j * k) (H * j * k) bits := by
  have hW1 : W * j ≤ W * j * k := Nat.le_mul_of_pos_right _ hk
  have hH1 : H * j ≤ H * j * k := Nat.le_mul_of_pos_right _ hk
  have hs2 : Sound (W * j) bits := by
    unfold Sound at *
    have : W % 2 = 0 → W * j % 2 = 0 := by intro e; rw [Nat.mul_mod, e]; simp
    omega
  obtain ⟨v1, e1, s1⟩ := enlarge_sound (shows_self h) hs hW hH hj (by omega) (by omega)
  obtain ⟨v2, e2, s2⟩ := enlarge_sound s1 hs2 (Nat.mul_pos hW hj) (Nat.mul_pos hH hj) hk hkW hkH
  obtain ⟨w, e3, t⟩ := enlarge_sound (shows_self h) hs hW hH (k := j * k) (Nat.mul_pos hj hk) (by rw [← Nat.mul_assoc]; exact hkW)
    (by rw [← Nat.mul_assoc]; exact hkH)
  rw [← Nat.mul_assoc, ← Nat.mul_assoc] at t
  refine ⟨v2, w, by rw [e1]; simp only [ok_bind]; exact e2, e3, same_of_shows s2 t fun x y hx hy => ?_⟩
  rw [Nat.div_div_eq_div_mul, Nat.div_div_eq_div_mul, Nat.mul_comm k j]

theorem area_const {n : Nat} {f : Nat → Nat → Nat} {v x y : Nat} (h : ∀ dx dy, dx < n → dy < n → f (x + dx) (y + dy) = v) :
    areaSum n f x y = areaSum n (fun _ _ => v) 0 0 := by
  unfold areaSum
  congr 1
  refine List.map_congr_left fun dx hdx => ?_
  congr 1
  exact List.map_congr_left fun dy hdy => h dx dy (List.mem_range.mp hdx) (List.mem_range.mp hdy)

/-- C173: a 24-bit image made n times bigger and then n times smaller comes back, except for the last column of images of odd
width, which turns black. The averages are computed with floats. -/
theorem C173_bigger_smaller (h : Valid b W H 24) (hW : 0 < W) (hH : 0 < H) {k : Nat} (hk : 0 < k) (hk2 : k < 2 ^ 20)
    (hkW : W * k < 2 ^ 24) (hkH : H * k < 2 ^ 24) :
    ∃ v u, resizeNtimesbigger b (k : Int) = .ok v ∧ resizeNtimessmaller areaScale v (k : Int) = .ok (some u) ∧
      Spec.Shows u W H 24 (palRGB b) (fun x y => if W % 2 = 1 ∧ x + 1 = W then 0 else pix b W H 24 x y) := by
  obtain ⟨v, e1, s1⟩ := enlarge (shows_self h) hW hH hk hkW hkH
  have hle : k ≤ H * k := Nat.le_mul_of_pos_left k hH
  have hsc : ∀ s, s ≤ k * (k * 255) → areaScale k s = (areaScale k s).toNat ∧ (areaScale k s).toNat < 256 := by
    intro s hs
    have := area_byte hk hk2 hs
    omega
  obtain ⟨u, e2, s2⟩ := C102_smaller_exact (scale := areaScale) (sc := fun s => (areaScale k s).toNat) s1.valid (Nat.mul_pos hW hk) hk hle hkW hkH hsc
  rw [Nat.mul_div_cancel _ hk, Nat.mul_div_cancel _ hk, Nat.mul_mod_left] at s2
  refine ⟨v, u, e1, e2, s2.valid, fun h24 => absurd rfl h24, fun x y hx hy => ?_⟩
  rw [s2.pixels x y hx hy]
  have uni : ∀ {c : Nat}, c < 2 ^ 24 → (∀ dx dy, dx < k → dy < k → pix v (W * k) (H * k) 24 (x * k + dx) (0 + y * k + dy) = c) →
      areaColour k (fun s => (areaScale k s).toNat) (pix v (W * k) (H * k) 24) (x * k) (0 + y * k) = c := by
    intro c hc hu
    have one : ∀ j, chan j c < 256 → (areaScale k (areaSum k (fun x y => chan j (pix v (W * k) (H * k) 24 x y)) (x * k) (0 + y * k))).toNat
        = chan j c := by
      intro j hj
      rw [area_const (v := chan j c) fun dx dy h1 h2 => by rw [hu dx dy h1 h2], C102_uniform hk hk2 hj]
      omega
    have l : ∀ j, chan j c < 256 := fun j => Nat.mod_lt _ (by norm_num)
    unfold areaColour
    dsimp only
    rw [one 0 (l 0), one 1 (l 1), one 2 (l 2)]
    unfold chan
    omega
  have hy' : ∀ dy, dy < k → (0 + y * k + dy) / k = y ∧ 0 + y * k + dy < H * k := by
    intro dy hdy
    constructor
    · rw [Nat.zero_add, Nat.add_comm, Nat.add_mul_div_right _ _ hk, Nat.div_eq_of_lt hdy, Nat.zero_add]
    · have : (y + 1) * k ≤ H * k := Nat.mul_le_mul_right k hy
      rw [Nat.add_mul, Nat.one_mul] at this
      omega
  have hx' : ∀ dx, dx < k → (x * k + dx) / k = x ∧ x * k + dx < W * k := by
    intro dx hdx
    constructor
    · rw [Nat.add_comm, Nat.add_mul_div_right _ _ hk, Nat.div_eq_of_lt hdx, Nat.zero_add]
    · have : (x + 1) * k ≤ W * k := Nat.mul_le_mul_right k hx
      rw [Nat.add_mul, Nat.one_mul] at this
      omega
  have keep : keepCols W 24 = W / 2 * 2 := rfl
  by_cases last : W % 2 = 1 ∧ x + 1 = W
  · rw [if_pos last]
    split_ifs
    · refine uni (by norm_num) fun dx dy h1 h2 => ?_
      rw [s1.pixels _ _ (hx' dx h1).2 (hy' dy h2).2, if_neg]
      rw [keep]
      have : W / 2 * 2 * k ≤ x * k := Nat.mul_le_mul_right k (by omega)
      omega
    · rfl
  · rw [if_neg last]
    have hw : (x + 1) * k ≤ W / 2 * 2 * k := Nat.mul_le_mul_right k (by omega)
    have hev : W / 2 * 2 * k = 2 * (W / 2 * k) := by ring
    have hWk : W / 2 * 2 * k ≤ W * k := Nat.mul_le_mul_right k (by omega)
    have hlt : x + 1 ≤ W * k / 2 * 2 / k := (Nat.le_div_iff_mul_le hk).mpr (by omega)
    rw [if_pos (show x < W * k / 2 * 2 / k from hlt)]
    refine uni (h.pix_lt x y) fun dx dy h1 h2 => ?_
    rw [s1.pixels _ _ (hx' dx h1).2 (hy' dy h2).2, if_pos, show rotCol 24 (x * k + dx) = x * k + dx from rfl, (hx' dx h1).1, (hy' dy h2).1]
    rw [keep]
    rw [Nat.add_mul, Nat.one_mul] at hw
    omega

/-! ### Inverting and changing the depth -/

/-- C173: inverting commutes with both reflections, with the exchange of the axes and with cutting. -/
theorem C173_invert (h : Valid b W H bits) :
    Agree (do let v ← invertimagebits b; flipvertical v) (do let v ← flipvertical b; invertimagebits v) W H bits ∧
    ((bits = 8 ∨ bits = 24 ∨ (bits = 4 ∧ W % 2 = 0)) →
      Agree (do let v ← invertimagebits b; fliphorizontal v) (do let v ← fliphorizontal b; invertimagebits v) W H bits) ∧
    (0 < H → Agree (do let v ← invertimagebits b; flipXY v) (do let v ← flipXY b; invertimagebits v) H W bits) ∧
    (∀ x1 y1 x2 y2 : Int, InImage W H x1 y1 x2 y2 →
      Agree (do let v ← invertimagebits b; cropThen v x1 y1 x2 y2 pure) (cropThen b x1 y1 x2 y2 invertimagebits)
        ((max x1 x2 - min x1 x2).toNat + 1) ((max y1 y2 - min y1 y2).toNat + 1) bits) := by
  obtain ⟨v, e, s⟩ := invert (shows_self h)
  refine ⟨?_, fun hb => ?_, fun hH => ?_, fun x1 y1 x2 y2 hi => ?_⟩
  · obtain ⟨v2, e2, s2⟩ := flipV s
    obtain ⟨w1, e3, t1⟩ := flipV (shows_self h)
    obtain ⟨w2, e4, t2⟩ := invert t1
    exact ⟨v2, w2, by rw [e]; simp only [ok_bind]; exact e2, by rw [e3]; simp only [ok_bind]; exact e4,
      same_of_shows s2 t2 fun _ _ _ _ => rfl⟩
  · obtain ⟨v2, e2, s2⟩ := flipH s hb
    obtain ⟨w1, e3, t1⟩ := flipH (shows_self h) hb
    obtain ⟨w2, e4, t2⟩ := invert t1
    exact ⟨v2, w2, by rw [e]; simp only [ok_bind]; exact e2, by rw [e3]; simp only [ok_bind]; exact e4,
      same_of_shows s2 t2 fun _ _ _ _ => rfl⟩
  · obtain ⟨v2, e2, s2⟩ := flipD s hH
    obtain ⟨w1, e3, t1⟩ := flipD (shows_self h) hH
    obtain ⟨w2, e4, t2⟩ := invert t1
    exact ⟨v2, w2, by rw [e]; simp only [ok_bind]; exact e2, by rw [e3]; simp only [ok_bind]; exact e4,
      same_of_shows s2 t2 fun x y _ _ => by split_ifs <;> rfl⟩
  · obtain ⟨v2, e2, s2⟩ := cut s hi
    obtain ⟨w1, e3, t1⟩ := cut (shows_self h) hi
    obtain ⟨w2, e4, t2⟩ := invert t1
    exact ⟨v2, w2, by rw [e]; simp only [ok_bind, cropThen, e2]; rfl, by unfold cropThen; rw [e3]; simp only [ok_bind]; exact e4,
      same_of_shows s2 t2 fun _ _ _ _ => rfl⟩

theorem seen_of_shows {n : Bytes} {f : Nat → Nat → Nat} (s : Spec.Shows n W H bits (palRGB b) f) (h : Valid b W H bits)
    {x y x' y' : Nat} (hx : x < W) (hy : y < H) (e : f x y = pix b W H bits x' y') :
    pixRGB n W H bits x y = pixRGB b W H bits x' y' := by
  unfold pixRGB
  dsimp only
  rw [s.pixels x y hx hy, e]
  split_ifs with h24
  · rfl
  · exact s.palette h24 _ (h.pix_lt x' y')

/-- C173: upside down and then in 24 bits looks like in 24 bits and then upside down, for every depth and width. -/
theorem C173_upgrade (h : Valid b W H bits) (hW : 0 < W) (hH : 0 < H) :
    ∃ u v, (do let v ← flipvertical b; upgradeto24bitimage v) = .ok u ∧ (do let v ← upgradeto24bitimage b; flipvertical v) = .ok v ∧
      Valid u W H 24 ∧ Valid v W H 24 ∧ ∀ x y, x < W → y < H → pixRGB u W H 24 x y = pixRGB v W H 24 x y := by
  obtain ⟨v1, e1, s1⟩ := flipV (shows_self h)
  obtain ⟨u, e2, hu, p2⟩ := C37_upgrade_exact s1.valid hW hH
  obtain ⟨w1, e3, hw1, p3⟩ := C37_upgrade_exact h hW hH
  obtain ⟨w2, e4, t2⟩ := flipV (shows_self hw1)
  refine ⟨u, w2, by rw [e1]; simp only [ok_bind]; exact e2, by rw [e3]; simp only [ok_bind]; exact e4, hu, t2.valid, fun x y hx hy => ?_⟩
  rw [p2 x y hx hy, seen_of_shows t2 hw1 hx hy rfl, p3 x (H - 1 - y) hx (by omega)]
  split_ifs
  · exact seen_of_shows s1 h hx hy rfl
  · rfl

/-- A picture with one coloured corner: turned, cut, enlarged and reduced. -/
example : (do let b ← newBMP 2 2 24; let b ← plotxybit b 0 0 77; let u ← resizeNtimesbigger b 3
              match ← resizeNtimessmaller areaScale u 3 with
              | some n => pure (← getxybit u 2 2, ← getxybit u 3 2, ← getxybit n 0 0, ← getxybit n 1 0)
              | none => .error .typeError) = .ok (77, 0, 77, 0) := by decide +kernel

end Verif.Props.Laws
