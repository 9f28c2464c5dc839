import Verif.Model.Abort
import Verif.Props.Beyond
import Verif.Props.FarLeft
/-! Property C200: what is left of an image when a drawing function raises an exception. -/

namespace Verif.Props.Abort
open Verif Spec Model Model.Run Verif.Props Verif.Props.Beyond Verif.Props.Far Verif.Props.Overlay

/-- The outcome of a program without the array that an exception leaves behind. -/
def outcome (r : Run Unit) (b : Bytes) : Py Bytes := (r b).1.map fun _ => (r b).2

/-- The array after the program, whether it was completed or not. -/
def leaves (r : Run Unit) (b : Bytes) : Bytes := (r b).2

theorem outcome_pure (b : Bytes) : outcome (pure ()) b = .ok b := rfl

theorem outcome_look {α : Type} (f : Bytes → Py α) (g : α → Run Unit) (b : Bytes) :
    outcome (look f >>= g) b = f b >>= fun a => outcome (g a) b := by
  show outcome (Run.bind (look f) g) b = _
  unfold outcome Run.bind look
  rcases hf : f b with e | a <;> simp only <;> rfl

theorem outcome_assign (f : Bytes → Py Bytes) (b : Bytes) : outcome (assign f) b = f b := by
  unfold outcome assign
  rcases hf : f b with e | a <;> rfl

theorem outcome_seq (p q : Run Unit) (b : Bytes) : outcome (p >>= fun _ => q) b = outcome p b >>= outcome q := by
  show outcome (Run.bind p fun _ => q) b = _
  unfold outcome Run.bind
  rcases hp : p b with ⟨e | a, b'⟩ <;> rfl

theorem outcome_ite (P : Prop) [Decidable P] (p q : Run Unit) (b : Bytes) :
    outcome (if P then p else q) b = if P then outcome p b else outcome q b := by split_ifs <;> rfl

theorem outcome_each {α : Type} (f : α → Run Unit) (l : List α) (b : Bytes) :
    outcome (each f l) b = l.foldlM (fun b a => outcome (f a) b) b := by
  induction l generalizing b with
  | nil => rfl
  | cons a l ih =>
    show outcome (f a >>= fun _ => each f l) b = _
    rw [outcome_seq, List.foldlM_cons]
    exact bind_congr fun b' => ih b'

/-! The statement by statement programs agree with the descriptions used everywhere else. -/

theorem C200_plotxybit (x y c : Int) (b : Bytes) : outcome (plotxybitR x y c) b = plotxybit b x y c := outcome_assign _ b

theorem outcome_plot_if (P : Prop) [Decidable P] (x y c : Int) :
    outcome (if P then plotxybitR x y c else pure ()) = fun b => if P then plotxybit b x y c else .ok b := by
  funext b
  rw [outcome_ite, C200_plotxybit, outcome_pure]

theorem C200_horiline (y x1 x2 c : Int) (b : Bytes) : outcome (horilineR y x1 x2 c) b = horiline b y x1 x2 c := by
  unfold horilineR horiline
  simp only [outcome_look, outcome_ite, outcome_seq, outcome_assign, outcome_each, outcome_pure, C200_plotxybit, pure_bind,
    outcome_plot_if]
  refine bind_congr fun bits => bind_congr fun m => ?_
  by_cases hy : isinrange y m.2 (-1) = true
  swap
  · rw [if_neg hy, if_neg hy]; rfl
  rw [if_pos hy, if_pos hy]
  refine bind_congr fun s => ?_
  by_cases h24 : bits = 24
  · rw [if_pos h24, if_pos h24]
  rw [if_neg h24, if_neg h24]
  by_cases h8 : bits = 8
  · rw [if_pos h8, if_pos h8]
  rw [if_neg h8, if_neg h8]
  by_cases h4 : bits = 4
  swap
  · rw [if_neg h4, if_neg h4]; rfl
  rw [if_pos h4, if_pos h4]
  by_cases h1 : pyAnd (setmin (swapif x1 x2 (decide (x1 > x2))).1 0) 1 = 1
  · rw [if_pos h1, if_pos h1, bind_assoc]
    refine bind_congr fun v => ?_
    rw [pure_bind]
    refine bind_congr fun a => ?_
    by_cases hc : ((v &&& 0xf0 : Nat) : Int) ≠ -1
    · rw [if_pos hc, if_pos hc, bind_assoc]
      rfl
    · rw [if_neg hc, if_neg hc]; rfl
  · rw [if_neg h1, if_neg h1, pure_bind]
    rfl

theorem C200_vertline (x y1 y2 c : Int) (b : Bytes) : outcome (vertlineR x y1 y2 c) b = vertline b x y1 y2 c := by
  unfold vertlineR vertline
  simp only [outcome_look, outcome_ite, outcome_seq, outcome_assign, outcome_each, outcome_pure, C200_plotxybit]
  refine bind_congr fun bits => ?_
  by_cases hb : ¬ (bits = 24 ∨ bits = 8)
  · rw [if_pos hb, if_pos hb]
  rw [if_neg hb, if_neg hb]
  refine bind_congr fun r => bind_congr fun m => ?_
  by_cases hx : isinrange x m.1 (-1) = true
  swap
  · rw [if_neg hx, if_neg hx]; rfl
  rw [if_pos hx, if_pos hx]
  refine bind_congr fun s => bind_congr fun e => ?_
  by_cases h24 : bits = 24
  · rw [if_pos h24, if_pos h24]
    refine bind_congr fun a => bind_congr fun b1 => ?_
    rw [outcome_look]
    refine bind_congr fun a => ?_
    rw [outcome_seq, outcome_assign]
    refine bind_congr fun b2 => ?_
    rw [outcome_look]
    refine bind_congr fun a => ?_
    rw [outcome_assign]
  · rw [if_neg h24, if_neg h24]

theorem C200_line (x1 y1 x2 y2 c : Int) (b : Bytes) : outcome (lineR x1 y1 x2 y2 c) b = line b x1 y1 x2 y2 c := by
  unfold lineR line
  simp only [outcome_look, outcome_ite, outcome_assign, outcome_each, outcome_pure, C200_plotxybit,
    C200_horiline, C200_vertline]
  rfl

theorem C200_plotlines (v : List (Int × Int)) (c : Int) (b : Bytes) : outcome (plotlinesR v c) b = plotlines b v c := by
  unfold plotlinesR plotlines
  rw [outcome_each, if_pos (by omega)]
  simp only [C200_line]
  rfl

theorem C200_plotpoly (v : List (Int × Int)) (c : Int) (b : Bytes) : outcome (plotpolyR v c) b = plotpoly b v c := by
  unfold plotpolyR plotpoly
  rw [outcome_seq, C200_plotlines]
  refine bind_congr fun b' => ?_
  rcases v.head? with _ | u <;> rcases v.getLast? with _ | w
  · rfl
  · rfl
  · rfl
  · exact C200_line _ _ _ _ _ _

theorem C200_rectangle (x1 y1 x2 y2 c : Int) (b : Bytes) : outcome (rectangleR x1 y1 x2 y2 c) b = rectangle b x1 y1 x2 y2 c :=
  C200_plotpoly _ _ _

theorem C200_plotpolylist (l : List (List (Int × Int))) (c : Int) (b : Bytes) :
    outcome (plotpolylistR l c) b = plotpolylist b l c := by
  unfold plotpolylistR plotpolylist
  rw [outcome_each]
  simp only [C200_plotpoly]

/-! ### Running the programs -/

variable {b b' : Bytes} {W H bits : Nat}

theorem run_ok {r : Run Unit} (h : outcome r b = .ok b') : r b = (.ok (), b') := by
  unfold outcome at h
  rcases hr : r b with ⟨e | a, b1⟩ <;> rw [hr] at h
  · cases h
  · cases h; rfl

theorem run_error {r : Run Unit} {e : PyErr} (h : outcome r b = .error e) : (r b).1 = .error e := by
  unfold outcome at h
  rcases hr : r b with ⟨e | a, b1⟩ <;> rw [hr] at h
  · cases h; rfl
  · cases h

theorem run_look {α β : Type} {f : Bytes → Py α} {g : α → Run β} {a : α} (h : f b = .ok a) : (look f >>= g) b = g a b := by
  show Run.bind (look f) g b = _
  unfold Run.bind look
  rw [h]

theorem run_look_error {α β : Type} {f : Bytes → Py α} {g : α → Run β} {e : PyErr} (h : f b = .error e) :
    (look f >>= g) b = (.error e, b) := by
  show Run.bind (look f) g b = _
  unfold Run.bind look
  rw [h]

theorem run_seq {p q : Run Unit} (h : p b = (.ok (), b')) : (p >>= fun _ => q) b = q b' := by
  show Run.bind p (fun _ => q) b = _
  unfold Run.bind
  rw [h]

theorem run_seq_error {p q : Run Unit} {e : PyErr} (h : p b = (.error e, b')) : (p >>= fun _ => q) b = (.error e, b') := by
  show Run.bind p (fun _ => q) b = _
  unfold Run.bind
  rw [h]

theorem run_assign {f : Bytes → Py Bytes} (h : f b = .ok b') : assign f b = (.ok (), b') := by
  unfold assign
  rw [h]

theorem run_assign_error {f : Bytes → Py Bytes} {e : PyErr} (h : f b = .error e) : assign f b = (.error e, b) := by
  unfold assign
  rw [h]

theorem run_ite {α : Type} (P : Prop) [Decidable P] (p q : Run α) : (if P then p else q) b = if P then p b else q b := by
  split_ifs <;> rfl

/-- A loop whose first elements pass and whose next element raises an exception. -/
theorem run_each {α : Type} {f : α → Run Unit} {l l' : List α} {a : α} {e : PyErr} {b2 : Bytes}
    (h1 : outcome (each f l) b = .ok b') (h2 : f a b' = (.error e, b2)) : each f (l ++ a :: l') b = (.error e, b2) := by
  induction l generalizing b with
  | nil =>
    cases h1
    exact run_seq_error h2
  | cons c l ih =>
    have h1' : outcome (f c >>= fun _ => each f l) b = .ok b' := h1
    rw [outcome_seq] at h1'
    rcases hc : outcome (f c) b with x | b1
    · rw [hc] at h1'; cases h1'
    rw [hc] at h1'
    exact (run_seq (run_ok hc)).trans (ih h1')

/-- If the program raises an exception, then the array is as it was before. -/
def Unharmed (r : Run Unit) (b : Bytes) : Prop := ∀ e, (r b).1 = .error e → (r b).2 = b

theorem unharmed_ok {r : Run Unit} (h : outcome r b = .ok b') : Unharmed r b := by
  intro e he
  rw [run_ok h] at he
  cases he

theorem unharmed_error {r : Run Unit} {e : PyErr} (h : r b = (.error e, b)) : Unharmed r b := by
  intro e he
  rw [h]

theorem unharmed_assign (f : Bytes → Py Bytes) (b : Bytes) : Unharmed (assign f) b := by
  rcases h : f b with e | b'
  · exact unharmed_error (run_assign_error h)
  · exact unharmed_ok (b' := b') (by rw [outcome_assign, h])

theorem unharmed_look {α : Type} {f : Bytes → Py α} {g : α → Run Unit} (h : ∀ a, f b = .ok a → Unharmed (g a) b) :
    Unharmed (look f >>= g) b := by
  rcases hf : f b with e | a
  · exact unharmed_error (run_look_error hf)
  · intro e he
    rw [run_look hf] at he ⊢
    exact h a hf e he

/-- C200: a pixel is plotted or the array stays as it is. -/
theorem C200_plot_safe (x y c : Int) (b : Bytes) : Unharmed (plotxybitR x y c) b := unharmed_assign _ b

/-- C200: a horizontal line that raises an exception leaves the image as it is, in every depth and for all arguments. -/
theorem C200_horiline_safe (h : Valid b W H bits) (y x1 x2 c : Int) : Unharmed (horilineR y x1 x2 c) b := by
  have hb8 := h.depth
  by_cases hb : bits = 24 ∨ bits = 8
  · unfold horilineR
    refine unharmed_look fun n hn => unharmed_look fun m hm => ?_
    rw [h.bits_eq] at hn
    cases hn
    by_cases hy : isinrange y m.2 (-1) = true
    swap
    · rw [if_neg hy]; exact unharmed_ok (b' := b) rfl
    rw [if_pos hy]
    refine unharmed_look fun s hs => ?_
    rcases hb with rfl | rfl
    · rw [if_pos rfl]
      exact unharmed_look fun a ha => unharmed_assign _ b
    · rw [if_neg (by omega), if_pos rfl]
      exact unharmed_look fun a ha => unharmed_assign _ b
  have hh : horiline b y x1 x2 c = horiline b y x1 x2 (reduce bits c : Nat) := row_alike h (by omega) y x1 x2 c
  have hc : IsColour bits (reduce bits c : Nat) := by
    have := reduce_lt (bits := bits) c
    rcases h.depth with rfl | rfl | rfl | rfl <;> exact ⟨by omega, by exact_mod_cast this⟩
  obtain ⟨g1, g2⟩ := C19_exact h (y := y) (x1 := x1) (x2 := x2) hc
  by_cases hy : 0 ≤ y ∧ y < H
  swap
  · exact unharmed_ok (b' := b) (by rw [C200_horiline, hh, g1 hy])
  obtain ⟨y0, rfl⟩ := Int.eq_ofNat_of_zero_le hy.1
  have hy0 : y0 < H := by omega
  have g := g2 y0 hy0 rfl
  by_cases q1 : bits ≠ 1 ∧ max x1 x2 < 0
  · rw [if_pos q1] at g
    exact unharmed_ok (by rw [C200_horiline, hh, g])
  rw [if_neg q1] at g
  by_cases q2 : bits = 4 ∧ (W : Int) ≤ min x1 x2 ∧ min x1 x2 % 2 = 1 ∧ (b.length : Int) ≤ rowStart W H 4 y0 + min x1 x2 / 2
  swap
  · rw [if_neg q2] at g
    obtain ⟨b', e, -⟩ := g
    exact unharmed_ok (by rw [C200_horiline, hh, e])
  obtain ⟨rfl, k1, k2, k3⟩ := q2
  refine unharmed_error (e := .indexError) ?_
  unfold horilineR
  rw [run_look h.bits_eq, run_look (getmaxxy_eq h), if_pos ((isinrange_iff _ _).mpr hy)]
  simp only [swap_min, swap_max, setmin_eq]
  rw [show max (min x1 x2) 0 = min x1 x2 by omega, run_look (BMoffsethd_col h (min x1 x2) hy0), if_neg (by omega), if_neg (by omega), if_pos trivial]
  refine run_look_error ?_
  rw [pyAnd_1, if_pos k2, getItem_ge]
  · rfl
  · unfold rowStart at k3
    unfold cell
    push_cast at k3 ⊢
    omega

/-- Column `x` between the rows, as far as it is in the image, in the two lower components of the colour. -/
def HalfColumn (W H : Nat) (b : Bytes) (x y1 y2 c : Int) (b' : Bytes) : Prop :=
  Valid b' W H 24 ∧ SameHeader b b' 24 ∧ ∀ x' y', x' < W → y' < H →
    (VSeg x y1 y2 x' y' → pix b' W H 24 x' y' = pix b W H 24 x' y' / 65536 * 65536 + (c % 65536).toNat) ∧
    (¬ VSeg x y1 y2 x' y' → pix b' W H 24 x' y' = pix b W H 24 x' y')

/-- C200: a vertical line in a number that is no colour of a 24-bit image raises `OverflowError`, but the blue and green
components of its pixels have already been overwritten. -/
theorem C200_vertline_left (h : Valid b W H 24) {x y1 y2 c : Int} (hc : TooWide c) (hx : 0 ≤ x ∧ x < W)
    (hm : Meets H (min y1 y2) (max y1 y2)) :
    ∃ b', vertlineR x y1 y2 c b = (.error .overflowError, b') ∧ HalfColumn W H b x y1 y2 c b' := by
  have hpos := meets_iff.mp hm
  unfold vertlineR
  rw [run_look h.bits_eq, if_neg (by omega), run_look h.xchrcnt_eq, run_look (getmaxxy_eq h), if_pos ((isinrange_iff _ _).mpr hx)]
  simp only [swap_min, swap_max, setmin_eq, setmax_eq] at hpos ⊢
  obtain ⟨x0, rfl⟩ := Int.eq_ofNat_of_zero_le hx.1
  have hxW : x0 < W := by omega
  have hr := rowLen_pos (bits := 24) (show 0 < W by omega) h.depth
  obtain ⟨lo, hlo⟩ := Int.eq_ofNat_of_zero_le (show 0 ≤ max (min y1 y2) 0 by omega)
  obtain ⟨hi, hhi⟩ := Int.eq_ofNat_of_zero_le (show 0 ≤ min (max y1 y2) ((H : Int) - 1) by omega)
  have hle : lo ≤ hi := by omega
  have hH : hi < H := by omega
  rw [hlo, hhi] at hpos ⊢
  rw [run_look (h.BMoffsethd_eq x0 hi hH), run_look (h.BMoffsethd_eq x0 lo (by omega)), if_pos trivial]
  have hdy : (hi : Int) - (lo : Int) + 1 = ((hi - lo + 1 : Nat) : Int) := by omega
  rw [hdy] at hpos ⊢
  have hlo2 : addr W H 24 x0 lo = addr W H 24 x0 hi + (hi - lo) * rowLen W 24 := by
    have := addr_col (W := W) (H := H) (bits := 24) (x := x0) hH (hi - lo) (by omega)
    rwa [show hi - (hi - lo) = lo by omega] at this
  have ha := addr_lt h hxW (y := lo) (by omega)
  rw [if_pos rfl] at ha
  have hmul : (hi - lo + 1) * rowLen W 24 = (hi - lo) * rowLen W 24 + rowLen W 24 := by ring
  obtain ⟨u, hu⟩ := Int.eq_ofNat_of_zero_le (show 0 ≤ c % 256 by omega)
  obtain ⟨v, hv⟩ := Int.eq_ofNat_of_zero_le (show 0 ≤ c / 256 % 256 by omega)
  rw [run_look (f := fun _ => mkArray _) (mkArray_replicate (v := (int2RGB c).2.2) (w := u) (by simp only [int2RGB]; rw [pyAnd_255]; omega) (by omega) _)]
  simp only [Int.toNat_natCast]
  have hbytes : ∀ w, w < 256 → ∀ z ∈ List.replicate (hi - lo + 1) w, z < 256 := by
    intro w hw z hz; rw [List.mem_replicate] at hz; omega
  have hE : (addr W H 24 x0 lo : Int) + (rowLen W 24 : Int) = ((addr W H 24 x0 lo + rowLen W 24 : Nat) : Int) := by
    push_cast; rfl
  rw [hE]
  obtain ⟨g1, g2, g3⟩ := col_channel (t0 := 0) h (Or.inr rfl) hxW hle hH (by decide)
    (buf := List.replicate (hi - lo + 1) u) (hbytes _ (by omega)) (by simp)
  rw [run_seq (run_assign (f := fun bmp => setSliceStep bmp _ _ _ _) (setSliceStep_ok (b := b) (s := (addr W H 24 x0 hi : Int)) (n := addr W H 24 x0 hi + 0) (eN := addr W H 24 x0 lo + rowLen W 24 - 2) rfl (by omega)
    (by omega) (by simp) (by simp; omega) (by simp; omega) (by simp; omega)))]
  set b1 := writeStride b (addr W H 24 x0 hi + 0) (rowLen W 24) (List.replicate (hi - lo + 1) u) with hb1
  obtain ⟨k1, k2, k3⟩ := col_channel (t0 := 1) g1 (Or.inr rfl) hxW hle hH (by decide)
    (buf := List.replicate (hi - lo + 1) v) (hbytes _ (by omega)) (by simp)
  rw [run_look (f := fun _ => mkArray _) (mkArray_replicate (v := (int2RGB c).2.1) (w := v) (by simp only [int2RGB]; rw [pyAnd_255, pyShr_8]; omega) (by omega) _)]
  simp only [Int.toNat_natCast]
  rw [run_seq (run_assign (f := fun bmp => setSliceStep bmp _ _ _ _) (setSliceStep_ok (b := b1) (n := addr W H 24 x0 hi + 1) (eN := addr W H 24 x0 lo + rowLen W 24 - 1)
    (by push_cast; rfl) (by omega) (by omega) (by simp) (by simp; omega) (by simp; omega)
    (by rw [g2.1]; simp; omega)))]
  rw [run_look_error (f := fun _ => mkArray _) (mk_bad hc (l := [(int2RGB c).1]) (by simp) hpos)]
  refine ⟨_, rfl, k1, ⟨k2.1.trans g2.1, fun i hi => (k2.2 i hi).trans (g2.2 i hi)⟩, ?_⟩
  intro x' y' hx' hy'
  have q : ∀ t, t < 3 → _ := fun t ht => k3 x' y' t hx' hy' ht
  have q0 := q 0 (by omega); have q1 := q 1 (by omega); have q2 := q 2 (by omega)
  rw [if_neg (by omega), g3 x' y' 0 hx' hy' (by decide)] at q0
  rw [g3 x' y' 1 hx' hy' (by decide), if_neg (c := x' = x0 ∧ 1 = 0 ∧ lo ≤ y' ∧ y' ≤ hi) (by omega)] at q1
  rw [if_neg (by omega), g3 x' y' 2 hx' hy' (by decide), if_neg (by omega)] at q2
  simp only [Nat.add_zero] at q0
  rw [pix_bytes k1 (Or.inr rfl), pix_bytes h (Or.inr rfl), if_pos rfl, if_pos rfl, q0, q1, q2]
  have l0 : byte b (addr W H 24 x' y') < 256 := byte_lt_of_mem h.bytes _
  have l1 : byte b (addr W H 24 x' y' + 1) < 256 := byte_lt_of_mem h.bytes _
  unfold VSeg
  constructor
  · rintro ⟨e1, e2, e3⟩
    have hin : x' = x0 ∧ lo ≤ y' ∧ y' ≤ hi := by omega
    rw [if_pos ⟨hin.1, trivial, hin.2⟩, if_pos ⟨hin.1, rfl, hin.2⟩]
    rw [byte_replicate (by omega), byte_replicate (by omega)]
    omega
  · intro hs
    have hin : ¬ (x' = x0 ∧ lo ≤ y' ∧ y' ≤ hi) := by omega
    rw [if_neg (fun g => hin ⟨g.1, g.2.2⟩), if_neg (fun g => hin ⟨g.1, g.2.2⟩)]

theorem setSliceStep_nil (b : Bytes) (s e : Int) {k : Nat} (hk : k ≠ 0) : ∃ b', setSliceStep b s e k [] = .ok b' := by
  unfold setSliceStep
  rw [if_neg hk]
  by_cases h1 : k = 1
  · rw [if_pos h1]; exact ⟨_, rfl⟩
  rw [if_neg h1]
  dsimp only
  rw [if_pos (c := ([] : Bytes) = []) rfl]
  split_ifs <;> exact ⟨_, rfl⟩

/-- C200: all other vertical lines leave the image as it is if they raise an exception. -/
theorem C200_vertline_safe (h : Valid b W H bits) {x y1 y2 c : Int}
    (hc : bits = 24 → IsColour 24 c ∨ ¬ (0 ≤ x ∧ x < W) ∨ ¬ Meets H (min y1 y2) (max y1 y2)) : Unharmed (vertlineR x y1 y2 c) b := by
  by_cases hb : bits = 1 ∨ bits = 4
  · obtain ⟨b', e, -⟩ := vertline_1_4 h hb x y1 y2 c
    exact unharmed_ok (by rw [C200_vertline, e])
  by_cases h24 : bits = 24 ∧ IsColour 24 c ∧ Meets H (min y1 y2) (max y1 y2)
  · obtain ⟨rfl, hc, hm⟩ := h24
    have hlt : min y1 y2 < H := by
      obtain ⟨py, p1, p2, p3⟩ := hm
      omega
    obtain ⟨b', e, -⟩ := C20_vertline_partial h (x := x) (y1 := y1) (y2 := y2) hc (.inr (.inr hlt))
    exact unharmed_ok (by rw [C200_vertline, e])
  unfold vertlineR
  refine unharmed_look fun n hn => ?_
  rw [h.bits_eq] at hn
  cases hn
  have hd := h.depth
  unfold Depth at hd
  rw [if_neg (by omega)]
  refine unharmed_look fun r hr => unharmed_look fun m hm => ?_
  rw [h.xchrcnt_eq] at hr
  rw [getmaxxy_eq h] at hm
  cases hr
  cases hm
  by_cases hx : isinrange x (W : Int) (-1) = true
  swap
  · rw [if_neg hx]; exact unharmed_ok (b' := b) rfl
  rw [if_pos hx]
  have hx' := (isinrange_iff _ _).mp hx
  refine unharmed_look fun s hs => unharmed_look fun e he => ?_
  by_cases hbits : bits = 24
  · rw [if_pos hbits]
    have hn : ¬ Meets H (min y1 y2) (max y1 y2) := by
      intro g
      rcases hc hbits with q | q | q
      · exact h24 ⟨hbits, q, g⟩
      · exact q hx'
      · exact q g
    rw [meets_iff] at hn
    simp only [swap_min, swap_max]
    have hR := rowLen_pos (bits := bits) (show 0 < W by omega) h.depth
    obtain ⟨b1, e1⟩ := setSliceStep_nil b s (e + (rowLen W bits : Int) - 2) (k := ((rowLen W bits : Int)).toNat) (by omega)
    obtain ⟨b2, e2⟩ := setSliceStep_nil b1 (s + 1) (e + (rowLen W bits : Int) - 1) (k := ((rowLen W bits : Int)).toNat) (by omega)
    obtain ⟨b3, e3⟩ := setSliceStep_nil b2 (s + 2) (e + (rowLen W bits : Int)) (k := ((rowLen W bits : Int)).toNat) (by omega)
    refine unharmed_ok (b' := b3) ?_
    simp only [outcome_look, mk_none _ (Int.not_lt.mp hn), ok_bind, outcome_seq, outcome_assign, e1, e2, e3]
  · rw [if_neg hbits]
    exact unharmed_look fun a ha => unharmed_assign _ b

theorem line_start (h : Valid b W H bits) (x1 y1 x2 y2 c : Int) : lineR x1 y1 x2 y2 c b =
    (if clampTo x1 W = clampTo x2 W then vertlineR (clampTo x1 W) (clampTo y1 H) (clampTo y2 H) c b
     else if clampTo y1 H = clampTo y2 H then horilineR (clampTo y1 H) (clampTo x1 W) (clampTo x2 W) c b
     else lineR x1 y1 x2 y2 c b) := by
  by_cases hx : clampTo x1 W = clampTo x2 W
  · rw [if_pos hx]
    unfold lineR
    have hbr : bottomrightcoord b = .ok ((W : Int) - 1, (H : Int) - 1) := by
      unfold bottomrightcoord; rw [h.getmaxx_eq, h.getmaxy_eq]; rfl
    rw [run_look hbr]
    simp only [setminmax_eq]
    rw [if_pos hx]
  rw [if_neg hx]
  by_cases hy : clampTo y1 H = clampTo y2 H
  · rw [if_pos hy]
    unfold lineR
    have hbr : bottomrightcoord b = .ok ((W : Int) - 1, (H : Int) - 1) := by
      unfold bottomrightcoord; rw [h.getmaxx_eq, h.getmaxy_eq]; rfl
    rw [run_look hbr]
    simp only [setminmax_eq]
    rw [if_neg hx, if_pos hy]
  rw [if_neg hy]

theorem unharmed_congr {p q : Run Unit} (h : p b = q b) (hq : Unharmed q b) : Unharmed p b := by
  unfold Unharmed at hq ⊢
  rw [h]
  exact hq

/-- C200: a line in a number that is no colour of a 24-bit image raises `OverflowError` and leaves the image as it is,
unless the line is vertical. -/
theorem C200_line_wide (h : Valid b W H 24) (hW : 0 < W) (hH : 0 < H) {x1 y1 x2 y2 c : Int} (hc : TooWide c) (hx : clampTo x1 W ≠ clampTo x2 W) :
    lineR x1 y1 x2 y2 c b = (.error .overflowError, b) := by
  have hX1 : 0 ≤ clampTo x1 W ∧ clampTo x1 W < W := by unfold clampTo; omega
  have hX2 : 0 ≤ clampTo x2 W ∧ clampTo x2 W < W := by unfold clampTo; omega
  have hY1 : 0 ≤ clampTo y1 H ∧ clampTo y1 H < H := by unfold clampTo; omega
  by_cases hy : clampTo y1 H = clampTo y2 H
  · rw [line_start h, if_neg hx, if_pos hy]
    have e := row_wide h hc (clampTo y1 H) (clampTo x1 W) (clampTo x2 W)
    rw [if_pos ⟨hY1, (clampTo x1 W).toNat, by omega, by omega, by omega⟩, ← C200_horiline] at e
    have e1 := run_error e
    exact Prod.ext e1 (C200_horiline_safe h _ _ _ _ _ e1)
  · unfold lineR
    have hbr : bottomrightcoord b = .ok ((W : Int) - 1, (H : Int) - 1) := by
      unfold bottomrightcoord; rw [h.getmaxx_eq, h.getmaxy_eq]; rfl
    rw [run_look hbr]
    simp only [setminmax_eq]
    rw [if_neg hx, if_neg hy, run_look h.bits_eq, if_pos rfl]
    refine run_look_error ?_
    unfold int2BGRarr
    exact mkArray_err (v := (int2RGB c).1) (by simp [int2RGB]) (red_bad hc)

/-- C200: a vertical line of the same kind also raises `OverflowError`, but changes the colours of its pixels. -/
theorem C200_line_left (h : Valid b W H 24) (hW : 0 < W) (hH : 0 < H) {x1 y1 x2 y2 c : Int} (hc : TooWide c) (hx : clampTo x1 W = clampTo x2 W) :
    ∃ b', lineR x1 y1 x2 y2 c b = (.error .overflowError, b') ∧ HalfColumn W H b (clampTo x1 W) (clampTo y1 H) (clampTo y2 H) c b' := by
  have hX1 : 0 ≤ clampTo x1 W ∧ clampTo x1 W < W := by unfold clampTo; omega
  have hY1 : 0 ≤ clampTo y1 H ∧ clampTo y1 H < H := by unfold clampTo; omega
  rw [line_start h, if_pos hx]
  exact C200_vertline_left h hc hX1 ⟨(clampTo y1 H).toNat, by omega, by omega, by omega⟩

/-- C200: the lines that are not diagonal never raise an exception when drawn in a colour of the image. -/
theorem C200_line_safe (h : Valid b W H bits) (hW : 0 < W) (hH : 0 < H) {x1 y1 x2 y2 c : Int} (hc : IsColour bits c)
    (hd : |clampTo x2 W - clampTo x1 W| ≠ |clampTo y2 H - clampTo y1 H| ∨ clampTo x1 W = clampTo x2 W) : Unharmed (lineR x1 y1 x2 y2 c) b := by
  by_cases hx : clampTo x1 W = clampTo x2 W
  · refine unharmed_congr (q := vertlineR (clampTo x1 W) (clampTo y1 H) (clampTo y2 H) c) ?_ ?_
    · rw [line_start h, if_pos hx]
    · exact C200_vertline_safe h fun g => .inl (by subst g; exact hc)
  by_cases hy : clampTo y1 H = clampTo y2 H
  · refine unharmed_congr (q := horilineR (clampTo y1 H) (clampTo x1 W) (clampTo x2 W) c) ?_ (C200_horiline_safe h _ _ _ _)
    rw [line_start h, if_neg hx, if_pos hy]
  · obtain ⟨b', e, -⟩ := C24_line_partial h hW hH hc (.inl (hd.resolve_right hx)) (fun _ g => absurd g hy)
    exact unharmed_ok (by rw [C200_line, e])

/-- The pixels of a diagonal, moved by one row towards the second end point; the last one is in the row of that point. -/
def Moved (x1 y1 x2 y2 : Int) (px py : Nat) : Prop := ∃ k : Nat, k < (x2 - x1).natAbs ∧
  (px : Int) = x1 + k * (x2 - x1).sign ∧ (py : Int) = y1 + ((k : Int) + 1) * (y2 - y1).sign

theorem steps_start (h : Valid b W H bits) (hb : bits = 4 ∨ bits = 8) {x1 y1 x2 y2 c : Int} (hc : IsColour bits c)
    (hx : clampTo x1 W ≠ clampTo x2 W) (hy : clampTo y1 H ≠ clampTo y2 H) :
    lineR x1 y1 x2 y2 c b =
      each (fun p => assign fun bmp => diagStep bits c bmp p) (iterline (clampTo x1 W, clampTo y1 H) (clampTo x2 W, clampTo y2 H)) b := by
  unfold lineR
  have hbr : bottomrightcoord b = .ok ((W : Int) - 1, (H : Int) - 1) := by
    unfold bottomrightcoord; rw [h.getmaxx_eq, h.getmaxy_eq]; rfl
  rw [run_look hbr]
  simp only [setminmax_eq]
  rw [if_neg hx, if_neg hy, run_look h.bits_eq]
  have hc0 := hc.1
  have hc1 := hc.2
  rcases hb with rfl | rfl
  · rw [if_neg (by omega), if_neg (by omega), if_pos (by norm_num), if_neg (by norm_num at hc1; omega)]
    rfl
  · rw [if_neg (by omega), if_pos (by norm_num), pyAnd_255]
    norm_num at hc1
    rw [show c % 256 = c by omega]
    rfl

/-- C200: a diagonal that ends in the first row of an image of 4 or 8 bits raises `IndexError`, but all of its points
before the end point stay painted. -/
theorem C200_diagonal_left (h : Valid b W H bits) (hb : bits = 4 ∨ bits = 8) (hW : 0 < W) (hH : 0 < H) {x1 y1 x2 y2 c : Int}
    (hc : IsColour bits c) (hd : |clampTo x2 W - clampTo x1 W| = |clampTo y2 H - clampTo y1 H|)
    (hne : clampTo x1 W ≠ clampTo x2 W) (hy0 : clampTo y2 H = 0) :
    ∃ b', lineR x1 y1 x2 y2 c b = (.error .indexError, b') ∧
      Paints b b' W H bits (Moved (clampTo x1 W) (clampTo y1 H) (clampTo x2 W) (clampTo y2 H)) c.toNat := by
  have hyne : clampTo y1 H ≠ clampTo y2 H := by
    intro e
    rw [e, Int.sub_self, abs_zero, abs_eq_zero] at hd
    omega
  rw [steps_start h hb hc hne hyne]
  have hX1 : 0 ≤ clampTo x1 W ∧ clampTo x1 W < W := by unfold clampTo; omega
  have hX2 : 0 ≤ clampTo x2 W ∧ clampTo x2 W < W := by unfold clampTo; omega
  have hY1 : 0 ≤ clampTo y1 H ∧ clampTo y1 H < H := by unfold clampTo; omega
  have hY2 : 0 ≤ clampTo y2 H ∧ clampTo y2 H < H := by unfold clampTo; omega
  generalize clampTo x1 W = X1 at *
  generalize clampTo x2 W = X2 at *
  generalize clampTo y1 H = Y1 at *
  generalize clampTo y2 H = Y2 at *
  rw [C23_diagonal X1 Y1 X2 Y2 hd hne, List.range_succ, List.map_append, List.append_assoc]
  rw [Int.abs_eq_natAbs, Int.abs_eq_natAbs] at hd
  obtain ⟨b1, e, p⟩ := loop_paints (W := W) (H := H) (bits := bits) (diagStep bits c)
    ((List.range (X2 - X1).natAbs).map fun (k : Nat) =>
        (X1 + (k : Int) * (X2 - X1).sign, Y1 + ((k : Int) + 1) * (Y2 - Y1).sign)) c.toNat (colour_lt hc) (by
      intro p hp
      simp only [List.mem_map, List.mem_range] at hp
      obtain ⟨k, k1, rfl⟩ := hp
      dsimp only
      rcases sign_cases (X2 - X1) with ⟨t1, t2, t3⟩ | ⟨t1, t2, t3⟩ | ⟨t1, t2, t3⟩ <;>
      rcases sign_cases (Y2 - Y1) with ⟨u1, u2, u3⟩ | ⟨u1, u2, u3⟩ | ⟨u1, u2, u3⟩ <;>
      rw [t1, u1] <;> omega)
    (fun b hb' x y hx hy => diagStep_plot h.depth (by omega) hc hb' hx hy) h
  refine ⟨b1, run_each (b' := b1) ?_ ?_, p.congr ?_⟩
  · rw [outcome_each]
    simp only [outcome_assign]
    exact e
  · refine run_assign_error ?_
    have hs : (Y2 - Y1).sign = -1 := Int.sign_eq_neg_one_of_neg (by omega)
    have ex : X1 + (((X2 - X1).natAbs : Nat) : Int) * (X2 - X1).sign = X2 := by
      rcases sign_cases (X2 - X1) with ⟨t1, t2, t3⟩ | ⟨t1, t2, t3⟩ | ⟨t1, t2, t3⟩ <;> rw [t1] <;> omega
    have ey : Y1 + ((((X2 - X1).natAbs : Nat) : Int) + 1) * (Y2 - Y1).sign = -1 := by
      rw [hs]; omega
    dsimp only
    rw [ex, ey]
    have hlen := p.valid.len
    have hr : ((H : Int) - (-1) - 1) * (rowLen W bits : Int) = ((H * rowLen W bits : Nat) : Int) := by push_cast; ring
    have hdiv : 0 ≤ X2 * (bits : Int) / 8 := Int.ediv_nonneg (Int.mul_nonneg hX2.1 (by omega)) (by omega)
    unfold diagStep
    dsimp only
    rw [BMoffsethd_any p.valid, hr, ok_bind]
    rcases hb with rfl | rfl
    · rw [if_neg (by omega), if_neg (by omega), getItem_ge (by omega)]
      rfl
    · rw [if_neg (by omega), if_pos rfl, setItem_ge (by omega)]
  · intro x y _ _
    unfold Moved
    simp only [List.mem_map, List.mem_range, Prod.mk.injEq]
    constructor
    · rintro ⟨k, k1, k2, k3⟩; exact ⟨k, k1, k2.symm, k3.symm⟩
    · rintro ⟨k, k1, k2, k3⟩; exact ⟨k, k1, k2.symm, k3.symm⟩

/-! ### Several lines -/

theorem zip_tail (v w : List (Int × Int)) (p q : Int × Int) :
    (v ++ p :: q :: w).zip (v ++ p :: q :: w).tail = (v ++ [p]).zip (v ++ [p]).tail ++ (p, q) :: (q :: w).zip w := by
  induction v with
  | nil => rfl
  | cons a v ih =>
    rcases v with _ | ⟨c, v⟩
    · rfl
    · simp only [List.cons_append, List.tail_cons, List.zip_cons_cons] at ih ⊢
      rw [ih]

/-- C200: if a side of a path raises an exception then the sides before it stay drawn, together with what is left of that
side; the later ones are not drawn. -/
theorem C200_plotlines_left {v w : List (Int × Int)} {p q : Int × Int} {c : Int} {e : PyErr} {b1 b2 : Bytes}
    (h1 : plotlines b (v ++ [p]) c = .ok b1) (h2 : lineR p.1 p.2 q.1 q.2 c b1 = (.error e, b2)) :
    plotlinesR (v ++ p :: q :: w) c b = (.error e, b2) := by
  unfold plotlinesR
  rw [zip_tail]
  refine run_each (b' := b1) ?_ h2
  rw [← C200_plotlines] at h1
  exact h1

/-- C200: the same for polygons. -/
theorem C200_plotpoly_left {v w : List (Int × Int)} {p q : Int × Int} {c : Int} {e : PyErr} {b1 b2 : Bytes}
    (h1 : plotlines b (v ++ [p]) c = .ok b1) (h2 : lineR p.1 p.2 q.1 q.2 c b1 = (.error e, b2)) :
    plotpolyR (v ++ p :: q :: w) c b = (.error e, b2) := run_seq_error (C200_plotlines_left h1 h2)

/-- C200: a rectangle with more than one column in a number that is no colour of a 24-bit image raises `OverflowError` and
leaves the image as it is. -/
theorem C200_rectangle_safe (h : Valid b W H 24) (hW : 0 < W) (hH : 0 < H) {x1 y1 x2 y2 c : Int} (hc : TooWide c)
    (hx : clampTo x1 W ≠ clampTo x2 W) : rectangleR x1 y1 x2 y2 c b = (.error .overflowError, b) :=
  C200_plotpoly_left (v := []) (p := (x1, y1)) (q := (x2, y1)) (w := [(x2, y2), (x1, y2)]) (b1 := b) rfl (C200_line_wide h hW hH hc hx)

/-! ### Rectangles, circles and discs -/

theorem C200_filledrect (x1 y1 x2 y2 c : Int) (b : Bytes) : outcome (filledrectR x1 y1 x2 y2 c) b = filledrect b x1 y1 x2 y2 c := by
  unfold filledrectR filledrect entirerectinboundary
  simp only [outcome_look, outcome_ite, outcome_assign, outcome_each, outcome_pure, C200_horiline]
  refine bind_congr fun a => ?_
  rcases a
  · rfl
  refine bind_congr fun d => ?_
  rcases d
  · rfl
  refine bind_congr fun bits => ?_
  by_cases h8 : ¬ (bits = 8 ∨ bits = 24)
  · rw [if_pos h8, if_pos h8]
  rw [if_neg h8, if_neg h8]
  refine bind_congr fun r => ?_
  by_cases h24 : bits = 24
  · simp only [if_pos h24]
  · simp only [if_neg h24, bind_assoc]

theorem C200_circle (x y r c : Int) (b : Bytes) : outcome (circleR x y r c) b = circle b x y r c := by
  unfold circleR circle
  simp only [outcome_look, outcome_ite, outcome_assign, outcome_each, outcome_pure, C200_plotxybit, outcome_seq]
  refine bind_congr fun m => bind_congr fun bits => ?_
  by_cases h24 : bits = 24
  · rw [if_pos h24, if_pos h24]
    refine bind_congr fun buf => ?_
    by_cases hd : (!entirecircleisinboundary x y (-1) m.1 (-1) m.2 r) = true
    · rw [if_pos hd, if_pos hd]; rfl
    · rw [if_neg hd, if_neg hd]
      congr 1
  rw [if_neg h24, if_neg h24]
  by_cases h8 : bits = 8
  · rw [if_pos h8, if_pos h8]
    by_cases hd : (!entirecircleisinboundary x y (-1) m.1 (-1) m.2 r) = true
    · rw [if_pos hd, if_pos hd]; rfl
    · rw [if_neg hd, if_neg hd]
      congr 1
      funext b p
      refine bind_congr fun s1 => bind_congr fun b1 => ?_
      rw [outcome_look]
      refine bind_congr fun s2 => ?_
      rw [outcome_seq, outcome_assign]
      refine bind_congr fun b2 => ?_
      rw [outcome_look]
      refine bind_congr fun s3 => ?_
      rw [outcome_seq, outcome_assign]
      refine bind_congr fun b3 => ?_
      rw [outcome_look]
      refine bind_congr fun s4 => ?_
      rw [outcome_assign]
  · rw [if_neg h8, if_neg h8]

theorem outcome_discRows (off : Bytes → Int → Int → Py Int) (K x1 y1 y2 len : Int) (buf b : Bytes) :
    outcome (discRows off K x1 y1 y2 len buf) b = (do
      let bmp ← if isinrange y2 K (-1) = true then do
          let s ← off b x1 y2
          pure (setSlice b s (s + len) buf)
        else pure b
      if isinrange y1 K (-1) = true then do
        let s ← off bmp x1 y1
        pure (setSlice bmp s (s + len) buf)
      else pure bmp) := by
  unfold discRows
  rw [outcome_seq]
  have key : ∀ (y : Int) b, outcome (if isinrange y K (-1) = true then do
      let s ← look fun bmp => off bmp x1 y
      assign fun bmp => pure (setSlice bmp s (s + len) buf)
    else pure ()) b = if isinrange y K (-1) = true then do
      let s ← off b x1 y
      pure (setSlice b s (s + len) buf)
    else pure b := by
    intro y b
    rw [outcome_ite, outcome_look]
    simp only [outcome_assign, outcome_pure]
    rfl
  rw [key]
  by_cases hy : isinrange y2 K (-1) = true
  · simp only [if_pos hy, bind_assoc]
    refine bind_congr fun s => ?_
    rw [pure_bind, pure_bind, key]
  · simp only [if_neg hy]
    rw [pure_bind, pure_bind, key]

theorem C200_filledcircle (x y r c : Int) (b : Bytes) : outcome (filledcircleR x y r c) b = filledcircle b x y r c := by
  unfold filledcircleR filledcircle
  simp only [outcome_look, outcome_ite, outcome_each, outcome_pure, C200_horiline, outcome_seq, outcome_discRows]
  refine bind_congr fun bits => ?_
  by_cases h8 : bits < 8
  · rw [if_pos h8, if_pos h8]
    congr 1
    funext b p
    refine bind_congr fun b1 => ?_
    rw [C200_horiline]
  rw [if_neg h8, if_neg h8]
  refine bind_congr fun m => ?_
  by_cases h24 : bits = 24
  · rw [if_pos h24, if_pos h24]
  rw [if_neg h24, if_neg h24]
  rfl

theorem unharmed_each {α : Type} {f : α → Run Unit} {l : List α} (h : ∀ a ∈ l, f a b = (.ok (), b) ∨ ∃ e, f a b = (.error e, b)) :
    Unharmed (each f l) b := by
  induction l with
  | nil => exact unharmed_ok (b' := b) rfl
  | cons a l ih =>
    rcases h a (by simp) with g | ⟨e, g⟩
    · exact unharmed_congr (run_seq g) (ih fun c hc => h c (by simp [hc]))
    · exact unharmed_error (run_seq_error g)

/-- C200: a filled rectangle that raises an exception leaves the image as it is, in every depth and for all arguments. -/
theorem C200_filledrect_safe (h : Valid b W H bits) (x1 y1 x2 y2 c : Int) : Unharmed (filledrectR x1 y1 x2 y2 c) b := by
  by_cases hb : bits = 8 ∨ bits = 24
  · unfold filledrectR
    refine unharmed_look fun a _ => unharmed_look fun d _ => ?_
    rcases d
    · exact unharmed_ok (b' := b) rfl
    refine unharmed_look fun n hn => ?_
    rw [h.bits_eq] at hn
    cases hn
    unfold sortrecpoints
    simp only
    rw [if_neg (by omega)]
    exact unharmed_look fun _ _ => unharmed_look fun _ _ => unharmed_look fun _ _ => unharmed_look fun _ _ =>
      unharmed_look fun _ _ => unharmed_assign _ b
  · obtain ⟨b', e, -⟩ := C196_painted h (by omega) (f := .box x1 y1 x2 y2) (c := c) (show bits ≠ 8 by omega) trivial
    exact unharmed_ok (b' := b') (by rw [C200_filledrect]; exact e)

theorem setItem_bad (b : Bytes) (s : Int) {c : Int} (hc : c < 0 ∨ 256 ≤ c) : ∃ e, setItem b s c = .error e := by
  unfold setItem
  rcases resolveIdx b.length s with _ | k
  · exact ⟨_, rfl⟩
  · exact ⟨.overflowError, if_neg (by omega)⟩

/-- C200: a circle that raises an exception leaves the image as it is, in every depth and for all arguments. -/
theorem C200_circle_safe (h : Valid b W H bits) (x y r c : Int) : Unharmed (circleR x y r c) b := by
  by_cases hc : IsColour bits c
  · obtain ⟨b', e, -⟩ := C26_circle h x y r hc
    exact unharmed_ok (by rw [C200_circle, e])
  by_cases hb : bits = 1 ∨ bits = 4
  · obtain ⟨b', e, -⟩ := C196_painted h (by omega) (f := .ring x y r) (c := c) trivial (show bits ≠ 8 by omega)
    exact unharmed_ok (b' := b') (by rw [C200_circle]; exact e)
  unfold circleR
  refine unharmed_look fun m _ => unharmed_look fun n hn => ?_
  rw [h.bits_eq] at hn
  cases hn
  have hd := h.depth
  unfold Depth at hd
  by_cases h24 : bits = 24
  · rw [if_pos h24]
    refine unharmed_error (run_look_error (e := .overflowError) ?_)
    subst h24
    unfold int2BGRarr
    unfold IsColour at hc
    exact mkArray_err (v := (int2RGB c).1) (by simp [int2RGB]) (red_bad (by unfold TooWide; omega))
  rw [if_neg h24, if_pos (by omega)]
  have hbits : bits = 8 := by omega
  subst hbits
  have hc' : c < 0 ∨ 256 ≤ c := by unfold IsColour at hc; norm_num at hc; omega
  by_cases hd : (!entirecircleisinboundary x y (-1) m.1 (-1) m.2 r) = true
  · simp only [if_pos hd]
    refine unharmed_each fun p _ => ?_
    rcases hi : isinBMPrectbnd b p.1 p.2 with e | i
    · exact .inr ⟨e, run_look_error hi⟩
    rw [run_look hi]
    rcases i
    · exact .inl rfl
    rw [if_pos rfl]
    rcases hs : BMoffsethd b p.1 p.2 with e | s
    · exact .inr ⟨e, run_look_error hs⟩
    rw [run_look hs]
    obtain ⟨e, he⟩ := setItem_bad b s hc'
    exact .inr ⟨e, run_assign_error he⟩
  · simp only [if_neg hd]
    refine unharmed_each fun p _ => .inr ?_
    rcases hs : BMoffsethd b (mirror x p.1).1 (mirror y p.2).1 with e | s
    · exact ⟨e, run_look_error hs⟩
    rw [run_look hs]
    obtain ⟨e, he⟩ := setItem_bad b s hc'
    exact ⟨e, run_seq_error (run_assign_error he)⟩

theorem lineedge_first {r : Int} (hr : 0 ≤ r) : ∃ l, itercirclepartlineedge r = (r, 0) :: l := by
  obtain ⟨n, hn⟩ : ∃ n, (r + 1).toNat = n + 1 := ⟨r.toNat, by omega⟩
  unfold itercirclepartlineedge
  rw [hn]
  unfold circEdgeLoop
  rw [if_pos (show r ≥ 0 from hr)]
  simp

/-- C200: a disc in a number that is no colour of a 24-bit image leaves the image as it is if it raises an exception. -/
theorem C200_disc_wide (h : Valid b W H 24) (hW : 0 < W) {x y r c : Int} (hc : TooWide c) : Unharmed (filledcircleR x y r c) b := by
  by_cases hr : 0 ≤ r
  swap
  · refine unharmed_congr (q := pure ()) ?_ (unharmed_ok (b' := b) rfl)
    unfold filledcircleR
    have hl : itercirclepartlineedge r = [] := by
      unfold itercirclepartlineedge
      rw [show (r + 1).toNat = 0 by omega]
      rfl
    rw [run_look h.bits_eq, if_neg (by omega), run_look (getmaxxy_eq h), if_pos rfl, hl]
    rfl
  by_cases hm : Meets W (x - r) (x + r)
  · obtain ⟨l, hl⟩ := lineedge_first hr
    refine unharmed_error (e := .overflowError) ?_
    unfold filledcircleR
    rw [run_look h.bits_eq, if_neg (by omega), run_look (getmaxxy_eq h), if_pos rfl, hl]
    refine run_seq_error (run_look_error ?_)
    exact mk_bad hc (by simp) (meets_iff.mp hm)
  · by_cases hl : x + r < 0
    · obtain ⟨b', e, -⟩ := C27_left_exact h (by omega) (y := y) (color := c) hl
      exact unharmed_ok (by rw [C200_filledcircle, e])
    · have hs : DiscSafe W H 24 r x y := by
        intro hw py hpy hh
        have h1 : 0 ≤ hw := (C25_circle_accuracy _ _ _ ((C25_circle_points _ _ _).mpr hh.1)).1
        have h2 : (W : Int) ≤ x := by
          by_contra g
          exact hm ⟨(max x 0).toNat, by omega, by omega, by omega⟩
        unfold RowSafe
        rw [if_neg (by omega)]
        omega
      obtain ⟨-, e⟩ := C196_truecolour h (f := .disc x y r) hc hs
      obtain ⟨b', e', -⟩ := drawn h (f := .disc x y r) hs (color := 0) ⟨by omega, by norm_num⟩
      exact unharmed_ok (b' := b') (by rw [C200_filledcircle]; exact (e fun g => hm g.2).trans e')

/-- C200 is false for discs on 4-bit images: the rows that begin right of the end of the file raise `IndexError` after other
rows were drawn. -/
theorem C200_disc_wrong :
    (do let b ← newBMP 8 5 4; let r := filledcircleR 10 4 4 9 b
        pure (r.1, ← [(5, 4), (6, 4), (7, 4)].mapM fun (p : Int × Int) => getxybit r.2 p.1 p.2)) = .ok (.error .indexError, [0, 9, 9]) := by
  decide +kernel

example : (do let b ← newBMP 3 3 24; let r := filledcircleR 1 1 1 0x1000000 b; pure (r.1, decide (r.2 = b))) =
    .ok (.error .overflowError, true) := by decide +kernel
example : (do let b ← newBMP 3 3 24; let r := circleR 1 1 1 (-1) b; pure (r.1, decide (r.2 = b))) =
    .ok (.error .overflowError, true) := by decide +kernel
example : (fun r => (r.1, decide (r.2 = sample8))) (circleR 1 1 1 256 sample8) = (.error .overflowError, true) := by decide +kernel
example : (do let b ← newBMP 3 3 24; let r := filledrectR 0 0 1 1 0x1000000 b; pure (r.1, decide (r.2 = b))) =
    .ok (.error .overflowError, true) := by decide +kernel

/-- C200 is false: a vertical line in colour 0x1010203 raises `OverflowError` and changes black pixels to 0x000203; a
diagonal of a 4-bit image raises `IndexError` after two points; a triangle stops in its second side. -/
theorem C200_false :
    (do let b ← newBMP 2 3 24; let r := vertlineR 1 0 1 0x1010203 b
        pure (r.1, ← [(1, 0), (1, 1), (1, 2), (0, 0)].mapM fun (p : Int × Int) => getxybit r.2 p.1 p.2)) =
      .ok (.error .overflowError, [0x203, 0x203, 0, 0]) ∧
    (do let b ← newBMP 4 3 4; let r := lineR 0 2 2 0 9 b
        pure (r.1, ← [(0, 2), (0, 1), (1, 1), (1, 0), (2, 0)].mapM fun (p : Int × Int) => getxybit r.2 p.1 p.2)) =
      .ok (.error .indexError, [0, 9, 0, 9, 0]) ∧
    (do let b ← newBMP 4 3 4; let r := plotpolyR [(1, 2), (0, 2), (2, 0)] 9 b
        pure (r.1, ← [(0, 2), (1, 2), (0, 1), (1, 0), (2, 0), (2, 1)].mapM fun (p : Int × Int) => getxybit r.2 p.1 p.2)) =
      .ok (.error .indexError, [9, 9, 9, 9, 0, 0]) := by
  decide +kernel

/-- Failing calls that change nothing: rows in no colour, rows far right of a 4-bit image, lines and rectangles in no colour;
a vertical line beside the image raises nothing. -/
example : (do let b ← newBMP 2 3 24; let r := horilineR 1 0 1 (-1) b; pure (r.1, decide (r.2 = b))) = .ok (.error .overflowError, true) := by
  decide +kernel
example : (do let b ← newBMP 4 1 4; let r := horilineR 0 9 99 5 b; pure (r.1, decide (r.2 = b))) = .ok (.error .indexError, true) := by
  decide +kernel
example : (do let b ← newBMP 3 3 24; let r := lineR 0 0 2 1 0x1000000 b; pure (r.1, decide (r.2 = b))) = .ok (.error .overflowError, true) := by
  decide +kernel
example : (do let b ← newBMP 3 3 24; let r := rectangleR 0 0 2 1 0x1000000 b; pure (r.1, decide (r.2 = b))) = .ok (.error .overflowError, true) := by
  decide +kernel
example : (do let b ← newBMP 3 3 24; let r := vertlineR 3 0 2 0x1000000 b; pure (r.1, decide (r.2 = b))) = .ok (.ok (), true) := by
  decide +kernel
example : (do let b ← newBMP 3 3 24; let r := lineR 0 0 2 1 0xffff b; let b' ← line b 0 0 2 1 0xffff
              pure (r.1, decide (r.2 = b'), ← getxybit r.2 2 1)) = .ok (.ok (), true, 0xffff) := by decide +kernel

end Verif.Props.Abort
