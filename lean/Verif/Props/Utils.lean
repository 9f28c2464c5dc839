import Verif.Model.Utils
import Verif.Props.Stats
import Verif.Props.Colors
import Verif.Props.Line4
import Verif.Props.Gradient
import Verif.Lemmas.Header
import Verif.Lemmas.Paint
/-! Properties C157 to C161: texts of images, small vector functions, statistics, tables and colours. -/

namespace Verif.Props.Utils
open Verif Spec Model Props

variable {b : Bytes} {W H bits : Nat}

/-! ### C157: images and patterns as text -/

theorem blocks_get {β : Type} (f : Nat → List β) (n q : Nat) (hf : ∀ i < n, (f i).length = q) (i k : Nat) (hi : i < n) (hk : k < q) :
    ((List.range n).flatMap f)[q * i + k]? = (f i)[k]? := by
  induction n with
  | zero => omega
  | succ n ih =>
    have hl : ∀ m ≤ n, ((List.range m).flatMap f).length = q * m := by
      intro m
      induction m with
      | zero => simp
      | succ m ihm =>
        intro hm
        rw [List.range_succ, List.flatMap_append, List.length_append, ihm (by omega)]
        simp [hf m (by omega), Nat.mul_succ]
    rw [List.range_succ, List.flatMap_append]
    by_cases h : i < n
    · have : q * i + k < q * n := by
        have := Nat.mul_le_mul_left q (show i + 1 ≤ n by omega)
        rw [Nat.mul_succ] at this
        omega
      rw [List.getElem?_append_left (by rw [hl n le_rfl]; exact this)]
      exact ih (fun i hi => hf i (by omega)) h
    · obtain rfl : i = n := by omega
      rw [List.getElem?_append_right (by rw [hl i le_rfl]; omega), hl i le_rfl]
      simp

/-- The character for a colour number: a star for a one and a space for a zero, letters from `a` on for 16 colours, and the
character with this code for 256 colours. -/
def textChar (bits v : Nat) : Char :=
  if bits = 1 then (if v = 1 then '*' else ' ') else if bits = 4 then Char.ofNat (97 + v) else Char.ofNat v

theorem byteText_spec {bits v : Nat} (hd : bits = 1 ∨ bits = 4 ∨ bits = 8) (hv : v < 256) :
    (byteText bits v).length = 8 / bits ∧ ∀ k < 8 / bits, (byteText bits v)[k]? = some (textChar bits (v / 2 ^ (8 - bits - k * bits) % 2 ^ bits)) := by
  rcases hd with rfl | rfl | rfl
  · refine ⟨by simp [byteText, plotbitsastext], ?_⟩
    intro k hk
    have key : ∀ v < 256, ∀ k < 8, ((128 >>> k) &&& v = 0 ↔ ¬ v / 2 ^ (8 - 1 - k * 1) % 2 = 1) := by decide +kernel
    have := key v hv k (by omega)
    simp only [byteText, plotbitsastext, textChar]
    simp only [Nat.cast_one, if_true, pow_one]
    rw [if_neg (by norm_num), if_neg (by norm_num), List.append_nil, List.append_nil, List.getElem?_map, List.getElem?_range (by omega)]
    simp only [Option.map_some]
    by_cases h : v / 2 ^ (8 - 1 - k * 1) % 2 = 1
    · rw [if_neg (by rw [this]; exact not_not.mpr h), if_pos h]
    · rw [if_pos (this.mpr h), if_neg h]
  · refine ⟨by simp [byteText], ?_⟩
    intro k hk
    have h2 : k = 0 ∨ k = 1 := by omega
    rcases h2 with rfl | rfl
    · simp [byteText, textChar]; congr 1; omega
    · simp [byteText, textChar]
  · refine ⟨by simp [byteText], ?_⟩
    intro k hk
    obtain rfl : k = 0 := by omega
    simp [byteText, textChar]
    congr 1; omega

/-- C157: the printed text has one line for each row of the image from the top, and the characters of a line show the pixels
of the row from the left. The last row is missing. Nothing is shown of true-colour images. -/
theorem C157_image_partial (h : Valid b W H bits) : ∃ lines : List (List Char), plotbmpastext b = .ok (lines.flatMap (· ++ ['\n'])) ∧
    lines.length = H - 1 ∧ ∀ y l, lines[y]? = some l → (bits = 24 → l = []) ∧ (bits ≠ 24 → l.length = rowLen W bits * (8 / bits) ∧
      ∀ x < W, l[x]? = some (textChar bits (pix b W H bits x y))) := by
  let line : Nat → List Char := fun y => (List.range (rowLen W bits)).flatMap fun x =>
    byteText bits (byte b (dataOff bits + rowLen W bits * (H - 1 - y) + x))
  refine ⟨(List.range (H - 1)).map line, ?_, by simp, ?_⟩
  · unfold plotbmpastext
    rw [h.clrbits_eq, ok_bind, show getmaxy b = _ from h.getmaxy_eq, ok_bind, h.xchrcnt_eq, ok_bind, h.hdsz_eq, ok_bind]
    have hr : pyRange3 ((H : Int) - 1) 0 (-1) = .ok ((List.range (H - 1)).map fun (k : Nat) => (H : Int) - 1 + -1 * (k : Int)) := by
      unfold pyRange3
      rw [if_neg (by norm_num), if_neg (by norm_num)]
      congr 3
      rw [show (-(-1) : Int) = 1 by norm_num, Int.ediv_one]
      omega
    rw [hr, ok_bind]
    rw [mapM_ok (g := fun y : Int => line (H - 1 - y).toNat ++ ['\n'])]
    · rw [ok_bind, pure_eq_ok]
      refine congrArg Except.ok ?_
      rw [List.flatMap_def, List.map_map, List.map_map]
      congr 1
      apply List.map_congr_left
      intro k hk
      simp only [Function.comp]
      congr 2
      omega
    · intro y hy
      obtain ⟨k, hk, rfl⟩ := List.mem_map.mp hy
      rw [List.mem_range] at hk
      rw [pyRange_zero, mapM_ok (g := fun x : Int => byteText bits (byte b (dataOff bits + rowLen W bits * (H - 1 - k) + x.toNat)))]
      · rw [ok_bind, pure_eq_ok]
        refine congrArg Except.ok ?_
        rw [List.map_map, ← List.flatMap_def]
        congr 1
        have hk2 : ((H : Int) - 1 - ((H : Int) - 1 + -1 * (k : Int))).toNat = k := by omega
        rw [hk2]
        simp [line]
        refine congrArg (fun f => List.flatMap f _) ?_
        funext x
        simp
      · intro x hx
        obtain ⟨j, hj, rfl⟩ := List.mem_map.mp hx
        rw [List.mem_range] at hj
        have hlen := h.len
        have hlt : dataOff bits + rowLen W bits * (H - 1 - k) + j < b.length := by
          rw [hlen]
          have : rowLen W bits * (H - 1 - k + 1) ≤ rowLen W bits * H := Nat.mul_le_mul_left _ (by omega)
          rw [Nat.mul_succ] at this
          rw [Nat.mul_comm H]
          omega
        rw [getItem_ok (n := dataOff bits + rowLen W bits * (H - 1 - k) + j) _ hlt, ok_bind, pure_eq_ok]
        · simp
        · push_cast
          rw [show ((H - 1 - k : Nat) : Int) = (H : Int) - 1 + -1 * (k : Int) by omega]
  · intro y l hl
    rw [List.getElem?_map] at hl
    by_cases hy : y < H - 1
    · rw [List.getElem?_range hy] at hl
      simp only [Option.map_some, Option.some.injEq] at hl
      subst hl
      constructor
      · rintro rfl
        simp [line, byteText]
      · intro h24
        have hd : bits = 1 ∨ bits = 4 ∨ bits = 8 := by rcases h.depth with h' | h' | h' | h' <;> omega
        have hb : ∀ i, byte b i < 256 := fun i => byte_lt_of_mem h.bytes i
        have hs := fun i => byteText_spec hd (hb i)
        refine ⟨?_, ?_⟩
        · simp only [line, List.length_flatMap, (hs _).1]
          simp
        · intro x hx
          have hq : 8 / bits * (x * bits / 8) + x % (8 / bits) = x := by
            rcases hd with rfl | rfl | rfl <;> omega
          have hxr : x * bits / 8 < rowLen W bits := by
            unfold rowLen
            rcases hd with rfl | rfl | rfl <;> omega
          have hk : x % (8 / bits) < 8 / bits := Nat.mod_lt _ (by rcases hd with rfl | rfl | rfl <;> norm_num)
          have := blocks_get (fun x => byteText bits (byte b (dataOff bits + rowLen W bits * (H - 1 - y) + x))) (rowLen W bits) (8 / bits)
            (fun i _ => (hs _).1) (x * bits / 8) (x % (8 / bits)) hxr hk
          rw [hq] at this
          show ((List.range (rowLen W bits)).flatMap fun x => byteText bits (byte b (dataOff bits + rowLen W bits * (H - 1 - y) + x)))[x]? = _
          rw [this, (hs _).2 _ hk]
          congr 2
          unfold pix
          dsimp only
          rw [if_neg h24]
          congr 3
          · congr 1
            rw [Nat.mul_comm (H - 1 - y)]
          · rcases hd with rfl | rfl | rfl <;> omega
    · rw [List.getElem?_eq_none (by simpa using hy)] at hl
      simp at hl

/-- C157 is false for the last row: of an image with one row nothing is printed. -/
theorem C157_last_wrong (h : Valid b W 1 bits) : plotbmpastext b = .ok [] := by
  obtain ⟨lines, e, hl, -⟩ := C157_image_partial h
  rw [List.length_eq_zero_iff.mp hl] at e
  exact e

theorem mask_bit (v : Nat) {k : Nat} (hk : k < 8) : (128 >>> k) &&& v = 0 ↔ v.testBit (7 - k) = false := by
  have h1 : 128 >>> k = 2 ^ (7 - k) := by interval_cases k <;> rfl
  rw [h1]
  constructor
  · intro e
    have := congrArg (fun n => n.testBit (7 - k)) e
    simpa [Nat.testBit_and, Nat.testBit_two_pow_self] using this
  · intro e
    apply Nat.eq_of_testBit_eq
    intro i
    rw [Nat.testBit_and, Nat.testBit_two_pow, Nat.zero_testBit]
    by_cases hi : 7 - k = i
    · rw [← hi, e]; simp
    · simp [hi]

/-- C157: a byte is printed as its eight bits from the highest to the lowest. -/
theorem C157_bits (v : Nat) : plotbitsastext v = (List.range 8).map fun k => if v.testBit (7 - k) then '*' else ' ' := by
  unfold plotbitsastext
  apply List.map_congr_left
  intro k hk
  rw [List.mem_range] at hk
  have := mask_bit v hk
  cases hb : v.testBit (7 - k)
  · rw [if_pos (this.mpr hb)]; rfl
  · rw [if_neg (by rw [this, hb]; simp)]; rfl

/-- C157: a pattern gives one line for each byte with the two given strings for its bits. -/
theorem C157_pattern (p : List Nat) (one zero : String) : plot8bitpatternastext p one zero =
    String.join (p.map fun v => String.join ((List.range 8).map fun k => if v.testBit (7 - k) then one else zero) ++ "\n") := by
  have fold : ∀ (l : List Nat) (g : Nat → String) (s : String), l.foldl (fun s i => s ++ g i) s = s ++ String.join (l.map g) := by
    intro l g
    induction l with
    | nil => intro s; simp
    | cons a l ih =>
      intro s
      rw [List.foldl_cons, ih, List.map_cons, String.join_cons, String.append_assoc]
  unfold plot8bitpatternastext
  have inner : ∀ (s : String) (v : Nat), (List.range 8).foldl (fun s i => s ++ if 0 < (128 >>> i) &&& v then one else zero) s ++ "\n" =
      s ++ (String.join ((List.range 8).map fun k => if v.testBit (7 - k) then one else zero) ++ "\n") := by
    intro s v
    rw [fold _ (fun i => if 0 < (128 >>> i) &&& v then one else zero), String.append_assoc]
    congr 2
    apply congrArg
    apply List.map_congr_left
    intro k hk
    rw [List.mem_range] at hk
    have := mask_bit v hk
    cases hb : v.testBit (7 - k)
    · rw [if_neg (by rw [this.mpr hb]; omega)]; rfl
    · rw [if_pos (by
        have : (128 >>> k) &&& v ≠ 0 := by rw [Ne, this, hb]; simp
        omega)]; rfl
  simp only [inner]
  rw [fold _ (fun v => String.join ((List.range 8).map fun k => if v.testBit (7 - k) then one else zero) ++ "\n")]
  simp

example : plot8bitpatternastext [0x81, 0x7e] "#" "." = "#......#\n.######.\n" := by decide +kernel

/-- Three rows of an image with two colours: two of them are printed, with their padding. -/
example : (do
    let b ← newBMP 3 3 1
    let b ← plotxybit b 0 0 1
    let b ← plotxybit b 2 1 1
    let b ← plotxybit b 1 2 1
    plotbmpastext b).toOption = some ("*                               \n  *                             \n".toList) := by decide +kernel

/-! ### C158: lists of numbers -/

/-- `w` is the element of the set `S` with the least distance from `v`. -/
def ClosestIn (S : Int → Prop) (v w : Int) : Prop := S w ∧ ∀ t, S t → |v - w| ≤ |v - t|

/-- C158: lists are clamped element by element. -/
theorem C158_clamp (l : List Int) {m M : Int} (hm : m ≤ M) :
    List.Forall₂ (ClosestIn fun t => t ≤ M) l (setmaxvec l M) ∧
    List.Forall₂ (ClosestIn fun t => m ≤ t ∧ t ≤ M) l (setminmaxvec l m M) ∧
    List.Forall₂ (ClosestIn fun t => m ≤ t ∧ t ≤ M) l (intsetminmaxvec l m M) := by
  have key : ∀ (S : Int → Prop) (f : Int → Int), (∀ v, ClosestIn S v (f v)) → List.Forall₂ (ClosestIn S) l (l.map f) := by
    intro S f hf
    induction l with
    | nil => exact List.Forall₂.nil
    | cons a l ih => exact List.Forall₂.cons (hf a) ih
  have ab : ∀ a b : Int, |a| ≤ |b| ↔ (a ≤ b ∨ a ≤ -b) ∧ (-a ≤ b ∨ -a ≤ -b) := by
    intro a b
    rw [abs_le', le_abs, le_abs]
  refine ⟨key _ _ ?_, key _ _ ?_, key _ _ ?_⟩
  · intro v
    unfold ClosestIn setmax
    refine ⟨by split_ifs <;> omega, fun t ht => ?_⟩
    rw [ab]
    split_ifs <;> omega
  · intro v
    unfold ClosestIn setminmax
    dsimp only
    refine ⟨by split_ifs <;> omega, fun t ht => ?_⟩
    rw [ab]
    split_ifs <;> omega
  · intro v
    unfold ClosestIn intsetminmax
    refine ⟨by omega, fun t ht => ?_⟩
    rw [ab]
    omega

example : setminmaxvec [-5, 3, 300] 0 255 = [0, 3, 255] := by decide

/-- C158: masks and unions of bits, element by element. -/
theorem C158_bits (u v : List Nat) (m i : Nat) : (bitmaskvect u m)[i]?.map Nat.testBit = u[i]?.map (fun a k => a.testBit k && m.testBit k) ∧
    (∀ a c, u[i]? = some a → v[i]? = some c → (orvect u v)[i]?.map Nat.testBit = some (fun k => a.testBit k || c.testBit k)) := by
  constructor
  · unfold bitmaskvect
    rw [List.getElem?_map]
    cases u[i]? with
    | none => rfl
    | some a => simp only [Option.map_some]; congr 1; funext k; exact Nat.testBit_and a m k
  · intro a c ha hc
    unfold orvect
    rw [List.getElem?_zipWith, ha, hc]
    simp only [Option.map_some]
    congr 1; funext k; exact Nat.testBit_or a c k

example : bitmaskvect [0xff, 0x12] 0x0f = [15, 2] ∧ orvect [1, 2] [4, 2] = [5, 2] := by decide

/-- C158: rounded lists differ by at most one half, and whole numbers stay. -/
theorem C158_round (l : List (List ℚ)) : List.Forall₂ (List.Forall₂ fun (q : ℚ) (k : Int) => |(k : ℚ) - q| ≤ 1 / 2) l (roundvectlist l) ∧
    ∀ z : List (List Int), roundvectlist (z.map fun v => v.map fun k : Int => (k : ℚ)) = z := by
  have e : ∀ q : ℚ, |((rnd q : Int) : ℚ) - q| ≤ 1 / 2 := by
    intro q
    have h1 := Int.floor_le q
    have h2 := Int.lt_floor_add_one q
    unfold rnd
    rw [abs_le]
    split_ifs <;> push_cast <;> constructor <;> linarith
  have f2 : ∀ {α β : Type} (R : α → β → Prop) (f : α → β) (l : List α), (∀ a, R a (f a)) → List.Forall₂ R l (l.map f) := by
    intro α β R f l hf
    induction l with
    | nil => exact List.Forall₂.nil
    | cons a l ih => exact List.Forall₂.cons (hf a) ih
  refine ⟨f2 _ _ _ fun v => f2 _ _ _ e, ?_⟩
  intro z
  unfold roundvectlist
  rw [List.map_map]
  conv_rhs => rw [← List.map_id z]
  apply List.map_congr_left
  intro v _
  simp only [Function.comp, roundvect, List.map_map, id]
  conv_rhs => rw [← List.map_id v]
  apply List.map_congr_left
  intro k _
  simp [rnd]

example : roundvectlist [[1 / 2, 3 / 2], [-7 / 4]] = [[0, 2], [-2]] := by decide +kernel

section
variable {K : Type} [Field K] [DecidableEq K]

/-- C158: dividing undoes multiplying when there is no zero; a zero is an error. -/
theorem C158_divide (u v : List K) (h : u.length ≤ v.length) :
    ((∀ a ∈ v, a ≠ 0) → divvect (mulvect u v) v = .ok u) ∧ (∀ i : Nat, i < u.length → v[i]? = some 0 → divvect u v = .error .zeroDivision) := by
  constructor
  · intro h0
    induction u generalizing v with
    | nil => rfl
    | cons a u ih =>
      rcases v with _ | ⟨c, v⟩
      · simp at h
      · have hc := h0 c (by simp)
        have := ih v (by simpa using h) (fun a ha => h0 a (by simp [ha]))
        unfold divvect mulvect at this ⊢
        rw [List.zipWith_cons_cons, List.zip_cons_cons, List.mapM_cons, this]
        dsimp only
        rw [if_neg hc, ok_bind, ok_bind, pure_eq_ok, mul_div_cancel_right₀ _ hc]
  · intro i hi hv
    induction u generalizing v i with
    | nil => simp at hi
    | cons a u ih =>
      rcases v with _ | ⟨c, v⟩
      · simp at h
      · unfold divvect at ih ⊢
        rw [List.zip_cons_cons, List.mapM_cons]
        by_cases hc : c = 0
        · rw [if_pos hc]; rfl
        · rw [if_neg hc, ok_bind]
          rcases i with _ | i
          · simp at hv; exact absurd hv hc
          · rw [ih v (by simpa using h) i (by simpa using hi) (by simpa using hv)]; rfl

example : divvect ([6, 8] : List ℚ) [2, 4] = .ok [3, 2] := by decide +kernel

/-- C158: the mean of each list, times its length, is its sum. -/
theorem C158_means [CharZero K] (l : List (List K)) (h : [] ∉ l) :
    ∃ m, meanlist l = .ok m ∧ List.Forall₂ (fun (v : List K) a => a * v.length = v.sum) l m := by
  unfold meanlist
  rw [mapM_ok (g := fun v : List K => v.sum / v.length)]
  · refine ⟨_, rfl, ?_⟩
    induction l with
    | nil => exact List.Forall₂.nil
    | cons v l ih =>
      refine List.Forall₂.cons ?_ (ih fun hl => h (by simp [hl]))
      have : (v.length : K) ≠ 0 := by
        have : v ≠ [] := fun e => h (by simp [e])
        simpa using this
      rw [div_mul_cancel₀ _ this]
  · intro v hv
    unfold meanvec
    have : v ≠ [] := fun e => h (by rw [← e]; exact hv)
    rw [if_neg (by simpa using this)]

example : meanlist ([[1, 2], [6]] : List (List ℚ)) = .ok [3 / 2, 6] := by decide +kernel

omit [DecidableEq K] in
/-- C158: the two mirrored points have the given point in their middle and its other coordinate. -/
theorem C158_mirror (p : K × K) (d : K) : (mirrorx p d).1.1 + (mirrorx p d).2.1 = 2 * p.1 ∧ (mirrorx p d).2.1 - (mirrorx p d).1.1 = 2 * d ∧
    (mirrorx p d).1.2 = p.2 ∧ (mirrorx p d).2.2 = p.2 ∧
    (mirrory p d).1.2 + (mirrory p d).2.2 = 2 * p.2 ∧ (mirrory p d).2.2 - (mirrory p d).1.2 = 2 * d ∧
    (mirrory p d).1.1 = p.1 ∧ (mirrory p d).2.1 = p.1 := by
  unfold mirrorx mirrory
  refine ⟨?_, ?_, rfl, rfl, ?_, ?_, rfl, rfl⟩ <;> dsimp only <;> ring

omit [DecidableEq K] in
/-- C158: sums of two, three and many vectors do not depend on the order. -/
theorem C158_sums (u v w : List K) (l l' : List (List K)) : addvectpairlist [u, v] = addvectpairlist [v, u] ∧
    addvecttripletlist [u, v, w] = addvecttripletlist [w, u, v] ∧ addvecttripletlist [u, v, w] = addvecttripletlist [v, u, w] ∧
    addvectlist l l' = addvectlist l' l := by
  have comm : ∀ u v : List K, addvect u v = addvect v u := by
    intro u v
    unfold addvect
    rw [List.zipWith_comm]
    simp only [add_comm]
  have assoc : ∀ u v w : List K, addvect (addvect u v) w = addvect u (addvect v w) := by
    intro u
    induction u with
    | nil => intro v w; cases v <;> rfl
    | cons a u ih =>
      intro v w
      rcases v with _ | ⟨c, v⟩
      · cases w <;> rfl
      · rcases w with _ | ⟨d, w⟩
        · rfl
        · unfold addvect at ih ⊢
          simp only [List.zipWith_cons_cons, ih, add_assoc]
  refine ⟨?_, ?_, ?_, ?_⟩
  · show Except.ok (addvect u v) = Except.ok (addvect v u)
    rw [comm]
  · show Except.ok (addvect (addvect u v) w) = Except.ok (addvect (addvect w u) v)
    rw [comm w u, assoc, assoc, comm v w]
  · show Except.ok (addvect (addvect u v) w) = Except.ok (addvect (addvect v u) w)
    rw [comm u v]
  · unfold addvectlist
    rw [List.zipWith_comm]
    congr 1
    funext a c
    exact comm c a

example : addvecttripletlist ([[1, 2], [10, 20], [100, 200]] : List (List ℚ)) = .ok [111, 222] := by decide +kernel

end

/-- C158: exchanging twice keeps the first two elements; two-dimensional points get the third coordinate. -/
theorem C158_swap {α : Type} (x y z : α) (t : List α) (l : List (α × α)) : (swapxy (x :: y :: t) = .ok [y, x]) ∧ (swapxy (x :: y :: t) >>= swapxy) = .ok [x, y] ∧
    (adddimz (l.map fun p => [p.1, p.2]) z = .ok (l.map fun p => [p.1, p.2, z])) := by
  refine ⟨rfl, rfl, ?_⟩
  unfold adddimz
  rw [List.mapM_map]
  exact mapM_ok l _ _ (fun p _ => rfl)

/-- C158: random shifts keep the number of points and move each coordinate within the limits. -/
theorem C158_random {lo hi : ℚ} (pts rs : List (List ℚ)) (hl : rs.length = pts.length) (hr : ∀ r ∈ rs, r.length = 3 ∧ ∀ a ∈ r, lo ≤ a ∧ a ≤ hi)
    (hp : ∀ p ∈ pts, p.length ≤ 3) :
    List.Forall₂ (List.Forall₂ fun a c => lo ≤ c - a ∧ c - a ≤ hi) pts (addrndtovert pts rs) := by
  have one : ∀ p r : List ℚ, p.length ≤ r.length → (∀ a ∈ r, lo ≤ a ∧ a ≤ hi) → List.Forall₂ (fun a c => lo ≤ c - a ∧ c - a ≤ hi) p (addvect p r) := by
    intro p
    induction p with
    | nil => intro r _ _; exact List.Forall₂.nil
    | cons a p ih =>
      intro r h1 h2
      rcases r with _ | ⟨c, r⟩
      · simp at h1
      · refine List.Forall₂.cons ?_ (ih r (by simpa using h1) (fun a ha => h2 a (by simp [ha])))
        have := h2 c (by simp)
        constructor <;> linarith
  unfold addrndtovert
  induction pts generalizing rs with
  | nil => exact List.Forall₂.nil
  | cons p pts ih =>
    rcases rs with _ | ⟨r, rs⟩
    · simp at hl
    · refine List.Forall₂.cons (one p r ?_ (hr r (by simp)).2) (ih rs (by simpa using hl) (fun r hr' => hr r (by simp [hr'])) (fun p hp' => hp p (by simp [hp'])))
      rw [(hr r (by simp)).1]
      exact hp p (by simp)

example : addrndtovert ([[1, 2, 3], [4, 5]] : List (List ℚ)) [[1, 0, -1], [2, 2, 2]] = [[2, 2, 2], [6, 7]] := by decide +kernel

/-! ### C159: directions and statistics -/

theorem vmag_sq (v : List ℝ) : vmag v ^ 2 = (v.map fun a => a ^ 2).sum := by
  unfold vmag
  have e : (v.map fun i => i * i) = v.map fun a => a ^ 2 := by
    apply List.map_congr_left; intro a _; ring
  rw [e, Real.sq_sqrt]
  apply List.sum_nonneg
  intro x hx
  obtain ⟨a, _, rfl⟩ := List.mem_map.mp hx
  exact sq_nonneg a

theorem abs_le_vmag (v : List ℝ) {a : ℝ} (ha : a ∈ v) : |a| ≤ vmag v := by
  apply abs_le_of_sq_le_sq _ (Real.sqrt_nonneg _)
  rw [show Real.sqrt (v.map fun i => i * i).sum = vmag v from rfl, vmag_sq]
  have := List.single_le_sum (l := v.map fun a => a ^ 2) (by
    intro x hx
    obtain ⟨a, _, rfl⟩ := List.mem_map.mp hx
    exact sq_nonneg a) (a ^ 2) (List.mem_map.mpr ⟨a, ha, rfl⟩)
  exact this

/-- C159: the direction cosines have length one and are the coordinates divided by the length; their angles lie between nothing and
a half turn and their cosines give the vector again. -/
theorem C159_directions {v : List ℝ} (h : ∃ a ∈ v, a ≠ 0) : ∃ c t, dircos v = .ok c ∧ diracos c = .ok t ∧
    c.map (· * vmag v) = v ∧ (c.map fun a => a ^ 2).sum = 1 ∧ t.map (fun θ => vmag v * Real.cos θ) = v ∧
    (∀ θ ∈ t, 0 ≤ θ ∧ θ ≤ Real.pi) ∧ (∀ d ∈ dirdeg t, 0 ≤ d ∧ d ≤ 180) ∧ (dirdeg t).map (fun d => Real.cos (d * Real.pi / 180)) = c := by
  obtain ⟨a, ha, h0⟩ := h
  have hm : 0 < vmag v := lt_of_lt_of_le (abs_pos.mpr h0) (abs_le_vmag v ha)
  have hin : ∀ i ∈ v, -1 ≤ i / vmag v ∧ i / vmag v ≤ 1 := by
    intro i hi
    have := abs_le.mp (abs_le_vmag v hi)
    rw [le_div_iff₀ hm, div_le_iff₀ hm]
    constructor <;> linarith
  have e1 : dircos v = .ok (v.map fun i => i / vmag v) := by
    unfold dircos
    exact mapM_ok _ _ _ fun i _ => by rw [if_neg hm.ne']
  have e2 : diracos (v.map fun i => i / vmag v) = .ok (v.map fun i => Real.arccos (i / vmag v)) := by
    unfold diracos
    rw [List.mapM_map]
    exact mapM_ok _ _ _ fun i hi => by simp only [Function.comp]; rw [if_pos (hin i hi)]
  have hid : ∀ f : ℝ → ℝ, (∀ i ∈ v, f i = i) → v.map f = v := by
    intro f hf
    conv_rhs => rw [← List.map_id v]
    exact List.map_congr_left hf
  refine ⟨_, _, e1, e2, ?_, ?_, ?_, ?_, ?_, ?_⟩
  · rw [List.map_map]
    exact hid _ fun i _ => by simp only [Function.comp]; rw [div_mul_cancel₀ _ hm.ne']
  · rw [List.map_map]
    have : ((fun a : ℝ => a ^ 2) ∘ fun i => i / vmag v) = fun i => i ^ 2 * (1 / vmag v ^ 2) := by
      funext i; simp only [Function.comp]; field_simp
    rw [this, List.sum_map_mul_right, ← vmag_sq]
    field_simp
  · rw [List.map_map]
    exact hid _ fun i hi => by
      simp only [Function.comp]
      rw [Real.cos_arccos (hin i hi).1 (hin i hi).2, mul_div_cancel₀ _ hm.ne']
  · intro θ hθ
    obtain ⟨i, _, rfl⟩ := List.mem_map.mp hθ
    exact ⟨Real.arccos_nonneg _, Real.arccos_le_pi _⟩
  · intro d hd
    unfold dirdeg at hd
    rw [List.map_map] at hd
    obtain ⟨i, _, rfl⟩ := List.mem_map.mp hd
    have h1 := Real.arccos_nonneg (i / vmag v)
    have h2 := Real.arccos_le_pi (i / vmag v)
    simp only [Function.comp]
    rw [mul_div_assoc', div_le_iff₀ Real.pi_pos]
    exact ⟨by positivity, by nlinarith⟩
  · unfold dirdeg
    rw [List.map_map, List.map_map]
    apply List.map_congr_left
    intro i hi
    simp only [Function.comp]
    rw [show Real.arccos (i / vmag v) * (180 / Real.pi) * Real.pi / 180 = Real.arccos (i / vmag v) by field_simp,
      Real.cos_arccos (hin i hi).1 (hin i hi).2]

/-- C159: the zero vector has no direction. -/
theorem C159_zero (n : Nat) : dircos (List.replicate (n + 1) 0) = .error .zeroDivision := by
  unfold dircos
  have : vmag (List.replicate (n + 1) 0) = 0 := by unfold vmag; simp
  rw [List.replicate_succ, List.mapM_cons]
  rw [List.replicate_succ] at this
  rw [if_pos this]; rfl

/-- A direction in the plane. -/
example : dircos [3, 4] = .ok [3 / 5, 4 / 5] := by
  have : vmag [3, 4] = 5 := by
    unfold vmag
    rw [show ([3, 4].map fun i : ℝ => i * i).sum = 5 ^ 2 by norm_num]
    exact Real.sqrt_sq (by norm_num)
  unfold dircos
  simp [this, List.mapM_cons, bind, Except.bind, pure, Except.pure]

/-- C159: the square of the correlation is the part of the spread of the second coordinates that the line of least squares removes. -/
theorem C159_explained {pts : List (ℝ × ℝ)} (h : pts ≠ []) (hx : (pts.length : ℝ) * Sxx pts - Sx pts ^ 2 ≠ 0)
    (hy : (pts.length : ℝ) * Syy pts - Sy pts ^ 2 ≠ 0) : open Classical in
    ∃ q m c, Rsquare (rows pts) = .ok q ∧ LSMslope (rows pts) = .ok m ∧ LSMYint (rows pts) = .ok c ∧ 0 ≤ q ∧ q ≤ 1 ∧
      residue pts c m = (1 - q) * residue pts (Sy pts / pts.length) 0 := by
  classical
  obtain ⟨s1, s2, s3⟩ := spreads pts
  have hn : (pts.length : ℝ) ≠ 0 := by simpa using h
  have e := PearsonsR_eq h hx hy
  have hpos : 0 < ((pts.length : ℝ) * Sxx pts - Sx pts ^ 2) * (pts.length * Syy pts - Sy pts ^ 2) :=
    mul_pos (lt_of_le_of_ne s1 hx.symm) (lt_of_le_of_ne s2 hy.symm)
  refine ⟨_, _, _, by unfold Rsquare; rw [e, ok_bind, pure_eq_ok], LSMslope_eq h hx, LSMYint_eq h hx, sq_nonneg _, ?_, ?_⟩
  · rw [div_pow, Real.sq_sqrt hpos.le, div_le_one hpos]; exact s3
  · rw [div_pow, Real.sq_sqrt hpos.le, residue_eq, residue_eq]
    generalize (pts.length : ℝ) = N at *
    generalize Sx pts = X at *
    generalize Sy pts = Y at *
    obtain ⟨D, hD⟩ : ∃ D, D = N * Sxx pts - X ^ 2 := ⟨_, rfl⟩
    obtain ⟨E, hE⟩ : ∃ E, E = N * Syy pts - Y ^ 2 := ⟨_, rfl⟩
    obtain ⟨C, hC⟩ : ∃ C, C = N * Sxy pts - X * Y := ⟨_, rfl⟩
    rw [← hD] at hx
    rw [← hE] at hy
    rw [← hD, ← hE, ← hC, show Sxx pts = (D + X ^ 2) / N by rw [hD]; field_simp; ring,
      show Syy pts = (E + Y ^ 2) / N by rw [hE]; field_simp; ring, show Sxy pts = (C + X * Y) / N by rw [hC]; field_simp; ring]
    field_simp
    ring

/-- C159: the statistic of the test, where the points are not on one line. -/
theorem C159_test {pts : List (ℝ × ℝ)} (hn : 2 ≤ pts.length) (hx : (pts.length : ℝ) * Sxx pts - Sx pts ^ 2 ≠ 0)
    (hy : (pts.length : ℝ) * Syy pts - Sy pts ^ 2 ≠ 0) (hl : ¬ ∃ a b, ∀ p ∈ pts, p.2 = a + b * p.1) :
    ∃ r t, PearsonsR (rows pts) = .ok r ∧ TTest (rows pts) = .ok t ∧ t ^ 2 * (1 - r ^ 2) = r ^ 2 * (pts.length - 2) ∧ 0 ≤ r * t := by
  obtain ⟨r, e, h1, h2, h3⟩ := C111_correlation (by intro c; rw [c] at hn; simp at hn) hx hy
  have h4 : r ^ 2 ≠ 1 := fun c => hl (h3 c)
  have h5 : 0 < 1 - r ^ 2 := by
    have : r ^ 2 ≤ 1 := by nlinarith
    have := lt_of_le_of_ne this h4
    linarith
  have h6 : (0 : ℝ) ≤ ((rows pts).length : ℝ) - 2 := by
    rw [show (rows pts).length = pts.length by simp [rows]]
    have : ((2 : Nat) : ℝ) ≤ pts.length := by exact_mod_cast hn
    push_cast at this
    linarith
  refine ⟨r, _, e, by unfold TTest; rw [e, ok_bind, if_neg h5.ne', if_neg (not_lt.mpr (div_nonneg h6 h5.le)), pure_eq_ok], ?_, ?_⟩
  · rw [mul_pow, Real.sq_sqrt (div_nonneg h6 h5.le), show (rows pts).length = pts.length by simp [rows]]
    field_simp
  · rw [← mul_assoc]
    exact mul_nonneg (mul_self_nonneg r) (Real.sqrt_nonneg _)

/-- C159: for points on a line the test divides by zero. -/
theorem C159_line {xs : List ℝ} (hx : (xs.length : ℝ) * (xs.map fun a => a * a).sum - xs.sum ^ 2 ≠ 0) {a b : ℝ} (hb : b ≠ 0) :
    Rsquare (rows (xs.map fun x => (x, a + b * x))) = .ok 1 ∧ TTest (rows (xs.map fun x => (x, a + b * x))) = .error .zeroDivision := by
  have e := (C111_line hx (a := a) hb).1
  have h1 : (if 0 < b then (1 : ℝ) else -1) ^ 2 = 1 := by split_ifs <;> norm_num
  constructor
  · unfold Rsquare; rw [e, ok_bind, pure_eq_ok, h1]
  · unfold TTest; rw [e, ok_bind, if_pos (by rw [h1]; ring)]

theorem stdDev_eq {v : List ℝ} (h : v ≠ []) : StdDev v = .ok (Real.sqrt ((v.map fun a => (a - v.sum / v.length) ^ 2).sum / v.length)) := by
  have hl : v.length ≠ 0 := by simpa using h
  simp only [StdDev, variance, meanvec, if_neg hl, bind, Except.bind, pure, Except.pure]
  rw [mulvect_map]
  refine congrArg Except.ok (congrArg Real.sqrt ?_)
  congr 2
  apply List.map_congr_left
  intro a _
  ring

/-- C159: the coefficient of variation is the root of the mean squared deviation over the mean, and does not depend on the unit. -/
theorem C159_variation {v : List ℝ} (h : v.sum ≠ 0) {k : ℝ} (hk : 0 < k) : ∃ c, coefvar v = .ok c ∧ coefvar (v.map (k * ·)) = .ok c ∧
    (c * v.sum) ^ 2 = v.length * (v.map fun a => (a - v.sum / v.length) ^ 2).sum ∧ 0 ≤ c * v.sum := by
  have hne : v ≠ [] := by rintro rfl; simp at h
  have hl : v.length ≠ 0 := by simpa using hne
  have hlr : (0 : ℝ) < v.length := by exact_mod_cast Nat.pos_of_ne_zero hl
  have nn : 0 ≤ (v.map fun a => (a - v.sum / v.length) ^ 2).sum := by
    apply List.sum_nonneg
    intro x hx
    obtain ⟨p, _, rfl⟩ := List.mem_map.mp hx
    exact sq_nonneg _
  refine ⟨Real.sqrt ((v.map fun a => (a - v.sum / v.length) ^ 2).sum / v.length) / (v.sum / v.length), ?_, ?_, ?_, ?_⟩
  · unfold coefvar
    rw [stdDev_eq hne, ok_bind, meanvec, if_neg hl, ok_bind, if_neg (div_ne_zero h hlr.ne'), pure_eq_ok]
  · have hs : (v.map (k * ·)).sum = k * v.sum := by rw [List.sum_map_mul_left]; simp
    unfold coefvar
    rw [stdDev_eq (by simpa using hne), ok_bind, meanvec, List.length_map, if_neg hl, ok_bind, hs,
      if_neg (div_ne_zero (mul_ne_zero hk.ne' h) hlr.ne'), pure_eq_ok]
    have e : ((v.map (k * ·)).map fun a => (a - k * v.sum / v.length) ^ 2) = (v.map fun a => k ^ 2 * (a - v.sum / v.length) ^ 2) := by
      rw [List.map_map]
      apply List.map_congr_left
      intro a _
      simp only [Function.comp]
      ring
    rw [e, List.sum_map_mul_left, mul_div_assoc, Real.sqrt_mul (sq_nonneg k), Real.sqrt_sq hk.le]
    refine congrArg Except.ok ?_
    generalize Real.sqrt _ = q
    field_simp
  · rw [div_mul_eq_mul_div, div_pow, mul_pow, Real.sq_sqrt (div_nonneg nn hlr.le)]
    generalize (v.map fun a => (a - v.sum / v.length) ^ 2).sum = q
    field_simp
  · have : Real.sqrt ((v.map fun a => (a - v.sum / v.length) ^ 2).sum / v.length) / (v.sum / v.length) * v.sum =
        Real.sqrt ((v.map fun a => (a - v.sum / v.length) ^ 2).sum / v.length) * v.length := by
      generalize Real.sqrt _ = q
      field_simp
    rw [this]
    exact mul_nonneg (Real.sqrt_nonneg _) hlr.le

/-- C159: with a mean of zero there is no coefficient. -/
theorem C159_variation_zero {v : List ℝ} (h : v.sum = 0) (hne : v ≠ []) : coefvar v = .error .zeroDivision := by
  have hl : v.length ≠ 0 := by simpa using hne
  unfold coefvar
  rw [stdDev_eq hne, ok_bind, meanvec, if_neg hl, ok_bind, if_pos (by rw [h, zero_div])]

example : coefvar [1, 3] = .ok (1 / 2) := by
  unfold coefvar
  rw [stdDev_eq (by simp), ok_bind]
  norm_num [meanvec, bind, Except.bind, pure, Except.pure]

/-- C159: towers of powers of a base of at least one grow with their height, and of a base of at most `e ^ (1 / e)` they stay
at most `e`. -/
theorem C159_tower {x : ℝ} (h : 1 ≤ x) (n : Nat) : 1 ≤ tetration x n ∧ tetration x n ≤ tetration x (n + 1) ∧
    Real.log (tetration x (n + 1)) = tetration x n * Real.log x ∧
    (x ≤ Real.exp (1 / Real.exp 1) → tetration x n ≤ Real.exp 1) := by
  have h1 : ∀ n, 1 ≤ tetration x n := by
    intro n
    induction n with
    | zero => exact le_refl _
    | succ n ih => exact Real.one_le_rpow h (by linarith)
  refine ⟨h1 n, ?_, Real.log_rpow (by linarith) _, ?_⟩
  · induction n with
    | zero => exact h1 1
    | succ n ih => exact Real.rpow_le_rpow_of_exponent_le h ih
  · intro hx
    induction n with
    | zero => exact Real.one_le_exp (by norm_num)
    | succ n ih =>
      calc x ^ tetration x n ≤ x ^ Real.exp 1 := Real.rpow_le_rpow_of_exponent_le h ih
        _ ≤ Real.exp (1 / Real.exp 1) ^ Real.exp 1 := Real.rpow_le_rpow (by linarith) hx (Real.exp_pos _).le
        _ = Real.exp 1 := by
          rw [← Real.exp_mul]
          congr 1
          have := Real.exp_pos 1
          field_simp

example : tetration 2 4 = 65536 := by norm_num [tetration]

/-! ### C160: tables -/

/-- C160: for different points the table has every ordered pair of different positions once, with its distance. -/
theorem C160_distances (l : List (List ℝ)) (h : l.Nodup) : distancetable l =
    (List.range l.length).flatMap fun i => ((List.range l.length).filter fun j => j ≠ i).map fun j => (i, j, vdist (l.getD j []) (l.getD i [])) := by
  classical
  have hl : l = (List.range l.length).map fun i => l.getD i [] := by
    apply List.ext_getElem (by simp)
    intro i h1 h2
    simp [List.getD_eq_getElem?_getD, List.getElem?_eq_getElem h1]
  have hi : ∀ i < l.length, l.idxOf (l.getD i []) = i := by
    intro i hi
    rw [List.getD_eq_getElem?_getD, List.getElem?_eq_getElem hi, Option.getD_some]
    exact h.idxOf_getElem i hi
  have hinj : ∀ i < l.length, ∀ j < l.length, l.getD j [] = l.getD i [] ↔ j = i := by
    intro i h1 j h2
    constructor
    · intro e
      rw [← hi i h1, ← hi j h2, e]
    · rintro rfl; rfl
  unfold distancetable
  generalize hf : (fun v => (List.filter (fun u => decide (u ≠ v)) l).map fun u => (l.idxOf v, l.idxOf u, vdist u v)) = f
  conv_lhs => rw [hl, List.flatMap_map]
  rw [List.flatMap_def, List.flatMap_def]
  congr 1
  apply List.map_congr_left
  intro i hii
  rw [List.mem_range] at hii
  rw [← hf]
  dsimp only
  rw [hi i hii]
  have hflt : List.filter (fun u => decide (u ≠ l.getD i [])) l =
      ((List.range l.length).filter fun j => decide (j ≠ i)).map fun j => l.getD j [] := by
    conv_lhs => arg 2; rw [hl]
    rw [List.filter_map]
    congr 1
    apply List.filter_congr
    intro j hj
    rw [List.mem_range] at hj
    simp only [Function.comp, ne_eq, hinj i hii j hj]
  rw [hflt, List.map_map]
  apply List.map_congr_left
  intro j hj
  rw [List.mem_filter, List.mem_range] at hj
  simp only [Function.comp]
  rw [hi j hj.1]

/-- C160 is false for a repeated point: its second position is missing and the pairs of the first one occur twice. -/
theorem C160_repeated_wrong {p q : List ℝ} (h : p ≠ q) :
    distancetable [p, p, q] = [(0, 2, vdist q p), (0, 2, vdist q p), (2, 0, vdist p q), (2, 0, vdist p q)] := by
  have h' := h.symm
  unfold distancetable
  simp [List.flatMap_cons, List.filter_cons, h, h', List.idxOf_cons, beq_false_of_ne h]

section
variable {α β : Type} [DecidableEq α]

theorem lookup_change (d : List (α × β)) (z k : α) (f : β → β) :
    (d.map fun e => if e.1 = z then (e.1, f e.2) else e).lookup k = if k = z then (d.lookup k).map f else d.lookup k := by
  induction d with
  | nil => simp
  | cons e d ih =>
    obtain ⟨a, c⟩ := e
    rw [List.map_cons]
    by_cases h : a = z
    · rw [if_pos h]
      by_cases hk : k = a
      · subst hk
        simp [h]
      · rw [List.lookup_cons, List.lookup_cons, beq_false_of_ne hk]
        exact ih
    · rw [if_neg h]
      by_cases hk : k = a
      · subst hk
        simp [h]
      · rw [List.lookup_cons, List.lookup_cons, beq_false_of_ne hk]
        exact ih

theorem lookup_new (d : List (α × β)) (z k : α) (c : β) (h : d.lookup z = none) :
    (d ++ [(z, c)]).lookup k = if k = z then some c else d.lookup k := by
  rw [List.lookup_append]
  by_cases hk : k = z
  · subst hk
    rw [h, if_pos rfl]
    simp
  · rw [if_neg hk, List.lookup_cons, beq_false_of_ne hk]
    simp

end

/-- C160: the dictionary of distances has, for each distance that occurs, the number of its entries. -/
theorem C160_counts {α β : Type} [DecidableEq α] (l : List (β × β × α)) (d : α) :
    (countdist l).lookup d = if (l.map (·.2.2)).count d = 0 then none else some ((l.map (·.2.2)).count d) := by
  unfold countdist
  induction l using List.reverseRecOn generalizing d with
  | nil => simp
  | append_singleton l i ih =>
    rw [List.foldl_append, List.foldl_cons, List.foldl_nil, List.map_append, List.count_append, List.map_cons, List.map_nil, List.count_singleton]
    have hz := ih i.2.2
    split_ifs at hz with h0
    · rw [if_pos (by rw [hz]; rfl), lookup_new _ _ _ _ hz, ih d]
      by_cases hd : d = i.2.2
      · subst hd
        simp [h0]
      · rw [if_neg hd, beq_false_of_ne (Ne.symm hd)]
        simp
    · rw [if_neg (by rw [hz]; simp), lookup_change _ _ _ (· + 1), ih d]
      by_cases hd : d = i.2.2
      · subst hd
        simp [h0]
      · rw [if_neg hd, beq_false_of_ne (Ne.symm hd)]
        simp

example : countdist [(0, 1, 5), (0, 2, 7), (1, 0, 5)] = [(5, 2), (7, 1)] := by decide

/-- C160: the levels of points are their different third coordinates, each once, and each has the positions of its points in order. -/
theorem C160_levels {α : Type} [DecidableEq α] (l : List (α × α × α)) (h : l.Nodup) :
    (zlevelcoords l).1.Nodup ∧ (∀ z, z ∈ (zlevelcoords l).1 ↔ ∃ p ∈ l, p.2.2 = z) ∧
    ∀ z ∈ (zlevelcoords l).1, (zlevelcoords l).2.lookup z = some ((List.range l.length).filter fun i => (l[i]?.map (·.2.2)) = some z) := by
  have main : ∀ (l m t : List (α × α × α)), l = m ++ t → l.Nodup →
      let s := m.foldl (fun (s : List α × List (α × List Nat)) (p : α × α × α) =>
        let pind := [l.idxOf p]
        let z := p.2.2
        if (s.2.lookup z).isNone then (s.1 ++ [z], s.2 ++ [(z, pind)])
        else (s.1, s.2.map fun e => if e.1 = z then (e.1, e.2 ++ pind) else e)) ([], [])
      s.1.Nodup ∧ (∀ z, z ∈ s.1 ↔ ∃ p ∈ m, p.2.2 = z) ∧
      ∀ z, s.2.lookup z = if z ∈ s.1 then some ((List.range m.length).filter fun i => (m[i]?.map (·.2.2)) = some z) else none := by
    intro l m
    induction m using List.reverseRecOn with
    | nil => intro t _ _; simp
    | append_singleton m p ih =>
      intro t hl hn
      obtain ⟨h1, h2, h3⟩ := ih ([p] ++ t) (by rw [hl, List.append_assoc]) hn
      have hidx : l.idxOf p = m.length := by
        have hlt : m.length < l.length := by rw [hl]; simp
        have := hn.idxOf_getElem m.length hlt
        rw [show l[m.length] = p by simp [hl]] at this
        exact this
      have hfil : ∀ z, (List.range (m ++ [p]).length).filter (fun i => ((m ++ [p])[i]?.map (·.2.2)) = some z) =
          (List.range m.length).filter (fun i => (m[i]?.map (·.2.2)) = some z) ++ if p.2.2 = z then [m.length] else [] := by
        intro z
        rw [List.length_append, List.length_singleton, List.range_succ, List.filter_append]
        congr 1
        · apply List.filter_congr
          intro i hi
          rw [List.mem_range] at hi
          rw [List.getElem?_append_left hi]
        · simp [List.filter_cons]
      simp only [List.foldl_append, List.foldl_cons, List.foldl_nil]
      generalize m.foldl _ ([], []) = s at h1 h2 h3 ⊢
      rw [hidx]
      by_cases hz : p.2.2 ∈ s.1
      · rw [if_neg (by rw [h3, if_pos hz]; simp)]
        refine ⟨h1, ?_, ?_⟩
        · intro z
          rw [h2]
          constructor
          · rintro ⟨q, hq, e⟩; exact ⟨q, by simp [hq], e⟩
          · rintro ⟨q, hq, e⟩
            rw [List.mem_append, List.mem_singleton] at hq
            rcases hq with hq | rfl
            · exact ⟨q, hq, e⟩
            · rw [← e]; exact (h2 _).mp hz
        · intro z
          rw [lookup_change _ _ _ (· ++ [m.length]), h3, hfil]
          by_cases e : z = p.2.2
          · subst e
            rw [if_pos rfl, if_pos hz, if_pos hz, if_pos rfl]; rfl
          · rw [if_neg e, if_neg (Ne.symm e), List.append_nil]
      · have hnone : s.2.lookup p.2.2 = none := by rw [h3, if_neg hz]
        rw [if_pos (by rw [hnone]; rfl)]
        refine ⟨?_, ?_, ?_⟩
        · rw [List.nodup_append]
          refine ⟨h1, List.nodup_singleton _, ?_⟩
          intro a ha c hc e
          rw [List.mem_singleton] at hc
          exact hz (by rw [← hc, ← e]; exact ha)
        · intro z
          rw [List.mem_append, List.mem_singleton, h2]
          constructor
          · rintro (⟨q, hq, e⟩ | e)
            · exact ⟨q, by simp [hq], e⟩
            · exact ⟨p, by simp, e.symm⟩
          · rintro ⟨q, hq, e⟩
            rw [List.mem_append, List.mem_singleton] at hq
            rcases hq with hq | rfl
            · exact .inl ⟨q, hq, e⟩
            · exact .inr e.symm
        · intro z
          rw [lookup_new _ _ _ _ hnone, h3, hfil]
          by_cases e : z = p.2.2
          · subst e
            rw [if_pos rfl, if_pos (by simp), if_pos rfl]
            congr 1
            have : (List.range m.length).filter (fun i => (m[i]?.map (·.2.2)) = some p.2.2) = [] := by
              rw [List.filter_eq_nil_iff]
              intro i hi
              rw [List.mem_range] at hi
              rw [List.getElem?_eq_getElem hi]
              simp only [Option.map_some, Option.some.injEq, decide_eq_true_eq]
              intro e
              exact hz ((h2 _).mpr ⟨_, List.getElem_mem hi, e⟩)
            rw [this, List.nil_append]
          · rw [if_neg e, if_neg (Ne.symm e), List.append_nil]
            simp [e]
  obtain ⟨h1, h2, h3⟩ := main l l [] (by simp) h
  refine ⟨h1, h2, ?_⟩
  intro z hz
  exact (h3 z).trans (if_pos hz)

example : zlevelcoords [(0, 0, 5), (1, 0, 7), (2, 0, 5)] = ([5, 7], [(5, [0, 2]), (7, [1])]) := by decide

/-- C160: packing undoes unpacking of bytes into halves, and unpacking undoes packing of an even number of halves. -/
theorem C160_halves (buf l : List Nat) : pack4bitbuf (unpack4bitbuf buf) = buf ∧
    (l.length % 2 = 0 → (∀ v ∈ l, v < 16) → unpack4bitbuf (pack4bitbuf l) = l) := by
  constructor
  · induction buf with
    | nil => rfl
    | cons v buf ih =>
      show ((v >>> 4) <<< 4 + (v &&& 0xf)) :: pack4bitbuf (unpack4bitbuf buf) = v :: buf
      rw [ih, Nat.shiftLeft_eq, Nat.shiftRight_eq_div_pow, show 0xf = 2 ^ 4 - 1 from rfl, Nat.and_two_pow_sub_one_eq_mod]
      congr 1
      omega
  · induction l using pack4bitbuf.induct with
    | case1 a c rest ih =>
      intro h1 h2
      show ((a <<< 4 + c) >>> 4) :: ((a <<< 4 + c) &&& 0xf) :: unpack4bitbuf (pack4bitbuf rest) = a :: c :: rest
      have hc := h2 c (by simp)
      rw [ih (by simp at h1; omega) (fun v hv => h2 v (by simp [hv])), Nat.shiftLeft_eq, Nat.shiftRight_eq_div_pow,
        show 0xf = 2 ^ 4 - 1 from rfl, Nat.and_two_pow_sub_one_eq_mod]
      congr 1
      · omega
      · congr 1; omega
    | case2 l hl =>
      intro h1 _
      rcases l with _ | ⟨a, _ | ⟨c, l⟩⟩
      · rfl
      · simp at h1
      · exact absurd rfl (hl a c l)

example : unpack4bitbuf [0x12, 0xf0] = [1, 2, 15, 0] := by decide

/-! ### C161: colours -/

/-- C161: gamma correction of a byte, with exact numbers: it stays a byte, keeps the order and white, and with the factor one changes nothing. -/
theorem C161_gamma {g : ℝ} (hg : 0 ≤ g) {u v : Nat} (huv : u ≤ v) (hv : v ≤ 255) : ∃ x y : Int, gammacorrectbyte u g = .ok x ∧
    gammacorrectbyte v g = .ok y ∧ 0 ≤ x ∧ x ≤ y ∧ y ≤ 255 ∧ (v = 255 → y = 255) ∧ (g = 1 → y = v) ∧ (0 < g → u = 0 → x = 0) ∧
    (1 ≤ g → y ≤ v) ∧ (g ≤ 1 → (v : Int) ≤ y) := by
  have val : ∀ n : Nat, gammacorrectbyte n g = .ok ⌊((n : ℝ) / 255) ^ g * 255⌋ := by
    intro n
    unfold gammacorrectbyte
    rw [if_neg (by intro h; linarith [h.2])]
    dsimp only
    rw [if_pos (by positivity)]
  have h1 : (v : ℝ) ≤ 255 := by exact_mod_cast hv
  have h2 : (u : ℝ) ≤ v := by exact_mod_cast huv
  have h01 : (0 : ℝ) ≤ (v : ℝ) / 255 := by positivity
  have h11 : (v : ℝ) / 255 ≤ 1 := by rw [div_le_one (by norm_num)]; exact h1
  refine ⟨_, _, val u, val v, ?_, ?_, ?_, ?_, ?_, ?_, ?_, ?_⟩
  · apply Int.floor_nonneg.mpr; positivity
  · apply Int.floor_le_floor
    gcongr
  · have : ((v : ℝ) / 255) ^ g * 255 ≤ 255 := by
      have := Real.rpow_le_one h01 h11 hg
      linarith
    have := Int.floor_le_floor this
    simpa using this
  · rintro rfl
    norm_num
  · rintro rfl
    rw [Real.rpow_one, div_mul_cancel₀ _ (by norm_num)]
    simp
  · rintro h0 rfl
    rw [Nat.cast_zero, zero_div, Real.zero_rpow h0.ne']
    simp
  · intro h
    have : ((v : ℝ) / 255) ^ g * 255 ≤ v := by
      rcases eq_or_lt_of_le h01 with e | e
      · rw [← e, Real.zero_rpow (by linarith)]; simp
      · have := Real.rpow_le_rpow_of_exponent_ge e h11 h
        rw [Real.rpow_one] at this
        linarith
    have := Int.floor_le_floor this
    simpa using this
  · intro h
    rw [Int.le_floor]
    push_cast
    rcases eq_or_lt_of_le h01 with e | e
    · rw [← e]
      have : (v : ℝ) = 0 := by linarith
      rw [this]; positivity
    · have := Real.rpow_le_rpow_of_exponent_ge e h11 h
      rw [Real.rpow_one] at this
      linarith

/-- C161: a negative factor is an error for black. -/
theorem C161_gamma_negative {g : ℝ} (hg : g < 0) : gammacorrectbyte 0 g = .error .zeroDivision := if_pos ⟨rfl, hg⟩

example : gammacorrectbyte 102 2 = .ok 40 := by
  unfold gammacorrectbyte
  rw [if_neg (by simp)]
  dsimp only
  rw [if_pos (by positivity)]
  refine congrArg Except.ok ?_
  rw [Int.floor_eq_iff]
  norm_num

theorem draw_bit {d : Nat} (h : d < 256) : rnd (fl ((d : ℚ) / 256)) = 1 ↔ 128 < d := by
  have : ∀ d : Fin 256, rnd (fl ((d.val : ℚ) / 256)) = 1 ↔ 128 < d.val := by decide +kernel
  exact this ⟨d, h⟩

/-- C161: of the four bits of the random colour, three are set by draws above the middle and the last by a channel in the upper half. -/
theorem C161_random {rgb d : Nat × Nat × Nat} (h : d.1 ≤ rgb.1 ∧ d.2.1 ≤ rgb.2.1 ∧ d.2.2 ≤ rgb.2.2)
    (hb : rgb.1 < 256 ∧ rgb.2.1 < 256 ∧ rgb.2.2 < 256) : probplotRGBto4bitpal rgb d < 16 ∧
    ((probplotRGBto4bitpal rgb d).testBit 2 ↔ 128 < d.1) ∧ ((probplotRGBto4bitpal rgb d).testBit 1 ↔ 128 < d.2.1) ∧
    ((probplotRGBto4bitpal rgb d).testBit 0 ↔ 128 < d.2.2) ∧
    ((probplotRGBto4bitpal rgb d).testBit 3 ↔ 128 ≤ rgb.1 ∨ 128 ≤ rgb.2.1 ∨ 128 ≤ rgb.2.2) := by
  have e1 := draw_bit (d := d.1) (by omega)
  have e2 := draw_bit (d := d.2.1) (by omega)
  have e3 := draw_bit (d := d.2.2) (by omega)
  have sh : ∀ v : Nat, 1 < v >>> 6 ↔ 128 ≤ v := by
    intro v
    rw [Nat.shiftRight_eq_div_pow]
    omega
  unfold probplotRGBto4bitpal
  simp only [e1, e2, e3, sh]
  by_cases c1 : 128 < d.1 <;> by_cases c2 : 128 < d.2.1 <;> by_cases c3 : 128 < d.2.2 <;>
    by_cases c4 : 128 ≤ rgb.1 ∨ 128 ≤ rgb.2.1 ∨ 128 ≤ rgb.2.2 <;> simp only [c1, c2, c3, c4, if_true, if_false] <;> decide

example : probplotRGBto4bitpal (200, 100, 140) (129, 90, 128) = 12 := by decide +kernel

/-- C161: base and range of each channel: the base is the rounded share of the first luminosity, and base and range together give
the share of the second one. -/
theorem C161_base {lo hi : Int} (hlo : 0 ≤ lo ∧ lo ≤ 255) (hhi : 0 ≤ hi ∧ hi ≤ 255) (f : List ℚ) (hf : ∀ s ∈ f, 0 ≤ s ∧ s ≤ 1) :
    List.Forall₂ (fun s (c : Int) => |(c : ℚ) - s * lo| ≤ 1 / 2 + 1 / 2 ^ 45) f (RGBfactorstoBaseandRange (lo, hi) f).1 ∧
    List.Forall₂ (fun s (c : Int × ℚ) => |c.1 + c.2 - s * hi| ≤ 1 / 2 ^ 43) f
      ((RGBfactorstoBaseandRange (lo, hi) f).1.zip (RGBfactorstoBaseandRange (lo, hi) f).2) := by
  have r : ∀ q : ℚ, |((rnd q : Int) : ℚ) - q| ≤ 1 / 2 := by
    intro q
    have h1 := Int.floor_le q
    have h2 := Int.lt_floor_add_one q
    unfold rnd
    rw [abs_le]
    split_ifs <;> push_cast <;> constructor <;> linarith
  have cl : ∀ {m : Int}, 0 ≤ m ∧ m ≤ 255 → ∀ s : ℚ, 0 ≤ s ∧ s ≤ 1 → |fl (s * m) - s * m| ≤ 1 / 2 ^ 45 ∧ 0 ≤ s * m ∧ s * m ≤ 255 := by
    intro m hm s hs
    have m0 : (0 : ℚ) ≤ m := by exact_mod_cast hm.1
    have m1 : (m : ℚ) ≤ 255 := by exact_mod_cast hm.2
    have h0 : 0 ≤ s * m := mul_nonneg hs.1 m0
    have h1 : s * m ≤ 255 := by nlinarith [hs.1, hs.2]
    refine ⟨(Gradient.fl_close (M := 255) (by rw [abs_of_nonneg h0]; exact h1)).trans (by norm_num), h0, h1⟩
  unfold RGBfactorstoBaseandRange
  dsimp only
  induction f with
  | nil => exact ⟨List.Forall₂.nil, List.Forall₂.nil⟩
  | cons s f ih =>
    obtain ⟨i1, i2⟩ := ih fun s hs => hf s (by simp [hs])
    have hs := hf s (by simp)
    obtain ⟨a1, a2, a3⟩ := cl hlo s hs
    obtain ⟨b1, b2, b3⟩ := cl hhi s hs
    have r1 := r (fl (s * lo))
    have c1 := fl_err (fl (s * hi) - (rnd (fl (s * lo)) : Int))
    rw [abs_le] at a1 b1 r1
    have he : (1 : ℚ) / 2 ^ 45 ≤ 1 := by norm_num
    have c2 : |fl (s * hi) - (rnd (fl (s * lo)) : Int)| ≤ 512 := by rw [abs_le]; constructor <;> linarith
    have c3 : |fl (fl (s * hi) - (rnd (fl (s * lo)) : Int)) - (fl (s * hi) - (rnd (fl (s * lo)) : Int))| ≤ 1 / 2 ^ 44 := by
      refine c1.trans ?_
      rw [div_le_iff₀ (by positivity)]
      refine c2.trans (by norm_num)
    rw [abs_le] at c3
    have n1 : (1 : ℚ) / 2 ^ 44 + 1 / 2 ^ 45 ≤ 1 / 2 ^ 43 := by norm_num
    refine ⟨List.Forall₂.cons ?_ i1, List.Forall₂.cons ?_ i2⟩
    · rw [abs_le]; constructor <;> linarith
    · dsimp only; rw [abs_le]; constructor <;> linarith

example : RGBfactorstoBaseandRange (64, 192) [1, 1 / 4] = ([64, 16], [128, 32]) := by decide +kernel

theorem mapM_forall {α γ : Type} {f : α → Py γ} {R : α → γ → Prop} {l : List α} (h : ∀ a ∈ l, ∃ r, f a = .ok r ∧ R a r) :
    ∃ r, l.mapM f = .ok r ∧ List.Forall₂ R l r := by
  induction l with
  | nil => exact ⟨[], rfl, List.Forall₂.nil⟩
  | cons a l ih =>
    obtain ⟨r, e1, h1⟩ := h a (by simp)
    obtain ⟨rs, e2, h2⟩ := ih fun a ha => h a (by simp [ha])
    exact ⟨r :: rs, by rw [List.mapM_cons, e1, ok_bind, e2, ok_bind, pure_eq_ok], List.Forall₂.cons h1 h2⟩

/-- C161: colours of a dictionary become the nearest colours of the palette that are not black; with true colour nothing changes. -/
theorem C161_dictionary_partial (h : Valid b W H bits) {d : List (String × Int)} (hd : ∀ e ∈ d, 0 ≤ e.2 ∧ e.2 < 2 ^ 24) :
    ∃ r, adjustcolordicttopal b d = .ok r ∧ (bits = 24 → r = d) ∧
      List.Forall₂ (fun e e' => e'.1 = e.1 ∧ ∃ k : Nat, e'.2 = (k : Int) ∧ IsColour bits (k : Int) ∧ Gradient.Shown b bits (int2RGB e.2) k) d r := by
  have col : ∀ e ∈ d, ∃ k : Nat, palColour b e.2 = .ok (k : Int) ∧ IsColour bits (k : Int) ∧ Gradient.Shown b bits (int2RGB e.2) k := by
    intro e he
    obtain ⟨h1, h2⟩ := C41_pack_unpack e.2
    obtain ⟨b1, b2, b3⟩ := h2.mp (hd e he)
    have := Gradient.palColour_ok h (p := int2RGB e.2) ⟨b1, b2, b3⟩
    rwa [h1] at this
  have pal := h.bits_eq
  unfold adjustcolordicttopal
  rw [h.clrbits_eq, ok_bind]
  by_cases h24 : bits = 24
  · rw [if_neg (by omega), pure_eq_ok]
    refine ⟨d, rfl, fun _ => rfl, ?_⟩
    rw [List.forall₂_same]
    intro e he
    obtain ⟨k, e1, hk⟩ := col e he
    unfold palColour at e1
    rw [pal, ok_bind, if_neg (by omega), pure_eq_ok] at e1
    exact ⟨rfl, k, Except.ok.inj e1, hk⟩
  · rw [if_pos (by rcases h.depth with e | e | e | e <;> omega)]
    obtain ⟨r, e, hr⟩ := mapM_forall (l := d) (f := fun e => do
        let a ← int2RGBarr e.2
        let pal ← getallRGBpal b
        match a with
        | [r, g, b] => pure (e.1, matchRGBtopal ((r : Int), (g : Int), (b : Int)) false pal)
        | _ => .error .valueError)
      (R := fun e e' => e'.1 = e.1 ∧ ∃ k : Nat, e'.2 = (k : Int) ∧ IsColour bits (k : Int) ∧ Gradient.Shown b bits (int2RGB e.2) k) (by
      intro e he
      obtain ⟨k, e1, hk⟩ := col e he
      refine ⟨(e.1, (k : Int)), ?_, rfl, k, rfl, hk⟩
      obtain ⟨r, g, bl, -, -, -, -, e2, -⟩ := (C41_arrays e.2).1 (hd e he)
      unfold palColour at e1
      rw [pal, ok_bind, if_pos (by omega), e2, ok_bind, h.getallRGBpal_eq h24, ok_bind] at e1
      rw [e2, ok_bind, h.getallRGBpal_eq h24, ok_bind]
      dsimp only at e1 ⊢
      rw [pure_eq_ok] at e1 ⊢
      rw [Except.ok.inj e1])
    exact ⟨r, e, fun c => absurd c h24, hr⟩

/-- C161 is false for black: with the palette of two colours it becomes white. -/
theorem C161_black_wrong : (do
    let b ← newBMP 2 1 1
    adjustcolordicttopal b [("black", 0), ("navy", 128), ("white", 0xffffff)]) = .ok [("black", 1), ("navy", 1), ("white", 1)] := by decide +kernel

/-- C161: every rising range is the falling one backwards, except that the name of one of them begins with a space. -/
theorem C161_ranges_wrong : (∀ n ∈ ["max", "upper", "lower"], ∃ a b, getdefaultlumrange.lookup (n ++ "desc") = some (a, b) ∧
      getdefaultlumrange.lookup (n ++ "asc") = some (b, a) ∧ b < a) ∧
    getdefaultlumrange.lookup "middesc" = some (192, 64) ∧ getdefaultlumrange.lookup "midasc" = none := by
  refine ⟨?_, by decide +kernel, by decide +kernel⟩
  intro n hn
  simp only [List.mem_cons, List.not_mem_nil, or_false] at hn
  rcases hn with rfl | rfl | rfl
  · exact ⟨255, 0, by decide +kernel, by decide +kernel, by decide⟩
  · exact ⟨255, 128, by decide +kernel, by decide +kernel, by decide⟩
  · exact ⟨128, 0, by decide +kernel, by decide +kernel, by decide⟩

end Verif.Props.Utils
