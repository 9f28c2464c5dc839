import Verif.Props.AbortMore
/-! Properties C196 and C200: slanted lines in negative colours on 4-bit images. -/

namespace Verif.Props.Abort
open Verif Spec Model Model.Run Verif.Props Verif.Props.Beyond Verif.Props.Far Verif.Props.Overlay

variable {b b' : Bytes} {W H bits : Nat}

/-- The body of the loop of `line` on 4-bit images. -/
def nibStep (c : Int) (p : Int × Int) : Run Unit := assign fun bmp => diagStep 4 c bmp p

theorem neg_start (h : Valid b W H 4) {x1 y1 x2 y2 c : Int} (hc : c < 0) (hx : clampTo x1 W ≠ clampTo x2 W) (hy : clampTo y1 H ≠ clampTo y2 H) :
    lineR x1 y1 x2 y2 c b = each (nibStep c) (iterline (clampTo x1 W, clampTo y1 H) (clampTo x2 W, clampTo y2 H)) b := by
  unfold lineR
  have hbr : bottomrightcoord b = .ok ((W : Int) - 1, (H : Int) - 1) := by
    unfold bottomrightcoord; rw [h.getmaxx_eq, h.getmaxy_eq]; rfl
  rw [run_look hbr]
  simp only [setminmax_eq]
  rw [if_neg hx, if_neg hy, run_look h.bits_eq]
  rw [if_neg (by omega), if_neg (by omega), if_pos (by norm_num), if_neg (by omega)]
  rfl

theorem setItem_neg {n : Nat} (hn : n < b.length) {v : Int} (hv : v < 0) : setItem b (n : Int) v = .error .overflowError := by
  unfold setItem
  rw [resolveIdx_ok rfl hn]
  exact if_neg (by omega)

theorem and_low (v : Nat) : v &&& 0xf < 16 := Nat.lt_succ_of_le Nat.and_le_right

theorem step_even (h : Valid b W H 4) {c : Int} (hc : c < 0) {p : Int × Int} (hx : 0 ≤ p.1 ∧ p.1 < W) (hy : 0 ≤ p.2 ∧ p.2 < H) (he : p.1 % 2 = 0) :
    nibStep c p b = (.error .overflowError, b) := by
  obtain ⟨x, y⟩ := p
  obtain ⟨x, rfl⟩ := Int.eq_ofNat_of_zero_le hx.1
  obtain ⟨y, rfl⟩ := Int.eq_ofNat_of_zero_le hy.1
  have hl := addr_lt h (x := x) (y := y) (by omega) (by omega)
  refine run_assign_error ?_
  unfold diagStep
  dsimp only at he ⊢
  rw [h.BMoffsethd_eq x y (by omega), ok_bind, if_neg (by omega), if_neg (by omega), getItem_ok rfl (by norm_num at hl; omega), ok_bind,
    if_neg (by rw [pyAnd_1]; omega)]
  refine setItem_neg (by norm_num at hl; omega) ?_
  have := and_low (byte b (addr W H 4 x y))
  rw [show pyShl c 4 = c * 16 from rfl]
  omega

/-- The file is still one of the same size and pixels outside of the given column and the column left of it are as before. -/
def NearColumn (W H : Nat) (b b' : Bytes) (x : Int) : Prop :=
  Valid b' W H 4 ∧ SameHeader b b' 4 ∧ ∀ px py, px < W → py < H → (px : Int) ≠ x → (px : Int) ≠ x - 1 → pix b' W H 4 px py = pix b W H 4 px py

theorem near_trans {b1 b2 b3 : Bytes} {x : Int} (h : NearColumn W H b1 b2 x) (g : NearColumn W H b2 b3 x) : NearColumn W H b1 b3 x :=
  ⟨g.1, ⟨g.2.1.1.trans h.2.1.1, fun i hi => (g.2.1.2 i hi).trans (h.2.1.2 i hi)⟩,
    fun px py hx hy h1 h2 => (g.2.2 px py hx hy h1 h2).trans (h.2.2 px py hx hy h1 h2)⟩

theorem step_odd (h : Valid b W H 4) {c : Int} (hc : c < 0) {p : Int × Int} (hx : 0 ≤ p.1 ∧ p.1 < W) (hy : 0 ≤ p.2 ∧ p.2 < H) (ho : p.1 % 2 = 1) :
    nibStep c p b = (.error .overflowError, b) ∨ ∃ b', nibStep c p b = (.ok (), b') ∧ NearColumn W H b b' p.1 := by
  obtain ⟨x, y⟩ := p
  obtain ⟨x, rfl⟩ := Int.eq_ofNat_of_zero_le hx.1
  obtain ⟨y, rfl⟩ := Int.eq_ofNat_of_zero_le hy.1
  have hl := addr_lt h (x := x) (y := y) (by omega) (by omega)
  norm_num at hl
  have hlt : addr W H 4 x y < b.length := by omega
  have hge : dataOff 4 ≤ addr W H 4 x y := by unfold addr; omega
  have hb := byte_lt_of_mem h.bytes (addr W H 4 x y)
  have hle : byte b (addr W H 4 x y) &&& 0xf0 ≤ byte b (addr W H 4 x y) := Nat.and_le_left
  have e : diagStep 4 c b ((x : Int), (y : Int)) = setItem b (addr W H 4 x y : Int) (((byte b (addr W H 4 x y) &&& 0xf0 : Nat) : Int) + c) := by
    unfold diagStep
    dsimp only at ho ⊢
    rw [h.BMoffsethd_eq x y (by omega), ok_bind, if_neg (by omega), if_neg (by omega), getItem_ok rfl hlt, ok_bind,
      if_pos (by rw [pyAnd_1]; omega)]
  by_cases hv : ((byte b (addr W H 4 x y) &&& 0xf0 : Nat) : Int) + c < 0
  · exact .inl (run_assign_error (by rw [e]; exact setItem_neg hlt hv))
  · right
    obtain ⟨w, hw⟩ := Int.eq_ofNat_of_zero_le (show 0 ≤ ((byte b (addr W H 4 x y) &&& 0xf0 : Nat) : Int) + c by omega)
    refine ⟨b.set (addr W H 4 x y) w, run_assign (by rw [e]; exact setItem_ok rfl hlt hw (by omega)), ?_, ⟨by simp, ?_⟩, ?_⟩
    · refine valid_congr h (by simp) (mem_lt_of_byte fun i hi => ?_) fun i hi => ?_
      · rw [byte_set]
        split_ifs
        · omega
        · exact byte_lt_of_mem h.bytes i
      · rw [byte_set, if_neg (by unfold dataOff palSize at hge; norm_num at hge; omega)]
    · intro i hi
      rw [byte_set, if_neg (by omega)]
    · intro px py hpx hpy h1 h2
      rw [pix_4, pix_4, byte_set, if_neg]
      rintro ⟨g, -⟩
      dsimp only at ho h1 h2
      by_cases hyy : py = y
      · subst hyy
        unfold addr rel at g
        omega
      · have := addr_row (bits := 4) (by simp [Depth]) hpx (show x < W by omega) hpy (show y < H by omega) hyy
        norm_num at this
        omega

theorem near_refl (h : Valid b W H 4) (x : Int) : NearColumn W H b b x := ⟨h, ⟨rfl, fun _ _ => rfl⟩, fun _ _ _ _ _ _ => rfl⟩

/-- Points in one odd column, and then a point in an even column. -/
theorem neg_each (h : Valid b W H 4) {c X : Int} (hc : c < 0) (hX : 0 ≤ X ∧ X < W) (ho : X % 2 = 1) {l l' : List (Int × Int)} {a : Int × Int}
    (hl : ∀ p ∈ l, p.1 = X ∧ 0 ≤ p.2 ∧ p.2 < H) (hx : 0 ≤ a.1 ∧ a.1 < W) (hy : 0 ≤ a.2 ∧ a.2 < H) (he : a.1 % 2 = 0) :
    ∃ b', each (nibStep c) (l ++ a :: l') b = (.error .overflowError, b') ∧ NearColumn W H b b' X := by
  induction l generalizing b with
  | nil => exact ⟨b, run_seq_error (step_even h hc hx hy he), near_refl h X⟩
  | cons p l ih =>
    obtain ⟨g1, g2⟩ := hl p (by simp)
    rcases step_odd h hc (p := p) (by rw [g1]; exact hX) g2 (by rw [g1]; exact ho) with e | ⟨b1, e, n⟩
    · exact ⟨b, run_seq_error e, near_refl h X⟩
    · rw [g1] at n
      obtain ⟨b2, e2, n2⟩ := ih n.1 fun q hq => hl q (by simp [hq])
      exact ⟨b2, (run_seq e).trans e2, near_trans n n2⟩

theorem range_split {α : Type} (f : Nat → α) {N k : Nat} (hk : k < N) :
    ∃ r, (List.range N).map f = (List.range k).map f ++ f k :: r := by
  obtain ⟨m, rfl⟩ : ∃ m, N = k + (m + 1) := ⟨N - k - 1, by omega⟩
  refine ⟨(List.range m).map fun i => f (k + (i + 1)), ?_⟩
  rw [List.range_add, List.map_append, List.map_map, List.range_succ_eq_map]
  simp [Function.comp_def]

/-- The first points of a slanted line are in the column of its start, and the next one is in the column beside it. -/
theorem raster_start {x1 y1 x2 y2 : Int} (hx : x1 ≠ x2) (hy : y1 ≠ y2) (hd : ¬ (|x2 - x1| = 1 ∧ |y2 - y1| = 1)) :
    ∃ l a l', iterline (x1, y1) (x2, y2) = l ++ a :: l' ∧ (∀ p ∈ l, p.1 = x1 ∧ min y1 y2 ≤ p.2 ∧ p.2 ≤ max y1 y2) ∧
      (a.1 = x1 + (x2 - x1).sign) ∧ min y1 y2 ≤ a.2 ∧ a.2 ≤ max y1 y2 := by
  have hD : 0 < |x2 - x1| := abs_pos.mpr (by omega)
  have hE : 0 < |y2 - y1| := abs_pos.mpr (by omega)
  have band : ∀ v : Int, 0 ≤ v → v ≤ |y2 - y1| → min y1 y2 ≤ y1 + (y2 - y1).sign * v ∧ y1 + (y2 - y1).sign * v ≤ max y1 y2 := by
    intro v v0 v1
    rcases lt_or_gt_of_ne hy with g | g
    · rw [abs_of_pos (by omega)] at v1
      rw [Int.sign_eq_one_of_pos (by omega)]
      omega
    · rw [abs_of_neg (by omega)] at v1
      rw [Int.sign_eq_neg_one_of_neg (by omega)]
      omega
  rw [iterline_eq]
  generalize hDD : |x2 - x1| = D at *
  generalize hEE : |y2 - y1| = E at *
  by_cases hm : E ≤ D
  · obtain ⟨r, hr⟩ := range_split (fun k : Nat => rasterPt x1 y1 x2 y2 k) (N := (max D E + 1).toNat) (k := 1) (by omega)
    rw [hr, List.append_assoc]
    refine ⟨_, _, _, rfl, ?_, ?_, ?_⟩
    · intro p hp
      simp only [List.mem_map, List.mem_range] at hp
      obtain ⟨k, k1, rfl⟩ := hp
      obtain rfl : k = 0 := by omega
      unfold rasterPt
      dsimp only
      rw [hDD, hEE, if_pos hm]
      refine ⟨by simp, band _ (Int.ediv_nonneg (by simp; omega) (by omega)) ?_⟩
      exact Int.ediv_le_of_le_mul hD (by push_cast; nlinarith)
    · unfold rasterPt
      dsimp only
      rw [hDD, hEE, if_pos hm]
      simp
    · unfold rasterPt
      dsimp only
      rw [hDD, hEE, if_pos hm]
      refine band _ (Int.ediv_nonneg (by push_cast; omega) (by omega)) ?_
      exact Int.ediv_le_of_le_mul hD (by push_cast; have : 2 ≤ D := by omega
                                         nlinarith)
  · have hDE : D < E := by omega
    have hq := Int.mul_ediv_add_emod (E + D - 1) D
    have hr0 := Int.emod_nonneg (E + D - 1) (show D ≠ 0 by omega)
    have hr1 := Int.emod_lt_of_pos (E + D - 1) hD
    generalize (E + D - 1) / D = t at hq
    generalize (E + D - 1) % D = u at hq hr0 hr1
    have t1 : 1 ≤ t := by nlinarith
    have t2 : t ≤ E := by nlinarith
    obtain ⟨n, rfl⟩ : ∃ n : Nat, t = n + 1 := ⟨(t - 1).toNat, by omega⟩
    obtain ⟨r, hr⟩ := range_split (fun k : Nat => rasterPt x1 y1 x2 y2 k) (N := (max D E + 1).toNat) (k := n) (by omega)
    rw [hr, List.append_assoc]
    have hp : ∀ k : Nat, rasterPt x1 y1 x2 y2 k = (x1 + (x2 - x1).sign * (((k : Int) + 1) * D / E), y1 + (y2 - y1).sign * k) := by
      intro k
      unfold rasterPt
      dsimp only
      rw [hDD, hEE, if_neg hm, Int.mul_comm (k : Int)]
    refine ⟨_, _, _, rfl, ?_, ?_, ?_⟩
    · intro p hp'
      simp only [List.mem_map, List.mem_range] at hp'
      obtain ⟨k, k1, rfl⟩ := hp'
      rw [hp]
      have : ((k : Int) + 1) * D / E = 0 := by
        refine Int.ediv_eq_zero_of_lt (by positivity) ?_
        have : (k : Int) + 1 ≤ n := by omega
        nlinarith
      dsimp only
      rw [this]
      exact ⟨by simp, band _ (by omega) (by omega)⟩
    · rw [hp]
      have : ((n : Int) + 1) * D / E = 1 := by
        rw [Int.ediv_eq_iff_of_pos (by omega)]
        constructor <;> nlinarith
      dsimp only
      rw [this, Int.mul_one]
    · rw [hp]
      exact band _ (by omega) (by omega)

/-- C200: a slanted line in a negative number raises `OverflowError` on a 4-bit image. If it starts in an even column then the
image is left as it is. -/
theorem C200_negative_even (h : Valid b W H 4) (hW : 0 < W) (hH : 0 < H) {x1 y1 x2 y2 c : Int} (hc : c < 0)
    (hx : clampTo x1 W ≠ clampTo x2 W) (hy : clampTo y1 H ≠ clampTo y2 H) (he : clampTo x1 W % 2 = 0) :
    lineR x1 y1 x2 y2 c b = (.error .overflowError, b) := by
  rw [neg_start h hc hx hy, iterline_eq]
  have hX1 : 0 ≤ clampTo x1 W ∧ clampTo x1 W < W := by unfold clampTo; omega
  have hY1 : 0 ≤ clampTo y1 H ∧ clampTo y1 H < H := by unfold clampTo; omega
  have hY2 : 0 ≤ clampTo y2 H ∧ clampTo y2 H < H := by unfold clampTo; omega
  generalize clampTo x1 W = X1 at *
  generalize clampTo x2 W = X2 at *
  generalize clampTo y1 H = Y1 at *
  generalize clampTo y2 H = Y2 at *
  obtain ⟨r, hr⟩ := range_split (fun k : Nat => rasterPt X1 Y1 X2 Y2 k) (N := (max |X2 - X1| |Y2 - Y1| + 1).toNat) (k := 0)
    (by have := abs_nonneg (X2 - X1); omega)
  rw [hr, List.range_zero, List.map_nil, List.nil_append]
  refine run_seq_error ?_
  have hD : 0 < |X2 - X1| := abs_pos.mpr (by omega)
  have hE : 0 < |Y2 - Y1| := abs_pos.mpr (by omega)
  unfold rasterPt
  dsimp only
  by_cases hm : |Y2 - Y1| ≤ |X2 - X1|
  · rw [if_pos hm]
    have v0 : 0 ≤ (((0 : Nat) : Int) + 1) * |Y2 - Y1| / |X2 - X1| := Int.ediv_nonneg (by simp) (by omega)
    have v1 : (((0 : Nat) : Int) + 1) * |Y2 - Y1| / |X2 - X1| ≤ |Y2 - Y1| := Int.ediv_le_of_le_mul hD (by push_cast; nlinarith)
    generalize (((0 : Nat) : Int) + 1) * |Y2 - Y1| / |X2 - X1| = v at v0 v1
    refine step_even h hc (by simpa using hX1) ?_ (by simpa using he)
    dsimp only
    rcases lt_or_gt_of_ne hy with g | g
    · rw [abs_of_pos (by omega)] at v1
      rw [Int.sign_eq_one_of_pos (by omega)]
      omega
    · rw [abs_of_neg (by omega)] at v1
      rw [Int.sign_eq_neg_one_of_neg (by omega)]
      omega
  · rw [if_neg hm]
    have e : (((0 : Nat) : Int) + 1) * |X2 - X1| / |Y2 - Y1| = 0 := Int.ediv_eq_zero_of_lt (by simp) (by simp; omega)
    rw [e]
    exact step_even h hc (by simpa using hX1) (by simpa using hY1) (by simpa using he)

/-- C200: a slanted line in a negative number that starts in an odd column of a 4-bit image raises `OverflowError` too, after
bytes of the first column, which hold two pixels, may have changed. -/
theorem C200_negative_odd (h : Valid b W H 4) (hW : 0 < W) (hH : 0 < H) {x1 y1 x2 y2 c : Int} (hc : c < 0)
    (hx : clampTo x1 W ≠ clampTo x2 W) (hy : clampTo y1 H ≠ clampTo y2 H) (ho : clampTo x1 W % 2 = 1)
    (hd : ¬ (|clampTo x2 W - clampTo x1 W| = 1 ∧ |clampTo y2 H - clampTo y1 H| = 1)) :
    ∃ b', lineR x1 y1 x2 y2 c b = (.error .overflowError, b') ∧ NearColumn W H b b' (clampTo x1 W) := by
  rw [neg_start h hc hx hy]
  have hX1 : 0 ≤ clampTo x1 W ∧ clampTo x1 W < W := by unfold clampTo; omega
  have hX2 : 0 ≤ clampTo x2 W ∧ clampTo x2 W < W := by unfold clampTo; omega
  have hY1 : 0 ≤ clampTo y1 H ∧ clampTo y1 H < H := by unfold clampTo; omega
  have hY2 : 0 ≤ clampTo y2 H ∧ clampTo y2 H < H := by unfold clampTo; omega
  obtain ⟨l, a, l', e, h1, h2, h3, h4⟩ := raster_start hx hy hd
  rw [e]
  have hs : 0 ≤ a.1 ∧ a.1 < W ∧ a.1 % 2 = 0 := by
    rw [h2]
    rcases lt_or_gt_of_ne hx with g | g
    · rw [Int.sign_eq_one_of_pos (by omega)]; omega
    · rw [Int.sign_eq_neg_one_of_neg (by omega)]; omega
  exact neg_each h hc hX1 ho (fun p hp => by have := h1 p hp; omega) ⟨hs.1, hs.2.1⟩ (by omega) hs.2.2

/-- One row below the image a negative number is rejected as well. -/
theorem step_below (h : Valid b W H 4) {c : Int} (hc : c < 0) {p : Int × Int} (hx : 0 ≤ p.1 ∧ p.1 < W) (hH : 0 < H) (hy : p.2 = H) (he : p.1 % 2 = 0) :
    nibStep c p b = (.error .overflowError, b) := by
  obtain ⟨x, y⟩ := p
  dsimp only at hx hy he
  subst hy
  refine run_assign_error ?_
  unfold diagStep
  dsimp only
  rw [BMoffsethd_any h, ok_bind, if_neg (by omega), if_neg (by omega)]
  have hlen := h.len
  have hxo : x * ((4 : Nat) : Int) / 8 < (rowLen W 4 : Int) := by
    obtain ⟨n, rfl⟩ := Int.eq_ofNat_of_zero_le hx.1
    have := xoff_lt (W := W) (bits := 4) (x := n) (by omega) (by simp [Depth])
    norm_num at this
    omega
  have hx0 : 0 ≤ x * ((4 : Nat) : Int) / 8 := by omega
  have hr : (rowLen W 4 : Int) ≤ (H * rowLen W 4 : Nat) := by
    push_cast
    nlinarith [Int.natCast_nonneg (rowLen W 4)]
  generalize hi : ((dataOff 4 : Nat) : Int) + ((H : Int) - H - 1) * (rowLen W 4 : Int) + x * ((4 : Nat) : Int) / 8 = i
  obtain ⟨k, hk, hkl⟩ : ∃ k, resolveIdx b.length i = some k ∧ k < b.length := by
    unfold resolveIdx
    by_cases g : 0 ≤ i
    · refine ⟨i.toNat, ?_, ?_⟩
      · rw [if_pos g, if_pos (by omega)]
      · omega
    · refine ⟨(i + (b.length : Int)).toNat, ?_, ?_⟩
      · rw [if_neg g, if_pos (by omega)]
      · omega
  have hg : getItem b i = .ok (byte b k) := by
    unfold getItem
    rw [hk]
    rfl
  rw [hg, ok_bind, if_neg (by rw [pyAnd_1]; omega)]
  have := and_low (byte b k)
  unfold setItem
  rw [hk]
  exact if_neg (by rw [show pyShl c 4 = c * 16 from rfl]; omega)

/-- C200: lines in a negative number from an odd column of a 4-bit image to a pixel that touches their start at a corner raise an
exception too, `IndexError` only if they end in the first row. -/
theorem C200_negative_corner (h : Valid b W H 4) (hW : 0 < W) (hH : 0 < H) {x1 y1 x2 y2 c : Int} (hc : c < 0)
    (ho : clampTo x1 W % 2 = 1) (hdx : |clampTo x2 W - clampTo x1 W| = 1) (hdy : |clampTo y2 H - clampTo y1 H| = 1) :
    ∃ e b', lineR x1 y1 x2 y2 c b = (.error e, b') ∧ NearColumn W H b b' (clampTo x1 W) ∧
      (e = .overflowError ∨ e = .indexError ∧ clampTo y2 H = 0) := by
  have hX1 : 0 ≤ clampTo x1 W ∧ clampTo x1 W < W := by unfold clampTo; omega
  have hX2 : 0 ≤ clampTo x2 W ∧ clampTo x2 W < W := by unfold clampTo; omega
  have hY1 : 0 ≤ clampTo y1 H ∧ clampTo y1 H < H := by unfold clampTo; omega
  have hY2 : 0 ≤ clampTo y2 H ∧ clampTo y2 H < H := by unfold clampTo; omega
  have hx : clampTo x1 W ≠ clampTo x2 W := by intro g; rw [g, Int.sub_self, abs_zero] at hdx; omega
  have hy : clampTo y1 H ≠ clampTo y2 H := by intro g; rw [g, Int.sub_self, abs_zero] at hdy; omega
  rw [neg_start h hc hx hy]
  generalize clampTo x1 W = X1 at *
  generalize clampTo x2 W = X2 at *
  generalize clampTo y1 H = Y1 at *
  generalize clampTo y2 H = Y2 at *
  have hs : ∀ u v : Int, |v - u| = 1 → (v - u).sign = v - u := by
    intro u v g
    rcases eq_or_eq_neg_of_abs_eq g with g | g <;> rw [g] <;> rfl
  have ex := hs _ _ hdx
  have ey := hs _ _ hdy
  have e : iterline (X1, Y1) (X2, Y2) = [(X1, Y2), (X2, Y2 + (Y2 - Y1)), (X2, Y2)] := by
    rw [C23_diagonal X1 Y1 X2 Y2 (by rw [hdx, hdy]) hx, ex, ey]
    have : (X2 - X1).natAbs = 1 := by rw [Int.abs_eq_natAbs] at hdx; omega
    rw [this]
    simp [List.range_succ]
    ring
  have even : X2 % 2 = 0 := by rcases eq_or_eq_neg_of_abs_eq hdx with g | g <;> omega
  rw [e]
  rcases step_odd h hc (p := (X1, Y2)) hX1 hY2 ho with e1 | ⟨b1, e1, n1⟩
  · exact ⟨_, b, run_seq_error e1, near_refl h _, .inl rfl⟩
  have go : ∀ {e : PyErr}, nibStep c (X2, Y2 + (Y2 - Y1)) b1 = (.error e, b1) →
      each (nibStep c) [(X1, Y2), (X2, Y2 + (Y2 - Y1)), (X2, Y2)] b = (.error e, b1) :=
    fun g => (run_seq e1).trans (run_seq_error g)
  by_cases hin : 0 ≤ Y2 + (Y2 - Y1) ∧ Y2 + (Y2 - Y1) < H
  · exact ⟨_, b1, go (step_even n1.1 hc hX2 hin even), n1, .inl rfl⟩
  by_cases hlow : Y2 + (Y2 - Y1) = H
  · exact ⟨_, b1, go (step_below n1.1 hc hX2 hH hlow even), n1, .inl rfl⟩
  have htop : Y2 + (Y2 - Y1) = -1 ∧ Y2 = 0 := by rcases eq_or_eq_neg_of_abs_eq hdy with g | g <;> omega
  refine ⟨.indexError, b1, go (run_assign_error ?_), n1, .inr ⟨rfl, htop.2⟩⟩
  unfold diagStep
  dsimp only
  have hlen := n1.1.len
  have hr : ((H : Int) - (-1) - 1) * (rowLen W 4 : Int) = ((H * rowLen W 4 : Nat) : Int) := by push_cast; ring
  rw [htop.1, BMoffsethd_any n1.1, hr, ok_bind, if_neg (by omega), if_neg (by omega), getItem_ge (by omega)]
  rfl

/-- C196: a slanted line in a negative number always raises `OverflowError` on a 4-bit image (left out are lines from an odd
column to the pixel that touches their start at a corner). -/
theorem C196_slanted_four (h : Valid b W H 4) (hW : 0 < W) (hH : 0 < H) {p q : Int × Int} (hs : Slanted W H p q) {c : Int} (hc : c < 0)
    (hd : clampTo p.1 W % 2 = 1 → ¬ (|clampTo q.1 W - clampTo p.1 W| = 1 ∧ |clampTo q.2 H - clampTo p.2 H| = 1)) :
    linevec b p q c = .error .overflowError := by
  show line b p.1 p.2 q.1 q.2 c = _
  rw [← C200_line]
  unfold outcome
  rcases Int.emod_two_eq_zero_or_one (clampTo p.1 W) with g | g
  · rw [C200_negative_even h hW hH hc hs.1 hs.2 g]; rfl
  · obtain ⟨b', e, -⟩ := C200_negative_odd h hW hH hc hs.1 hs.2 g (hd g)
    rw [e]; rfl

/-- C196: no slanted line in a negative number succeeds on a 4-bit image; the exception is `OverflowError`, or `IndexError` for a
line that ends in the first row. -/
theorem C196_slanted_raises (h : Valid b W H 4) (hW : 0 < W) (hH : 0 < H) {p q : Int × Int} (hs : Slanted W H p q) {c : Int} (hc : c < 0) :
    linevec b p q c = .error .overflowError ∨ linevec b p q c = .error .indexError ∧ clampTo q.2 H = 0 := by
  by_cases hd : clampTo p.1 W % 2 = 1 ∧ |clampTo q.1 W - clampTo p.1 W| = 1 ∧ |clampTo q.2 H - clampTo p.2 H| = 1
  · have g : linevec b p q c = outcome (lineR p.1 p.2 q.1 q.2 c) b := (C200_line ..).symm
    obtain ⟨e, b', e1, -, e2⟩ := C200_negative_corner h hW hH hc hd.1 hd.2.1 hd.2.2
    rw [g]
    unfold outcome
    rw [e1]
    rcases e2 with rfl | ⟨rfl, e2⟩
    · exact .inl rfl
    · exact .inr ⟨rfl, e2⟩
  · exact .inl (C196_slanted_four h hW hH hs hc fun o w => hd ⟨o, w⟩)

example : (do let b ← newBMP 4 3 4; let b ← plotxybit b 0 0 9; let r := lineR 1 1 2 0 (-1) b
              pure (r.1, ← [(0, 0), (1, 0), (1, 1), (2, 0)].mapM fun (p : Int × Int) => getxybit r.2 p.1 p.2)) =
    .ok (.error .indexError, [8, 15, 0, 0]) := by decide +kernel

example : (do let b ← newBMP 4 3 4; let r := lineR 1 1 2 2 (-1) b; pure (r.1, decide (r.2 = b))) =
    .ok (.error .overflowError, true) := by decide +kernel

/-- C200 is false for negative numbers on 4-bit images: the pixel at (0, 0), beside the start of the line, and the start itself
change before the exception is raised. -/
theorem C200_negative_false :
    (do let b ← newBMP 4 3 4; let b ← plotxybit b 0 0 9; let r := lineR 1 0 3 1 (-3) b
        pure (r.1, ← [(0, 0), (1, 0), (2, 1), (3, 1)].mapM fun (p : Int × Int) => getxybit r.2 p.1 p.2)) =
      .ok (.error .overflowError, [8, 13, 0, 0]) := by decide +kernel

example : (do let b ← newBMP 4 3 4; let b ← plotxybit b 0 0 9; let r := lineR 0 0 3 1 (-3) b; pure (r.1, decide (r.2 = b))) =
    .ok (.error .overflowError, true) := by decide +kernel

end Verif.Props.Abort
