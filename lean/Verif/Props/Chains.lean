import Verif.Props.FilesExact

/-! Chains of file programs: the new file of each program is the source of the next one (C194). -/

namespace Verif.Props.Chains
open Verif Spec Model Props

variable {fs : Files} {src : String} {b : Bytes} {W H bits : Nat}

/-- A call of one of the file programs, without the names of the files. -/
inductive Program where
  | invert | flipV | flipH | mirrorT | mirrorB | mirrorL | mirrorR | mirrorTL | mirrorTR | mirrorBL | mirrorBR | outline
  | erase (n : Nat)
  | invertR (x1 y1 x2 y2 : Int) | flipVR (x1 y1 x2 y2 : Int) | flipHR (x1 y1 x2 y2 : Int)
  | mirrorTR' (x1 y1 x2 y2 : Int) | mirrorBR' (x1 y1 x2 y2 : Int) | mirrorLR (x1 y1 x2 y2 : Int) | mirrorRR (x1 y1 x2 y2 : Int)

/-- The program called with the names of the source and of the new file. -/
def call (p : Program) (fs : Files) (ex nw : String) : Py Files :=
  match p with
  | .invert => invertbits2file fs ex nw
  | .flipV => flipvertical2file fs ex nw
  | .flipH => fliphorizontal2file fs ex nw
  | .mirrorT => mirrortop2file fs ex nw
  | .mirrorB => mirrorbottom2file fs ex nw
  | .mirrorL => mirrorleft2file fs ex nw
  | .mirrorR => mirrorright2file fs ex nw
  | .mirrorTL => mirrortopleft2file fs ex nw
  | .mirrorTR => mirrortopright2file fs ex nw
  | .mirrorBL => mirrorbottomleft2file fs ex nw
  | .mirrorBR => mirrorbottomright2file fs ex nw
  | .outline => outline2file fs ex nw
  | .erase n => eraseeverynthhoriline2file fs ex nw n
  | .invertR x1 y1 x2 y2 => invertregion2file fs ex nw x1 y1 x2 y2
  | .flipVR x1 y1 x2 y2 => flipverticalregion2file fs ex nw x1 y1 x2 y2
  | .flipHR x1 y1 x2 y2 => fliphorizontalregion2file fs ex nw x1 y1 x2 y2
  | .mirrorTR' x1 y1 x2 y2 => mirrortopinregion2file fs ex nw x1 y1 x2 y2
  | .mirrorBR' x1 y1 x2 y2 => mirrorbottominregion2file fs ex nw x1 y1 x2 y2
  | .mirrorLR x1 y1 x2 y2 => mirrorleftinregion2file fs ex nw x1 y1 x2 y2
  | .mirrorRR x1 y1 x2 y2 => mirrorrightinregion2file fs ex nw x1 y1 x2 y2

/-- The function of the library for images in memory that belongs to the program. -/
def inMemory (p : Program) (b : Bytes) : Py Bytes :=
  match p with
  | .invert => invertimagebits b
  | .flipV => flipvertical b
  | .flipH => fliphorizontal b
  | .mirrorT => mirrortop b
  | .mirrorB => mirrorbottom b
  | .mirrorL => mirrorleft b
  | .mirrorR => mirrorright b
  | .mirrorTL => mirrortopleft b
  | .mirrorTR => mirrortopright b
  | .mirrorBL => mirrorbottomleft b
  | .mirrorBR => mirrorbottomright b
  | .outline => Model.outline b
  | .erase n => eraseeverynthhorizontalline b n
  | .invertR x1 y1 x2 y2 => invertregion b x1 y1 x2 y2
  | .flipVR x1 y1 x2 y2 => flipverticalregion b x1 y1 x2 y2
  | .flipHR x1 y1 x2 y2 => fliphorizontalregion b x1 y1 x2 y2
  | .mirrorTR' x1 y1 x2 y2 => mirrortopinregion b x1 y1 x2 y2
  | .mirrorBR' x1 y1 x2 y2 => mirrorbottominregion b x1 y1 x2 y2
  | .mirrorLR x1 y1 x2 y2 => mirrorleftinregion b x1 y1 x2 y2
  | .mirrorRR x1 y1 x2 y2 => mirrorrightinregion b x1 y1 x2 y2

/-- What the program does to a picture of `W` by `H` colour numbers. -/
def effect (W H bits : Nat) (p : Program) (g : Nat → Nat → Nat) (x y : Nat) : Nat :=
  match p with
  | .invert => 2 ^ bits - 1 - g x y
  | .flipV => g x (H - 1 - y)
  | .flipH => g (W - 1 - x) y
  | .mirrorT => g x (min y (H - 1 - y))
  | .mirrorB => g x (max y (H - 1 - y))
  | .mirrorL => g (min x (W - 1 - x)) y
  | .mirrorR => g (max x (W - 1 - x)) y
  | .mirrorTL => g (min x (W - 1 - x)) (min y (H - 1 - y))
  | .mirrorTR => g (max x (W - 1 - x)) (min y (H - 1 - y))
  | .mirrorBL => g (min x (W - 1 - x)) (max y (H - 1 - y))
  | .mirrorBR => g (max x (W - 1 - x)) (max y (H - 1 - y))
  | .outline => if y = 0 then 0 else g x y ^^^ g x (y - 1)
  | .erase n => if y + 1 < H ∧ n ∣ y + 1 then 0 else g x y
  | .invertR x1 y1 x2 y2 => if inRect x1 y1 x2 y2 x y then 2 ^ bits - 1 - g x y else g x y
  | .flipVR x1 y1 x2 y2 => if inRect x1 y1 x2 y2 x y then g x (y1 + y2 - y).toNat else g x y
  | .flipHR x1 y1 x2 y2 => if inRect x1 y1 x2 y2 x y then g (x1 + x2 - x).toNat y else g x y
  | .mirrorTR' x1 y1 x2 y2 => if inRect x1 y1 x2 y2 x y then g x (min (y : Int) (y1 + y2 - y)).toNat else g x y
  | .mirrorBR' x1 y1 x2 y2 => if inRect x1 y1 x2 y2 x y then g x (max (y : Int) (y1 + y2 - y)).toNat else g x y
  | .mirrorLR x1 y1 x2 y2 => if inRect x1 y1 x2 y2 x y then g (min (x : Int) (x1 + x2 - x)).toNat y else g x y
  | .mirrorRR x1 y1 x2 y2 => if inRect x1 y1 x2 y2 x y then g (max (x : Int) (x1 + x2 - x)).toNat y else g x y

/-- The calls without the faults of C30, C31, C53–C56 and C81 at pixels that are less than a byte. -/
def Fitting (W H bits : Nat) (p : Program) : Prop :=
  match p with
  | .invert | .flipV | .mirrorT | .mirrorB => True
  | .flipH => bits = 8 ∨ bits = 24 ∨ (bits = 4 ∧ W % 2 = 0)
  | .mirrorL | .mirrorR | .mirrorTL | .mirrorTR | .mirrorBL | .mirrorBR => bits = 8 ∨ bits = 24 ∨ (bits = 4 ∧ W % 4 = 0)
  | .outline => 0 < W ∧ 0 < H ∧ W * bits % 8 = 0
  | .erase n => 0 < n
  | .invertR x1 y1 x2 y2 => InImage W H x1 y1 x2 y2
  | .flipHR x1 y1 x2 y2 => InImage W H x1 y1 x2 y2 ∧ FlipOK bits x1 x2
  | .mirrorLR x1 y1 x2 y2 | .mirrorRR x1 y1 x2 y2 => InImage W H x1 y1 x2 y2 ∧ MirrorOK bits x1 x2
  | .flipVR x1 y1 x2 y2 | .mirrorTR' x1 y1 x2 y2 | .mirrorBR' x1 y1 x2 y2 => InImage W H x1 y1 x2 y2 ∧ AlignedI bits x1 x2

/-- The programs one after the other: `t.2` is the new file of the program `t.1` and the source of the next one. -/
def runAll (fs : Files) (src : String) : List (Program × String) → Py Files
  | [] => .ok fs
  | t :: l => do
    let fs ← call t.1 fs src t.2
    runAll fs t.2 l

/-- The last file of a chain. -/
def lastFile (src : String) : List (Program × String) → String
  | [] => src
  | t :: l => lastFile t.2 l

/-- The picture after a chain. -/
def shown (W H bits : Nat) : List (Program × String) → (Nat → Nat → Nat) → Nat → Nat → Nat
  | [], g => g
  | t :: l, g => shown W H bits l (effect W H bits t.1 g)

theorem call_eq (p : Program) (fs : Files) (ex nw : String) : call p fs ex nw = applysave (inMemory p) fs ex nw := by
  cases p <;> rfl

/-- One program on an image in memory. -/
theorem inMemory_ok (hv : Valid b W H bits) {p : Program} (hp : Fitting W H bits p) :
    ∃ b', inMemory p b = .ok b' ∧ Redraws b b' W H bits (effect W H bits p (pix b W H bits)) := by
  cases p with
  | invert => exact (C32_invertimagebits hv).imp fun _ h => ⟨h.1, h.2.1⟩
  | flipV => exact (C28_flipvertical hv).imp fun _ h => ⟨h.1, h.2.1⟩
  | flipH => exact (C30_fliphorizontal_partial hv hp).imp fun _ h => ⟨h.1, h.2.1⟩
  | mirrorT => exact (C29_mirrortop hv).imp fun _ h => ⟨h.1, h.2.1⟩
  | mirrorB => exact (C29_mirrorbottom hv).imp fun _ h => ⟨h.1, h.2.1⟩
  | mirrorL => exact (C31_mirrorleft_partial hv hp).imp fun _ h => ⟨h.1, h.2.1⟩
  | mirrorR => exact (C31_mirrorright_partial hv hp).imp fun _ h => ⟨h.1, h.2.1⟩
  | mirrorTL => exact C56_mirrortopleft_partial hv hp
  | mirrorTR => exact C56_mirrortopright_partial hv hp
  | mirrorBL => exact C56_mirrorbottomleft_partial hv hp
  | mirrorBR => exact C56_mirrorbottomright_partial hv hp
  | outline => exact C81_image hv hp.1 hp.2.1 hp.2.2
  | erase n =>
    obtain ⟨b', e, hP⟩ := C78_every_partial hv hp
    refine ⟨b', e, hP.valid, hP.header, fun x y hx hy => ?_⟩
    show _ = if y + 1 < H ∧ n ∣ y + 1 then 0 else pix b W H bits x y
    split_ifs with hc
    · exact hP.inside x y hx hy hc
    · exact hP.outside x y hx hy hc
  | invertR x1 y1 x2 y2 => exact C33_invertregion hv hp
  | flipVR x1 y1 x2 y2 => exact (C55_flipverticalregion_partial hv hp.1 hp.2).imp fun _ h => ⟨h.1, h.2.1⟩
  | flipHR x1 y1 x2 y2 => exact (C53_fliphorizontalregion_partial hv hp.1 hp.2).imp fun _ h => ⟨h.1, h.2.1⟩
  | mirrorTR' x1 y1 x2 y2 => exact (C55_mirrortopinregion_partial hv hp.1 hp.2).imp fun _ h => ⟨h.1, h.2.1⟩
  | mirrorBR' x1 y1 x2 y2 => exact (C55_mirrorbottominregion_partial hv hp.1 hp.2).imp fun _ h => ⟨h.1, h.2.1⟩
  | mirrorLR x1 y1 x2 y2 => exact (C54_mirrorleftinregion_partial hv hp.1 hp.2).imp fun _ h => ⟨h.1, h.2.1⟩
  | mirrorRR x1 y1 x2 y2 => exact (C54_mirrorrightinregion_partial hv hp.1 hp.2).imp fun _ h => ⟨h.1, h.2.1⟩

/-- The effect of a program depends on the pixels of the image only. -/
theorem effect_congr {p : Program} (hp : Fitting W H bits p) {g g' : Nat → Nat → Nat} (hg : ∀ x y, x < W → y < H → g x y = g' x y) {x y : Nat}
    (hx : x < W) (hy : y < H) : effect W H bits p g x y = effect W H bits p g' x y := by
  cases p <;> simp only [effect]
  all_goals try (first | rw [hg _ _ hx hy] | (exact hg _ _ (by omega) (by omega)))
  · split_ifs
    · rfl
    · rw [hg _ _ hx (by omega)]
  all_goals
    obtain ⟨⟨hi, hi'⟩, _⟩ := hp
    split_ifs with hr
    · simp only [inRect, decide_eq_true_eq] at hr
      exact hg _ _ (by omega) (by omega)
    · rfl

theorem shown_congr {l : List (Program × String)} (hl : ∀ t ∈ l, Fitting W H bits t.1) {g g' : Nat → Nat → Nat}
    (hg : ∀ x y, x < W → y < H → g x y = g' x y) {x y : Nat} (hx : x < W) (hy : y < H) : shown W H bits l g x y = shown W H bits l g' x y := by
  induction l generalizing g g' with
  | nil => exact hg x y hx hy
  | cons t l ih => exact ih (fun s hs => hl s (by simp [hs])) fun x y hx hy => effect_congr (hl t (by simp)) hg hx hy

/-- C194: a chain of file programs succeeds, its last file shows the picture with the effects of all programs in their
order, with the palette of the source, and only the files named in the chain are written. -/
theorem C194_chain (h : Stored fs src b W H bits) {l : List (Program × String)} (hl : ∀ t ∈ l, Fitting W H bits t.1) :
    ∃ fs' b', runAll fs src l = .ok fs' ∧ Stored fs' (lastFile src l) b' W H bits ∧
      Redraws b b' W H bits (shown W H bits l (pix b W H bits)) ∧ ∀ n, (∀ t ∈ l, t.2 ≠ n) → fs' n = fs n := by
  induction l generalizing fs src b with
  | nil => exact ⟨fs, b, rfl, h, ⟨h.valid, ⟨rfl, fun _ _ => rfl⟩, fun _ _ _ _ => rfl⟩, fun _ _ => rfl⟩
  | cons t l ih =>
    obtain ⟨p, nw⟩ := t
    obtain ⟨b1, e1, r1⟩ := inMemory_ok h.valid (hl (p, nw) (by simp))
    have h1 : Stored (writeFile fs nw b1) nw b1 W H bits :=
      ⟨by simp [writeFile, saveBMP], r1.valid, by rw [r1.header.1]; exact h.long⟩
    obtain ⟨fs', b', e, hs, r, hn⟩ := ih h1 fun s hs => hl s (by simp [hs])
    refine ⟨fs', b', ?_, hs, ⟨r.valid, ⟨r.header.1.trans r1.header.1, fun i hi => (r.header.2 i hi).trans (r1.header.2 i hi)⟩, ?_⟩, ?_⟩
    · show (call p fs src nw >>= fun fs => runAll fs nw l) = _
      rw [call_eq, applysave_run h, e1]
      exact e
    · intro x y hx hy
      rw [r.pixels x y hx hy]
      exact shown_congr (fun s hs => hl s (by simp [hs])) r1.pixels hx hy
    · intro n hne
      rw [hn n fun s hs => hne s (by simp [hs])]
      have : n ≠ nw := fun e => hne (p, nw) (by simp) e.symm
      simp [writeFile, this]

/-- Every call on an image with pixels succeeds, but for every 0th line (ZeroDivisionError, `C78_zero`). -/
theorem inMemory_any (hv : Valid b W H bits) (hW : 0 < W) (hH : 0 < H) {p : Program} (hp : p ≠ .erase 0) :
    ∃ b', inMemory p b = .ok b' ∧ Valid b' W H bits ∧ SameHeader b b' bits := by
  have out {g : Nat → Nat → Nat} {r : Py Bytes} (h : ∃ b', r = .ok b' ∧ Redraws b b' W H bits g) : ∃ b', r = .ok b' ∧ Valid b' W H bits ∧ SameHeader b b' bits :=
    h.imp fun _ h => ⟨h.1, h.2.valid, h.2.header⟩
  have out2 {g : Nat → Nat → Nat} {r : Py Bytes} {P : Bytes → Prop} (h : ∃ b', r = .ok b' ∧ Redraws b b' W H bits g ∧ P b') :
      ∃ b', r = .ok b' ∧ Valid b' W H bits ∧ SameHeader b b' bits :=
    h.imp fun _ h => ⟨h.1, h.2.1.valid, h.2.1.header⟩
  have same {r : Py Bytes} (h : r = .ok b) : ∃ b', r = .ok b' ∧ Valid b' W H bits ∧ SameHeader b b' bits := ⟨b, h, hv, rfl, fun _ _ => rfl⟩
  cases p with
  | invert => exact out (inMemory_ok hv (p := .invert) trivial)
  | flipV => exact out (inMemory_ok hv (p := .flipV) trivial)
  | flipH => exact out (C30_exact hv)
  | mirrorT => exact out (inMemory_ok hv (p := .mirrorT) trivial)
  | mirrorB => exact out (inMemory_ok hv (p := .mirrorB) trivial)
  | mirrorL => exact out (C31_left_exact hv)
  | mirrorR => exact out (C31_right_exact hv)
  | mirrorTL => exact out (C56_exact hv hW hH).1
  | mirrorTR => exact out (C56_exact hv hW hH).2.1
  | mirrorBL => exact out (C56_exact hv hW hH).2.2.1
  | mirrorBR => exact out (C56_exact hv hW hH).2.2.2
  | outline => exact out (C81_image_exact hv hW hH)
  | erase n =>
    have hn : 0 < n := Nat.pos_of_ne_zero fun e => hp (by rw [e])
    exact out (inMemory_ok hv (p := .erase n) hn)
  | invertR x1 y1 x2 y2 =>
    by_cases hi : InImage W H x1 y1 x2 y2
    · exact out (C33_invertregion hv hi)
    · exact same (C33_rejected hv hi)
  | flipVR x1 y1 x2 y2 =>
    by_cases hi : InImage W H x1 y1 x2 y2
    · exact out2 (C55_flipverticalregion_exact hv hi)
    · exact same (C55_rejected hv hi).1
  | flipHR x1 y1 x2 y2 =>
    by_cases hi : InImage W H x1 y1 x2 y2
    · exact out (C53_exact hv hi)
    · exact same (C53_rejected hv hi).1
  | mirrorTR' x1 y1 x2 y2 =>
    by_cases hi : InImage W H x1 y1 x2 y2
    · exact out2 (C55_mirrortopinregion_exact hv hi)
    · exact same (C55_rejected hv hi).2.1
  | mirrorBR' x1 y1 x2 y2 =>
    by_cases hi : InImage W H x1 y1 x2 y2
    · exact out2 (C55_mirrorbottominregion_exact hv hi)
    · exact same (C55_rejected hv hi).2.2
  | mirrorLR x1 y1 x2 y2 =>
    by_cases hi : InImage W H x1 y1 x2 y2
    · exact out (C54_left_exact hv hi)
    · exact same (C53_rejected hv hi).2.1
  | mirrorRR x1 y1 x2 y2 =>
    by_cases hi : InImage W H x1 y1 x2 y2
    · exact out (C54_right_exact hv hi)
    · exact same (C53_rejected hv hi).2.2

/-- C194: for all calls, also those with a fault: the last file of a chain holds, byte for byte, what the functions for
images in memory give one after the other; it has the header and palette of the source, and only the files named in the
chain are written. -/
theorem C194_memory (h : Stored fs src b W H bits) (hW : 0 < W) (hH : 0 < H) {l : List (Program × String)} (hl : ∀ t ∈ l, t.1 ≠ .erase 0) :
    ∃ fs' b', runAll fs src l = .ok fs' ∧ l.foldlM (fun b t => inMemory t.1 b) b = .ok b' ∧ fs' (lastFile src l) = some b' ∧
      Valid b' W H bits ∧ SameHeader b b' bits ∧ ∀ n, (∀ t ∈ l, t.2 ≠ n) → fs' n = fs n := by
  induction l generalizing fs src b with
  | nil => exact ⟨fs, b, rfl, rfl, h.content, h.valid, ⟨rfl, fun _ _ => rfl⟩, fun _ _ => rfl⟩
  | cons t l ih =>
    obtain ⟨p, nw⟩ := t
    obtain ⟨b1, e1, v1, r1⟩ := inMemory_any h.valid hW hH (hl (p, nw) (by simp))
    have h1 : Stored (writeFile fs nw b1) nw b1 W H bits :=
      ⟨by simp [writeFile, saveBMP], v1, by rw [r1.1]; exact h.long⟩
    obtain ⟨fs', b', e, hm, hs, v, r, hn⟩ := ih h1 fun s hs => hl s (by simp [hs])
    refine ⟨fs', b', ?_, ?_, hs, v, ⟨r.1.trans r1.1, fun i hi => (r.2 i hi).trans (r1.2 i hi)⟩, ?_⟩
    · show (call p fs src nw >>= fun fs => runAll fs nw l) = _
      rw [call_eq, applysave_run h, e1]
      exact e
    · rw [List.foldlM_cons]
      show (inMemory p b >>= _) = _
      rw [e1]
      exact hm
    · intro n hne
      rw [hn n fun s hs => hne s (by simp [hs])]
      have : n ≠ nw := fun e => hne (p, nw) (by simp) e.symm
      simp [writeFile, this]

/-- Programs that exchange or repeat whole rows. -/
def OfRows : Program → Prop
  | .flipV | .mirrorT | .mirrorB => True
  | _ => False

/-- Programs that exchange or repeat whole columns, or complement all pixels. -/
def OfColumns : Program → Prop
  | .flipH | .mirrorL | .mirrorR | .invert => True
  | _ => False

theorem shown_append (l l' : List (Program × String)) (g : Nat → Nat → Nat) :
    shown W H bits (l ++ l') g = shown W H bits l' (shown W H bits l g) := by
  induction l generalizing g with
  | nil => rfl
  | cons t l ih => exact ih _

theorem lastFile_append (src : String) (l l' : List (Program × String)) : lastFile src (l ++ l') = lastFile (lastFile src l) l' := by
  induction l generalizing src with
  | nil => rfl
  | cons t l ih => exact ih _

/-- C194: a program on rows and a program on columns may be exchanged at any place of a chain. -/
theorem C194_exchange (h : Stored fs src b W H bits) {p q : Program} (hp : OfRows p) (hq : OfColumns q) {l l' : List (Program × String)} (n n' m : String)
    (hl : ∀ t ∈ l ++ [(p, n), (q, m)] ++ l', Fitting W H bits t.1) :
    ∃ fs1 fs2 b1 b2, runAll fs src (l ++ [(p, n), (q, m)] ++ l') = .ok fs1 ∧ runAll fs src (l ++ [(q, n'), (p, m)] ++ l') = .ok fs2 ∧
      fs1 (lastFile m l') = some b1 ∧ fs2 (lastFile m l') = some b2 ∧ Redraws b1 b2 W H bits (pix b1 W H bits) := by
  have hl2 : ∀ t ∈ l ++ [(q, n'), (p, m)] ++ l', Fitting W H bits t.1 := by
    have hpf := hl (p, n) (by simp)
    have hqf := hl (q, m) (by simp)
    intro t ht
    simp only [List.mem_append, List.mem_cons, List.not_mem_nil, or_false] at ht
    rcases ht with (ht | rfl | rfl) | ht
    · exact hl t (by simp [ht])
    · exact hqf
    · exact hpf
    · exact hl t (by simp [ht])
  obtain ⟨fs1, b1, e1, s1, r1, _⟩ := C194_chain h hl
  obtain ⟨fs2, b2, e2, s2, r2, _⟩ := C194_chain h hl2
  have c1 := s1.content
  have c2 := s2.content
  rw [lastFile_append, lastFile_append] at c1 c2
  refine ⟨fs1, fs2, b1, b2, e1, e2, c1, c2, r2.valid, ⟨r2.header.1.trans r1.header.1.symm, fun i hi => (r2.header.2 i hi).trans (r1.header.2 i hi).symm⟩, ?_⟩
  intro x y hx hy
  rw [r1.pixels x y hx hy, r2.pixels x y hx hy, shown_append, shown_append, shown_append, shown_append]
  congr 1
  show effect W H bits p (effect W H bits q _) = effect W H bits q (effect W H bits p _)
  funext u v
  cases p <;> first | exact hp.elim | (cases q <;> first | exact hq.elim | rfl)

/-- The colour numbers of a file. -/
def look (fs : Files) (n : String) (at' : List (Int × Int)) : Py (List Int) := do
  match fs n with
  | none => .error .typeError
  | some c => at'.mapM fun q => getxybit c q.1 q.2

/-- A chain that ends in its own source: upside down, complemented, then the left half repeated. -/
example : (do
    let b ← newBMP 4 2 4; let b ← plotxybit b 0 1 5; let b ← plotxybit b 1 1 7; let b ← plotxybit b 3 0 2
    let fs ← runAll (oneFile b) "a" [(.flipV, "u"), (.invert, "v"), (.mirrorL, "a")]
    pure (← look fs "u" [(0, 0), (1, 0), (3, 1)], ← look fs "v" [(0, 0), (1, 0), (3, 1)], ← look fs "a" [(0, 0), (1, 0), (2, 0), (3, 0), (3, 1)])) =
    .ok ([5, 7, 2], [10, 8, 13], [10, 8, 8, 10, 15]) := by decide +kernel

example : Fitting 4 2 4 .flipV ∧ Fitting 4 2 4 .invert ∧ Fitting 4 2 4 .mirrorL := by simp [Fitting]

/-- Two programs on rows may not be exchanged. -/
theorem C194_rows_wrong : (do
    let b ← newBMP 1 2 4; let b ← plotxybit b 0 0 5
    let fs ← runAll (oneFile b) "a" [(.flipV, "m"), (.mirrorT, "u")]
    let fs' ← runAll (oneFile b) "a" [(.mirrorT, "m"), (.flipV, "u")]
    pure (← look fs "u" [(0, 0), (0, 1)], ← look fs' "u" [(0, 0), (0, 1)])) = .ok ([0, 0], [5, 5]) := by decide +kernel

end Verif.Props.Chains
