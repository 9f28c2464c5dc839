import Verif.Model.Files
import Verif.Props.File
import Verif.Props.Tone
import Verif.Props.Erase
import Verif.Props.Compare
import Verif.Props.Crop
import Verif.Props.Resize
import Verif.Props.Upgrade
import Verif.Props.Rect
import Verif.Props.Palette
import Verif.Props.CircTurn
import Verif.Props.FlipXY
/-! Properties C86–C91: programs that read a bitmap file and write a changed copy. -/

namespace Verif.Props
open Verif Spec Model

variable {fs : Files} {ex nw : String} {b : Bytes} {W H bits : Nat}

theorem writeFile_saved (fs : Files) (nw : String) {b : Bytes} {P : Bytes → Prop} (hP : P b) : Saved fs (writeFile fs nw b) nw P :=
  ⟨⟨b, by simp [writeFile, saveBMP], hP⟩, fun n hn => by simp [writeFile, hn]⟩

theorem applysave_run (h : Stored fs ex b W H bits) (f : Bytes → Py Bytes) :
    applysave f fs ex nw = (do pure (writeFile fs nw (← f b))) := by
  unfold applysave checklink
  rw [h.content]
  dsimp only
  rw [show loadBMP b = .ok b from C15_save_load h.valid h.long]
  rfl

theorem applysave24_run (h : Stored fs ex b W H bits) (f : Bytes → Py Bytes) :
    applysave24 f fs ex nw = if bits ≠ 24 then .ok fs else (do pure (writeFile fs nw (← f b))) := by
  unfold applysave24 checklink
  rw [h.content]
  dsimp only
  rw [show loadBMP b = .ok b from C15_save_load h.valid h.long, ok_bind, h.valid.bits_eq, ok_bind]
  rfl

theorem applysaveopt_run (h : Stored fs ex b W H bits) (f : Bytes → Py (Option Bytes)) :
    applysaveopt f fs ex nw = (do match ← f b with
      | none => pure fs
      | some n => pure (writeFile fs nw n)) := by
  unfold applysaveopt checklink
  rw [h.content]
  dsimp only
  rw [show loadBMP b = .ok b from C15_save_load h.valid h.long]
  rfl

theorem applysave_saved (h : Stored fs ex b W H bits) {f : Bytes → Py Bytes} {P : Bytes → Prop}
    (hf : ∃ b', f b = .ok b' ∧ P b') : ∃ fs', applysave f fs ex nw = .ok fs' ∧ Saved fs fs' nw P := by
  obtain ⟨b', e, hP⟩ := hf
  refine ⟨_, ?_, writeFile_saved fs nw hP⟩
  rw [applysave_run h, e]
  rfl

theorem applysave24_saved (h : Stored fs ex b W H 24) {f : Bytes → Py Bytes} {P : Bytes → Prop}
    (hf : ∃ b', f b = .ok b' ∧ P b') : ∃ fs', applysave24 f fs ex nw = .ok fs' ∧ Saved fs fs' nw P := by
  obtain ⟨b', e, hP⟩ := hf
  refine ⟨_, ?_, writeFile_saved fs nw hP⟩
  rw [applysave24_run h, if_neg (by simp), e]
  rfl

theorem notBMP_load {c : Bytes} (h : NotBMP c) : loadBMP c = .ok [] := by
  rcases h with h | h
  · exact (C16_load c).1 h
  · exact (C16_load c).2.1 h

theorem frame_write {fs fs' : Files} {nw : String} {r : Py Bytes}
    (h : (do pure (writeFile fs nw (← r)) : Py Files) = .ok fs') : ∀ n, n ≠ nw → fs' n = fs n := by
  cases r with
  | error e => cases h
  | ok b => cases h; intro n hn; simp [writeFile, hn]

theorem careful {f : Bytes → Py Bytes} {e : PyErr} (hf : f [] = .error e) : Careful (applysave f) := by
  refine ⟨fun fs ex nw hn => by simp [applysave, checklink, hn, pure_eq_ok], fun fs ex nw c hc hb => ⟨e, ?_⟩, fun fs ex nw fs' hr => ?_⟩
  · unfold applysave checklink
    rw [hc]
    dsimp only
    rw [notBMP_load hb, ok_bind, hf]
    rfl
  · unfold applysave checklink at hr
    cases hc : fs ex with
    | none => rw [hc] at hr; cases hr; exact fun _ _ => rfl
    | some c =>
      rw [hc] at hr
      dsimp only at hr
      cases hl : loadBMP c with
      | error e => rw [hl] at hr; cases hr
      | ok b => rw [hl, ok_bind] at hr; exact frame_write hr

theorem careful24 (f : Bytes → Py Bytes) : Careful (applysave24 f) := by
  refine ⟨fun fs ex nw hn => by simp [applysave24, checklink, hn, pure_eq_ok], fun fs ex nw c hc hb => ⟨.indexError, ?_⟩,
    fun fs ex nw fs' hr => ?_⟩
  · unfold applysave24 checklink
    rw [hc]
    dsimp only
    rw [notBMP_load hb]
    rfl
  · unfold applysave24 checklink at hr
    cases hc : fs ex with
    | none => rw [hc] at hr; cases hr; exact fun _ _ => rfl
    | some c =>
      rw [hc] at hr
      dsimp only at hr
      cases hl : loadBMP c with
      | error e => rw [hl] at hr; cases hr
      | ok b =>
        rw [hl, ok_bind] at hr
        cases hi : getItem b bmpcolorbits with
        | error e => rw [hi] at hr; cases hr
        | ok v =>
          rw [hi, ok_bind] at hr
          split_ifs at hr
          · cases hr; exact fun _ _ => rfl
          · exact frame_write hr

theorem carefulopt {f : Bytes → Py (Option Bytes)} {e : PyErr} (hf : f [] = .error e) : Careful (applysaveopt f) := by
  refine ⟨fun fs ex nw hn => by simp [applysaveopt, checklink, hn, pure_eq_ok], fun fs ex nw c hc hb => ⟨e, ?_⟩, fun fs ex nw fs' hr => ?_⟩
  · unfold applysaveopt checklink
    rw [hc]
    dsimp only
    rw [notBMP_load hb, ok_bind, hf]
    rfl
  · unfold applysaveopt checklink at hr
    cases hc : fs ex with
    | none => rw [hc] at hr; cases hr; exact fun _ _ => rfl
    | some c =>
      rw [hc] at hr
      dsimp only at hr
      cases hl : loadBMP c with
      | error e => rw [hl] at hr; cases hr
      | ok b =>
        rw [hl, ok_bind] at hr
        cases hr2 : f b with
        | error e => rw [hr2] at hr; cases hr
        | ok o =>
          rw [hr2, ok_bind] at hr
          cases o with
          | none => cases hr; exact fun _ _ => rfl
          | some n => cases hr; intro m hm; simp [writeFile, hm]

theorem only24 (f : Bytes → Py Bytes) : TrueColourOnly (applysave24 f) := by
  intro fs ex nw b W H bits h hb
  rw [applysave24_run h, if_pos hb]

/-- C86: the functions on whole images change no file but the new one; without a source, or with a source
that is not a bitmap, they write nothing. -/
theorem C86_images (f : Nat → Nat → Int) (shift n : Int) :
    Careful (fun fs ex nw => invertbits2file fs ex nw) ∧
    Careful (fun fs ex nw => flipvertical2file fs ex nw) ∧
    Careful (fun fs ex nw => mirrortop2file fs ex nw) ∧
    Careful (fun fs ex nw => mirrortopleft2file fs ex nw) ∧
    Careful (fun fs ex nw => mirrortopright2file fs ex nw) ∧
    Careful (fun fs ex nw => mirrorbottomleft2file fs ex nw) ∧
    Careful (fun fs ex nw => mirrorbottomright2file fs ex nw) ∧
    Careful (fun fs ex nw => mirrorbottom2file fs ex nw) ∧
    Careful (fun fs ex nw => mirrorleft2file fs ex nw) ∧
    Careful (fun fs ex nw => mirrorright2file fs ex nw) ∧
    Careful (fun fs ex nw => fliphorizontal2file fs ex nw) ∧
    Careful (fun fs ex nw => flipXY2file fs ex nw) ∧
    Careful (fun fs ex nw => palshift2file fs ex nw shift) ∧
    Careful (fun fs ex nw => resizeNtimesbigger2file fs ex nw n) ∧
    Careful (fun fs ex nw => upgradeto24bitimage2file fs ex nw) ∧
    Careful (fun fs ex nw => eraseeverynthhoriline2file fs ex nw n) ∧
    Careful (fun fs ex nw => outline2file fs ex nw) ∧
    Careful (fun fs ex nw => horizontalbrightnessgrad2file f fs ex nw) ∧
    Careful (fun fs ex nw => verticalbrightnessgrad2file f fs ex nw) :=
  ⟨careful rfl, careful rfl, careful rfl, careful rfl, careful rfl, careful rfl, careful rfl, careful rfl, careful rfl, careful rfl, careful rfl, careful rfl, careful rfl, careful24 _, careful rfl, careful rfl, careful rfl, careful24 _, careful24 _⟩

/-- C86: the functions on rectangles. -/
theorem C86_regions (f fr fg fb : Nat → Int) (t2 : Nat → Nat → Int) (t3 : Nat → Nat → Nat → Int) (x1 y1 x2 y2 l0 l1 n color : Int) :
    Careful (fun fs ex nw => flipverticalregion2file fs ex nw x1 y1 x2 y2) ∧
    Careful (fun fs ex nw => fliphorizontalregion2file fs ex nw x1 y1 x2 y2) ∧
    Careful (fun fs ex nw => mirrorleftinregion2file fs ex nw x1 y1 x2 y2) ∧
    Careful (fun fs ex nw => mirrorrightinregion2file fs ex nw x1 y1 x2 y2) ∧
    Careful (fun fs ex nw => mirrortopinregion2file fs ex nw x1 y1 x2 y2) ∧
    Careful (fun fs ex nw => mirrorbottominregion2file fs ex nw x1 y1 x2 y2) ∧
    Careful (fun fs ex nw => mirrortopleftinregion2file fs ex nw x1 y1 x2 y2) ∧
    Careful (fun fs ex nw => mirrortoprightinregion2file fs ex nw x1 y1 x2 y2) ∧
    Careful (fun fs ex nw => mirrorbottomleftinregion2file fs ex nw x1 y1 x2 y2) ∧
    Careful (fun fs ex nw => mirrorbottomrightinregion2file fs ex nw x1 y1 x2 y2) ∧
    Careful (fun fs ex nw => invertregion2file fs ex nw x1 y1 x2 y2) ∧
    Careful (fun fs ex nw => adjustbrightnessinregion2file f fs ex nw x1 y1 x2 y2) ∧
    Careful (fun fs ex nw => adjustthresholdinregion2file t3 fs ex nw x1 y1 x2 y2 l0 l1) ∧
    Careful (fun fs ex nw => colorfilterinregion2file fr fg fb fs ex nw x1 y1 x2 y2) ∧
    Careful (fun fs ex nw => monofilterinregion2file fs ex nw x1 y1 x2 y2) ∧
    Careful (fun fs ex nw => gammaadjtoregion2file t2 fs ex nw x1 y1 x2 y2) ∧
    Careful (fun fs ex nw => eraseeverynthhorilineinregion2file fs ex nw x1 y1 x2 y2 n) ∧
    Careful (fun fs ex nw => filledrect2file fs ex nw x1 y1 x2 y2 color) ∧
    Careful (fun fs ex nw => outlineregion2file fs ex nw x1 y1 x2 y2) ∧
    Careful (fun fs ex nw => horizontalbrightnessgradregion2file t2 fs ex nw x1 y1 x2 y2) ∧
    Careful (fun fs ex nw => verticalbrightnessgradregion2file t2 fs ex nw x1 y1 x2 y2) :=
  ⟨careful rfl, careful rfl, careful rfl, careful rfl, careful rfl, careful rfl, careful rfl, careful rfl, careful rfl, careful rfl, careful rfl, careful24 _, careful24 _, careful24 _, careful24 _, careful24 _, careful rfl, careful rfl, careful rfl, careful24 _, careful24 _⟩

/-- C86: the functions on discs. -/
theorem C86_discs (f fr fg fb : Nat → Int) (fi : Int → Nat → Int) (t2 : Nat → Nat → Int) (t3 : Nat → Nat → Nat → Int)
    (x y r l0 l1 n nx ny color : Int) :
    Careful (fun fs ex nw => monochromecircregion2file fs ex nw x y r) ∧
    Careful (fun fs ex nw => invertbitsincircregion2file fs ex nw x y r) ∧
    Careful (fun fs ex nw => colorfiltercircregion2file fr fg fb fs ex nw x y r) ∧
    Careful (fun fs ex nw => thresholdadjcircregion2file t3 fs ex nw x y r l0 l1) ∧
    Careful (fun fs ex nw => gammacorrectcircregion2file t2 fs ex nw x y r) ∧
    Careful (fun fs ex nw => filledcircle2file fs ex nw x y r color) ∧
    Careful (fun fs ex nw => circle2file fs ex nw x y r color) ∧
    Careful (fun fs ex nw => brightnessadjcircregion2file f fs ex nw x y r) ∧
    Careful (fun fs ex nw => vertbrightnessgrad2circregion2file fi fs ex nw x y r) ∧
    Careful (fun fs ex nw => horibrightnessgrad2circregion2file fi fs ex nw x y r) ∧
    Careful (fun fs ex nw => flipvertcircregion2file fs ex nw x y r) ∧
    Careful (fun fs ex nw => eraseeverynthhorilineinccircregion2file fs ex nw x y r n) ∧
    Careful (fun fs ex nw => mirrortopincircregion2file fs ex nw x y r) ∧
    Careful (fun fs ex nw => mirrorbottomincircregion2file fs ex nw x y r) ∧
    Careful (fun fs ex nw => mirrorleftincircregion2file fs ex nw x y r) ∧
    Careful (fun fs ex nw => mirrorrightincircregion2file fs ex nw x y r) ∧
    Careful (fun fs ex nw => mirrortopleftincircregion2file fs ex nw x y r) ∧
    Careful (fun fs ex nw => mirrorbottomleftincircregion2file fs ex nw x y r) ∧
    Careful (fun fs ex nw => mirrortoprightincircregion2file fs ex nw x y r) ∧
    Careful (fun fs ex nw => mirrorbottomrightincircregion2file fs ex nw x y r) ∧
    Careful (fun fs ex nw => fliphoricircregion2file fs ex nw x y r) ∧
    Careful (fun fs ex nw => outlinecircregion2file fs ex nw x y r) ∧
    Careful (fun fs ex nw => flipXYcircregion2file fs ex nw x y r) ∧
    Careful (fun fs ex nw => copycircregion2file fs ex nw x y r nx ny) :=
  ⟨careful24 _, careful rfl, careful24 _, careful24 _, careful24 _, careful rfl, careful rfl, careful24 _, careful24 _, careful24 _, careful rfl, careful rfl, careful rfl, careful rfl, careful rfl, careful rfl, careful rfl, careful rfl, careful rfl, careful rfl, careful rfl, careful rfl, careful rfl, careful rfl⟩

/-- C86: the colour adjustments and the two ways of cropping. -/
theorem C86_colours (f fr fg fb : Nat → Int) (g t : Nat → Nat → Int) (g3 t3 : Nat → Nat → Nat → Int) (l0 l1 x1 y1 x2 y2 : Int)
    (p q : Int × Int) :
    Careful (adjustbrightness2file g f) ∧ Careful (fun fs ex nw => thresholdadjust2file g3 t3 fs ex nw l0 l1) ∧
    Careful (colorfilter2file fr fg fb) ∧ Careful monochrome2file ∧ Careful (gammaadj2file g t) ∧
    Careful (fun fs ex nw => cropBMPandsave fs ex nw x1 y1 x2 y2) ∧
    Careful (fun fs ex nw => cropBMPandsaveusingrectbnd fs ex nw p q) :=
  ⟨careful rfl, careful rfl, careful rfl, careful rfl, careful rfl, carefulopt rfl, carefulopt rfl⟩

/-- C86: the filters for true-colour images leave all files alone when the source has a palette. -/
theorem C86_truecolour (f fr fg fb : Nat → Int) (fi : Int → Nat → Int) (t2 : Nat → Nat → Int) (t3 : Nat → Nat → Nat → Int)
    (x1 y1 x2 y2 x y r l0 l1 n : Int) :
    TrueColourOnly (fun fs ex nw => adjustbrightnessinregion2file f fs ex nw x1 y1 x2 y2) ∧
    TrueColourOnly (fun fs ex nw => adjustthresholdinregion2file t3 fs ex nw x1 y1 x2 y2 l0 l1) ∧
    TrueColourOnly (fun fs ex nw => colorfilterinregion2file fr fg fb fs ex nw x1 y1 x2 y2) ∧
    TrueColourOnly (fun fs ex nw => monofilterinregion2file fs ex nw x1 y1 x2 y2) ∧
    TrueColourOnly (fun fs ex nw => resizeNtimesbigger2file fs ex nw n) ∧
    TrueColourOnly (fun fs ex nw => gammaadjtoregion2file t2 fs ex nw x1 y1 x2 y2) ∧
    TrueColourOnly (fun fs ex nw => monochromecircregion2file fs ex nw x y r) ∧
    TrueColourOnly (fun fs ex nw => colorfiltercircregion2file fr fg fb fs ex nw x y r) ∧
    TrueColourOnly (fun fs ex nw => thresholdadjcircregion2file t3 fs ex nw x y r l0 l1) ∧
    TrueColourOnly (fun fs ex nw => gammacorrectcircregion2file t2 fs ex nw x y r) ∧
    TrueColourOnly (fun fs ex nw => brightnessadjcircregion2file f fs ex nw x y r) ∧
    TrueColourOnly (fun fs ex nw => vertbrightnessgrad2circregion2file fi fs ex nw x y r) ∧
    TrueColourOnly (fun fs ex nw => horibrightnessgrad2circregion2file fi fs ex nw x y r) ∧
    TrueColourOnly (fun fs ex nw => horizontalbrightnessgrad2file t2 fs ex nw) ∧
    TrueColourOnly (fun fs ex nw => horizontalbrightnessgradregion2file t2 fs ex nw x1 y1 x2 y2) ∧
    TrueColourOnly (fun fs ex nw => verticalbrightnessgrad2file t2 fs ex nw) ∧
    TrueColourOnly (fun fs ex nw => verticalbrightnessgradregion2file t2 fs ex nw x1 y1 x2 y2) :=
  ⟨only24 _, only24 _, only24 _, only24 _, only24 _, only24 _, only24 _, only24 _, only24 _, only24 _, only24 _, only24 _, only24 _, only24 _, only24 _, only24 _, only24 _⟩

/-- A file system that holds one image. -/
def oneFile (b : Bytes) : Files := fun n => if n = "a" then some b else none

theorem stored_oneFile (h : Valid b W H bits) (hl : 54 < b.length) : Stored (oneFile b) "a" b W H bits :=
  ⟨by simp [oneFile], h, hl⟩

theorem C87_invertbits2file (h : Stored fs ex b W H bits) :
    ∃ fs', invertbits2file fs ex nw = .ok fs' ∧ Saved fs fs' nw (fun b' =>
      Redraws b b' W H bits (fun x y => 2 ^ bits - 1 - pix b W H bits x y) ∧ invertimagebits b' = .ok b) :=
  applysave_saved h (C32_invertimagebits h.valid)

theorem C87_flipvertical2file (h : Stored fs ex b W H bits) :
    ∃ fs', flipvertical2file fs ex nw = .ok fs' ∧ Saved fs fs' nw (fun b' =>
      Redraws b b' W H bits (fun x y => pix b W H bits x (H - 1 - y)) ∧ flipvertical b' = .ok b) :=
  applysave_saved h (C28_flipvertical h.valid)

theorem C87_mirrortop2file (h : Stored fs ex b W H bits) :
    ∃ fs', mirrortop2file fs ex nw = .ok fs' ∧ Saved fs fs' nw (fun b' =>
      Redraws b b' W H bits (fun x y => pix b W H bits x (min y (H - 1 - y))) ∧ flipvertical b' = .ok b' ∧ mirrortop
    b' = .ok b') :=
  applysave_saved h (C29_mirrortop h.valid)

theorem C87_mirrorbottom2file (h : Stored fs ex b W H bits) :
    ∃ fs', mirrorbottom2file fs ex nw = .ok fs' ∧ Saved fs fs' nw (fun b' =>
      Redraws b b' W H bits (fun x y => pix b W H bits x (max y (H - 1 - y))) ∧ flipvertical b' = .ok b' ∧
    mirrorbottom b' = .ok b') :=
  applysave_saved h (C29_mirrorbottom h.valid)

theorem C87_mirrortopleft2file_partial (h : Stored fs ex b W H bits) (hb : bits = 8 ∨ bits = 24 ∨ (bits = 4 ∧ W % 4
    = 0)) :
    ∃ fs', mirrortopleft2file fs ex nw = .ok fs' ∧ Saved fs fs' nw (fun b' =>
      Redraws b b' W H bits (fun x y => pix b W H bits (min x (W - 1 - x)) (min y (H - 1 - y)))) :=
  applysave_saved h (C56_mirrortopleft_partial h.valid hb)

theorem C87_mirrortopright2file_partial (h : Stored fs ex b W H bits) (hb : bits = 8 ∨ bits = 24 ∨ (bits = 4 ∧ W % 4
    = 0)) :
    ∃ fs', mirrortopright2file fs ex nw = .ok fs' ∧ Saved fs fs' nw (fun b' =>
      Redraws b b' W H bits (fun x y => pix b W H bits (max x (W - 1 - x)) (min y (H - 1 - y)))) :=
  applysave_saved h (C56_mirrortopright_partial h.valid hb)

theorem C87_mirrorbottomleft2file_partial (h : Stored fs ex b W H bits) (hb : bits = 8 ∨ bits = 24 ∨ (bits = 4 ∧ W %
    4 = 0)) :
    ∃ fs', mirrorbottomleft2file fs ex nw = .ok fs' ∧ Saved fs fs' nw (fun b' =>
      Redraws b b' W H bits (fun x y => pix b W H bits (min x (W - 1 - x)) (max y (H - 1 - y)))) :=
  applysave_saved h (C56_mirrorbottomleft_partial h.valid hb)

theorem C87_mirrorbottomright2file_partial (h : Stored fs ex b W H bits) (hb : bits = 8 ∨ bits = 24 ∨ (bits = 4 ∧ W
    % 4 = 0)) :
    ∃ fs', mirrorbottomright2file fs ex nw = .ok fs' ∧ Saved fs fs' nw (fun b' =>
      Redraws b b' W H bits (fun x y => pix b W H bits (max x (W - 1 - x)) (max y (H - 1 - y)))) :=
  applysave_saved h (C56_mirrorbottomright_partial h.valid hb)

theorem C87_mirrorleft2file_partial (h : Stored fs ex b W H bits) (hb : bits = 8 ∨ bits = 24 ∨ (bits = 4 ∧ W % 4 =
    0)) :
    ∃ fs', mirrorleft2file fs ex nw = .ok fs' ∧ Saved fs fs' nw (fun b' =>
      Redraws b b' W H bits (fun x y => pix b W H bits (min x (W - 1 - x)) y) ∧ mirrorleft b' = .ok b') :=
  applysave_saved h (C31_mirrorleft_partial h.valid hb)

theorem C87_mirrorright2file_partial (h : Stored fs ex b W H bits) (hb : bits = 8 ∨ bits = 24 ∨ (bits = 4 ∧ W % 4 =
    0)) :
    ∃ fs', mirrorright2file fs ex nw = .ok fs' ∧ Saved fs fs' nw (fun b' =>
      Redraws b b' W H bits (fun x y => pix b W H bits (max x (W - 1 - x)) y) ∧ mirrorright b' = .ok b') :=
  applysave_saved h (C31_mirrorright_partial h.valid hb)

theorem C87_fliphorizontal2file_partial (h : Stored fs ex b W H bits) (hb : bits = 8 ∨ bits = 24 ∨ (bits = 4 ∧ W % 2
    = 0)) :
    ∃ fs', fliphorizontal2file fs ex nw = .ok fs' ∧ Saved fs fs' nw (fun b' =>
      Redraws b b' W H bits (fun x y => pix b W H bits (W - 1 - x) y) ∧ fliphorizontal b' = .ok b) :=
  applysave_saved h (C30_fliphorizontal_partial h.valid hb)

theorem C87_outline2file (h : Stored fs ex b W H bits) (hW : 0 < W) (hH : 0 < H) (ha : W * bits % 8 = 0) :
    ∃ fs', outline2file fs ex nw = .ok fs' ∧ Saved fs fs' nw (fun b' =>
      Redraws b b' W H bits (fun px py => if py = 0 then 0 else pix b W H bits px py ^^^ pix b W H bits px (py -
    1))) :=
  applysave_saved h (C81_image h.valid hW hH ha)

theorem C87_eraseeverynthhoriline2file_partial (h : Stored fs ex b W H bits) {n : Nat} (hn : 0 < n) :
    ∃ fs', eraseeverynthhoriline2file fs ex nw n = .ok fs' ∧ Saved fs fs' nw (fun b' =>
      Paints b b' W H bits (fun _ py => py + 1 < H ∧ n ∣ py + 1) 0) :=
  applysave_saved h (C78_every_partial h.valid hn)

/-- C87: a rotated palette; other depths are copied. -/
theorem C87_palshift2file (h : Stored fs ex b W H bits) (k : Int) :
    ∃ fs', palshift2file fs ex nw k = .ok fs' ∧ Saved fs fs' nw (fun b' =>
      ((bits = 4 ∨ bits = 8) → Valid b' W H bits ∧ SamePixels b b' bits ∧
        ∀ c, c < 2 ^ bits → palRGB b' c = palRGB b ((c + k.natAbs) % 2 ^ bits)) ∧
      ((bits = 1 ∨ bits = 24) → b' = b)) := by
  apply applysave_saved h
  obtain ⟨h1, h2⟩ := C14_palshift h.valid k
  rcases h.valid.depth with e | e | e | e
  · exact ⟨b, h2 (Or.inl e), fun g => by omega, fun _ => rfl⟩
  · obtain ⟨b', e1, e2⟩ := h1 (Or.inl e)
    exact ⟨b', e1, fun _ => e2, fun g => by omega⟩
  · obtain ⟨b', e1, e2⟩ := h1 (Or.inr e)
    exact ⟨b', e1, fun _ => e2, fun g => by omega⟩
  · exact ⟨b, h2 (Or.inr e), fun g => by omega, fun _ => rfl⟩

/-- C87: the brightness gradients; the top row of the horizontal one is not treated. -/
theorem C87_gradients_partial (h : Stored fs ex b W H 24) (f : Nat → Nat → Int) (hW : 1 < W) (hH : 1 < H) :
    (∃ fs', horizontalbrightnessgrad2file f fs ex nw = .ok fs' ∧ Saved fs fs' nw (fun b' => Redraws b b' W H 24
      (fun x y => if y ≠ 0 then brightened (f x) (pix b W H 24 x y) else pix b W H 24 x y))) ∧
    (∃ fs', verticalbrightnessgrad2file f fs ex nw = .ok fs' ∧ Saved fs fs' nw (fun b' => Redraws b b' W H 24
      (fun x y => brightened (f (H - 1 - y)) (pix b W H 24 x y)))) :=
  ⟨applysave24_saved h (C85_images h.valid f hW hH).1, applysave24_saved h (C85_images h.valid f hW hH).2⟩

theorem Stored.of_saved {fs fs' : Files} {nw : String} {P : Bytes → Prop} (h : Saved fs fs' nw P) :
    ∃ c, fs' nw = some c ∧ P c := h.1

theorem roundtrip {f : Bytes → Py Bytes} {mid : String} (h : Stored fs ex b W H bits)
    (hf : ∃ b', f b = .ok b' ∧ Valid b' W H bits ∧ b'.length = b.length ∧ f b' = .ok b) :
    ∃ fs' fs'', applysave f fs ex mid = .ok fs' ∧ applysave f fs' mid nw = .ok fs'' ∧ fs'' nw = fs ex ∧
      ∀ n, n ≠ mid → n ≠ nw → fs'' n = fs n := by
  obtain ⟨b', e, v, hl, e2⟩ := hf
  obtain ⟨fs', r, ⟨c, hc, hcb⟩, fr⟩ := applysave_saved (nw := mid) h (P := fun c => c = b') ⟨b', e, rfl⟩
  subst hcb
  have h' : Stored fs' mid c W H bits := ⟨hc, v, by rw [hl]; exact h.long⟩
  obtain ⟨fs'', r', ⟨d, hd, hdb⟩, fr'⟩ := applysave_saved (nw := nw) h' (P := fun c => c = b) ⟨b, e2, rfl⟩
  refine ⟨fs', fs'', r, r', by rw [hd, hdb, h.content], ?_⟩
  intro n h1 h2
  rw [fr' n h2, fr n h1]

/-- C87: complementing or turning a file upside down twice gives the same file again, byte for byte. -/
theorem C87_twice (h : Stored fs ex b W H bits) (mid : String) :
    (∃ fs' fs'', invertbits2file fs ex mid = .ok fs' ∧ invertbits2file fs' mid nw = .ok fs'' ∧ fs'' nw = fs ex ∧
      ∀ n, n ≠ mid → n ≠ nw → fs'' n = fs n) ∧
    (∃ fs' fs'', flipvertical2file fs ex mid = .ok fs' ∧ flipvertical2file fs' mid nw = .ok fs'' ∧ fs'' nw = fs ex ∧
      ∀ n, n ≠ mid → n ≠ nw → fs'' n = fs n) := by
  constructor
  · obtain ⟨b', e, r, e2⟩ := C32_invertimagebits h.valid
    exact roundtrip h ⟨b', e, r.valid, r.header.1, e2⟩
  · obtain ⟨b', e, r, e2⟩ := C28_flipvertical h.valid
    exact roundtrip h ⟨b', e, r.valid, r.header.1, e2⟩

/-- Complementing a stored image twice: the second copy is the first file again, and the first copy differs. -/
example : (do
    let b ← newBMP 3 2 4; let b ← plotxybit b 1 1 9; let fs ← invertbits2file (oneFile b) "a" "m"
    let fs2 ← invertbits2file fs "m" "n"; pure (fs2 "n" == some b, fs2 "m" == some b, fs2 "a" == some b, fs2 "x")) =
    .ok (true, false, true, none) := by decide +kernel
/-- The rows of the copy are exchanged; a missing source changes nothing. -/
example : (do
    let b ← newBMP 3 2 24; let b ← plotxybit b 1 0 9; let fs ← flipvertical2file (oneFile b) "a" "n"
    let z ← flipvertical2file (oneFile b) "c" "n"
    pure ((fs "n").map fun c => (pix c 3 2 24 1 0, pix c 3 2 24 1 1), z "n")) = .ok (some (0, 9), none) := by decide +kernel

theorem C88_flipverticalregion2file_partial (h : Stored fs ex b W H bits) {x1 y1 x2 y2 : Int} (hi : InImage W H x1
    y1 x2 y2) (ha : AlignedI bits x1 x2) :
    ∃ fs', flipverticalregion2file fs ex nw x1 y1 x2 y2 = .ok fs' ∧ Saved fs fs' nw (fun b' =>
      Redraws b b' W H bits (fun x y => if inRect x1 y1 x2 y2 x y then pix b W H bits x (y1 + y2 - y).toNat else pix
    b W H bits x y) ∧ flipverticalregion b' x1 y1 x2 y2 = .ok b) :=
  applysave_saved h (C55_flipverticalregion_partial h.valid hi ha)

theorem C88_fliphorizontalregion2file_partial (h : Stored fs ex b W H bits) {x1 y1 x2 y2 : Int} (hi : InImage W H x1
    y1 x2 y2) (hok : FlipOK bits x1 x2) :
    ∃ fs', fliphorizontalregion2file fs ex nw x1 y1 x2 y2 = .ok fs' ∧ Saved fs fs' nw (fun b' =>
      Redraws b b' W H bits (fun x y => if inRect x1 y1 x2 y2 x y then pix b W H bits (x1 + x2 - x).toNat y else pix
    b W H bits x y) ∧ fliphorizontalregion b' x1 y1 x2 y2 = .ok b) :=
  applysave_saved h (C53_fliphorizontalregion_partial h.valid hi hok)

theorem C88_mirrorleftinregion2file_partial (h : Stored fs ex b W H bits) {x1 y1 x2 y2 : Int} (hi : InImage W H x1
    y1 x2 y2) (hok : MirrorOK bits x1 x2) :
    ∃ fs', mirrorleftinregion2file fs ex nw x1 y1 x2 y2 = .ok fs' ∧ Saved fs fs' nw (fun b' =>
      Redraws b b' W H bits (fun x y => if inRect x1 y1 x2 y2 x y then pix b W H bits (min (x : Int) (x1 + x2 -
    x)).toNat y else pix b W H bits x y) ∧ mirrorleftinregion b' x1 y1 x2 y2 = .ok b') :=
  applysave_saved h (C54_mirrorleftinregion_partial h.valid hi hok)

theorem C88_mirrorrightinregion2file_partial (h : Stored fs ex b W H bits) {x1 y1 x2 y2 : Int} (hi : InImage W H x1
    y1 x2 y2) (hok : MirrorOK bits x1 x2) :
    ∃ fs', mirrorrightinregion2file fs ex nw x1 y1 x2 y2 = .ok fs' ∧ Saved fs fs' nw (fun b' =>
      Redraws b b' W H bits (fun x y => if inRect x1 y1 x2 y2 x y then pix b W H bits (max (x : Int) (x1 + x2 -
    x)).toNat y else pix b W H bits x y) ∧ mirrorrightinregion b' x1 y1 x2 y2 = .ok b') :=
  applysave_saved h (C54_mirrorrightinregion_partial h.valid hi hok)

theorem C88_mirrortopinregion2file_partial (h : Stored fs ex b W H bits) {x1 y1 x2 y2 : Int} (hi : InImage W H x1 y1
    x2 y2) (ha : AlignedI bits x1 x2) :
    ∃ fs', mirrortopinregion2file fs ex nw x1 y1 x2 y2 = .ok fs' ∧ Saved fs fs' nw (fun b' =>
      Redraws b b' W H bits (fun x y => if inRect x1 y1 x2 y2 x y then pix b W H bits x (min (y : Int) (y1 + y2 -
    y)).toNat else pix b W H bits x y) ∧ mirrortopinregion b' x1 y1 x2 y2 = .ok b') :=
  applysave_saved h (C55_mirrortopinregion_partial h.valid hi ha)

theorem C88_mirrorbottominregion2file_partial (h : Stored fs ex b W H bits) {x1 y1 x2 y2 : Int} (hi : InImage W H x1
    y1 x2 y2) (ha : AlignedI bits x1 x2) :
    ∃ fs', mirrorbottominregion2file fs ex nw x1 y1 x2 y2 = .ok fs' ∧ Saved fs fs' nw (fun b' =>
      Redraws b b' W H bits (fun x y => if inRect x1 y1 x2 y2 x y then pix b W H bits x (max (y : Int) (y1 + y2 -
    y)).toNat else pix b W H bits x y) ∧ mirrorbottominregion b' x1 y1 x2 y2 = .ok b') :=
  applysave_saved h (C55_mirrorbottominregion_partial h.valid hi ha)

theorem C88_invertregion2file (h : Stored fs ex b W H bits) {x1 y1 x2 y2 : Int} (hi : InImage W H x1 y1 x2 y2) :
    ∃ fs', invertregion2file fs ex nw x1 y1 x2 y2 = .ok fs' ∧ Saved fs fs' nw (fun b' =>
      Redraws b b' W H bits (fun x y => if inRect x1 y1 x2 y2 x y then 2 ^ bits - 1 - pix b W H bits x y else pix b
    W H bits x y)) :=
  applysave_saved h (C33_invertregion h.valid hi)

theorem C88_adjustbrightnessinregion2file (h : Stored fs ex b W H 24) (f : Nat → Int) {x1 y1 x2 y2 : Int} (hi :
    InImage W H x1 y1 x2 y2) :
    ∃ fs', adjustbrightnessinregion2file f fs ex nw x1 y1 x2 y2 = .ok fs' ∧ Saved fs fs' nw (fun b' =>
      Redraws b b' W H 24 (fun x y => if inRect x1 y1 x2 y2 x y then brightened f (pix b W H 24 x y) else pix b W H
    24 x y)) :=
  applysave24_saved h (C59_brightness h.valid f hi)

theorem C88_adjustthresholdinregion2file (h : Stored fs ex b W H 24) {t : Nat → Nat → Nat → Int} (ht : Scales t) (l0
    l1 : Int) {x1 y1 x2 y2 : Int} (hi : InImage W H x1 y1 x2 y2) :
    ∃ fs', adjustthresholdinregion2file t fs ex nw x1 y1 x2 y2 l0 l1 = .ok fs' ∧ Saved fs fs' nw (fun b' =>
      Redraws b b' W H 24 (fun x y => if inRect x1 y1 x2 y2 x y then limited t (min (l0 % 256) (l1 % 256)).toNat
    (max (l0 % 256) (l1 % 256)).toNat (pix b W H 24 x y) else pix b W H 24 x y)) :=
  applysave24_saved h (C83_region h.valid ht l0 l1 hi)

theorem C88_colorfilterinregion2file (h : Stored fs ex b W H 24) {fr fg fb : Nat → Int} (hr : KeepsByte fr) (hg :
    KeepsByte fg) (hb : KeepsByte fb) {x1 y1 x2 y2 : Int} (hi : InImage W H x1 y1 x2 y2) :
    ∃ fs', colorfilterinregion2file fr fg fb fs ex nw x1 y1 x2 y2 = .ok fs' ∧ Saved fs fs' nw (fun b' =>
      Redraws b b' W H 24 (fun x y => if inRect x1 y1 x2 y2 x y ∧ (x : Int) ≠ max x1 x2 then scaled fr fg fb (pix b
    W H 24 x y) else pix b W H 24 x y)) :=
  applysave24_saved h (C58_exact h.valid hr hg hb hi)

theorem C88_monofilterinregion2file (h : Stored fs ex b W H 24) {x1 y1 x2 y2 : Int} (hi : InImage W H x1 y1 x2 y2) :
    ∃ fs', monofilterinregion2file fs ex nw x1 y1 x2 y2 = .ok fs' ∧ Saved fs fs' nw (fun b' =>
      Redraws b b' W H 24 (fun x y => if inRect x1 y1 x2 y2 x y then grey (pix b W H 24 x y) else pix b W H 24 x y))
    :=
  applysave24_saved h (C50_monofilter h.valid hi)

theorem C88_gammaadjtoregion2file (h : Stored fs ex b W H 24) (t : Nat → Nat → Int) {x1 y1 x2 y2 : Int} (hi :
    InImage W H x1 y1 x2 y2) :
    ∃ fs', gammaadjtoregion2file t fs ex nw x1 y1 x2 y2 = .ok fs' ∧ Saved fs fs' nw (fun b' =>
      Redraws b b' W H 24 (fun x y => if inRect x1 y1 x2 y2 x y then corrected t (pix b W H 24 x y) else pix b W H
    24 x y)) :=
  applysave24_saved h (C84_region h.valid t hi)

theorem C88_filledrect2file_partial (h : Stored fs ex b W H bits) {x1 y1 x2 y2 color : Int} (h1 : 0 ≤ x1 ∧ x1 < W ∧
    0 ≤ y1 ∧ y1 < H) (h2 : 0 ≤ x2 ∧ x2 < W ∧ 0 ≤ y2 ∧ y2 < H) (hc : IsColour bits color) (hok : bits = 1 ∨ bits = 24
    ∨ (bits = 4 ∧ (min x1 x2) % 2 = 0 ∧ (max x1 x2) % 2 = 1)) :
    ∃ fs', filledrect2file fs ex nw x1 y1 x2 y2 color = .ok fs' ∧ Saved fs fs' nw (fun b' =>
      Paints b b' W H bits (RectSet x1 y1 x2 y2) color.toNat) :=
  applysave_saved h (C21_filledrect_partial h.valid h1 h2 hc hok)

theorem C88_outlineregion2file_partial (h : Stored fs ex b W H bits) {x1 y1 x2 y2 : Int} (hi : InImage W H x1 y1 x2
    y2) (hx : x1 ≤ x2) (hy : y1 ≤ y2) (ha : AlignedI bits x1 x2) :
    ∃ fs', outlineregion2file fs ex nw x1 y1 x2 y2 = .ok fs' ∧ Saved fs fs' nw (fun b' =>
      Alters b b' W H bits (fun px py => inRect x1 y1 x2 y2 px py = true) (fun px py => if (py : Int) = y1 then 0
    else pix b W H bits px py ^^^ pix b W H bits px (py - 1))) :=
  applysave_saved h (C81_outline_partial h.valid hi hx hy ha)

theorem C88_horizontalbrightnessgradregion2file (h : Stored fs ex b W H 24) (f : Nat → Nat → Int) {x1 y1 x2 y2 :
    Int} (hi : InImage W H x1 y1 x2 y2) (hx : x1 ≠ x2) :
    ∃ fs', horizontalbrightnessgradregion2file f fs ex nw x1 y1 x2 y2 = .ok fs' ∧ Saved fs fs' nw (fun b' =>
      Redraws b b' W H 24 (fun x y => if inRect x1 y1 x2 y2 x y ∧ (y : Int) ≠ min y1 y2 then brightened (f ((x :
    Int) - min x1 x2).toNat) (pix b W H 24 x y) else pix b W H 24 x y)) :=
  applysave24_saved h (C85_horigradient_exact h.valid f hi hx)

theorem C88_verticalbrightnessgradregion2file_partial (h : Stored fs ex b W H 24) (f : Nat → Nat → Int) {x1 y1 x2 y2
    : Int} (hi : InImage W H x1 y1 x2 y2) (hy : y1 ≠ y2) :
    ∃ fs', verticalbrightnessgradregion2file f fs ex nw x1 y1 x2 y2 = .ok fs' ∧ Saved fs fs' nw (fun b' =>
      Redraws b b' W H 24 (fun x y => if inRect x1 y1 x2 y2 x y then brightened (f (max y1 y2 - y).toNat) (pix b W H
    24 x y) else pix b W H 24 x y)) :=
  applysave24_saved h (C60_vertgradient_partial h.valid f hi hy)

theorem MirrorOK.aligned {x1 x2 : Int} (hok : MirrorOK bits x1 x2) : AlignedI bits x1 x2 := by
  unfold MirrorOK at hok
  unfold AlignedI
  rcases hok with rfl | rfl | ⟨rfl, h1, h2⟩
  · constructor <;> omega
  · constructor <;> omega
  · constructor <;> omega

theorem corner_pix {W H : Nat} {x1 y1 x2 y2 : Int} (hi : InImage W H x1 y1 x2 y2) {x y : Nat}
    (hr : inRect x1 y1 x2 y2 x y = true) :
    (0 ≤ min (y : Int) (y1 + y2 - y) ∧ min (y : Int) (y1 + y2 - y) < H ∧ 0 ≤ max (y : Int) (y1 + y2 - y) ∧ max (y : Int) (y1 + y2 - y) < H) ∧
    inRect x1 y1 x2 y2 x (min (y : Int) (y1 + y2 - y)).toNat = true ∧
    inRect x1 y1 x2 y2 x (max (y : Int) (y1 + y2 - y)).toNat = true := by
  unfold InImage at hi
  simp only [inRect, Bool.and_eq_true, decide_eq_true_eq] at hr ⊢
  omega

/-- The rectangle is built from its corner quarter: left or right half (`min` or `max` for `sx`), then top or
bottom half (for `sy`). -/
def quarterOf (sx sy : Int → Int → Int) (b : Bytes) (W H bits : Nat) (x1 y1 x2 y2 : Int) (x y : Nat) : Nat :=
  if inRect x1 y1 x2 y2 x y then pix b W H bits (sx (x : Int) (x1 + x2 - x)).toNat (sy (y : Int) (y1 + y2 - y)).toNat
  else pix b W H bits x y

/-- C56 inside a rectangle: one quarter is repeated in the other three. -/
theorem C56_region_partial (h : Valid b W H bits) {x1 y1 x2 y2 : Int} (hi : InImage W H x1 y1 x2 y2)
    (hok : MirrorOK bits x1 x2) :
    (∃ b', mirrortopleftinregion b x1 y1 x2 y2 = .ok b' ∧ Redraws b b' W H bits (quarterOf min min b W H bits x1 y1 x2 y2)) ∧
    (∃ b', mirrortoprightinregion b x1 y1 x2 y2 = .ok b' ∧ Redraws b b' W H bits (quarterOf max min b W H bits x1 y1 x2 y2)) ∧
    (∃ b', mirrorbottomleftinregion b x1 y1 x2 y2 = .ok b' ∧ Redraws b b' W H bits (quarterOf min max b W H bits x1 y1 x2 y2)) ∧
    (∃ b', mirrorbottomrightinregion b x1 y1 x2 y2 = .ok b' ∧ Redraws b b' W H bits (quarterOf max max b W H bits x1 y1 x2 y2)) := by
  have ha := hok.aligned
  have top : ∀ {sx b1}, Redraws b b1 W H bits (fun x y =>
      if inRect x1 y1 x2 y2 x y then pix b W H bits (sx (x : Int) (x1 + x2 - x)).toNat y else pix b W H bits x y) →
      (∃ b', mirrortopinregion b1 x1 y1 x2 y2 = .ok b' ∧ Redraws b b' W H bits (quarterOf sx min b W H bits x1 y1 x2 y2)) ∧
      (∃ b', mirrorbottominregion b1 x1 y1 x2 y2 = .ok b' ∧ Redraws b b' W H bits (quarterOf sx max b W H bits x1 y1 x2 y2)) := by
    intro sx b1 r1
    obtain ⟨b2, e2, r2, _⟩ := C55_mirrortopinregion_partial r1.valid hi ha
    obtain ⟨b3, e3, r3, _⟩ := C55_mirrorbottominregion_partial r1.valid hi ha
    refine ⟨⟨b2, e2, r2.valid, ⟨r2.header.1.trans r1.header.1, fun i hi => (r2.header.2 i hi).trans (r1.header.2 i hi)⟩, ?_⟩,
      ⟨b3, e3, r3.valid, ⟨r3.header.1.trans r1.header.1, fun i hi => (r3.header.2 i hi).trans (r1.header.2 i hi)⟩, ?_⟩⟩
    · intro x y hx hy
      rw [r2.pixels x y hx hy]
      unfold quarterOf
      by_cases hr : inRect x1 y1 x2 y2 x y = true
      · obtain ⟨hb, t1, t2⟩ := corner_pix hi hr
        rw [if_pos hr, if_pos hr, r1.pixels x _ hx (by omega)]
        rw [if_pos t1]
      · rw [if_neg hr, if_neg hr, r1.pixels x y hx hy]
        rw [if_neg hr]
    · intro x y hx hy
      rw [r3.pixels x y hx hy]
      unfold quarterOf
      by_cases hr : inRect x1 y1 x2 y2 x y = true
      · obtain ⟨hb, t1, t2⟩ := corner_pix hi hr
        rw [if_pos hr, if_pos hr, r1.pixels x _ hx (by omega)]
        rw [if_pos t2]
      · rw [if_neg hr, if_neg hr, r1.pixels x y hx hy]
        rw [if_neg hr]
  obtain ⟨bl, el, rl, _⟩ := C54_mirrorleftinregion_partial h hi hok
  obtain ⟨br, er, rr, _⟩ := C54_mirrorrightinregion_partial h hi hok
  obtain ⟨l1, l2⟩ := top (sx := min) rl
  obtain ⟨m1, m2⟩ := top (sx := max) rr
  refine ⟨?_, ?_, ?_, ?_⟩
  · unfold mirrortopleftinregion; rw [el]; exact l1
  · unfold mirrortoprightinregion; rw [er]; exact m1
  · unfold mirrorbottomleftinregion; rw [el]; exact l2
  · unfold mirrorbottomrightinregion; rw [er]; exact m2

/-- C88: the corner mirrors of a rectangle. -/
theorem C88_corners_partial (h : Stored fs ex b W H bits) {x1 y1 x2 y2 : Int} (hi : InImage W H x1 y1 x2 y2)
    (hok : MirrorOK bits x1 x2) :
    (∃ fs', mirrortopleftinregion2file fs ex nw x1 y1 x2 y2 = .ok fs' ∧ Saved fs fs' nw (fun b' =>
      Redraws b b' W H bits (quarterOf min min b W H bits x1 y1 x2 y2))) ∧
    (∃ fs', mirrortoprightinregion2file fs ex nw x1 y1 x2 y2 = .ok fs' ∧ Saved fs fs' nw (fun b' =>
      Redraws b b' W H bits (quarterOf max min b W H bits x1 y1 x2 y2))) ∧
    (∃ fs', mirrorbottomleftinregion2file fs ex nw x1 y1 x2 y2 = .ok fs' ∧ Saved fs fs' nw (fun b' =>
      Redraws b b' W H bits (quarterOf min max b W H bits x1 y1 x2 y2))) ∧
    (∃ fs', mirrorbottomrightinregion2file fs ex nw x1 y1 x2 y2 = .ok fs' ∧ Saved fs fs' nw (fun b' =>
      Redraws b b' W H bits (quarterOf max max b W H bits x1 y1 x2 y2))) :=
  have hc := C56_region_partial h.valid hi hok
  ⟨applysave_saved h hc.1, applysave_saved h hc.2.1, applysave_saved h hc.2.2.1, applysave_saved h hc.2.2.2⟩

/-- C88: erasing lines of a rectangle; the last line is never erased. -/
theorem C88_eraseeverynthhorilineinregion2file_partial (h : Stored fs ex b W H bits) {x1 y1 x2 y2 : Int}
    (hi : InImage W H x1 y1 x2 y2) (ha : AlignedI bits x1 x2) {n : Int} (hn : n ≠ 0) :
    ∃ fs', eraseeverynthhorilineinregion2file fs ex nw x1 y1 x2 y2 n = .ok fs' ∧ Saved fs fs' nw (fun b' =>
      Alters b b' W H bits (fun px py => inRect x1 y1 x2 y2 px py = true ∧ (py : Int) < max y1 y2 ∧
        Chosen n 0 (py - min y1 y2 + 1)) (fun px _ => patPix bits (lowByte 0) px)) :=
  applysave_saved h (C79_region_exact h.valid hi ha hn 0 0)

/-! C88, what the programs do for every rectangle in every depth: they treat the columns of whole bytes. -/

theorem C88_flipverticalregion2file_exact (h : Stored fs ex b W H bits) {x1 y1 x2 y2 : Int}
    (hi : InImage W H x1 y1 x2 y2) :
    ∃ fs', flipverticalregion2file fs ex nw x1 y1 x2 y2 = .ok fs' ∧ Saved fs fs' nw (fun b' =>
      Redraws b b' W H bits (fun x y => if byteRect bits x1 y1 x2 y2 x y then pix b W H bits x (y1 + y2 - y).toNat
        else pix b W H bits x y) ∧ flipverticalregion b' x1 y1 x2 y2 = .ok b) :=
  applysave_saved h (C55_flipverticalregion_exact h.valid hi)

theorem C88_mirrortopinregion2file_exact (h : Stored fs ex b W H bits) {x1 y1 x2 y2 : Int}
    (hi : InImage W H x1 y1 x2 y2) :
    ∃ fs', mirrortopinregion2file fs ex nw x1 y1 x2 y2 = .ok fs' ∧ Saved fs fs' nw (fun b' =>
      Redraws b b' W H bits (fun x y => if byteRect bits x1 y1 x2 y2 x y then pix b W H bits x (min (y : Int) (y1 + y2 - y)).toNat
        else pix b W H bits x y) ∧ mirrortopinregion b' x1 y1 x2 y2 = .ok b') :=
  applysave_saved h (C55_mirrortopinregion_exact h.valid hi)

theorem C88_mirrorbottominregion2file_exact (h : Stored fs ex b W H bits) {x1 y1 x2 y2 : Int}
    (hi : InImage W H x1 y1 x2 y2) :
    ∃ fs', mirrorbottominregion2file fs ex nw x1 y1 x2 y2 = .ok fs' ∧ Saved fs fs' nw (fun b' =>
      Redraws b b' W H bits (fun x y => if byteRect bits x1 y1 x2 y2 x y then pix b W H bits x (max (y : Int) (y1 + y2 - y)).toNat
        else pix b W H bits x y) ∧ mirrorbottominregion b' x1 y1 x2 y2 = .ok b') :=
  applysave_saved h (C55_mirrorbottominregion_exact h.valid hi)

theorem C88_eraseeverynthhorilineinregion2file_exact (h : Stored fs ex b W H bits) {x1 y1 x2 y2 : Int}
    (hi : InImage W H x1 y1 x2 y2) {n : Int} (hn : n ≠ 0) :
    ∃ fs', eraseeverynthhorilineinregion2file fs ex nw x1 y1 x2 y2 n = .ok fs' ∧ Saved fs fs' nw (fun b' =>
      Alters b b' W H bits (fun px py => byteRect bits x1 y1 x2 y2 px py = true ∧ (py : Int) < max y1 y2 ∧
        Chosen n 0 (py - min y1 y2 + 1)) (fun px _ => patPix bits (lowByte 0) px)) :=
  applysave_saved h (C79_region_all h.valid hi hn 0 0)

/-- C88: a rectangle that leaves the image gives an exact copy. -/
theorem C88_rejected (h : Stored fs ex b W H bits) {x1 y1 x2 y2 : Int} (hi : ¬ InImage W H x1 y1 x2 y2) :
    (∃ fs', invertregion2file fs ex nw x1 y1 x2 y2 = .ok fs' ∧ Saved fs fs' nw (· = b)) ∧
    (∀ n, ∃ fs', eraseeverynthhorilineinregion2file fs ex nw x1 y1 x2 y2 n = .ok fs' ∧ Saved fs fs' nw (· = b)) :=
  ⟨applysave_saved h ⟨b, C33_rejected h.valid hi, rfl⟩, fun n => applysave_saved h ⟨b, C79_rejected h.valid hi n 0 0, rfl⟩⟩

/-- The top left quarter of a 4 by 4 rectangle is repeated. -/
example : (do
    let b ← newBMP 6 6 24; let b ← plotxybit b 1 2 9; let fs ← mirrortopleftinregion2file (oneFile b) "a" "n" 1 1 4 4
    pure ((fs "n").map fun c => [pix c 6 6 24 1 2, pix c 6 6 24 4 2, pix c 6 6 24 1 3, pix c 6 6 24 4 3, pix c 6 6 24 2 2])) =
    .ok (some [9, 9, 9, 9, 0]) := by decide +kernel

theorem C89_monochromecircregion2file_partial (h : Stored fs ex b W H 24) {x y r : Int} (hs : SquareInside W H x y
    r) :
    ∃ fs', monochromecircregion2file fs ex nw x y r = .ok fs' ∧ Saved fs fs' nw (fun b' =>
      Alters b b' W H 24 (fun px py => DiscSet x y r px py ∧ DiscSet x y r (px + 1) py) (fun px py => grey (pix b W
    H 24 px py))) :=
  applysave24_saved h (C70_monocircle_partial h.valid hs)

theorem C89_invertbitsincircregion2file_partial (h : Stored fs ex b W H bits) (hb : bits = 8 ∨ bits = 24) {x y r :
    Int} (hs : SquareInside W H x y r) :
    ∃ fs', invertbitsincircregion2file fs ex nw x y r = .ok fs' ∧ Saved fs fs' nw (fun b' =>
      Valid b' W H bits ∧ SameHeader b b' bits ∧ ∀ px py, px < W → py < H → (DiscSet x y r px py → DiscSet x y r (px
    + 1) py → pix b' W H bits px py = 2 ^ bits - 1 - pix b W H bits px py) ∧ (¬ DiscSet x y r px py → pix b' W H
    bits px py = pix b W H bits px py)) :=
  applysave_saved h (C68_invertcirc_partial h.valid hb hs)

theorem C89_colorfiltercircregion2file (h : Stored fs ex b W H 24) {fr fg fb : Nat → Int} (hr : KeepsByte fr) (hg :
    KeepsByte fg) (hb : KeepsByte fb) {x y r : Int} (hx : -18 ≤ x) :
    ∃ fs', colorfiltercircregion2file fr fg fb fs ex nw x y r = .ok fs' ∧ Saved fs fs' nw (fun b' =>
      Alters b b' W H 24 (fun px py => CircCols W 24 x y r px py ∧ CircCols W 24 x y r (px + 1) py) (fun px py =>
    scaled fr fg fb (pix b W H 24 px py))) :=
  applysave24_saved h (C69_colorfilter_exact h.valid hr hg hb hx)

theorem C89_thresholdadjcircregion2file_partial (h : Stored fs ex b W H 24) {t : Nat → Nat → Nat → Int} (ht : Scales
    t) (l0 l1 : Int) {x y r : Int} (hs : SquareInside W H x y r) :
    ∃ fs', thresholdadjcircregion2file t fs ex nw x y r l0 l1 = .ok fs' ∧ Saved fs fs' nw (fun b' =>
      Alters b b' W H 24 (fun px py => DiscSet x y r px py ∧ DiscSet x y r (px + 1) py) (fun px py => limited t (min
    (l0 % 256) (l1 % 256)).toNat (max (l0 % 256) (l1 % 256)).toNat (pix b W H 24 px py))) :=
  applysave24_saved h (C83_circ_partial h.valid ht l0 l1 hs)

theorem C89_gammacorrectcircregion2file_partial (h : Stored fs ex b W H 24) (t : Nat → Nat → Int) {x y r : Int} (hs
    : SquareInside W H x y r) :
    ∃ fs', gammacorrectcircregion2file t fs ex nw x y r = .ok fs' ∧ Saved fs fs' nw (fun b' =>
      Alters b b' W H 24 (fun px py => DiscSet x y r px py ∧ DiscSet x y r (px + 1) py) (fun px py => corrected t
    (pix b W H 24 px py))) :=
  applysave24_saved h (C84_circ_partial h.valid t hs)

theorem C89_filledcircle2file_partial (h : Stored fs ex b W H bits) {x y r : Int} {color : Int} (hc : IsColour bits
    color) (hok : bits = 1 ∨ ((bits = 8 ∨ bits = 24) ∧ -19 ≤ x)) :
    ∃ fs', filledcircle2file fs ex nw x y r color = .ok fs' ∧ Saved fs fs' nw (fun b' =>
      Paints b b' W H bits (DiscSet x y r) color.toNat) :=
  applysave_saved h (C27_filledcircle_partial h.valid hc hok)

theorem C89_circle2file (h : Stored fs ex b W H bits) (x y r : Int) {color : Int} (hc : IsColour bits color) :
    ∃ fs', circle2file fs ex nw x y r color = .ok fs' ∧ Saved fs fs' nw (fun b' =>
      Paints b b' W H bits (CircleSet x y r) color.toNat) :=
  applysave_saved h (C26_circle h.valid x y r hc)

theorem C89_brightnessadjcircregion2file_partial (h : Stored fs ex b W H 24) (f : Nat → Int) {x y r : Int} (hs :
    SquareInside W H x y r) :
    ∃ fs', brightnessadjcircregion2file f fs ex nw x y r = .ok fs' ∧ Saved fs fs' nw (fun b' =>
      Valid b' W H 24 ∧ SameHeader b b' 24 ∧ ∀ px py, px < W → py < H → (DiscSet x y r px py → DiscSet x y r (px +
    1) py → pix b' W H 24 px py = brightened f (pix b W H 24 px py)) ∧ (¬ DiscSet x y r px py → pix b' W H 24 px py
    = pix b W H 24 px py)) :=
  applysave24_saved h (C69_brightness_partial h.valid f hs)

theorem C89_vertbrightnessgrad2circregion2file (h : Stored fs ex b W H 24) (f : Int → Nat → Int) {x y r : Int} (hs :
    SquareInside W H x y r) (hr : r ≠ 0) :
    ∃ fs', vertbrightnessgrad2circregion2file f fs ex nw x y r = .ok fs' ∧ Saved fs fs' nw (fun b' =>
      Alters b b' W H 24 (CircCols W 24 x y r) (fun px py => brightened (f py) (pix b W H 24 px py))) :=
  applysave24_saved h (C76_vert_exact h.valid f hs hr)

theorem C89_horibrightnessgrad2circregion2file (h : Stored fs ex b W H 24) (f : Int → Nat → Int) {x y r : Int} (hs :
    SquareInside W H x y r) (hr : r ≠ 0) :
    ∃ fs', horibrightnessgrad2circregion2file f fs ex nw x y r = .ok fs' ∧ Saved fs fs' nw (fun b' =>
      Alters b b' W H 24 (ColSet x y r) (fun px py => brightened (f px) (pix b W H 24 px py))) :=
  applysave24_saved h (C76_hori_exact h.valid f hs hr)

theorem C89_eraseeverynthhorilineinccircregion2file_partial (h : Stored fs ex b W H bits) (hb : bits = 8 ∨ bits =
    24) {x y r : Int} (hs : SquareInside W H x y r) (hg : SquareInside W W x y r) {n : Nat} (hn : 0 < n) :
    ∃ fs', eraseeverynthhorilineinccircregion2file fs ex nw x y r n = .ok fs' ∧ Saved fs fs' nw (fun b' =>
      Paints b b' W H bits (fun px py => DiscSet x y r px py ∧ DiscSet x y r (px + 1) py ∧ n ∣ py) 0) :=
  applysave_saved h (C80_circ_partial h.valid hb hs hg hn)

theorem C89_outlinecircregion2file_partial (h : Stored fs ex b W H bits) (hb : bits = 8 ∨ bits = 24) {x y r : Int}
    (hs : SquareInside W H x y r) :
    ∃ fs', outlinecircregion2file fs ex nw x y r = .ok fs' ∧ Saved fs fs' nw (fun b' =>
      Alters b b' W H bits (fun px py => DiscSet x y r px py ∧ DiscSet x y r (px + 1) py) (fun px py => pix b W H
    bits px py ^^^ pix b W H bits (px + 1) py)) :=
  applysave_saved h (C75_outline_partial h.valid hb hs)

theorem C89_flipXYcircregion2file (h : Stored fs ex b W H bits) (hb : bits = 8 ∨ bits = 24) {x y r : Int} (hs :
    SquareInside W H x y r) (hg : SquareInside W W x y r) :
    ∃ fs', flipXYcircregion2file fs ex nw x y r = .ok fs' ∧ Saved fs fs' nw (fun b' =>
      Alters b b' W H bits (DiscSet x y r) (fun px py => pix b W H bits (x + (py - y)).toNat (y - (px - x)).toNat))
    :=
  applysave_saved h (C74_turn_exact h.valid hb hs hg)

theorem C89_flipXYcircregion2file_packed_partial (h : Stored fs ex b W H bits) (hb : bits = 1 ∨ bits = 4) {x y r :
    Int} (hs : SquareInside W H x y r) (hg : SquareInside W W x y r) (hal : 8 ∣ (x - y) * bits) :
    ∃ fs', flipXYcircregion2file fs ex nw x y r = .ok fs' ∧ Saved fs fs' nw (fun b' =>
      Alters b b' W H bits (CircCols W bits x y r) (fun px py => pix b W H bits (x + (py - y)).toNat (y + (px -
    x)).toNat)) :=
  applysave_saved h (C74_packed_partial h.valid hb hs hg hal)

theorem C89_copycircregion2file (h : Stored fs ex b W H bits) {x y r nx ny : Int} (hs : SquareInside W H x y r) (hg
    : SquareInside W W x y r) (hs' : SquareInside W H nx ny r) (hal : 8 ∣ (nx - x) * bits) :
    ∃ fs', copycircregion2file fs ex nw x y r nx ny = .ok fs' ∧ Saved fs fs' nw (fun b' =>
      Alters b b' W H bits (CircCols W bits nx ny r) (fun px py => pix b W H bits (px + x - nx).toNat (py + y -
    ny).toNat)) :=
  applysave_saved h (C71_copy_exact h.valid hs hg hs' hal)

/-- C89: the vertical flip and mirrors of a disc. -/
theorem C89_vertical_partial (h : Stored fs ex b W W bits) (hb : bits = 8 ∨ bits = 24) {x y r : Int} (hs : SquareInside W W x y r) :
    ∀ p ∈ [(CircV.F, flipvertcircregion2file), (.T, mirrortopincircregion2file), (.B, mirrorbottomincircregion2file)],
      ∃ fs', p.2 fs ex nw x y r = .ok fs' ∧ Saved fs fs' nw (fun b' =>
        Alters b b' W W bits (fun px py => DiscSet x y r px py ∧ DiscSet x y r (px + 1) py)
          (fun px py => pix b W W bits px (circRowSrc p.1 y py))) := by
  intro p hp
  simp only [List.mem_cons, List.not_mem_nil, or_false] at hp
  rcases hp with rfl | rfl | rfl
  · exact applysave_saved h (C72_vert_partial .F h.valid hb hs)
  · exact applysave_saved h (C72_vert_partial .T h.valid hb hs)
  · exact applysave_saved h (C72_vert_partial .B h.valid hb hs)

/-- C89: the horizontal flip and mirrors of a disc. -/
theorem C89_horizontal_partial (h : Stored fs ex b W H bits) (hb : bits = 8 ∨ bits = 24) {x y r : Int} (hs : SquareInside W H x y r) :
    ∀ p ∈ [(CircH.F, fliphoricircregion2file), (.L, mirrorleftincircregion2file), (.R, mirrorrightincircregion2file)],
      ∃ fs', p.2 fs ex nw x y r = .ok fs' ∧ Saved fs fs' nw (fun b' => Valid b' W H bits ∧ SameHeader b b' bits ∧
        ∀ px py, px < W → py < H →
          (ColSet x y r px py → DiscSet x y r px py ∧ pix b' W H bits px py = pix b W H bits (circColSrc p.1 x px) py) ∧
          (¬ DiscSet x y r px py → pix b' W H bits px py = pix b W H bits px py)) := by
  intro p hp
  simp only [List.mem_cons, List.not_mem_nil, or_false] at hp
  rcases hp with rfl | rfl | rfl
  · exact applysave_saved h (C73_hori_partial .F h.valid hb hs)
  · exact applysave_saved h (C73_hori_partial .L h.valid hb hs)
  · exact applysave_saved h (C73_hori_partial .R h.valid hb hs)

/-- C89: the quarter mirrors of a disc. -/
theorem C89_quarters_partial (h : Stored fs ex b W H bits) (hb : bits = 8 ∨ bits = 24) {x y r : Int} (hs : SquareInside W H x y r)
    (hg : SquareInside W W x y r) :
    ∀ p ∈ [(CircH.L, CircV.T, mirrortopleftincircregion2file), (.R, .T, mirrortoprightincircregion2file),
      (.L, .B, mirrorbottomleftincircregion2file), (.R, .B, mirrorbottomrightincircregion2file)],
      ∃ fs', p.2.2 fs ex nw x y r = .ok fs' ∧ Saved fs fs' nw (fun b' => Valid b' W H bits ∧ SameHeader b b' bits ∧
        ∀ px py, px < W → py < H →
          (DiscSet x y r px py → DiscSet x y r (px + 1) py → ColSet x y r px (circRowSrc p.2.1 y py) →
            pix b' W H bits px py = pix b W H bits (circColSrc p.1 x px) (circRowSrc p.2.1 y py)) ∧
          (¬ DiscSet x y r px py → pix b' W H bits px py = pix b W H bits px py)) := by
  have hq := C77_quarter_partial h.valid hb hs hg
  intro p hp
  simp only [List.mem_cons, List.not_mem_nil, or_false] at hp
  rcases hp with rfl | rfl | rfl | rfl
  · exact applysave_saved h (hq (_, _, mirrortopleftincircregion) (by simp))
  · exact applysave_saved h (hq (_, _, mirrortoprightincircregion) (by simp))
  · exact applysave_saved h (hq (_, _, mirrorbottomleftincircregion) (by simp))
  · exact applysave_saved h (hq (_, _, mirrorbottomrightincircregion) (by simp))

/-- C89: a disc that leaves the square decided by the guard gives an exact copy. -/
theorem C89_rejected (h : Stored fs ex b W H bits) {x y r : Int} (hg : ¬ SquareInside W W x y r) :
    ∃ fs', flipvertcircregion2file fs ex nw x y r = .ok fs' ∧ Saved fs fs' nw (· = b) :=
  applysave_saved h ⟨b, C72_rejected .F h.valid hg, rfl⟩

/-- The left half of a disc is repeated on the right. -/
example : (do
    let b ← newBMP 7 7 24; let b ← plotxybit b 2 3 9; let b ← plotxybit b 0 3 8
    let fs ← mirrorleftincircregion2file (oneFile b) "a" "n" 3 3 2
    pure ((fs "n").map fun c => [pix c 7 7 24 2 3, pix c 7 7 24 4 3, pix c 7 7 24 6 3])) = .ok (some [9, 9, 0]) := by decide +kernel

/-- Every visible colour is changed by `φ`. -/
def Recoloured (b b' : Bytes) (W H bits : Nat) (φ : Nat × Nat × Nat → Nat × Nat × Nat) : Prop :=
  Valid b' W H bits ∧ b'.length = b.length ∧ (∀ i < 54, byte b' i = byte b i) ∧
    ∀ x y, x < W → y < H → pixRGB b' W H bits x y = φ (pixRGB b W H bits x y)

/-- A colour of bytes as natural numbers. -/
def natRGB (c : RGB) : Nat × Nat × Nat := (c.1.toNat, c.2.1.toNat, c.2.2.toNat)

theorem pixRGB_lt (h : Valid b W H bits) (x y : Nat) :
    (pixRGB b W H bits x y).1 < 256 ∧ (pixRGB b W H bits x y).2.1 < 256 ∧ (pixRGB b W H bits x y).2.2 < 256 := by
  have hp := h.pix_lt x y
  unfold pixRGB palRGB
  split_ifs with h24
  · subst h24
    refine ⟨?_, ?_, ?_⟩ <;> dsimp only <;> omega
  · exact ⟨byte_lt_of_mem h.bytes _, byte_lt_of_mem h.bytes _, byte_lt_of_mem h.bytes _⟩

/-- Palette images: the colour function is applied to every entry of the palette, the pixels stay. -/
theorem recolour_palette (h : Stored fs ex b W H bits) (h24 : bits ≠ 24) {pal : RGB → RGB}
    (hp : ∀ r g v : Nat, r < 256 → g < 256 → v < 256 → Verif.ByteRGB (pal (rgbI (r, g, v)))) (img : Bytes → Py Bytes) :
    ∃ fs', useclradjfn pal img fs ex nw = .ok fs' ∧ Saved fs fs' nw (fun b' => SamePixels b b' bits ∧
      Recoloured b b' W H bits (fun c => natRGB (pal (rgbI c)))) := by
  apply applysave_saved h
  have hv := h.valid
  rw [hv.bits_eq, ok_bind, if_pos h24, hv.getallRGBpal_eq h24, ok_bind]
  have hbyte : ∀ i, byte b i < 256 := fun i => byte_lt_of_mem hv.bytes i
  obtain ⟨b', e, v', sp, hall⟩ := (C13_set_palette hv h24
    (((List.range (2 ^ bits)).map fun c => rgbI (palRGB b c)).map pal)).1 (by simp) (by
      intro p hp'
      simp only [List.map_map, List.mem_map, List.mem_range, Function.comp_apply] at hp'
      obtain ⟨c, _, rfl⟩ := hp'
      exact hp _ _ _ (hbyte _) (hbyte _) (hbyte _))
  refine ⟨b', e, sp, v', sp.1, sp.2.1, ?_⟩
  intro x y hx hy
  have hc := hv.pix_lt x y
  unfold pixRGB
  rw [if_neg h24, if_neg h24, sp.pix]
  rw [v'.getallRGBpal_eq h24] at hall
  have := congrArg (fun l => l[pix b W H bits x y]?) (Except.ok.inj hall)
  simp only [List.getElem?_map, List.getElem?_range hc, Option.map_some, Option.some.injEq] at this
  dsimp only
  rw [← this]
  simp [natRGB, rgbI]

theorem recolour_truecolour (h : Stored fs ex b W H 24) (pal : RGB → RGB) {img : Bytes → Py Bytes} {P : Bytes → Prop}
    (hi : ∃ b', img b = .ok b' ∧ P b') :
    ∃ fs', useclradjfn pal img fs ex nw = .ok fs' ∧ Saved fs fs' nw P := by
  apply applysave_saved h
  rw [h.valid.bits_eq, ok_bind, if_neg (by simp)]
  exact hi

theorem pixRGB_24 (b : Bytes) (W H x y : Nat) (hp : pix b W H 24 x y < 2 ^ 24) :
    pixRGB b W H 24 x y = (redOf (pix b W H 24 x y), greenOf (pix b W H 24 x y), blueOf (pix b W H 24 x y)) := by
  unfold pixRGB redOf greenOf blueOf
  dsimp only
  rw [if_pos rfl]
  refine Prod.ext ?_ (Prod.ext ?_ ?_) <;> dsimp only <;> omega

/-- A filter of true-colour pixels, seen as a change of colours. -/
theorem Redraws.recoloured {b' : Bytes} {g : Nat → Nat} {φ : Nat × Nat × Nat → Nat × Nat × Nat} (h : Valid b W H 24)
    (r : Redraws b b' W H 24 (fun x y => g (pix b W H 24 x y)))
    (hg : ∀ c, c < 2 ^ 24 → (redOf (g c), greenOf (g c), blueOf (g c)) = φ (redOf c, greenOf c, blueOf c)) :
    Recoloured b b' W H 24 φ := by
  refine ⟨r.valid, r.header.1, fun i hi => r.header.2 i (by unfold dataOff palSize; omega), ?_⟩
  intro x y hx hy
  rw [pixRGB_24 _ _ _ _ _ (h.pix_lt x y), pixRGB_24 _ _ _ _ _ (r.valid.pix_lt x y), r.pixels x y hx hy]
  exact hg _ (h.pix_lt x y)

/-- The grey of the rounded mean. -/
def meanGrey (c : Nat × Nat × Nat) : Nat × Nat × Nat :=
  let m := (c.1 + c.2.1 + c.2.2 + 1) / 3
  (m, m, m)

/-- The grey of the mean rounded down. -/
def lowGrey (c : Nat × Nat × Nat) : Nat × Nat × Nat :=
  let m := (c.1 + c.2.1 + c.2.2) / 3
  (m, m, m)

/-- C90: monochrome with a palette: every visible colour becomes the grey of its rounded mean. -/
theorem C90_monochrome_palette (h : Stored fs ex b W H bits) (h24 : bits ≠ 24) :
    ∃ fs', monochrome2file fs ex nw = .ok fs' ∧ Saved fs fs' nw (fun b' => SamePixels b b' bits ∧
      Recoloured b b' W H bits meanGrey) := by
  have e : (fun c => natRGB (monochrome (rgbI c))) = meanGrey := by
    funext c
    have : ((c.1 : Int) + c.2.1 + c.2.2 + 1) / 3 = (((c.1 + c.2.1 + c.2.2 + 1) / 3 : Nat) : Int) := by push_cast; rfl
    simp only [natRGB, monochrome, rgbI, meanGrey, this, Int.toNat_natCast]
  rw [← e]
  refine recolour_palette h h24 ?_ _
  intro r g v hr hg hv
  simp only [Verif.ByteRGB, monochrome, rgbI]
  omega

/-- C90: monochrome in true colour: the mean is rounded down. -/
theorem C90_monochrome_truecolour (h : Stored fs ex b W H 24) (hW : 0 < W) (hH : 0 < H) :
    ∃ fs', monochrome2file fs ex nw = .ok fs' ∧ Saved fs fs' nw (fun b' => Recoloured b b' W H 24 lowGrey) := by
  obtain ⟨b', e, r⟩ := C50_image h.valid hW hH
  refine recolour_truecolour h _ ⟨b', e, Redraws.recoloured h.valid r ?_⟩
  intro c hc
  have b0 : redOf c < 256 ∧ greenOf c < 256 ∧ blueOf c < 256 := by unfold redOf greenOf blueOf; omega
  unfold grey lowGrey
  dsimp only
  have hm : (redOf c + greenOf c + blueOf c) / 3 < 256 := by omega
  obtain ⟨c1, c2, c3⟩ := rgb_channels hm hm hm
  rw [c1, c2, c3]

theorem meanGrey_lowGrey : meanGrey (0, 0, 2) = (1, 1, 1) ∧ lowGrey (0, 0, 2) = (0, 0, 0) := by decide

/-- C90 is false across depths: the same visible colour (0, 0, 2) becomes (1, 1, 1) with a palette and
(0, 0, 0) in true colour, so no single rule describes the function. -/
theorem C90_monochrome_depths_false : ¬ ∃ φ : Nat × Nat × Nat → Nat × Nat × Nat, ∀ (b : Bytes) (W H bits : Nat) (fs : Files),
    Stored fs "a" b W H bits → 0 < W → 0 < H →
    ∃ fs', monochrome2file fs "a" "b" = .ok fs' ∧ Saved fs fs' "b" (fun b' => Recoloured b b' W H bits φ) := by
  rintro ⟨φ, hall⟩
  have uniq : ∀ {b : Bytes} {bits : Nat} {ψ : Nat × Nat × Nat → Nat × Nat × Nat} {P : Bytes → Prop}, Stored (oneFile b) "a" b 1 1 bits →
      pixRGB b 1 1 bits 0 0 = (0, 0, 2) →
      (∃ fs', monochrome2file (oneFile b) "a" "b" = .ok fs' ∧ Saved (oneFile b) fs' "b" (fun b' => P b' ∧ Recoloured b b' 1 1 bits ψ)) →
      φ (0, 0, 2) = ψ (0, 0, 2) := by
    intro b bits ψ P hs hp ⟨fs', e, ⟨c, hc, _, hr⟩, _⟩
    obtain ⟨fs2, e2, ⟨c2, hc2, hr2⟩, _⟩ := hall b 1 1 bits _ hs (by omega) (by omega)
    rw [e] at e2
    obtain rfl := Except.ok.inj e2
    rw [hc] at hc2
    obtain rfl := Option.some.inj hc2
    have a1 := hr.2.2.2 0 0 (by omega) (by omega)
    have a2 := hr2.2.2.2 0 0 (by omega) (by omega)
    rw [hp] at a1 a2
    rw [← a1, ← a2]
  have t24 : φ (0, 0, 2) = lowGrey (0, 0, 2) := by
    obtain ⟨b, _, v, -⟩ := C01_newBMP_valid 1 1 24 (by simp [Depth]) (by norm_num) (by norm_num)
    have v1 := v.valid_plotP (x := 0) (y := 0) (n := 2) (by omega) (by omega) (by norm_num)
    have hs := stored_oneFile v1 (C15_longer v1 (Or.inl ⟨by omega, by omega⟩))
    refine uniq (P := fun _ => True) hs ?_ ?_
    · rw [pixRGB_24 _ _ _ _ _ (v1.pix_lt 0 0), v.pix_plotP (by omega) (by omega) (by omega) (by omega) (by norm_num), if_pos ⟨rfl, rfl⟩]
      decide
    · obtain ⟨fs', e, ⟨c, h1, h2⟩, h3⟩ := C90_monochrome_truecolour (nw := "b") hs (by omega) (by omega)
      exact ⟨fs', e, ⟨c, h1, trivial, h2⟩, h3⟩
  have t1 : φ (0, 0, 2) = meanGrey (0, 0, 2) := by
    obtain ⟨b, _, v, -, -, -, -, hz, -⟩ := C01_newBMP_valid 1 1 1 (by simp [Depth]) (by norm_num) (by norm_num)
    obtain ⟨b', e, v', sp, hall⟩ := (C13_set_palette v (by omega) [(0, 0, 2), (0, 0, 0)]).1 (by simp) (by
      intro p hp
      simp only [List.mem_cons, List.not_mem_nil, or_false] at hp
      rcases hp with rfl | rfl <;> simp [Verif.ByteRGB])
    have hs := stored_oneFile v' (C15_longer v' (Or.inl ⟨by omega, by omega⟩))
    refine uniq hs ?_ (C90_monochrome_palette (nw := "b") hs (by omega))
    unfold pixRGB
    rw [if_neg (by omega), sp.pix, hz 0 0 (by omega) (by omega)]
    rw [v'.getallRGBpal_eq (by omega)] at hall
    have := congrArg (fun l => l[0]?) (Except.ok.inj hall)
    simp only [List.getElem?_map, List.getElem?_range (show 0 < 2 ^ 1 by omega), Option.map_some, List.getElem?_cons_zero,
      Option.some.injEq, rgbI, Prod.mk.injEq] at this
    refine Prod.ext ?_ (Prod.ext ?_ ?_) <;> dsimp only <;> omega
  rw [t24, meanGrey_lowGrey.1] at t1
  rw [meanGrey_lowGrey.2] at t1
  exact absurd t1 (by decide)

/-- The nearest byte of each scaled channel. -/
def clipped (fr fg fb : Nat → Int) (c : Nat × Nat × Nat) : Nat × Nat × Nat :=
  (nearestByte (fr c.1), nearestByte (fg c.2.1), nearestByte (fb c.2.2))

theorem setminmax_byte (v : Int) : 0 ≤ setminmax v 0 255 ∧ setminmax v 0 255 < 256 ∧ (setminmax v 0 255).toNat = nearestByte v := by
  unfold setminmax nearestByte
  dsimp only
  split_ifs <;> omega

/-- C90: the colour filter with a palette. -/
theorem C90_colorfilter_palette (h : Stored fs ex b W H bits) (h24 : bits ≠ 24) (fr fg fb : Nat → Int) :
    ∃ fs', colorfilter2file fr fg fb fs ex nw = .ok fs' ∧ Saved fs fs' nw (fun b' => SamePixels b b' bits ∧
      Recoloured b b' W H bits (clipped fr fg fb)) := by
  have e : (fun c => natRGB (colorfilter fr fg fb (rgbI c))) = clipped fr fg fb := by
    funext c
    simp only [natRGB, colorfilter, rgbI, clipped, (setminmax_byte _).2.2, Int.toNat_natCast]
  rw [← e]
  refine recolour_palette h h24 ?_ _
  intro r g v _ _ _
  exact ⟨⟨(setminmax_byte _).1, (setminmax_byte _).2.1⟩, ⟨(setminmax_byte _).1, (setminmax_byte _).2.1⟩,
    ⟨(setminmax_byte _).1, (setminmax_byte _).2.1⟩⟩

/-- C90: the colour filter in true colour, for factors that keep bytes. The last column is not filtered. -/
theorem C90_colorfilter_truecolour (h : Stored fs ex b W H 24) (hW : 0 < W) (hH : 0 < H) {fr fg fb : Nat → Int}
    (hr : KeepsByte fr) (hg : KeepsByte fg) (hb : KeepsByte fb) :
    ∃ fs', colorfilter2file fr fg fb fs ex nw = .ok fs' ∧ Saved fs fs' nw (fun b' => Valid b' W H 24 ∧ SameHeader b b' 24 ∧
      ∀ x y, x < W → y < H → pixRGB b' W H 24 x y =
        if x + 1 < W then clipped fr fg fb (pixRGB b W H 24 x y) else pixRGB b W H 24 x y) := by
  obtain ⟨b', e, r⟩ := C58_exact h.valid hr hg hb (x1 := 0) (y1 := 0) (x2 := (W : Int) - 1) (y2 := (H : Int) - 1)
    (by unfold InImage; omega)
  refine recolour_truecolour h _ ⟨b', ?_, r.valid, r.header, ?_⟩
  · unfold colorfilterto24bitimage getmaxx getmaxy
    rw [h.valid.getmaxx_eq, h.valid.getmaxy_eq]
    exact e
  · intro x y hx hy
    have hin : inRect 0 0 ((W : Int) - 1) ((H : Int) - 1) x y = true := by
      simp only [inRect, Bool.and_eq_true, decide_eq_true_eq]; omega
    have hc := h.valid.pix_lt x y
    rw [pixRGB_24 _ _ _ _ _ hc, pixRGB_24 _ _ _ _ _ (r.valid.pix_lt x y), r.pixels x y hx hy]
    by_cases hw : x + 1 < W
    · rw [if_pos ⟨hin, by omega⟩, if_pos hw]
      generalize pix b W H 24 x y = c at hc ⊢
      have b0 : redOf c < 256 ∧ greenOf c < 256 ∧ blueOf c < 256 := by unfold redOf greenOf blueOf; omega
      have k : ∀ {f : Nat → Int}, KeepsByte f → ∀ v, v < 256 → nearestByte (f v) = (f v).toNat ∧ (f v).toNat < 256 := by
        intro f hf v hv
        have := hf v hv
        unfold nearestByte
        split_ifs <;> omega
      obtain ⟨c1, c2, c3⟩ := rgb_channels (k hr _ b0.1).2 (k hg _ b0.2.1).2 (k hb _ b0.2.2).2
      unfold scaled clipped
      dsimp only
      rw [c1, c2, c3, (k hr _ b0.1).1, (k hg _ b0.2.1).1, (k hb _ b0.2.2).1]
    · rw [if_neg (fun g => g.2 (by omega)), if_neg hw]

/-- The luminosity of a colour that is not black, 1 for black. -/
def lumOr1 (c : Nat × Nat × Nat) : Nat := max 1 (max c.1 (max c.2.1 c.2.2))

theorem rgblum_eq (c : Nat × Nat × Nat) : rgblum (rgbI c) = lumOr1 c := by
  unfold rgblum lumOr1 rgbI
  dsimp only
  split_ifs <;> omega

/-- C90: brightness and gamma with a palette: each channel is scaled with a factor that may depend on
the luminosity, and clipped to a byte. -/
theorem C90_bright_gamma_palette (h : Stored fs ex b W H bits) (h24 : bits ≠ 24) (g : Nat → Nat → Int) (f : Nat → Int) (t : Nat → Nat → Int) :
    (∃ fs', adjustbrightness2file g f fs ex nw = .ok fs' ∧ Saved fs fs' nw (fun b' => SamePixels b b' bits ∧
      Recoloured b b' W H bits (fun c => clipped (g (lumOr1 c)) (g (lumOr1 c)) (g (lumOr1 c)) c))) ∧
    (∃ fs', gammaadj2file g t fs ex nw = .ok fs' ∧ Saved fs fs' nw (fun b' => SamePixels b b' bits ∧
      Recoloured b b' W H bits (fun c => clipped (g (lumOr1 c)) (g (lumOr1 c)) (g (lumOr1 c)) c))) := by
  have e : (fun c => natRGB (relumadjust g (rgbI c))) = fun c => clipped (g (lumOr1 c)) (g (lumOr1 c)) (g (lumOr1 c)) c := by
    funext c
    simp only [natRGB, relumadjust, clipped, rgblum_eq, (setminmax_byte _).2.2]
    simp only [rgbI, Int.toNat_natCast]
  have hp : ∀ r w v : Nat, r < 256 → w < 256 → v < 256 → Verif.ByteRGB (relumadjust g (rgbI (r, w, v))) := by
    intro r w v _ _ _
    exact ⟨⟨(setminmax_byte _).1, (setminmax_byte _).2.1⟩, ⟨(setminmax_byte _).1, (setminmax_byte _).2.1⟩,
      ⟨(setminmax_byte _).1, (setminmax_byte _).2.1⟩⟩
  rw [← e]
  exact ⟨recolour_palette h h24 hp _, recolour_palette h h24 hp _⟩

/-- C90: brightness in true colour. -/
theorem C90_bright_truecolour (h : Stored fs ex b W H 24) (hW : 0 < W) (hH : 0 < H) (g : Nat → Nat → Int) (f : Nat → Int) :
    ∃ fs', adjustbrightness2file g f fs ex nw = .ok fs' ∧ Saved fs fs' nw (fun b' => Recoloured b b' W H 24 (clipped f f f)) := by
  obtain ⟨b', e, r⟩ := C59_brightness h.valid f (x1 := 0) (y1 := 0) (x2 := (W : Int) - 1) (y2 := (H : Int) - 1)
    (by unfold InImage; omega)
  refine recolour_truecolour h _ ⟨b', ?_, Redraws.recoloured h.valid (g := brightened f) ⟨r.valid, r.header, ?_⟩ ?_⟩
  · unfold brightnesseadjto24bitimage getmaxx getmaxy
    rw [h.valid.getmaxx_eq, h.valid.getmaxy_eq]
    exact e
  · intro x y hx hy
    rw [r.pixels x y hx hy]
    rw [if_pos (by simp only [inRect, Bool.and_eq_true, decide_eq_true_eq]; omega)]
  · intro c hc
    have hlt : ∀ v, nearestByte v < 256 := by intro v; unfold nearestByte; split_ifs <;> omega
    obtain ⟨c1, c2, c3⟩ := rgb_channels (hlt (f (redOf c))) (hlt (f (greenOf c))) (hlt (f (blueOf c)))
    unfold brightened clipped
    rw [c1, c2, c3]

/-- C90: gamma correction in true colour. -/
theorem C90_gamma_truecolour (h : Stored fs ex b W H 24) (hW : 0 < W) (hH : 0 < H) (g t : Nat → Nat → Int) :
    ∃ fs', gammaadj2file g t fs ex nw = .ok fs' ∧ Saved fs fs' nw (fun b' => Recoloured b b' W H 24 (fun c =>
      ((t (lumOr1 c) c.1 % 256).toNat, (t (lumOr1 c) c.2.1 % 256).toNat, (t (lumOr1 c) c.2.2 % 256).toNat))) := by
  obtain ⟨b', e, r⟩ := C84_image h.valid t hW hH
  refine recolour_truecolour h _ ⟨b', e, Redraws.recoloured h.valid r ?_⟩
  intro c hc
  have hlt : ∀ v : Int, (v % 256).toNat < 256 := by intro v; omega
  obtain ⟨c1, c2, c3⟩ := rgb_channels (hlt (t (max 1 (lum c)) (redOf c))) (hlt (t (max 1 (lum c)) (greenOf c))) (hlt (t (max 1 (lum c)) (blueOf c)))
  unfold corrected
  dsimp only
  rw [c1, c2, c3]
  rfl

/-- What is assumed of `round(v / lum * l)`: it lies between 0 and `l` when the channel is at most the luminosity. -/
def Within (g : Nat → Nat → Nat → Int) : Prop :=
  ∀ l m v, l < 256 → m < 256 → 0 < m → v ≤ m → 0 ≤ g l m v ∧ g l m v ≤ l

/-- Rounding to the nearest integer is such a function. -/
example : Within (fun l m v => ((2 * l * v + m) / (2 * m) : Nat)) := by
  intro l m v _ _ hm hv
  have h3 : l * v ≤ l * m := Nat.mul_le_mul_left _ hv
  have h4 : (2 * l * v + m) / (2 * m) ≤ l := by
    apply Nat.le_of_lt_succ
    rw [Nat.div_lt_iff_lt_mul (by omega)]
    nlinarith
  exact ⟨Int.natCast_nonneg _, Int.ofNat_le.2 h4⟩

/-- The luminosity brought into the range from `lo` to `hi`. -/
def intoRange (lo hi v : Nat) : Nat := if v < lo then lo else if hi < v then hi else v

/-- C90: the threshold with a palette: the limits are clipped to bytes and put in order. -/
theorem C90_threshold_palette (h : Stored fs ex b W H bits) (h24 : bits ≠ 24) {g : Nat → Nat → Nat → Int} (hg : Within g)
    (t : Nat → Nat → Nat → Int) (l0 l1 : Int) :
    ∃ fs', thresholdadjust2file g t fs ex nw l0 l1 = .ok fs' ∧ Saved fs fs' nw (fun b' => SamePixels b b' bits ∧
      Recoloured b b' W H bits (fun c =>
        let l := intoRange (min (nearestByte l0) (nearestByte l1)) (max (nearestByte l0) (nearestByte l1)) (lumOr1 c)
        ((g l (lumOr1 c) c.1).toNat, (g l (lumOr1 c) c.2.1).toNat, (g l (lumOr1 c) c.2.2).toNat))) := by
  have hl : ∀ m : Nat, (setminmax (m : Int) (min (setminmax l0 0 255) (setminmax l1 0 255)) (max (setminmax l0 0 255) (setminmax l1 0 255))).toNat
      = intoRange (min (nearestByte l0) (nearestByte l1)) (max (nearestByte l0) (nearestByte l1)) m := by
    intro m
    have a := setminmax_byte l0
    have c := setminmax_byte l1
    generalize setminmax l0 0 255 = u at a ⊢
    generalize setminmax l1 0 255 = v at c ⊢
    rw [← a.2.2, ← c.2.2]
    unfold setminmax intoRange
    dsimp only
    split_ifs <;> omega
  have e : (fun c => natRGB (thresholdadjust g l0 l1 (rgbI c))) = fun c =>
        let l := intoRange (min (nearestByte l0) (nearestByte l1)) (max (nearestByte l0) (nearestByte l1)) (lumOr1 c)
        ((g l (lumOr1 c) c.1).toNat, (g l (lumOr1 c) c.2.1).toNat, (g l (lumOr1 c) c.2.2).toNat) := by
    funext c
    simp only [natRGB, thresholdadjust, rgblum_eq, hl]
    simp only [rgbI, Int.toNat_natCast]
  rw [← e]
  refine recolour_palette h h24 ?_ _
  intro r w v hr hw hv
  have hm : lumOr1 (r, w, v) < 256 ∧ 0 < lumOr1 (r, w, v) ∧ r ≤ lumOr1 (r, w, v) ∧ w ≤ lumOr1 (r, w, v) ∧ v ≤ lumOr1 (r, w, v) := by
    unfold lumOr1; dsimp only; omega
  have hb : ∀ m, intoRange (min (nearestByte l0) (nearestByte l1)) (max (nearestByte l0) (nearestByte l1)) m < 256 := by
    intro m
    have a := setminmax_byte l0
    have c := setminmax_byte l1
    unfold intoRange
    split_ifs <;> omega
  simp only [Verif.ByteRGB, thresholdadjust, rgblum_eq, hl]
  simp only [rgbI, Int.toNat_natCast]
  have k := hb (lumOr1 (r, w, v))
  have k1 := hg _ _ r k hm.1 hm.2.1 hm.2.2.1
  have k2 := hg _ _ w k hm.1 hm.2.1 hm.2.2.2.1
  have k3 := hg _ _ v k hm.1 hm.2.1 hm.2.2.2.2
  omega

/-- C90: the threshold in true colour: the limits are taken modulo 256. -/
theorem C90_threshold_truecolour (h : Stored fs ex b W H 24) (hW : 0 < W) (hH : 0 < H) (g : Nat → Nat → Nat → Int)
    {t : Nat → Nat → Nat → Int} (ht : Scales t) (l0 l1 : Int) :
    ∃ fs', thresholdadjust2file g t fs ex nw l0 l1 = .ok fs' ∧ Saved fs fs' nw (fun b' => Redraws b b' W H 24 (fun x y =>
      limited t (min (l0 % 256) (l1 % 256)).toNat (max (l0 % 256) (l1 % 256)).toNat (pix b W H 24 x y))) := by
  obtain ⟨b', e, r⟩ := tone_image h.valid (threshold_maps ht l0 l1) hW hH
  refine recolour_truecolour h _ ⟨b', ?_, r⟩
  unfold thresholdadjto24bitimage getmaxx getmaxy
  rw [h.valid.getmaxx_eq, h.valid.getmaxy_eq]
  exact e

/-- Four times as bright with a palette: black and white keep their colours, grey 85 becomes white. -/
example : clipped (fun v => 4 * v) (fun v => 4 * v) (fun v => 4 * v) (0, 60, 85) = (0, 240, 255) := by decide
/-- The limits 300 and 20: clipped to 255 and 20 with a palette, 44 and 20 in true colour. -/
example : max (nearestByte 300) (nearestByte 20) = 255 ∧ (max ((300 : Int) % 256) (20 % 256)).toNat = 44 := by decide
example : intoRange 100 200 17 = 100 ∧ intoRange 100 200 150 = 150 ∧ intoRange 100 200 201 = 200 := by decide
/-- A 1-bit file with palette entry (10, 20, 32) for 0 shows grey 21 after `monochrome2file`. -/
example : (do
    let b ← newBMP 2 1 1; let b ← setbmppal b [(10, 20, 32), (0, 0, 2)]; let fs ← monochrome2file (oneFile b) "a" "n"
    pure ((fs "n").map fun c => (palRGB c 0, palRGB c 1))) = .ok (some ((21, 21, 21), (1, 1, 1))) := by decide +kernel

theorem C91_upgradeto24bitimage2file (h : Stored fs ex b W H bits) (hW : 0 < W) (hH : 0 < H) :
    ∃ fs', upgradeto24bitimage2file fs ex nw = .ok fs' ∧ Saved fs fs' nw (fun n =>
      Valid n W H 24 ∧ ∀ x y, x < W → y < H → pixRGB n W H 24 x y = if x < wholeCols W bits then pixRGB b W H bits x
    y else (0, 0, 0)) :=
  applysave_saved h (C37_upgrade_exact h.valid hW hH)

theorem C91_upgrade_wholebytes_partial (h : Stored fs ex b W H bits) (hW : 0 < W) (hH : 0 < H) (hw : FullBytes W
    bits) :
    ∃ fs', upgradeto24bitimage2file fs ex nw = .ok fs' ∧ Saved fs fs' nw (fun n =>
      Valid n W H 24 ∧ ∀ x y, x < W → y < H → pixRGB n W H 24 x y = pixRGB b W H bits x y) :=
  applysave_saved h (C37_upgrade_partial h.valid hW hH hw)

theorem C91_flipXY2file_partial (h : Stored fs ex b W H bits) (hb : bits = 1 ∨ bits = 4) :
    ∃ fs', flipXY2file fs ex nw = .ok fs' ∧ Saved fs fs' nw (fun n =>
      Shows n H W bits (palRGB b) (fun x y => pix b W H bits y x)) :=
  applysave_saved h (C34_flipXY_packed_partial h.valid hb)

theorem C91_flipXY2file_bytes (h : Stored fs ex b W H bits) (hb : bits = 8 ∨ bits = 24) (hH : 0 < H) :
    ∃ fs', flipXY2file fs ex nw = .ok fs' ∧ Saved fs fs' nw (fun n =>
      Shows n H W bits (palRGB b) (fun x y => pix b W H bits (W - 1 - y) (H - 1 - x))) :=
  applysave_saved h (C34_flipXY_bytes h.valid hb hH)

/-- C91: enlarging a true-colour file of even width. -/
theorem C91_resize_partial (h : Stored fs ex b W H 24) (hW : 0 < W) (hH : 0 < H) {n : Nat} (hn : 0 < n) (hnW : W * n < 2 ^ 24)
    (hnH : H * n < 2 ^ 24) (h2 : W % 2 = 0) :
    ∃ fs', resizeNtimesbigger2file fs ex nw n = .ok fs' ∧ Saved fs fs' nw (fun b' =>
      Shows b' (W * n) (H * n) 24 (palRGB b) (fun x y => pix b W H 24 (x / n) (y / n))) :=
  applysave24_saved h (C40_resize_partial h.valid hW hH hn hnW hnH (Or.inr ⟨Or.inr rfl, h2⟩))

/-- C91: cropping writes the selected rectangle; outside the image nothing is written. -/
theorem C91_crop_partial (h : Stored fs ex b W H bits) (x1 y1 x2 y2 : Int) :
    (InImage W H x1 y1 x2 y2 → ∃ fs', cropBMPandsave fs ex nw x1 y1 x2 y2 = .ok fs' ∧ Saved fs fs' nw (fun n =>
      Shows n ((max x1 x2 - min x1 x2).toNat + 1) ((max y1 y2 - min y1 y2).toNat + 1) bits
        (if bits < 8 then palRGB b else freshPal bits)
        (fun x y => pix b W H bits ((min x1 x2).toNat + x) ((min y1 y2).toNat + y)))) ∧
    (¬ InImage W H x1 y1 x2 y2 → cropBMPandsave fs ex nw x1 y1 x2 y2 = .ok fs) := by
  constructor
  · intro hi
    obtain ⟨n, e, hs⟩ := C35_crop_partial h.valid hi
    refine ⟨_, ?_, writeFile_saved fs nw hs⟩
    unfold cropBMPandsave
    rw [applysaveopt_run h, e]
    rfl
  · intro hi
    unfold cropBMPandsave
    rw [applysaveopt_run h, C35_outside h.valid hi]
    rfl

/-- C91: cropping with two corners in order takes one column and one row too many. -/
theorem C91_rectbnd_exact (h : Stored fs ex b W H bits) {x1 y1 x2 y2 : Nat} (hx : x1 ≤ x2) (hy : y1 ≤ y2) :
    (x2 + 1 < W → y2 + 1 < H → ∃ fs', cropBMPandsaveusingrectbnd fs ex nw (x1, y1) (x2, y2) = .ok fs' ∧ Saved fs fs' nw (fun n =>
      Shows n (x2 - x1 + 2) (y2 - y1 + 2) bits (if bits < 8 then palRGB b else freshPal bits)
        (fun x y => pix b W H bits (x1 + x) (y1 + y)))) ∧
    (x2 + 1 ≥ W ∨ y2 + 1 ≥ H → cropBMPandsaveusingrectbnd fs ex nw (x1, y1) (x2, y2) = .ok fs) := by
  have e0 : cropBMPandsaveusingrectbnd fs ex nw ((x1 : Int), (y1 : Int)) ((x2 : Int), (y2 : Int))
      = cropBMPandsave fs ex nw x1 y1 ((x2 : Int) + 1) ((y2 : Int) + 1) := rfl
  rw [e0]
  obtain ⟨c1, c2⟩ := C91_crop_partial (nw := nw) h (x1 : Int) y1 ((x2 : Int) + 1) ((y2 : Int) + 1)
  constructor
  · intro hw hh
    have := c1 (by unfold InImage; omega)
    rw [show (max (x1 : Int) ((x2 : Int) + 1) - min (x1 : Int) ((x2 : Int) + 1)).toNat + 1 = x2 - x1 + 2 by omega,
      show (max (y1 : Int) ((y2 : Int) + 1) - min (y1 : Int) ((y2 : Int) + 1)).toNat + 1 = y2 - y1 + 2 by omega,
      show (min (x1 : Int) ((x2 : Int) + 1)).toNat = x1 by omega, show (min (y1 : Int) ((y2 : Int) + 1)).toNat = y1 by omega] at this
    exact this
  · intro hw
    exact c2 (by unfold InImage; omega)

/-- C91 is false for this function: two opposite corners of the image do not give a copy of the image; nothing is written. -/
theorem C91_rectbnd_false : ¬ ∀ (fs : Files) (ex nw : String) (b : Bytes) (W H bits x1 y1 x2 y2 : Nat), Stored fs ex b W H bits →
    x1 ≤ x2 → y1 ≤ y2 → x2 < W → y2 < H →
    ∃ fs', cropBMPandsaveusingrectbnd fs ex nw (x1, y1) (x2, y2) = .ok fs' ∧ Saved fs fs' nw (fun n =>
      Valid n (x2 - x1 + 1) (y2 - y1 + 1) bits) := by
  intro hall
  obtain ⟨b, _, v, -⟩ := C01_newBMP_valid 1 1 24 (by simp [Depth]) (by norm_num) (by norm_num)
  have hs : Stored (fun n => if n = "a" then some b else none) "a" b 1 1 24 := ⟨by simp, v, C15_longer v (Or.inl ⟨by omega, by omega⟩)⟩
  obtain ⟨fs', e, ⟨⟨c, hc, _⟩, _⟩⟩ := hall _ "a" "b" b 1 1 24 0 0 0 0 hs (le_refl _) (le_refl _) (by omega) (by omega)
  rw [(C91_rectbnd_exact (nw := "b") hs (x1 := 0) (y1 := 0) (le_refl 0) (le_refl 0)).2 (Or.inl (by omega))] at e
  obtain rfl := Except.ok.inj e
  simp at hc

theorem compare_run {in1 in2 out : String} {b1 b2 : Bytes} {W' H' bits' : Nat} (h1 : Stored fs in1 b1 W H bits)
    (h2 : Stored fs in2 b2 W' H' bits') (func : Bytes → Bytes → List Int) :
    imagecompfiles func fs in1 in2 out = (do match ← imagecomp func b1 b2 with
      | none => pure fs
      | some n => pure (writeFile fs out n)) := by
  unfold imagecompfiles
  rw [h1.content, h2.content]
  dsimp only
  rw [show loadBMP b1 = .ok b1 from C15_save_load h1.valid h1.long, show loadBMP b2 = .ok b2 from C15_save_load h2.valid h2.long]
  rfl

/-- C91: comparing two files of the same geometry writes the differing bits, or the common bits. -/
theorem C91_compare {in1 in2 out : String} {b1 b2 : Bytes} (h1 : Stored fs in1 b1 W H bits) (h2 : Stored fs in2 b2 W H bits) :
    (∃ fs', imagediff2file fs in1 in2 out = .ok fs' ∧ Saved fs fs' out (fun n =>
      Shows n W H bits (palRGB b1) (fun x y => pix b1 W H bits x y ^^^ pix b2 W H bits x y))) ∧
    (∃ fs', showsimilarparts2file fs in1 in2 out = .ok fs' ∧ Saved fs fs' out (fun n =>
      Shows n W H bits (palRGB b1) (fun x y => pix b1 W H bits x y &&& pix b2 W H bits x y))) := by
  constructor
  · obtain ⟨n, e, s⟩ := C49_imagediff h1.valid h2.valid
    refine ⟨_, ?_, writeFile_saved fs out s⟩
    unfold imagediff2file
    rw [compare_run h1 h2, show imagecomp xorvect b1 b2 = .ok (some n) from e]
    rfl
  · obtain ⟨n, e, s⟩ := C49_showsimilarparts h1.valid h2.valid
    refine ⟨_, ?_, writeFile_saved fs out s⟩
    unfold showsimilarparts2file
    rw [compare_run h1 h2, show imagecomp andvect b1 b2 = .ok (some n) from e]
    rfl

/-- C91: nothing is written when the geometries differ or one of the files is missing. -/
theorem C91_compare_refused {in1 in2 out : String} {b1 b2 : Bytes} {W' H' bits' : Nat} :
    (Stored fs in1 b1 W H bits → Stored fs in2 b2 W' H' bits' → ¬ (W = W' ∧ H = H' ∧ bits = bits') →
      imagediff2file fs in1 in2 out = .ok fs ∧ showsimilarparts2file fs in1 in2 out = .ok fs) ∧
    (fs in1 = none ∨ fs in2 = none → imagediff2file fs in1 in2 out = .ok fs ∧ showsimilarparts2file fs in1 in2 out = .ok fs) := by
  constructor
  · intro h1 h2 hne
    obtain ⟨e1, e2⟩ := C49_geometry h1.valid h2.valid hne
    unfold imagediff2file showsimilarparts2file
    rw [compare_run h1 h2, compare_run h1 h2, show imagecomp xorvect b1 b2 = .ok none from e1,
      show imagecomp andvect b1 b2 = .ok none from e2]
    exact ⟨rfl, rfl⟩
  · intro hn
    unfold imagediff2file showsimilarparts2file imagecompfiles
    rcases hn with hn | hn
    · rw [hn]; exact ⟨rfl, rfl⟩
    · rw [hn]; cases fs in1 <;> exact ⟨rfl, rfl⟩

/-- Cropping one pixel: `cropBMPandsave` keeps 1 by 1, the variant with corner points keeps 2 by 2. -/
example : (do
    let b ← newBMP 4 3 24; let b ← plotxybit b 1 1 9; let fs ← cropBMPandsave (oneFile b) "a" "n" 1 1 1 1
    let fs2 ← cropBMPandsaveusingrectbnd (oneFile b) "a" "n" (1, 1) (1, 1)
    pure ((fs "n").map fun (c : Bytes) => (c.length, pix c 1 1 24 0 0), (fs2 "n").map fun (c : Bytes) => (c.length, pix c 2 2 24 0 0))) =
    .ok (some (58, 9), some (70, 9)) := by decide +kernel

end Verif.Props
