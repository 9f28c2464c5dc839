import Verif.Model.Environ
import Mathlib.Tactic.SplitIfs
/-! Property C179: what saving a bitmap does to the variable `PATH`. -/

namespace Verif.Props.Environ
open Verif Spec Model

/-- Specification: `e` is one of the directories of the search path `s`: a part of `s` without separators that is bounded by separators
or the ends of `s`. -/
def Entry (sep : Char) (s e : List Char) : Prop :=
  sep ∉ e ∧ ∃ a b, s = a ++ e ++ b ∧ (a = [] ∨ ∃ a', a = a' ++ [sep]) ∧ (b = [] ∨ ∃ b', b = sep :: b')

theorem split_ne (sep : Char) (s : List Char) : pySplit sep s ≠ [] := by
  cases s with
  | nil => simp [pySplit]
  | cons c cs =>
    simp only [pySplit]
    split_ifs
    · simp
    · cases pySplit sep cs <;> simp

theorem join_split (sep : Char) (s : List Char) : pyJoin sep (pySplit sep s) = s := by
  induction s with
  | nil => rfl
  | cons c cs ih =>
    simp only [pySplit]
    have hn := split_ne sep cs
    split_ifs with h
    · cases hs : pySplit sep cs with
      | nil => exact absurd hs hn
      | cons e es => rw [hs] at ih; simp only [pyJoin, List.nil_append, ih, h]
    · cases hs : pySplit sep cs with
      | nil => exact absurd hs hn
      | cons e es =>
        rw [hs] at ih
        cases es with
        | nil => simp only [pyJoin] at ih ⊢; rw [ih]
        | cons e2 es => simp only [pyJoin] at ih ⊢; rw [List.cons_append, ih]

/-- The first entry and the others, by the first separator. -/
theorem split_head (sep : Char) (s : List Char) : ∃ e es, pySplit sep s = e :: es ∧ sep ∉ e ∧
    ((es = [] ∧ s = e) ∨ ∃ t, s = e ++ sep :: t ∧ es = pySplit sep t) := by
  induction s with
  | nil => exact ⟨[], [], rfl, by simp, Or.inl ⟨rfl, rfl⟩⟩
  | cons c cs ih =>
    simp only [pySplit]
    split_ifs with h
    · exact ⟨[], _, rfl, by simp, Or.inr ⟨cs, by rw [h]; rfl, rfl⟩⟩
    · obtain ⟨e, es, h1, h2, h3⟩ := ih
      rw [h1]
      refine ⟨c :: e, es, rfl, ?_, ?_⟩
      · intro hm
        rcases List.mem_cons.mp hm with hm | hm
        · exact h hm.symm
        · exact h2 hm
      · rcases h3 with ⟨h3, h4⟩ | ⟨t, h3, h4⟩
        · exact Or.inl ⟨h3, by rw [h4]⟩
        · exact Or.inr ⟨t, by rw [h3]; rfl, h4⟩

theorem split_append (sep : Char) (u v : List Char) : pySplit sep (u ++ sep :: v) = pySplit sep u ++ pySplit sep v := by
  induction u with
  | nil => simp [pySplit]
  | cons c cs ih =>
    simp only [List.cons_append, pySplit, ih]
    split_ifs
    · rfl
    · cases hs : pySplit sep cs with
      | nil => exact absurd hs (split_ne sep cs)
      | cons e es => rfl

theorem split_single {sep : Char} {e : List Char} (he : sep ∉ e) : pySplit sep e = [e] := by
  obtain ⟨e1, es, h1, -, ⟨h3, h4⟩ | ⟨t, h3, -⟩⟩ := split_head sep e
  · rw [h1, h3, ← h4]
  · exact absurd (by rw [h3]; simp) he

theorem mem_split {sep : Char} {s e : List Char} : e ∈ pySplit sep s ↔ Entry sep s e := by
  constructor
  · induction hn : s.length using Nat.strongRecOn generalizing s with
    | ind n ih =>
      intro hm
      obtain ⟨e1, es, h1, h2, h3⟩ := split_head sep s
      rw [h1] at hm
      rcases List.mem_cons.mp hm with rfl | hm
      · rcases h3 with ⟨-, h4⟩ | ⟨t, h4, -⟩
        · exact ⟨h2, [], [], by rw [h4]; simp, Or.inl rfl, Or.inl rfl⟩
        · exact ⟨h2, [], sep :: t, by rw [h4]; simp, Or.inl rfl, Or.inr ⟨t, rfl⟩⟩
      · rcases h3 with ⟨h4, -⟩ | ⟨t, h4, h5⟩
        · rw [h4] at hm; cases hm
        · rw [h5] at hm
          obtain ⟨k1, a, b, k2, k3, k4⟩ := ih t.length (by rw [← hn, h4]; simp; omega) rfl hm
          refine ⟨k1, e1 ++ sep :: a, b, by rw [h4, k2]; simp, Or.inr ?_, k4⟩
          rcases k3 with rfl | ⟨a', rfl⟩
          · exact ⟨e1, rfl⟩
          · exact ⟨e1 ++ sep :: a', by simp⟩
  · rintro ⟨he, a, b, rfl, ha, hb⟩
    rcases ha with rfl | ⟨a', rfl⟩ <;> rcases hb with rfl | ⟨b', rfl⟩
    · simp [split_single he]
    · simp [split_append, split_single he]
    · rw [show a' ++ [sep] ++ e ++ [] = a' ++ sep :: e by simp, split_append, split_single he]; simp
    · rw [show a' ++ [sep] ++ e ++ sep :: b' = a' ++ sep :: (e ++ sep :: b') by simp, split_append, split_append, split_single he]; simp

theorem join_cons {sep : Char} (d : List Char) {l : List (List Char)} (h : l ≠ []) : pyJoin sep (d :: l) = d ++ sep :: pyJoin sep l := by
  cases l with
  | nil => exact absurd rfl h
  | cons e es => rfl

/-- **C179**: the search path is left alone if the directory is among its entries, and otherwise becomes the directory, a separator and
the old path (an empty one if there was none); no other variable changes. -/
theorem C179_path (sep : Char) (dir : List Char) (env : Environ) :
    (∀ v, v ≠ "PATH" → ensurePaintWrapperInPath sep dir env v = env v) ∧
    (Entry sep ((env "PATH").getD []) dir → ensurePaintWrapperInPath sep dir env "PATH" = env "PATH") ∧
    (¬ Entry sep ((env "PATH").getD []) dir →
      ensurePaintWrapperInPath sep dir env "PATH" = some (dir ++ sep :: (env "PATH").getD [])) := by
  unfold ensurePaintWrapperInPath
  dsimp only
  refine ⟨fun v hv => ?_, fun h => ?_, fun h => ?_⟩
  · split_ifs <;> simp [hv]
  · rw [if_neg (fun h' => h' (mem_split.mpr h))]
  · rw [if_pos (fun h' => h (mem_split.mp h')), if_pos rfl, join_cons _ (split_ne _ _), join_split]

/-- Every entry of the old path is still an entry. -/
theorem C179_keeps (sep : Char) (dir : List Char) (env : Environ) {e p : List Char} (hp : env "PATH" = some p) (he : Entry sep p e) :
    ∃ p', ensurePaintWrapperInPath sep dir env "PATH" = some p' ∧ Entry sep p' e := by
  obtain ⟨-, h1, h2⟩ := C179_path sep dir env
  rw [hp, Option.getD_some] at h1 h2
  by_cases h : Entry sep p dir
  · exact ⟨p, h1 h, he⟩
  · refine ⟨_, h2 h, ?_⟩
    rw [← mem_split] at he ⊢
    rw [split_append]
    exact List.mem_append_right _ he

/-- If the directory's path has no separator in it, then it is an entry afterwards, and any further call changes nothing. -/
theorem C179_once {sep : Char} {dir : List Char} (hd : sep ∉ dir) (env : Environ) :
    Entry sep ((ensurePaintWrapperInPath sep dir env "PATH").getD []) dir ∧
    ensurePaintWrapperInPath sep dir (ensurePaintWrapperInPath sep dir env) = ensurePaintWrapperInPath sep dir env := by
  have key : Entry sep ((ensurePaintWrapperInPath sep dir env "PATH").getD []) dir := by
    obtain ⟨-, h1, h2⟩ := C179_path sep dir env
    by_cases h : Entry sep ((env "PATH").getD []) dir
    · rw [h1 h]; exact h
    · rw [h2 h, Option.getD_some]
      exact ⟨hd, [], sep :: (env "PATH").getD [], by simp, Or.inl rfl, Or.inr ⟨_, rfl⟩⟩
  refine ⟨key, ?_⟩
  obtain ⟨h0, h1, -⟩ := C179_path sep dir (ensurePaintWrapperInPath sep dir env)
  funext v
  by_cases hv : v = "PATH"
  · rw [hv, h1 key]
  · rw [h0 v hv]

/-- A separator in the path of the directory: it never becomes an entry, and the search path grows by the same text with each bitmap saved. -/
theorem C179_grows {sep : Char} {dir : List Char} (hd : sep ∈ dir) (env : Environ) :
    ¬ Entry sep ((ensurePaintWrapperInPath sep dir env "PATH").getD []) dir ∧
    ((ensurePaintWrapperInPath sep dir env "PATH").getD []).length = ((env "PATH").getD []).length + dir.length + 1 := by
  refine ⟨fun h => h.1 hd, ?_⟩
  rw [(C179_path sep dir env).2.2 (fun h => h.1 hd)]
  simp; omega

/-- Without a search path the new one has an empty entry at its end, that is, the current directory. -/
theorem C179_empty {sep : Char} {dir : List Char} (hd : dir ≠ []) (env : Environ) (h : env "PATH" = none) :
    ensurePaintWrapperInPath sep dir env "PATH" = some (dir ++ [sep]) ∧ Entry sep (dir ++ [sep]) [] := by
  constructor
  · rw [(C179_path sep dir env).2.2, h]
    · rfl
    · rw [h]
      rintro ⟨-, a, b, h2, -⟩
      have := congrArg List.length h2
      have h3 := List.length_pos_iff.mpr hd
      simp at this
      omega
  · exact ⟨by simp, dir ++ [sep], [], by simp, Or.inr ⟨dir, rfl⟩, Or.inl rfl⟩

/-- Saving a bitmap writes the bytes to that file only and puts the directory into the search path. -/
theorem C179_save {sep : Char} {dir : List Char} (hd : sep ∉ dir) (env : Environ) (fs : Files) (file : String) (bmp : Bytes) :
    (saveBMPenv sep dir env fs file bmp).2 file = some bmp ∧
    (∀ g, g ≠ file → (saveBMPenv sep dir env fs file bmp).2 g = fs g) ∧
    Entry sep (((saveBMPenv sep dir env fs file bmp).1 "PATH").getD []) dir := by
  refine ⟨?_, fun g hg => ?_, (C179_once hd env).1⟩
  · simp [saveBMPenv, writeFile, saveBMP]
  · simp [saveBMPenv, writeFile, hg]

-- A directory is put before the others, once.
example : let env : Environ := fun v => if v = "PATH" then some "/bin:/usr/bin".toList else none
    let env' := ensurePaintWrapperInPath ':' "/lib/bmp".toList env
    env' "PATH" = some "/lib/bmp:/bin:/usr/bin".toList ∧ env' "HOME" = none ∧
    ensurePaintWrapperInPath ':' "/lib/bmp".toList env' "PATH" = env' "PATH" := by decide +kernel
-- `/usr` is not an entry of `/bin:/usr/bin`.
example : ensurePaintWrapperInPath ':' "/usr".toList (fun _ => some "/bin:/usr/bin".toList) "PATH" = some "/usr:/bin:/usr/bin".toList ∧
    ensurePaintWrapperInPath ':' "/bin".toList (fun _ => some "/bin:/usr/bin".toList) "PATH" = some "/bin:/usr/bin".toList := by decide +kernel
-- A separator within the directory
example : let f := ensurePaintWrapperInPath ':' "/a:b".toList
    f (f (fun _ => some "/bin".toList)) "PATH" = some "/a:b:/a:b:/bin".toList := by decide +kernel

end Verif.Props.Environ
