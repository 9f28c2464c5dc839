import Verif.Props.SessionMore
/-! Property C203: the pictures of repeated attempts come to rest. -/

namespace Verif.Props.Session
open Verif Spec Model Model.Run Verif.Props Verif.Props.Beyond Verif.Props.Far Verif.Props.Overlay Verif.Props.Abort

variable {b : Bytes} {W H bits : Nat}

theorem spoil_le {c : Int} (hc : c < 0) {x : Nat} (hx : 0 < x) (ys : List Nat) (g : Nat → Nat → Nat) (y : Nat) :
    spoil c x ys g (x - 1) y ≤ g (x - 1) y := by
  induction ys generalizing g with
  | nil => exact le_refl _
  | cons z ys ih =>
    unfold spoil
    split_ifs with hs
    · exact le_refl _
    · refine (ih _).trans ?_
      unfold borrow
      rw [if_neg (by omega)]
      split_ifs with hz
      · obtain ⟨rfl, -⟩ := hz
        omega
      · exact le_refl _

theorem spoil_lt {c : Int} (hc : c < 0) {x : Nat} (hx : 0 < x) {y : Nat} (ys : List Nat) {g : Nat → Nat → Nat}
    (hs : ¬ 16 * (g (x - 1) y : Int) + c < 0) : spoil c x (y :: ys) g (x - 1) y < g (x - 1) y := by
  unfold spoil
  rw [if_neg hs]
  refine (spoil_le hc hx ys _ y).trans_lt ?_
  unfold borrow
  rw [if_neg (by omega), if_pos ⟨rfl, by omega⟩]
  omega

theorem spoil_rest {c : Int} (hc : c < 0) {x : Nat} (hx : 0 < x) (ys : List Nat) (n : Nat) {g : Nat → Nat → Nat}
    (hg : ∀ y ∈ ys, g (x - 1) y ≤ n) : (spoil c x ys)^[n + 1] g = (spoil c x ys)^[n] g := by
  cases ys with
  | nil =>
    rw [Function.iterate_succ_apply']
    rfl
  | cons y ys =>
    have h0 := hg y (by simp)
    clear hg
    induction n generalizing g with
    | zero =>
      show spoil c x (y :: ys) g = g
      unfold spoil
      rw [if_pos (by omega)]
    | succ n ih =>
      by_cases hs : 16 * (g (x - 1) y : Int) + c < 0
      · have e : spoil c x (y :: ys) g = g := by
          rw [spoil, if_pos hs]
        rw [Function.iterate_succ_apply, e]
      · have := spoil_lt hc hx ys hs
        rw [Function.iterate_succ_apply, Function.iterate_succ_apply (spoil c x (y :: ys)) n]
        exact ih (by omega)

theorem foldl_replicate {α β : Type} (f : β → α → β) (t : α) (n : Nat) (g : β) :
    (List.replicate n t).foldl f g = (fun g => f g t)^[n] g := by
  induction n generalizing g with
  | zero => rfl
  | succ n ih => rw [List.replicate_succ, List.foldl_cons, ih, Function.iterate_succ_apply]

/-- After fifteen attempts on a picture whose pixels are below 16 nothing changes any more. -/
theorem effect_rest {t : Figure × Int} {n : Nat} (hn : 15 ≤ n) {g : Nat → Nat → Nat} (hW : 0 < W) (hH : 0 < H)
    (hg : bits = 4 → ∀ px py, px < W → py < H → g px py < 16) {px py : Nat} :
    (effect W H bits t)^[n + 1] g px py = (effect W H bits t)^[n] g px py := by
  by_cases ha : Adding W H bits t
  · obtain ⟨f, c⟩ := t
    cases f with
    | segment p q =>
      obtain ⟨rfl, hc, sl⟩ := id ha
      dsimp only at hc
      have hX : 0 ≤ clampTo p.1 W ∧ clampTo p.1 W < W := by unfold clampTo; omega
      have e : effect W H 4 (.segment p q, c) = if clampTo p.1 W % 2 = 0 then id
          else spoil c (clampTo p.1 W).toNat (firstRows (clampTo p.1 W) (clampTo p.2 H) (clampTo q.1 W) (clampTo q.2 H)) := by
        funext g
        unfold effect shown
        dsimp only
        rw [if_neg (by omega), if_pos ⟨rfl, hc, sl⟩]
        split_ifs <;> rfl
      rw [e]
      by_cases he : clampTo p.1 W % 2 = 0
      · rw [if_pos he, Function.iterate_id, Function.iterate_id]
      · rw [if_neg he, spoil_rest hc (by omega) _ n fun y hy => ?_]
        have := hg rfl ((clampTo p.1 W).toNat - 1) y (by omega) (firstRows_lt hH _ _ _ _ sl.1 sl.2 y hy)
        omega
    | _ => exact absurd ha id
  · obtain ⟨m, rfl⟩ : ∃ m, n = m + 1 := ⟨n - 1, by omega⟩
    rw [Function.iterate_succ_apply' _ (m + 1), Function.iterate_succ_apply' _ m]
    generalize (effect W H bits t)^[m] g = k
    rw [effect_eq ha (effect W H bits t k), effect_eq ha k]
    by_cases hd : touched W H bits t px py
    · simp only [if_pos hd, ink_twice]
    · simp only [if_neg hd]

theorem session_append (k l : List (Figure × Int)) (b : Bytes) : session (k ++ l) b = session l (session k b) := by
  unfold session
  rw [List.foldl_append]

/-- **C203**: every call, also one that raises an exception, comes to rest: from the fifteenth attempt on the picture stays. -/
theorem C203_retry_ends (h : Valid b W H bits) (hW : 0 < W) (hH : 0 < H) {k l : List (Figure × Int)} {t : Figure × Int} {n : Nat} (hn : 15 ≤ n)
    (hk : ∀ s ∈ k, Safe W H bits s.1) (ht : Safe W H bits t.1) (hl : ∀ s ∈ l, Safe W H bits s.1) :
    SamePicture W H bits (session (k ++ List.replicate n t ++ l) b) (session (k ++ List.replicate (n + 1) t ++ l) b) := by
  have hv := (C202_intact h hW hH hk).1
  have hr : ∀ m, ∀ s ∈ List.replicate m t ++ l, Safe W H bits s.1 := by
    intro m s hs
    rcases List.mem_append.mp hs with hs | hs
    · rw [List.eq_of_mem_replicate hs]; exact ht
    · exact hl s hs
  rw [List.append_assoc, List.append_assoc, session_append k, session_append k]
  have r := session_effect hv hW hH (hr n)
  have r' := session_effect hv hW hH (hr (n + 1))
  refine ⟨⟨r'.header.1.trans r.header.1.symm, fun i hi => (r'.header.2 i hi).trans (r.header.2 i hi).symm⟩, fun x y hx hy => ?_⟩
  rw [r.pixels x y hx hy, r'.pixels x y hx hy, List.foldl_append, List.foldl_append]
  refine effects_congr hH l (fun px py hpx hpy => ?_) hx hy
  rw [foldl_replicate, foldl_replicate]
  exact effect_rest hn hW hH fun e px py _ _ => by subst e; exact hv.pix_lt px py

/-- Fifteen attempts can be necessary: the pixel at (0, 0) is 15 at first, and each attempt subtracts 1. -/
example : (do let b ← newBMP 2 3 4
              let p (n : Nat) : Py Int := getxybit (session ((.point 0 0, 15) :: List.replicate n (.segment (1, 0) (0, 2), -1)) b) 0 0
              pure (← p 0, ← p 1, ← p 14, ← p 15, ← p 16)) = .ok (15, 14, 1, 0, 0) := by decide +kernel

end Verif.Props.Session
