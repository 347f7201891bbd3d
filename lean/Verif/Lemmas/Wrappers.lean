import Verif.Spec.Wrappers
import Verif.Lemmas.XtLaws

/-! Lemmas about the wrappers of external optimizers. -/

namespace Limbo

variable {α : Type} [Scalar α]

open Nl

/-- a call in the dimension of the object -/
theorem nl_call_same {P : Nl.Params α} {lib : Nl.Lib α} {o : Obj α} {f : ObjFn α} {x : List α} {b : Bool} (hx : x ≠ [])
    (hd : (o.getD (setup P x.length)).dim = x.length) : ∃ out c, call P lib o f x b = some out ∧ out.obj = some c ∧
      c = (if b then { o.getD (setup P x.length) with bounds := some (List.replicate x.length (lit 0), List.replicate x.length (lit 1)) }
        else o.getD (setup P x.length)) ∧
      out.run = some ⟨c, nloptFunc f, x⟩ ∧ ((lib ⟨c, nloptFunc f, x⟩).2 ≠ .other → out.ret = some (lib ⟨c, nloptFunc f, x⟩).1) ∧
      ((lib ⟨c, nloptFunc f, x⟩).2 = .other → out.ret = none) := by
  unfold call
  rw [if_neg (by simpa using hx)]
  generalize o.getD (setup P x.length) = base at hd ⊢
  show ∃ out c, (if b = true ∧ base.dim ≠ x.length then _ else _) = some out ∧ _
  rw [if_neg (by rintro ⟨-, h⟩; exact h hd)]
  have fin : ∀ c : Cfg α, c.dim = x.length → ∃ out, (if c.dim ≠ x.length then some ⟨some c, none, some x⟩
      else match lib ⟨c, nloptFunc f, x⟩ with
        | (_, .other) => some ⟨some c, some ⟨c, nloptFunc f, x⟩, none⟩
        | (y, _) => some ⟨some c, some ⟨c, nloptFunc f, x⟩, some y⟩ : Option (Out α)) = some out ∧ out.obj = some c ∧
      out.run = some ⟨c, nloptFunc f, x⟩ ∧ ((lib ⟨c, nloptFunc f, x⟩).2 ≠ .other → out.ret = some (lib ⟨c, nloptFunc f, x⟩).1) ∧
      ((lib ⟨c, nloptFunc f, x⟩).2 = .other → out.ret = none) := by
    intro c hc
    rw [if_neg (not_not.2 hc)]
    rcases lib ⟨c, nloptFunc f, x⟩ with ⟨y, st⟩
    cases st
    case other => exact ⟨_, rfl, rfl, rfl, fun h => absurd rfl h, fun _ => rfl⟩
    all_goals exact ⟨_, rfl, rfl, rfl, fun _ => rfl, fun h => by cases h⟩
  obtain ⟨out, h1, h2, h3, h4, h5⟩ := fin (if b then { base with bounds := some (List.replicate x.length (lit 0), List.replicate x.length (lit 1)) }
    else base) (by cases b <;> exact hd)
  exact ⟨out, _, h1, h2, rfl, h3, h4, h5⟩

/-- what an object knows after a history -/
structure NlTracks (P : Nl.Params α) (o : Obj α) (d : Option Nat) (b : Bool) (li le : List (ObjFn α × α)) : Prop where
  none : d = none → o = none ∧ b = false ∧ li = [] ∧ le = []
  some : ∀ n, d = some n → o = some ⟨n, if b then some (List.replicate n (lit 0), List.replicate n (lit 1)) else Option.none, li, le,
    P.iterations, P.ftol, P.xtol⟩

theorem nl_tracks {P : Nl.Params α} {lib : Nl.Lib α} (ops : List (Op α)) : ∀ {o o' : Obj α} {d : Option Nat} {b : Bool} {li le},
    NlTracks P o d b li le → steps P lib ops o = some o' →
    NlTracks P o' (dimAfter ops d) (boundedBefore ops d b) (ineqAfter ops d li) (eqAfter ops d le) := by
  induction ops with
  | nil => intro o o' d b li le h hs; cases hs; exact h
  | cons op ops ih =>
    intro o o' d b li le h hs
    unfold steps at hs
    cases hst : step P lib o op with
    | none => rw [hst] at hs; simp at hs
    | some o1 =>
      rw [hst] at hs
      simp only [Option.bind_some] at hs
      cases op with
      | setup n =>
        simp only [step, Option.some.injEq] at hst
        subst hst
        refine ih (d := some n) (b := false) (li := []) (le := []) ⟨fun e => by simp at e, fun m e => ?_⟩ hs
        simp only [Option.some.injEq] at e
        subst e
        rfl
      | ineq f t =>
        simp only [step, Option.some.injEq] at hst
        subst hst
        refine ih (d := d) (b := b) ⟨fun e => ?_, fun n e => ?_⟩ hs
        · obtain ⟨h1, h2, h3, h4⟩ := h.none e
          subst h1 e
          exact ⟨rfl, h2, by simpa using h3, h4⟩
        · rw [h.some n e, e]; rfl
      | eq f t =>
        simp only [step, Option.some.injEq] at hst
        subst hst
        refine ih (d := d) (b := b) ⟨fun e => ?_, fun n e => ?_⟩ hs
        · obtain ⟨h1, h2, h3, h4⟩ := h.none e
          subst h1 e
          exact ⟨rfl, h2, h3, by simpa using h4⟩
        · rw [h.some n e, e]; rfl
      | call f x b' =>
        refine ih (d := some (d.getD x.length)) (b := b || (b' && d.getD x.length == x.length)) ⟨fun e => by simp at e, fun n e => ?_⟩ hs
        simp only [Option.some.injEq] at e
        simp only [step] at hst
        have hx : x ≠ [] := by
          rintro rfl
          simp [call] at hst
        -- the settings used
        have hc : o.getD (setup P x.length) = ⟨n, if b then Option.some (List.replicate n (lit 0), List.replicate n (lit 1)) else Option.none,
            li, le, P.iterations, P.ftol, P.xtol⟩ := by
          cases d with
          | none =>
            obtain ⟨h1, h2, h3, h4⟩ := h.none rfl
            subst h1 h2 h3 h4
            simp only [Option.getD_none] at e
            subst e
            rfl
          | some m =>
            simp only [Option.getD_some] at e
            rw [h.some n (by rw [e])]
            rfl
        by_cases hd : n = x.length
        · obtain ⟨out, c, h1, h2, h3, -⟩ := nl_call_same (P := P) (lib := lib) (o := o) (f := f) (b := b') hx (by rw [hc]; exact hd)
          rw [h1] at hst
          simp only [Option.map_some, Option.some.injEq] at hst
          rw [← hst, h2, h3, hc, e, ← hd]
          cases b' <;> cases b <;> simp
        · have hne : (d.getD x.length == x.length) = false := by rw [e]; simpa using hd
          rw [hne]
          unfold call at hst
          rw [if_neg (by simpa using hx)] at hst
          simp only [hc] at hst
          cases b' with
          | true =>
            rw [if_pos ⟨rfl, hd⟩] at hst
            simp only [Option.map_some, Option.some.injEq] at hst
            rw [← hst]; simp
          | false =>
            simp only [Bool.false_eq_true, false_and, if_false] at hst
            rw [if_pos hd] at hst
            simp only [Option.map_some, Option.some.injEq] at hst
            rw [← hst]; simp

/-- the order is reversed by negation for doubles (NaN included) -/
theorem xt_neg_le (a b : F64) : le (-a) (-b) = le b a := by
  cases a <;> cases b <;> first | rfl | (show decide _ = decide _; simp)

end Limbo
