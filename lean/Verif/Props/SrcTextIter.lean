import Verif.Props.SrcTextLib
import Verif.Props.SrcSerdeAll
/-!
# `extend` with the iterator of SpecText.lean

The iterator yields items and then ends or panics.  When it panics, it has seen in the variable `self` of `extend` the set
with the items so far.
-/
set_option autoImplicit false
set_option maxRecDepth 10000
set_option maxHeartbeats 400000

namespace Enumset.Hist
open Src SetRs

section
variable [Platform] {T : EnumSetType} {P : Prog T.Val} {enc : T.Repr → Val T.Val}
  {encI : EnumSetTypeRepr.Iter T.Repr → Val T.Val} {okI : EnumSetTypeRepr.Iter T.Repr → Prop}

omit [Platform] in
theorem readPanic_panicVal {n : Nat} (p : Panic) : readPanic (panicVal p : Val (Fin n)) = some p := by cases p <;> rfl

/-- The functions of the iterator. -/
structure UserFns (P : Prog T.Val) : Prop where
  into_iter : ∀ j caller it, P.call j "UserIter" "into_iter" caller [] [it] = .ok (it, [])
  next : ∀ j caller st,
    P.call j "UserIter" "next" caller [] [.struct "UserIter" [("0", st)]] =
      userNext caller st >>= fun r => .ok (opt id r.1, [(0, .struct "UserIter" [("0", r.2)])])

open Classical in
/-- What happens after the last item. -/
noncomputable def userEnd (e : Option (Val T.Val × Panic)) (env : Src.Env T.Val) : Res (Out T.Val) :=
  match e with
  | none => .ok (.val .unit env)
  | some (s, p) => if Src.lookup "self" env = some s then .panic p else .ub

theorem userEnd_eq {env : Src.Env T.Val} {s s' : Val T.Val} (p : Panic) (h : Src.lookup "self" env = some s) (e : s = s') :
    userEnd (some (s', p)) env = .panic p := by
  exact if_pos (h.trans (congrArg some e))
theorem userEnd_ne {env : Src.Env T.Val} {s s' : Val T.Val} (p : Panic) (h : Src.lookup "self" env = some s) (e : ¬s = s') :
    userEnd (some (s', p)) env = .ub := by
  exact if_neg fun h' => e (Option.some.inj (h.symm.trans h'))

theorem for_user (U : UserFns P) {α β : Type} (k : Nat) (s : String) {f : Val T.Val → Src.Env T.Val → Res (Out T.Val)}
    {g : α → β → Res β} {encA : α → Val T.Val} (encB : β → Src.Env T.Val)
    (hf : ∀ a b, f (encA a) (encB b) = g a b >>= fun b => .ok (.val .unit (encB b)))
    (b : β) (xs : List α) (hx : xs.length < P.fuel) (e : Option (Val T.Val × Panic)) {env : Src.Env T.Val}
    (he : env = encB b) :
    iterate (P.ctx s (P.link k)) f (userIter (xs.map encA) e) env =
      forEach xs b g >>= fun b => userEnd e (encB b) := by
  subst he
  rw [iterate_single _ _ _ (by intro xs; rw [userIter]; nofun), ctx_fuel]
  show forNext ((P.ctx s (P.link k)).call "UserIter" "next") f P.fuel _ _ = _
  generalize P.fuel = n at hx
  induction xs generalizing b n with
  | nil =>
    obtain ⟨n, rfl⟩ : ∃ m, n = m + 1 := ⟨n - 1, by simp at hx; omega⟩
    rw [forNext, ctx_call, userIter, U.next, forEach]
    rcases e with _ | ⟨s', p⟩
    · rfl
    · simp only [List.map, userNext, endVal, readPanic_panicVal, userEnd]
      by_cases h : Src.lookup "self" (encB b) = some s'
      · simp only [Res.ok_bind, h, if_true]; rfl
      · simp only [Res.ok_bind, h, if_false]; rfl
  | cons a xs ih =>
    obtain ⟨n, rfl⟩ : ∃ m, n = m + 1 := ⟨n - 1, by simp at hx; omega⟩
    rw [forNext, ctx_call, userIter, U.next, forEach]
    simp only [List.map, userNext, Res.ok_bind, opt, id, hf, Src.bind_assoc]
    refine Src.bind_congr fun b' => ?_
    exact ih b' n (by simp at hx; omega)

theorem method_into_iter_user (C : Ctx T.Val) (xs : List (Val T.Val)) (e : Option (Val T.Val × Panic)) (env : Src.Env T.Val) :
    method C "into_iter" [] (userIter xs e) [] env = C.call "UserIter" "into_iter" env [] [userIter xs e] := rfl
theorem adopt_user (x : Exp) (xs : List (Val T.Val)) (e : Option (Val T.Val × Panic)) :
    x.adopt (userIter xs e) = userIter xs e := by cases x <;> rfl

variable (S : Src.Storage P T.Repr enc encI okI) {encV : T.Val → T.Val} (E : EnumItems P T enc encV) (k : Nat) (caller : Src.Env T.Val)

open Classical in
/-- What `extend` does after the last item. -/
noncomputable def extendEnd (e : Option (Val T.Val × Panic)) (s : Val T.Val) : Res (Val T.Val × List (Nat × Val T.Val)) :=
  match e with
  | none => .ok (.unit, [(0, s)])
  | some (s', p) => if s = s' then .panic p else .ub

include S E in
theorem extend_user_text (U : UserFns P) (s : EnumSet T) (xs : List T.Val) (hx : xs.length < P.fuel)
    (e : Option (Val T.Val × Panic)) :
    P.call (k + 6) "EnumSet" "extend_variants" caller [] [setOf enc s, userIter (xs.map fun v => .host "T" (encV v)) e] =
      s.extend xs >>= fun s => extendEnd e (setOf enc s) := by
  run_set S EnumSet_extend_variants [method_into_iter_user, adopt_user, U.into_iter]
  rw [for_user U (k + 5) _ (fun s => ("self", setOf enc s) :: ("iter", userIter (xs.map fun v => .host "T" (encV v)) e) :: P.params)
    (g := fun v s => s.insert v >>= fun r => .ok r.2) ?_ s xs hx e rfl]
  · rcases e with _ | ⟨s', p⟩
    · step_set S [EnumSet.extend, userEnd, extendEnd]
    · simp only [EnumSet.extend, andThen_bind, Src.bind_assoc]
      refine Src.bind_congr fun s => ?_
      by_cases h : setOf enc s = s'
      · rw [userEnd_eq p rfl h, extendEnd, if_pos h]; rfl
      · rw [userEnd_ne p rfl h, extendEnd, if_neg h]; rfl
  · intro v s
    step_set S [C68_insert S E]

include S in
theorem extend_sets_user_text (U : UserFns P) (s : EnumSet T) (xs : List (EnumSet T)) (hx : xs.length < P.fuel)
    (e : Option (Val T.Val × Panic)) :
    P.call (k + 6) "EnumSet" "extend_sets" caller [] [setOf enc s, userIter (xs.map (setOf enc)) e] =
      s.extend_sets xs >>= fun s => extendEnd e (setOf enc s) := by
  run_set S EnumSet_extend_sets [method_into_iter_user, adopt_user, U.into_iter]
  rw [for_user U (k + 5) _ (fun s => ("self", setOf enc s) :: ("iter", userIter (xs.map (setOf enc)) e) :: P.params)
    (g := fun v s => s.insert_all v) ?_ s xs hx e rfl]
  · rcases e with _ | ⟨s', p⟩
    · step_set S [EnumSet.extend_sets, userEnd, extendEnd]
    · simp only [EnumSet.extend_sets, andThen_bind, Src.bind_assoc]
      refine Src.bind_congr fun s => ?_
      by_cases h : setOf enc s = s'
      · rw [userEnd_eq p rfl h, extendEnd, if_pos h]; rfl
      · rw [userEnd_ne p rfl h, extendEnd, if_neg h]; rfl
  · intro v s
    step_set S [C68_insert_all S]

theorem extendText_eq {f : String} {v s' : Val T.Val} {xs : List (Val T.Val)} {j : Nat}
    (h : ∀ e, P.call j "EnumSet" f [] [] [v, userIter xs e] = extendEnd e s') :
    extendText P j f v xs = .ok s' := by
  rw [extendText, newSelf, Prog.getMut, h]; rfl
theorem extendPanicText_eq {f : String} {v s' : Val T.Val} {xs : List (Val T.Val)} {j : Nat}
    (h : ∀ e, P.call j "EnumSet" f [] [] [v, userIter xs e] = extendEnd e s') (p : Panic) :
    extendPanicText P j f v xs p = .ok s' := by
  have hp : newSelf P j f [v, userIter xs (some (s', p))] = .panic p := by
    have : P.call j "EnumSet" f [] [] [v, userIter xs (some (s', p))] = .panic p := (h _).trans (if_pos rfl)
    rw [newSelf, Prog.getMut, this]; rfl
  rw [extendPanicText, extendText_eq h, Res.ok_bind, hp]
  exact if_pos rfl
end
end Enumset.Hist
