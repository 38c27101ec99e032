import Verif.Src.UserProg
import Verif.Props.SrcRules
import Verif.Props.SrcGenAll
/-!
# C73: the text of macros.rs: the value of an expansion
-/
set_option autoImplicit false
set_option linter.unusedSimpArgs false
set_option linter.unusedSectionVars false
set_option maxRecDepth 10000

namespace Enumset.Src

/-- The variables that the macros bind. -/
def ownVars : List String := ["m:helper", "m:value", "m:new"]

/-- The variables of a list are bound by the macros. -/
def Own {H : Type} (own : Env H) : Prop := ∀ p ∈ own, p.1 ∈ ownVars

/-- `e` has the value `v`, whatever the macros bind. -/
def Evals [Platform] {H : Type} (C : Ctx H) (env : Env H) (e : Expr) (v : Val H) : Prop :=
  ∀ own : Env H, Own own → eval C e .any (own ++ env) = .ok (.val v (own ++ env))

theorem Own.cons {H : Type} {own : Env H} (h : Own own) {x : String} (hx : x ∈ ownVars) (v : Val H) :
    Own ((x, v) :: own) := by
  intro p hp
  rcases List.mem_cons.1 hp with rfl | hp
  · exact hx
  · exact h p hp

theorem lookup_own {H : Type} {own : Env H} (h : Own own) {x : String} (hx : x ∉ ownVars) (env : Env H) :
    lookup x (own ++ env) = lookup x env := by
  induction own with
  | nil => rfl
  | cons p own ih =>
    obtain ⟨y, v⟩ := p
    have hy := h (y, v) (List.mem_cons_self ..)
    rw [List.cons_append, lookup, if_neg (fun e => hx (by rw [e]; exact hy)),
      ih fun p hp => h p (List.mem_cons_of_mem _ hp)]

/-- A variable of the user has the value the user gave it. -/
theorem evals_var [Platform] {H : Type} (C : Ctx H) {env : Env H} {x : String} (hx : x ∉ ownVars) {v : Val H}
    (h : lookup x env = some v) : Evals C env (.var x) v := by
  intro own ho
  simp only [eval, lookup_own ho hx, h]
  cases v <;> rfl

section
variable [Platform] {T : EnumSetType} {P : Prog T.Val} {enc : T.Repr → Val T.Val}
  {encI : EnumSetTypeRepr.Iter T.Repr → Val T.Val} {okI : EnumSetTypeRepr.Iter T.Repr → Prop}
  (S : Storage P T.Repr enc encI okI) (E : EnumItems P T enc id) (F : GenFns P T enc id) (k : Nat)
include S E F

theorem call_only (env : Env T.Val) (o : Operand T) :
    P.call (k + 6) (operandOf enc id o).tag "__impl_enumset_internal__const_only" env [] [operandOf enc id o] =
      ConstMacro.const_only o >>= fun s => .ok (setOf enc s, []) := by
  cases o with
  | val v =>
    refine (F.const_only (k + 6) env v).trans ?_
    simp only [ConstMacro.const_only, map_eq, bind_assoc, Res.ok_bind]
  | set s => exact (C68_const_only S (k + 5) env s)

theorem call_helper (env : Env T.Val) (o : Operand T) :
    P.call (k + 6) (operandOf enc id o).tag "__impl_enumset_internal__const_helper" env [] [operandOf enc id o] =
      .ok (helperVal, []) := by
  cases o with
  | val v => exact F.const_helper (k + 6) env v
  | set s =>
    exact (C68_const_helper S (k + 5) env s (.ok helperVal) E.alias fun env => F.CONST_HELPER_INSTANCE (k + 5) env)

theorem eval_only {env : Env T.Val} {e : Expr} {o : Operand T}
    (h : Evals (P.userCtx (k + 6)) env e (operandOf enc id o)) (own : Env T.Val) (ho : Own own) :
    eval (P.userCtx (k + 6)) (.mcall e "__impl_enumset_internal__const_only" [] []) .any (own ++ env) =
      ConstMacro.const_only o >>= fun s => .ok (.val (setOf enc s) (own ++ env)) := by
  have hc := call_only S E F k (own ++ env) o
  simp only [eval, h own ho, Out.andThen, evalArgs, method]
  rw [show intrinsic "__impl_enumset_internal__const_only" (operandOf enc id o) [] = none from by simp [intrinsic, intrinsics]]
  simp only [constArgs, Res.ok_bind]
  rw [show (P.userCtx (k + 6)).call (operandOf enc id o).tag "__impl_enumset_internal__const_only" (own ++ env) []
    [operandOf enc id o] = _ from hc]
  cases ConstMacro.const_only o <;> rfl

theorem eval_helper {env : Env T.Val} {e : Expr} {o : Operand T}
    (h : Evals (P.userCtx (k + 6)) env e (operandOf enc id o)) (own : Env T.Val) (ho : Own own) :
    eval (P.userCtx (k + 6)) (.mcall e "__impl_enumset_internal__const_helper" [] []) .any (own ++ env) =
      .ok (.val helperVal (own ++ env)) := by
  have hc := call_helper S E F k (own ++ env) o
  simp only [eval, h own ho, Out.andThen, evalArgs, method]
  rw [show intrinsic "__impl_enumset_internal__const_helper" (operandOf enc id o) [] = none from by simp [intrinsic, intrinsics]]
  simp only [constArgs, Res.ok_bind]
  rw [show (P.userCtx (k + 6)).call (operandOf enc id o).tag "__impl_enumset_internal__const_helper" (own ++ env) []
    [operandOf enc id o] = _ from hc]
  rfl

/-- What `f` does with `helper`, `value` and `new`. -/
def FnIs (P : Prog T.Val) (enc : T.Repr → Val T.Val) (k : Nat) (f : Expr)
    (g : EnumSet T → EnumSet T → Res (EnumSet T)) : Prop :=
  ∀ (env : Env T.Val) (a b : EnumSet T), lookup "m:helper" env = some helperVal →
    lookup "m:value" env = some (setOf enc a) → lookup "m:new" env = some (setOf enc b) →
    eval (P.userCtx k) f .any env = g a b >>= fun s => .ok (.val (setOf enc s) env)

omit S E F in
theorem Exp.any_adopt {H : Type} (v : Val H) : Exp.any.adopt v = v := by cases v <;> rfl

omit S E F in
theorem fn_bin {f : String} {g : T.Repr → T.Repr → Res T.Repr} (hi : ∀ v : Val T.Val, ∀ l, intrinsic f v l = none)
    (h : ∀ env a b, P.call k "__EnumSetConstHelper" f env [] [helperVal, setOf enc ⟨a⟩, setOf enc ⟨b⟩] =
      g a b >>= fun r => .ok (setOf enc ⟨r⟩, [])) :
    FnIs P enc k (helperCall f) fun a b => EnumSet.mk <$> g a.priv_repr b.priv_repr := by
  intro env a b h1 h2 h3
  have hc : (P.userCtx k).call "__EnumSetConstHelper" f env [] [helperVal, setOf enc a, setOf enc b] = _ :=
    h env a.priv_repr b.priv_repr
  simp only [helperCall, eval, h1, h2, h3, Out.andThen, Out.pure, evalArgs, method, need, Res.ok_bind, Exp.any_adopt, hi,
    constArgs, List.tail_nil]
  rw [show (helperVal : Val T.Val).tag = "__EnumSetConstHelper" from rfl, hc]
  cases g a.priv_repr b.priv_repr <;> rfl

theorem fn_list {m : String} {f : Expr} (hm : listFn m = some f) :
    ∃ kind : ConstMacro.Kind, m = (match kind with
      | .union => "enum_set_union" | .intersection => "enum_set_intersection"
      | .difference => "enum_set_difference" | .symmetric_difference => "enum_set_symmetric_difference") ∧
    FnIs P enc (k + 6) f (match kind with
      | .union => ConstMacro.const_union
      | .intersection => ConstMacro.const_intersection
      | .difference => fun value new => do
          let c ← ConstMacro.const_complement new
          ConstMacro.const_intersection value c
      | .symmetric_difference => ConstMacro.const_symmetric_difference) := by
  unfold listFn at hm
  split at hm
  · cases hm
    exact ⟨.union, rfl, fn_bin (k + 6) (fun _ _ => by simp [intrinsic, intrinsics]) fun env a b => F.const_union (k + 6) env a b⟩
  · cases hm
    exact ⟨.intersection, rfl, fn_bin (k + 6) (fun _ _ => by simp [intrinsic, intrinsics]) fun env a b => F.const_intersection (k + 6) env a b⟩
  · cases hm
    refine ⟨.difference, rfl, ?_⟩
    intro env a b h1 h2 h3
    have hc : (P.userCtx (k + 6)).call "__EnumSetConstHelper" "const_complement" env [] [helperVal, setOf enc b] = _ :=
      F.const_complement (k + 6) env b.priv_repr
    have hi : ∀ x, (P.userCtx (k + 6)).call "__EnumSetConstHelper" "const_intersection" env [] [helperVal, setOf enc a, setOf enc ⟨x⟩] = _ :=
      fun x => F.const_intersection (k + 6) env a.priv_repr x
    have hn : ∀ (v : Val T.Val) l, intrinsic "const_complement" v l = none := fun _ _ => by simp [intrinsic, intrinsics]
    have hn' : ∀ (v : Val T.Val) l, intrinsic "const_intersection" v l = none := fun _ _ => by simp [intrinsic, intrinsics]
    simp only [eval, h1, h2, h3, Out.andThen, Out.pure, evalArgs, method, need, Res.ok_bind, Exp.any_adopt, hn, hn',
      constArgs, List.tail_nil, show (helperVal : Val T.Val).tag = "__EnumSetConstHelper" from rfl, hc,
      ConstMacro.const_complement, ConstMacro.const_intersection, map_eq, bind_assoc]
    cases T.const_complement b.priv_repr with
    | ok x =>
      simp only [Res.ok_bind, List.lookup, writeBacks, hi]
      cases T.const_intersection a.priv_repr x <;> rfl
    | _ => rfl
  · cases hm
    exact ⟨.symmetric_difference, rfl, fn_bin (k + 6) (fun _ _ => by simp [intrinsic, intrinsics]) fun env a b => F.const_symmetric_difference (k + 6) env a b⟩
  · cases hm

/-- The repetition. -/
theorem eval_rest {f : Expr} {g : EnumSet T → EnumSet T → Res (EnumSet T)} (hf : FnIs P enc (k + 6) f g)
    {env : Env T.Val} {α : Type} {code : α → Expr} {op : α → Operand T} (l : List α)
    (hl : ∀ x ∈ l, Evals (P.userCtx (k + 6)) env (code x) (operandOf enc id (op x))) :
    ∀ (own : Env T.Val) (s : EnumSet T), Own own → lookup "m:helper" own = some helperVal →
    Out.restore env.length (evalStmts (P.userCtx (k + 6)) (l.map (fun x => restCode f (code x)) ++ [.tail (.var "m:value")]) .any
      (("m:value", setOf enc s) :: own ++ env)) =
      (forEach (l.map op) s fun r value => do
        let new ← ConstMacro.const_only r
        g value new) >>= fun s => .ok (.val (setOf enc s) env) := by
  induction l with
  | nil =>
    intro own s ho hh
    simp only [List.map_nil, List.nil_append, evalStmts, eval, List.cons_append, lookup, if_true, need, Res.ok_bind,
      Exp.any_adopt, Out.pure, forEach, Out.restore]
    rw [show (("m:value", setOf enc s) :: (own ++ env)).drop ((("m:value", setOf enc s) :: (own ++ env)).length - env.length) = env from by
      rw [show ("m:value", setOf enc s) :: (own ++ env) = (("m:value", setOf enc s) :: own) ++ env from rfl,
        List.length_append, Nat.add_sub_cancel, List.drop_left]]
  | cons x l ih =>
    intro own s ho hh
    have he := hl x (List.mem_cons_self ..)
    have ih := ih fun y hy => hl y (List.mem_cons_of_mem _ hy)
    have hv : Own (("m:value", setOf enc s) :: own) := ho.cons (by decide) _
    have ho1 := eval_only S E F k he _ hv
    rw [List.map_cons, List.cons_append, restCode, evalStmts, eval]
    simp only [evalStmts]
    rw [ho1]
    simp only [List.map_cons, forEach, bind_assoc]
    cases ConstMacro.const_only (op x) with
    | ok t =>
      simp only [Res.ok_bind, Out.andThen, bindPat]
      rw [hf _ s t (by
          rw [lookup, if_neg (by decide), List.cons_append, lookup, if_neg (by decide)]
          clear ih ho1 hv
          revert hh
          induction own with
          | nil => intro h; cases h
          | cons p own ih2 =>
            obtain ⟨y, v⟩ := p
            intro h
            rw [List.cons_append, lookup]
            rw [lookup] at h
            split
            · rw [if_pos ‹_›] at h; exact h
            · rw [if_neg ‹_›] at h; exact ih2 (fun p hp => ho p (List.mem_cons_of_mem _ hp)) h) rfl rfl]
      cases g s t with
      | ok u =>
        have := ih (("m:value", setOf enc s) :: own) u hv (by rw [lookup, if_neg (by decide)]; exact hh)
        simp only [Res.ok_bind, Out.restore, Out.andThen, bindPat] at this ⊢
        rw [show (("m:new", setOf enc t) :: (("m:value", setOf enc s) :: own ++ env)).drop
          ((("m:new", setOf enc t) :: (("m:value", setOf enc s) :: own ++ env)).length - (("m:value", setOf enc s) :: own ++ env).length) =
            (("m:value", setOf enc s) :: own ++ env) from by
          rw [List.length_cons, Nat.add_sub_cancel_left]; rfl]
        exact this
      | _ => rfl
    | _ => rfl

theorem eval_one {env : Env T.Val} {e : Expr} {o : Operand T}
    (h : Evals (P.userCtx (k + 6)) env e (operandOf enc id o)) :
    eval (P.userCtx (k + 6)) (oneCode e) .any env =
      ConstMacro.const_only o >>= fun s => .ok (.val (setOf enc s) env) := by
  have h1 : eval (P.userCtx (k + 6)) (.mcall e "__impl_enumset_internal__const_only" [] []) .any env = _ :=
    eval_only S E F k h [] (fun _ h => by cases h)
  rw [oneCode, eval, evalStmts, h1]
  cases ConstMacro.const_only o with
  | ok s =>
    simp [Out.andThen, bindPat, evalStmts, eval, lookup, need, Out.pure, Exp.any_adopt, Out.restore]
  | _ => rfl

theorem eval_chain {f : Expr} {g : EnumSet T → EnumSet T → Res (EnumSet T)} (hf : FnIs P enc (k + 6) f g)
    {env : Env T.Val} {α : Type} {code : α → Expr} {op : α → Operand T} (x : α) (l : List α)
    (hl : ∀ y ∈ x :: l, Evals (P.userCtx (k + 6)) env (code y) (operandOf enc id (op y))) :
    eval (P.userCtx (k + 6)) (chainCode f (code x) (l.map code)) .any env =
      ConstMacro.chain g (op x) (l.map op) >>= fun s => .ok (.val (setOf enc s) env) := by
  have hx := hl x (List.mem_cons_self ..)
  have ho : Own [("m:helper", (helperVal : Val T.Val))] := by
    intro p hp; rw [List.mem_singleton.1 hp]; show "m:helper" ∈ ownVars; decide
  have h1 : eval (P.userCtx (k + 6)) (.mcall (code x) "__impl_enumset_internal__const_helper" [] []) .any env = _ :=
    eval_helper S E F k hx [] (fun _ h => by cases h)
  have h2 := eval_only S E F k hx _ ho
  have h3 := fun s => eval_rest S E F k hf l (fun y hy => hl y (List.mem_cons_of_mem _ hy)) _ s ho rfl
  rw [chainCode, eval, evalStmts, h1]
  simp only [Out.andThen, bindPat, Res.ok_bind, List.nil_append]
  rw [evalStmts, show ("m:helper", helperVal) :: env = [("m:helper", helperVal)] ++ env from rfl, h2]
  simp only [ConstMacro.chain, bind_assoc]
  cases ConstMacro.const_only (op x) with
  | ok s =>
    simp only [Out.andThen, bindPat, Res.ok_bind]
    rw [List.map_map]
    exact h3 s
  | _ => rfl

theorem eval_complement {env : Env T.Val} {e : Expr} {o : Operand T}
    (h : Evals (P.userCtx (k + 6)) env e (operandOf enc id o)) :
    eval (P.userCtx (k + 6)) (.block [.let (.var "m:helper") none (.mcall e "__impl_enumset_internal__const_helper" [] []),
          .let (.var "m:value") none (.mcall e "__impl_enumset_internal__const_only" [] []),
          .tail (.mcall (.var "m:helper") "const_complement" [] [.var "m:value"])]) .any env =
      ConstMacro.enum_set_complement o >>= fun s => .ok (.val (setOf enc s) env) := by
  have ho : Own [("m:helper", (helperVal : Val T.Val))] := by
    intro p hp; rw [List.mem_singleton.1 hp]; show "m:helper" ∈ ownVars; decide
  have h1 : eval (P.userCtx (k + 6)) (.mcall e "__impl_enumset_internal__const_helper" [] []) .any env = _ :=
    eval_helper S E F k h [] (fun _ h => by cases h)
  have h2 := eval_only S E F k h _ ho
  rw [eval, evalStmts, h1]
  simp only [Out.andThen, bindPat, Res.ok_bind, List.nil_append]
  rw [evalStmts, show ("m:helper", helperVal) :: env = [("m:helper", helperVal)] ++ env from rfl, h2]
  simp only [ConstMacro.enum_set_complement, bind_assoc]
  cases ConstMacro.const_only o with
  | ok s =>
    have hc : ∀ env, (P.userCtx (k + 6)).call "__EnumSetConstHelper" "const_complement" env [] [helperVal, setOf enc s] = _ :=
      fun env => F.const_complement (k + 6) env s.priv_repr
    have hn : ∀ (v : Val T.Val) l, intrinsic "const_complement" v l = none := fun _ _ => by simp [intrinsic, intrinsics]
    simp only [Out.andThen, bindPat, Res.ok_bind, evalStmts, eval, evalArgs, List.cons_append, List.nil_append, lookup,
      need, Out.pure, Exp.any_adopt, method, hn, constArgs, List.tail_nil,
      show (helperVal : Val T.Val).tag = "__EnumSetConstHelper" from rfl, hc, ConstMacro.const_complement, map_eq,
      bind_assoc, if_true, show ("m:helper" = "m:value") = False from by decide, if_false]
    cases T.const_complement s.priv_repr with
    | ok u =>
      simp [Out.restore, List.lookup, writeBacks]
      rw [show List.length env + 1 + 1 - List.length env = 2 from by omega]
      rfl
    | _ => rfl
  | _ => rfl

theorem eval_empty {env : Env T.Val} (h : ∀ t, lookup "EnumSet" env ≠ some (.ty t)) :
    eval (P.userCtx (k + 6)) (.pcall "EnumSet" "empty" [] []) .any env =
      .ok (.val (setOf enc EnumSet.empty) env) := by
  have hc : (P.userCtx (k + 6)).call "EnumSet" "empty" env [] [] = _ := C68_empty S (k + 1) env
  have ht : (P.userCtx (k + 6)).tyName env "EnumSet" = "EnumSet" := by
    rw [Ctx.tyName, if_neg (by decide)]
    split
    · exact absurd ‹_› (h _)
    · rfl
  simp only [eval, evalArgs, constArgs, Res.ok_bind, ht, hc, writeBacks]

end
end Enumset.Src
