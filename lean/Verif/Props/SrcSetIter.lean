import Verif.Props.SrcSetOps
import Verif.UserIter
import Verif.Src.SerdeLib
/-!
# C68: functions that run the code of the caller, or iterate

`extend`, `from_iter` and `sum` with any iterator (`Source`, `Iterable`), in particular arrays and the
iterator of a set; formatting, hashing and serializing, with what the formatter, the hasher and the
serializer do as hypotheses.
-/
set_option autoImplicit false
set_option linter.unusedSectionVars false
set_option linter.unusedSimpArgs false
set_option maxRecDepth 10000

namespace Enumset.Src
open SetRs
section agreement
variable {H : Type} [Platform] {P : Prog H} {T : EnumSetType} {enc : T.Repr → Val H}
  {encI : EnumSetTypeRepr.Iter T.Repr → Val H} {okI : EnumSetTypeRepr.Iter T.Repr → Prop}
  {encV : T.Val → H}
variable (S : Storage P T.Repr enc encI okI) (E : EnumItems P T enc encV) (k : Nat) (caller : Env H)
/-! ### iterators -/

/-- An iterator of the caller, as a value: on the states in `ok` its `next` does what `step` does, in
a program linked at least `l` levels deep. -/
structure Source {α σ : Type} (P : Prog H) (l : Nat) (ty : String) (step : UserNext α σ)
    (encA : α → Val H) (encS : σ → Val H) (ok : σ → Prop) : Prop where
  adopt : ∀ (e : Exp) st, e.adopt (encS st) = encS st
  single : ∀ st xs, encS st ≠ .arr xs
  tag : ∀ st, (encS st).tag = ty
  next : ∀ k env st, l ≤ k → ok st → P.call k ty "next" env [] [encS st] =
    (step st).1 >>= fun o => .ok (opt encA o, [(0, encS (step st).2)])
  ok_next : ∀ st a, ok st → (step st).1 = .ok (some a) → ok (step st).2

set_option maxHeartbeats 400000
theorem iterate_single (C : Ctx H) (f : Val H → Env H → Res (Out H)) {v : Val H} (env : Env H)
    (h : ∀ xs, v ≠ .arr xs) :
    iterate C f v env = forNext (C.call v.tag "next") f C.fuel v env := by
  cases v with
  | arr xs => exact absurd rfl (h xs)
  | _ => rfl
theorem foldVal_single (C : Ctx H) (f : Val H → Val H → Env H → Res (Out H)) {v : Val H} (acc : Val H)
    (env : Env H) (h : ∀ xs, v ≠ .arr xs) :
    foldVal C f v acc env = foldNext (C.call v.tag "next") f C.fuel v acc env := by
  cases v with
  | arr xs => exact absurd rfl (h xs)
  | _ => rfl

section drive
variable {α β σ : Type} {l : Nat} {ty : String} {step : UserNext α σ} {encA : α → Val H}
  {encS : σ → Val H} {ok : σ → Prop}

theorem for_drive (src : Source P l ty step encA encS ok) (hk : l ≤ k) (s : String)
    {f : Val H → Env H → Res (Out H)} {g : α → β → Res β} (encB : β → Env H)
    (hf : ∀ a b, f (encA a) (encB b) = g a b >>= fun b => .ok (.val .unit (encB b)))
    (b : β) (st : σ) (h : ok st) {env : Env H} (he : env = encB b) :
    iterate (P.ctx s (P.link k)) f (encS st) env =
      (drive step g P.fuel b st).1 >>= fun _ =>
        .ok (.val .unit (encB (drive step g P.fuel b st).2.1)) := by
  subst he
  rw [iterate_single _ _ _ (src.single st), ctx_fuel, src.tag]
  generalize P.fuel = n
  induction n generalizing b st with
  | zero => rfl
  | succ n ih =>
    rw [forNext, ctx_call, src.next k _ _ hk h, drive]
    have h' := src.ok_next st
    rcases hs : step st with ⟨o, st'⟩
    rw [hs] at h'
    cases o with
    | ok o =>
      cases o with
      | none => rfl
      | some a =>
        simp only [Res.ok_bind, opt, hf]
        cases hg : g a b with
        | ok b' => exact ih b' st' (h' a h rfl)
        | _ => rfl
    | _ => rfl

theorem fold_drive (src : Source P l ty step encA encS ok) (hk : l ≤ k) (s : String)
    {f : Val H → Val H → Env H → Res (Out H)} {g : α → β → Res β} (encB : β → Val H) (env : Env H)
    (hf : ∀ a b, f (encB b) (encA a) env = g a b >>= fun b => .ok (.val (encB b) env))
    (b : β) (st : σ) (h : ok st) :
    foldVal (P.ctx s (P.link k)) f (encS st) (encB b) env =
      (drive step g P.fuel b st).1 >>= fun _ =>
        .ok (.val (encB (drive step g P.fuel b st).2.1) env) := by
  rw [foldVal_single _ _ _ _ (src.single st), ctx_fuel, src.tag]
  generalize P.fuel = n
  induction n generalizing b st with
  | zero => rfl
  | succ n ih =>
    rw [foldNext, ctx_call, src.next k _ _ hk h, drive]
    have h' := src.ok_next st
    rcases hs : step st with ⟨o, st'⟩
    rw [hs] at h'
    cases o with
    | ok o =>
      cases o with
      | none => rfl
      | some a =>
        simp only [Res.ok_bind, opt, hf]
        cases hg : g a b with
        | ok b' => exact ih b' st' (h' a h rfl)
        | _ => rfl
    | _ => rfl

theorem iterate_arr {f : Val H → Env H → Res (Out H)} {g : α → β → Res β} (C : Ctx H)
    (encB : β → Env H)
    (hf : ∀ a b, f (encA a) (encB b) = g a b >>= fun b => .ok (.val .unit (encB b)))
    (b : β) (xs : List α) {env : Env H} (he : env = encB b) :
    iterate C f (.arr (xs.map encA)) env =
      forEach xs b g >>= fun b => .ok (.val .unit (encB b)) := by
  subst he
  rw [iterate]
  induction xs generalizing b with
  | nil => rfl
  | cons a xs ih =>
    simp only [List.map, forItems, forEach, hf, bind_assoc]
    refine bind_congr fun b' => ?_
    exact ih b'

theorem fold_arr {f : Val H → Val H → Env H → Res (Out H)} {g : α → β → Res β} (C : Ctx H)
    (encB : β → Val H) (env : Env H)
    (hf : ∀ a b, f (encB b) (encA a) env = g a b >>= fun b => .ok (.val (encB b) env))
    (b : β) (xs : List α) :
    foldVal C f (.arr (xs.map encA)) (encB b) env =
      forEach xs b g >>= fun b => .ok (.val (encB b) env) := by
  rw [foldVal]
  induction xs generalizing b with
  | nil => rfl
  | cons a xs ih =>
    simp only [List.map, foldItems, forEach, hf, bind_assoc, andThen_bind, andThen_val]
    refine bind_congr fun b' => ?_
    exact ih b'
end drive

/-- A value whose `into_iter` is an iterator of a `Source`, in the state that `init` computes. -/
structure Iterable {σ : Type} (P : Prog H) (l : Nat) (a : Val H) (init : Res σ) (encS : σ → Val H)
    (ok : σ → Prop) : Prop where
  adopt : ∀ e : Exp, e.adopt a = a
  ok : ∀ st, init = .ok st → ok st
  into_iter : ∀ k s env, l ≤ k → method (P.ctx s (P.link k)) "into_iter" [] a [] env =
    init >>= fun st => .ok (encS st, [])

theorem method_into_iter_arr (C : Ctx H) (xs : List (Val H)) (env : Env H) :
    method C "into_iter" [] (.arr xs) [] env = .ok (.arr xs, []) := rfl

section
variable {σ : Type} {l : Nat} {ty : String} {encS : σ → Val H} {ok : σ → Prop}
include S E
/-- `extend` with variants -/
theorem C68_extend_variants {step : UserNext T.Val σ}
    (src : Source P l ty step (fun v => .host "T" (encV v)) encS ok) (s : EnumSet T) (a : Val H)
    (init : Res σ) (it : Iterable P l a init encS ok) :
    P.call (k + l + 6) "EnumSet" "extend_variants" caller [] [setOf enc s, a] =
      init >>= fun st => (s.extend_user step P.fuel st).1 >>= fun _ =>
        .ok (.unit, [(0, setOf enc (s.extend_user step P.fuel st).2.1)]) := by
  run_set S EnumSet_extend_variants [it.into_iter (k + l + 5) _ _ (by omega), it.adopt]
  refine bind_congr_ok fun st hst => ?_
  rw [for_drive (k + l + 5) src (by omega) "EnumSet"
    (fun s => ("self", setOf enc s) :: ("iter", a) :: P.params)
    (g := fun v s => s.insert v >>= fun r => .ok r.2) ?_ s st (it.ok st hst) rfl]
  · step_set S [EnumSet.extend_user]
  · intro v s
    step_set S [C68_insert S E]
/-- `extend` with the variants in a list -/
theorem C68_extend_variants_list (s : EnumSet T) (xs : List T.Val) :
    P.call (k + 6) "EnumSet" "extend_variants" caller []
        [setOf enc s, .arr (xs.map fun v => .host "T" (encV v))] =
      s.extend xs >>= fun s => .ok (.unit, [(0, setOf enc s)]) := by
  run_set S EnumSet_extend_variants [method_into_iter_arr]
  rw [iterate_arr _ (fun s => ("self", setOf enc s) :: ("iter", .arr (xs.map fun v => .host "T" (encV v))) :: P.params)
    (g := fun v s => s.insert v >>= fun r => .ok r.2) ?_ s xs rfl]
  · step_set S [EnumSet.extend]
  · intro v s
    step_set S [C68_insert S E]
/-- `from_iter` with variants -/
theorem C68_from_iter_variants {step : UserNext T.Val σ}
    (src : Source P l ty step (fun v => .host "T" (encV v)) encS ok) (a : Val H)
    (init : Res σ) (it : Iterable P l a init encS ok) :
    P.call (k + l + 7) "EnumSet" "from_iter_variants" caller [] [a] =
      init >>= fun st => (EnumSet.from_iter_user step P.fuel st).1 >>= fun s =>
        .ok (setOf (T := T) enc s, []) := by
  run_set S EnumSet_from_iter_variants [it.adopt, C68_default S, C68_extend_variants S E k _ src _ a init it,
    EnumSet.from_iter_user, driveValue]
theorem C68_from_iter_variants_list (xs : List T.Val) :
    P.call (k + 7) "EnumSet" "from_iter_variants" caller [] [.arr (xs.map fun v => .host "T" (encV v))] =
      EnumSet.from_iter xs >>= fun s => .ok (setOf (T := T) enc s, []) := by
  run_set S EnumSet_from_iter_variants [C68_default S, C68_extend_variants_list S E k, EnumSet.from_iter]
/-- `extend` with sets -/
theorem C68_extend_sets {step : UserNext (EnumSet T) σ}
    (src : Source P l ty step (setOf enc) encS ok) (s : EnumSet T) (a : Val H)
    (init : Res σ) (it : Iterable P l a init encS ok) :
    P.call (k + l + 6) "EnumSet" "extend_sets" caller [] [setOf enc s, a] =
      init >>= fun st => (s.extend_sets_user step P.fuel st).1 >>= fun _ =>
        .ok (.unit, [(0, setOf enc (s.extend_sets_user step P.fuel st).2.1)]) := by
  run_set S EnumSet_extend_sets [it.into_iter (k + l + 5) _ _ (by omega), it.adopt]
  refine bind_congr_ok fun st hst => ?_
  rw [for_drive (k + l + 5) src (by omega) "EnumSet"
    (fun s => ("self", setOf enc s) :: ("iter", a) :: P.params)
    (g := fun v s => s.insert_all v) ?_ s st (it.ok st hst) rfl]
  · step_set S [EnumSet.extend_sets_user]
  · intro v s
    step_set S [C68_insert_all S]
theorem C68_extend_sets_list (s : EnumSet T) (xs : List (EnumSet T)) :
    P.call (k + 6) "EnumSet" "extend_sets" caller [] [setOf enc s, .arr (xs.map (setOf enc))] =
      s.extend_sets xs >>= fun s => .ok (.unit, [(0, setOf enc s)]) := by
  run_set S EnumSet_extend_sets [method_into_iter_arr]
  rw [iterate_arr _ (fun s => ("self", setOf enc s) :: ("iter", .arr (xs.map (setOf enc))) :: P.params)
    (g := fun v s => s.insert_all v) ?_ s xs rfl]
  · step_set S [EnumSet.extend_sets]
  · intro v s
    step_set S [C68_insert_all S]
theorem C68_from_iter_sets {step : UserNext (EnumSet T) σ}
    (src : Source P l ty step (setOf enc) encS ok) (a : Val H)
    (init : Res σ) (it : Iterable P l a init encS ok) :
    P.call (k + l + 7) "EnumSet" "from_iter_sets" caller [] [a] =
      init >>= fun st => (EnumSet.from_iter_sets_user step P.fuel st).1 >>= fun s =>
        .ok (setOf (T := T) enc s, []) := by
  run_set S EnumSet_from_iter_sets [it.adopt, C68_default S, C68_extend_sets S E k _ src _ a init it,
    EnumSet.from_iter_sets_user, driveValue]
theorem C68_from_iter_sets_list (xs : List (EnumSet T)) :
    P.call (k + 7) "EnumSet" "from_iter_sets" caller [] [.arr (xs.map (setOf enc))] =
      EnumSet.from_iter_sets xs >>= fun s => .ok (setOf (T := T) enc s, []) := by
  run_set S EnumSet_from_iter_sets [C68_default S, C68_extend_sets_list S E k, EnumSet.from_iter_sets]

/-- `sum` of sets -/
theorem C68_sum_sets {step : UserNext (EnumSet T) σ}
    (src : Source P l ty step (setOf enc) encS ok) (st : σ) (h : ok st) :
    P.call (k + l + 6) "EnumSet" "sum_sets" caller [] [encS st] =
      (EnumSet.sum_sets_user step P.fuel st).1 >>= fun s => .ok (setOf (T := T) enc s, []) := by
  run_set S EnumSet_sum_sets [src.adopt, C68_empty S]
  rw [fold_drive (k + l + 5) src (by omega) "EnumSet" (setOf enc) _ (g := fun v a => a.union v) ?_ _ st h]
  · step_set S [EnumSet.sum_sets_user, driveValue, EnumSet.bitor, Operand.into]
  · intro v s
    step_set S [bin_set, op_set, BinOp.method, or_set S]
theorem C68_sum_set_refs {step : UserNext (EnumSet T) σ}
    (src : Source P l ty step (setOf enc) encS ok) (st : σ) (h : ok st) :
    P.call (k + l + 6) "EnumSet" "sum_set_refs" caller [] [encS st] =
      (EnumSet.sum_sets_user step P.fuel st).1 >>= fun s => .ok (setOf (T := T) enc s, []) := by
  run_set S EnumSet_sum_set_refs [src.adopt, C68_empty S]
  rw [fold_drive (k + l + 5) src (by omega) "EnumSet" (setOf enc) _ (g := fun v a => a.union v) ?_ _ st h]
  · step_set S [EnumSet.sum_sets_user, driveValue, EnumSet.bitor, Operand.into]
  · intro v s
    step_set S [bin_set, op_set, BinOp.method, or_set S]
theorem C68_sum_sets_list (xs : List (EnumSet T)) :
    P.call (k + 6) "EnumSet" "sum_sets" caller [] [.arr (xs.map (setOf enc))] =
      EnumSet.sum_sets xs >>= fun s => .ok (setOf (T := T) enc s, []) := by
  run_set S EnumSet_sum_sets [C68_empty S]
  rw [fold_arr _ (setOf enc) _ (g := fun v a => a.union v) ?_]
  · step_set S [EnumSet.sum_sets, EnumSet.bitor, Operand.into]
  · intro v s
    step_set S [bin_set, op_set, BinOp.method, or_set S]
theorem C68_sum_set_refs_list (xs : List (EnumSet T)) :
    P.call (k + 6) "EnumSet" "sum_set_refs" caller [] [.arr (xs.map (setOf enc))] =
      EnumSet.sum_sets xs >>= fun s => .ok (setOf (T := T) enc s, []) := by
  run_set S EnumSet_sum_set_refs [C68_empty S]
  rw [fold_arr _ (setOf enc) _ (g := fun v a => a.union v) ?_]
  · step_set S [EnumSet.sum_sets, EnumSet.bitor, Operand.into]
  · intro v s
    step_set S [bin_set, op_set, BinOp.method, or_set S]

theorem or_val (s : EnumSet T) (v : T.Val) :
    P.call (k + 9) "EnumSet" "bitor" caller [] [setOf enc s, .host "T" (encV v)] =
      s.bitor (.val v) >>= fun r => .ok (setOf enc r, []) :=
  C68_bitor_operand S E k caller s (.val v)
/-- `sum` of variants -/
theorem C68_sum_variants {step : UserNext T.Val σ}
    (src : Source P l ty step (fun v => .host "T" (encV v)) encS ok) (st : σ) (h : ok st) :
    P.call (k + l + 10) "EnumSet" "sum_variants" caller [] [encS st] =
      (EnumSet.sum_user step P.fuel st).1 >>= fun s => .ok (setOf (T := T) enc s, []) := by
  run_set S EnumSet_sum_variants [src.adopt, C68_empty S]
  rw [fold_drive (k + l + 9) src (by omega) "EnumSet" (setOf enc) _ (g := fun v a => a.bitor (.val v)) ?_ _ st h]
  · step_set S [EnumSet.sum_user, driveValue]
  · intro v s
    step_set S [bin_set, op_set, BinOp.method, or_val S E]
theorem C68_sum_variant_refs {step : UserNext T.Val σ}
    (src : Source P l ty step (fun v => .host "T" (encV v)) encS ok) (st : σ) (h : ok st) :
    P.call (k + l + 10) "EnumSet" "sum_variant_refs" caller [] [encS st] =
      (EnumSet.sum_user step P.fuel st).1 >>= fun s => .ok (setOf (T := T) enc s, []) := by
  run_set S EnumSet_sum_variant_refs [src.adopt, C68_empty S]
  rw [fold_drive (k + l + 9) src (by omega) "EnumSet" (setOf enc) _ (g := fun v a => a.bitor (.val v)) ?_ _ st h]
  · step_set S [EnumSet.sum_user, driveValue]
  · intro v s
    step_set S [bin_set, op_set, BinOp.method, or_val S E]
theorem C68_sum_variants_list (xs : List T.Val) :
    P.call (k + 10) "EnumSet" "sum_variants" caller [] [.arr (xs.map fun v => .host "T" (encV v))] =
      EnumSet.sum xs >>= fun s => .ok (setOf (T := T) enc s, []) := by
  run_set S EnumSet_sum_variants [C68_empty S]
  rw [fold_arr _ (setOf enc) _ (g := fun v a => a.bitor (.val v)) ?_]
  · step_set S [EnumSet.sum]
  · intro v s
    step_set S [bin_set, op_set, BinOp.method, or_val S E]
theorem C68_sum_variant_refs_list (xs : List T.Val) :
    P.call (k + 10) "EnumSet" "sum_variant_refs" caller [] [.arr (xs.map fun v => .host "T" (encV v))] =
      EnumSet.sum xs >>= fun s => .ok (setOf (T := T) enc s, []) := by
  run_set S EnumSet_sum_variant_refs [C68_empty S]
  rw [fold_arr _ (setOf enc) _ (g := fun v a => a.bitor (.val v)) ?_]
  · step_set S [EnumSet.sum]
  · intro v s
    step_set S [bin_set, op_set, BinOp.method, or_val S E]
end
/-! ### the iterator of a set as an argument -/

/-- `EnumSetIter::next` as the `next` of a caller's iterator -/
def iterStep (it : EnumSetIter T) : Res (Option T.Val) × EnumSetIter T :=
  match it.next with
  | .ok (o, it) => (.ok o, it)
  | .panic p => (.panic p, it)
  | .ub => (.ub, it)
  | .diverge => (.diverge, it)

theorem drive_iterStep {β : Type} (g : T.Val → β → Res β) (n : Nat) (b : β) (it : EnumSetIter T) :
    ((drive iterStep g n b it).1 >>= fun _ => .ok (drive iterStep g n b it).2.1) =
      EnumSetIter.forLoop n it b g := by
  induction n generalizing b it with
  | zero => rfl
  | succ n ih =>
    rw [drive, EnumSetIter.forLoop, iterStep]
    rcases it.next with ⟨o, it'⟩ | p | _ | _ <;> try rfl
    cases o with
    | none => rfl
    | some v =>
      simp only [Res.ok_bind]
      cases hg : g v b with
      | ok b' => exact ih b' it'
      | _ => rfl

theorem forLoop_mono {β : Type} (g : T.Val → β → Res β) {n m : Nat} (hm : n ≤ m) (b : β)
    (it : EnumSetIter T) (h : EnumSetIter.forLoop n it b g ≠ .diverge) :
    EnumSetIter.forLoop m it b g = EnumSetIter.forLoop n it b g := by
  induction n generalizing b it m with
  | zero => exact absurd rfl h
  | succ n ih =>
    obtain ⟨m, rfl⟩ : ∃ m', m = m' + 1 := ⟨m - 1, by omega⟩
    rw [EnumSetIter.forLoop] at h ⊢
    rw [EnumSetIter.forLoop]
    cases hn : it.next with
    | ok r =>
      obtain ⟨o, it'⟩ := r
      cases o with
      | none => rfl
      | some v =>
        rw [hn] at h
        simp only [Res.ok_bind] at h ⊢
        cases hg : g v b with
        | ok b' =>
          rw [hg] at h
          exact ih (by omega) b' it' h
        | _ => rfl
    | _ => rfl

section
include S E
theorem iter_source : Source P 4 "EnumSetIter" iterStep (fun v => .host "T" (encV v))
    (setIterOf (T := T) encI) (fun it => okI it.iter) where
  adopt := adopt_setIter
  single _ _ h := by cases h
  tag := tag_setIter
  next k env st hk h := by
    obtain ⟨k, rfl⟩ : ∃ k', k = k' + 4 := ⟨k - 4, by omega⟩
    rw [C68_next S E k env st h, iterStep]
    cases st.next <;> rfl
  ok_next st a h e := by
    rw [iterStep, EnumSetIter.next] at e ⊢
    cases hn : EnumSetTypeRepr.iter_next st.iter with
    | ok r =>
      obtain ⟨o, it'⟩ := r
      have := S.okI_next _ _ _ h hn
      rw [hn] at e
      simp only [Res.ok_bind] at e ⊢
      cases o with
      | none => cases e
      | some x =>
        simp only at e ⊢
        cases hx : T.enum_from_u32 x with
        | ok v => exact this
        | _ => rw [hx] at e; cases e
    | _ => rw [hn] at e; cases e
end
section
include S
theorem iterable_iter (it : EnumSetIter T) (h : okI it.iter) :
    Iterable P 4 (setIterOf encI it) (.ok it) (setIterOf (T := T) encI) (fun it => okI it.iter) where
  adopt e := adopt_setIter e it
  ok st hs := by cases hs; exact h
  into_iter k s env hk := by
    obtain ⟨k, rfl⟩ : ∃ k', k = k' + 1 := ⟨k - 1, by omega⟩
    rw [method_into_iter_setIter, ctx_call, C68_into_iter_iter S k env it]
    rfl
theorem iterable_set (s : EnumSet T) :
    Iterable P 6 (setOf enc s) s.iter (setIterOf (T := T) encI) (fun it => okI it.iter) where
  adopt e := adopt_set e s
  ok st hs := by
    rw [EnumSet.iter] at hs
    cases hi : EnumSetTypeRepr.iter s.priv_repr with
    | ok it => rw [hi] at hs; cases hs; exact S.okI_iter _ _ hi
    | _ => rw [hi] at hs; cases hs
  into_iter k n env hk := by
    obtain ⟨k, rfl⟩ : ∃ k', k = k' + 6 := ⟨k - 6, by omega⟩
    rw [method_into_iter_set, ctx_call, C68_into_iter S k env s]
end

theorem Source.mono {α σ : Type} {l l' : Nat} {ty : String} {step : UserNext α σ}
    {encA : α → Val H} {encS : σ → Val H} {ok : σ → Prop} (src : Source P l ty step encA encS ok)
    (h : l ≤ l') : Source P l' ty step encA encS ok :=
  ⟨src.adopt, src.single, src.tag, fun k env st hk => src.next k env st (Nat.le_trans h hk),
    src.ok_next⟩

section
include S E
/-- `s.extend(it)` with the iterator of a set, if the loops may run long enough -/
theorem C68_extend_iter (s : EnumSet T) (it : EnumSetIter T) (h : okI it.iter)
    (hf : EnumSetIter.fuel T ≤ P.fuel) (hd : s.extend_iter it ≠ .diverge) :
    P.call (k + 10) "EnumSet" "extend_variants" caller [] [setOf enc s, setIterOf encI it] =
      s.extend_iter it >>= fun s => .ok (.unit, [(0, setOf enc s)]) := by
  have := C68_extend_variants S E k caller (iter_source S E) s _ _ (iterable_iter S it h)
  refine this.trans ?_
  rw [EnumSet.extend_iter] at hd ⊢
  rw [← forLoop_mono _ hf _ _ hd, ← drive_iterStep]
  simp only [Res.ok_bind, bind_assoc]
  rfl
/-- `it.collect::<EnumSet<T>>()` with the iterator of a set -/
theorem C68_collect (it : EnumSetIter T) (h : okI it.iter)
    (hf : EnumSetIter.fuel T ≤ P.fuel) (hd : EnumSet.collect it ≠ .diverge) :
    P.call (k + 11) "EnumSet" "from_iter_variants" caller [] [setIterOf encI it] =
      EnumSet.collect it >>= fun s => .ok (setOf enc s, []) := by
  have := C68_from_iter_variants S E k caller (iter_source S E) _ _ (iterable_iter S it h)
  refine this.trans ?_
  rw [EnumSet.collect, EnumSet.extend_iter] at hd ⊢
  rw [← forLoop_mono _ hf _ _ hd, ← drive_iterStep]
  simp only [Res.ok_bind, bind_assoc, EnumSet.from_iter_user, driveValue]
  rfl
/-- `s.extend(o)` with a set, which is turned into its iterator first -/
theorem C68_extend_set (s o : EnumSet T)
    (hf : EnumSetIter.fuel T ≤ P.fuel) (hd : ∀ it, o.iter = .ok it → s.extend_iter it ≠ .diverge) :
    P.call (k + 12) "EnumSet" "extend_variants" caller [] [setOf enc s, setOf enc o] =
      o.iter >>= fun it => s.extend_iter it >>= fun s => .ok (.unit, [(0, setOf enc s)]) := by
  have := C68_extend_variants S E k caller ((iter_source S E).mono (l' := 6) (by decide)) s _ _
    (iterable_set S o)
  refine this.trans ?_
  refine bind_congr_ok fun it hi => ?_
  have hd := hd it hi
  rw [EnumSet.extend_iter] at hd ⊢
  rw [← forLoop_mono _ hf _ _ hd, ← drive_iterStep]
  simp only [Res.ok_bind, bind_assoc]
  rfl
end

/-! ### formatting -/

theorem try_fmt (b : Bool) (env : Env H) :
    tryVal (fmtResult b) env = if b then .ok (.val .unit env) else .ok (.ret (.err .unit) env) := by
  cases b <;> rfl
theorem fmt_true : (fmtResult true : Val H) = .ok .unit := rfl
theorem fmt_false : (fmtResult false : Val H) = .err .unit := rfl

section fmt
variable {σ : Type} (K : Sink σ) (vfmt : T.Val → σ → Bool × σ) (encF : σ → Val H)

theorem fmtLoop_mono (fin : σ → Res (Bool × σ)) {n m : Nat} (hm : n ≤ m) (it : EnumSetIter T) (b : Bool)
    (st : σ) (h : EnumSet.fmtLoop K vfmt fin n it b st ≠ .diverge) :
    EnumSet.fmtLoop K vfmt fin m it b st = EnumSet.fmtLoop K vfmt fin n it b st := by
  induction n generalizing b it m st with
  | zero => exact absurd rfl h
  | succ n ih =>
    obtain ⟨m, rfl⟩ : ∃ m', m = m' + 1 := ⟨m - 1, by omega⟩
    rw [EnumSet.fmtLoop] at h ⊢
    rw [EnumSet.fmtLoop]
    cases hn : it.next with
    | ok r =>
      obtain ⟨o, it'⟩ := r
      cases o with
      | none => rfl
      | some v =>
        rw [hn] at h
        simp only [Res.ok_bind, Sink.andThen] at h ⊢
        generalize (if (!b) = true then K.write_str st " | " else (true, st)) = sep at h ⊢
        obtain ⟨ok1, st1⟩ := sep
        cases ok1 with
        | false => rfl
        | true =>
          rcases hv : vfmt v st1 with ⟨ok2, st2⟩
          simp only [hv, if_true] at h ⊢
          cases ok2 with
          | false => rfl
          | true => exact ih (by omega) it' false st2 h
    | _ => rfl

include S E in
theorem for_fmt (n : Nat) {f : Val H → Env H → Res (Out H)} {env : Bool → σ → Env H} {γ : Type}
    {K' : Val H → Env H → Res (Out H)} {fin : Out H → Res γ} {finM : σ → Res (Bool × σ)}
    {R : Bool × σ → Res γ}
    (hf : ∀ v b st, f (.host "T" (encV v)) (env b st) =
      let sep := if !b then K.write_str st " | " else (true, st)
      if sep.1 then
        let r := vfmt v sep.2
        if r.1 then .ok (.val .unit (env false r.2)) else .ok (.ret (.err .unit) (env false r.2))
      else .ok (.ret (.err .unit) (env b sep.2)))
    (hR : ∀ b st, fin (.ret (.err .unit) (env b st)) = R (false, st))
    (hK : ∀ b st, K' .unit (env b st) >>= fin = finM st >>= R) (it : EnumSetIter T) (h : okI it.iter)
    (b : Bool) (st : σ) (s : String) :
    Out.andThen (forNext ((P.ctx s (P.link (k + 4))).call "EnumSetIter" "next") f n
        (setIterOf encI it) (env b st)) K' >>= fin =
      EnumSet.fmtLoop K vfmt finM n it b st >>= R := by
  induction n generalizing b it st with
  | zero => rfl
  | succ n ih =>
    rw [forNext, ctx_call, C68_next S E k _ it h, EnumSet.fmtLoop]
    have ho := (iter_source S E).ok_next it
    rw [iterStep] at ho
    cases hn : it.next with
    | ok r =>
      obtain ⟨o, it'⟩ := r
      rw [hn] at ho
      cases o with
      | none => exact hK b st
      | some v =>
        have ho := ho v h rfl
        simp only [Res.ok_bind, opt, hf, Sink.andThen]
        generalize (if (!b) = true then K.write_str st " | " else (true, st)) = sep
        obtain ⟨ok1, st1⟩ := sep
        cases ok1 with
        | false => exact hR _ _
        | true =>
          rcases hv : vfmt v st1 with ⟨ok2, st2⟩
          simp only [hv, if_true]
          cases ok2 with
          | false => exact hR _ _
          | true => exact ih it' ho false st2
    | _ => rfl

include S E in
/-- `Debug`, writing to any formatter, with the variants' own `Debug` -/
theorem C68_fmt_debug
    (hw : ∀ k env st str, P.call k "Formatter" "write_str" env []
        [.struct "Formatter" [("0", encF st)], .str str] =
      .ok (fmtResult (K.write_str st str).1, [(0, .struct "Formatter" [("0", encF (K.write_str st str).2)])]))
    (hv : ∀ k env v st, P.call k "T" "fmt" env []
        [.host "T" (encV v), .struct "Formatter" [("0", encF st)]] =
      .ok (fmtResult (vfmt v st).1, [(1, .struct "Formatter" [("0", encF (vfmt v st).2)])]))
    (hf : EnumSetIter.fuel T ≤ P.fuel) (s : EnumSet T) (st : σ)
    (hd : s.fmt_debug K vfmt st ≠ .diverge) :
    P.call (k + 6) "EnumSet" "fmt_debug" caller [] [setOf enc s, .struct "Formatter" [("0", encF st)]] =
      s.fmt_debug K vfmt st >>= fun r =>
        .ok (fmtResult r.1, [(1, .struct "Formatter" [("0", encF r.2)])]) := by
  run_set S EnumSet_fmt_debug [hw, try_fmt]
  rw [EnumSet.fmt_debug, Sink.andThen] at hd ⊢
  revert hd
  rcases K.write_str st "EnumSet(" with ⟨ok1, st1⟩
  intro hd
  cases ok1 with
  | false => step_set S [fmt_false]
  | true =>
    simp only [if_true] at hd ⊢
    step_set S [method_iter_set, C68_iter S]
    refine bind_congr_ok fun it hi => ?_
    rw [hi, Res.ok_bind] at hd
    rw [← fmtLoop_mono _ _ _ hf _ _ _ hd, iterate_single _ _ _ (by intro xs h; cases h), ctx_fuel]
    refine for_fmt S E (k + 1) K vfmt P.fuel
      (env := fun b st => ("is_first", .bool b) :: ("self", setOf enc s) ::
        ("f", .struct "Formatter" [("0", encF st)]) :: P.params) ?_ ?_ ?_ it ?_ true st1 "EnumSet"
    · intro v b st
      cases b <;> step_set S [hw, hv, try_fmt]
    · intro b st
      step_set S [fmt_false]
    · intro b st
      step_set S [fmt_true, hw, try_fmt]
      cases (K.write_str st ")").1 <;> rfl
    · exact (iterable_set S s).ok it hi

include S E in
/-- `Display` -/
theorem C68_fmt_display
    (hw : ∀ k env st str, P.call k "Formatter" "write_str" env []
        [.struct "Formatter" [("0", encF st)], .str str] =
      .ok (fmtResult (K.write_str st str).1, [(0, .struct "Formatter" [("0", encF (K.write_str st str).2)])]))
    (hv : ∀ k env v st, P.call k "T" "fmt" env []
        [.host "T" (encV v), .struct "Formatter" [("0", encF st)]] =
      .ok (fmtResult (vfmt v st).1, [(1, .struct "Formatter" [("0", encF (vfmt v st).2)])]))
    (hf : EnumSetIter.fuel T ≤ P.fuel) (s : EnumSet T) (st : σ)
    (hd : s.fmt_display K vfmt st ≠ .diverge) :
    P.call (k + 6) "EnumSet" "fmt_display" caller [] [setOf enc s, .struct "Formatter" [("0", encF st)]] =
      s.fmt_display K vfmt st >>= fun r =>
        .ok (fmtResult r.1, [(1, .struct "Formatter" [("0", encF r.2)])]) := by
  run_set S EnumSet_fmt_display [method_iter_set, C68_iter S, EnumSet.fmt_display]
  rw [EnumSet.fmt_display] at hd
  refine bind_congr_ok fun it hi => ?_
  rw [hi, Res.ok_bind] at hd
  rw [← fmtLoop_mono _ _ _ hf _ _ _ hd, iterate_single _ _ _ (by intro xs h; cases h), ctx_fuel]
  refine for_fmt S E (k + 1) K vfmt P.fuel
    (env := fun b st => ("is_first", .bool b) :: ("self", setOf enc s) ::
      ("f", .struct "Formatter" [("0", encF st)]) :: P.params) ?_ ?_ ?_ it ?_ true st "EnumSet"
  · intro v b st
    cases b <;> step_set S [hw, hv, try_fmt]
  · intro b st
    step_set S [fmt_false]
  · intro b st
    step_set S [fmt_true]
  · exact (iterable_set S s).ok it hi
end fmt

/-! ### delegation -/

section
include S
/-- `hash`, with what `core` does with the storage -/
theorem C68_hash (s : EnumSet T) (st : Val H) (hashed : List HashWrite → Val H → Val H)
    (hh : ∀ env r st, P.call k (P.alias "T::Repr") "hash" env [] [enc r, .struct "Hasher" [("0", st)]] =
      .ok (.unit, [(1, .struct "Hasher" [("0", hashed (EnumSetTypeRepr.hash r) st)])])) :
    P.call (k + 1) "EnumSet" "hash" caller [] [setOf enc s, .struct "Hasher" [("0", st)]] =
      .ok (.unit, [(1, .struct "Hasher" [("0", hashed s.hash st)])]) := by
  run_set S EnumSet_hash [hh, EnumSet.hash]
/-- `serialize` is the function of the derived code. -/
theorem C68_serialize (s : EnumSet T) (h : H) (r : Res (Val H)) (hT : P.alias "T" = "T")
    (hs : ∀ env, P.call k "T" "serialize" env [] [setOf enc s, .host "S" h] =
      r >>= fun v => .ok (v, [])) :
    P.call (k + 1) "EnumSet" "serialize" caller [] [setOf enc s, .host "S" h] =
      r >>= fun v => .ok (v, []) := by
  run_set S EnumSet_serialize [hs, hT]
/-- `deserialize` is the function of the derived code. -/
theorem C68_deserialize (h : H) (r : Res (Val H)) (hT : P.alias "T" = "T")
    (hs : ∀ env, P.call k "T" "deserialize" env [] [.host "D" h] = r >>= fun v => .ok (v, [])) :
    P.call (k + 1) "EnumSet" "deserialize" caller [] [.host "D" h] =
      r >>= fun v => .ok (v, []) := by
  run_set S EnumSet_deserialize [hs, hT]
/-- The helper of the `enum_set!` macro is the constant of the derived code. -/
theorem C68_const_helper (s : EnumSet T) (r : Res (Val H)) (hT : P.alias "T" = "T")
    (hs : ∀ env, P.call k "T" "CONST_HELPER_INSTANCE" env [] [] = r >>= fun v => .ok (v, [])) :
    P.call (k + 1) "EnumSet" "__impl_enumset_internal__const_helper" caller [] [setOf enc s] =
      r >>= fun v => .ok (v, []) := by
  run_set S EnumSet___impl_enumset_internal__const_helper [hs, hT]
end
end agreement
end Enumset.Src
