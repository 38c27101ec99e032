import Verif.Props.SrcMacroRun
import Verif.Src.Gen
import Verif.Props.Examples
/-!
# C71: the text of `enum_set_type_impl`, and of the macro as a whole

`macroCall fuel k ty f caller consts args` runs the text of the function `f` of enumset_derive/src/lib.rs,
as parsed from the repository (`Src/DeriveRs.lean`), with calls nested at most `k` deep and loops of at most
`fuel` rounds.  `C71_derive`: for every item the text of `derive_enum_set_type_0` returns the diagnostic of
the model, or the code `genTok` (`Src/Gen.lean`: the `quote!`s of the text, filled in).  What the code does
is the subject of C72.
-/
set_option autoImplicit false
set_option linter.unusedSectionVars false
set_option linter.unusedSimpArgs false

namespace Enumset.Src

section
variable [Host] {fuel k : Nat} {c : Env Code} {cs : List (Val Code)}

theorem m_t0 (args : List (Val Code)) : macroCall fuel k "quote" "t0" c cs args =
    .ok (DeriveRs.t0.quote args, []) := by mcore
theorem m_t1 (args : List (Val Code)) : macroCall fuel k "quote" "t1" c cs args =
    .ok (DeriveRs.t1.quote args, []) := by mcore
theorem m_t2 (args : List (Val Code)) : macroCall fuel k "quote" "t2" c cs args =
    .ok (DeriveRs.t2.quote args, []) := by mcore
theorem m_t3 (args : List (Val Code)) : macroCall fuel k "quote" "t3" c cs args =
    .ok (DeriveRs.t3.quote args, []) := by mcore
theorem m_t4 (args : List (Val Code)) : macroCall fuel k "quote" "t4" c cs args =
    .ok (DeriveRs.t4.quote args, []) := by mcore
theorem m_t5 (args : List (Val Code)) : macroCall fuel k "quote" "t5" c cs args =
    .ok (DeriveRs.t5.quote args, []) := by mcore
theorem m_t6 (args : List (Val Code)) : macroCall fuel k "quote" "t6" c cs args =
    .ok (DeriveRs.t6.quote args, []) := by mcore
theorem m_t7 (args : List (Val Code)) : macroCall fuel k "quote" "t7" c cs args =
    .ok (DeriveRs.t7.quote args, []) := by mcore
theorem m_t8 (args : List (Val Code)) : macroCall fuel k "quote" "t8" c cs args =
    .ok (DeriveRs.t8.quote args, []) := by mcore
theorem m_t9 (args : List (Val Code)) : macroCall fuel k "quote" "t9" c cs args =
    .ok (DeriveRs.t9.quote args, []) := by mcore
theorem m_t10 (args : List (Val Code)) : macroCall fuel k "quote" "t10" c cs args =
    .ok (DeriveRs.t10.quote args, []) := by mcore
theorem m_t11 (args : List (Val Code)) : macroCall fuel k "quote" "t11" c cs args =
    .ok (DeriveRs.t11.quote args, []) := by mcore
theorem m_t12 (args : List (Val Code)) : macroCall fuel k "quote" "t12" c cs args =
    .ok (DeriveRs.t12.quote args, []) := by mcore
theorem m_t13 (args : List (Val Code)) : macroCall fuel k "quote" "t13" c cs args =
    .ok (DeriveRs.t13.quote args, []) := by mcore
theorem m_t14 (args : List (Val Code)) : macroCall fuel k "quote" "t14" c cs args =
    .ok (DeriveRs.t14.quote args, []) := by mcore
theorem m_t15 (args : List (Val Code)) : macroCall fuel k "quote" "t15" c cs args =
    .ok (DeriveRs.t15.quote args, []) := by mcore
theorem m_t16 (args : List (Val Code)) : macroCall fuel k "quote" "t16" c cs args =
    .ok (DeriveRs.t16.quote args, []) := by mcore
theorem m_t17 (args : List (Val Code)) : macroCall fuel k "quote" "t17" c cs args =
    .ok (DeriveRs.t17.quote args, []) := by mcore
theorem m_t18 (args : List (Val Code)) : macroCall fuel k "quote" "t18" c cs args =
    .ok (DeriveRs.t18.quote args, []) := by mcore
theorem m_t19 (args : List (Val Code)) : macroCall fuel k "quote" "t19" c cs args =
    .ok (DeriveRs.t19.quote args, []) := by mcore
theorem m_t20 (args : List (Val Code)) : macroCall fuel k "quote" "t20" c cs args =
    .ok (DeriveRs.t20.quote args, []) := by mcore
theorem m_t21 (args : List (Val Code)) : macroCall fuel k "quote" "t21" c cs args =
    .ok (DeriveRs.t21.quote args, []) := by mcore
theorem m_t22 (args : List (Val Code)) : macroCall fuel k "quote" "t22" c cs args =
    .ok (DeriveRs.t22.quote args, []) := by mcore
theorem m_t23 (args : List (Val Code)) : macroCall fuel k "quote" "t23" c cs args =
    .ok (DeriveRs.t23.quote args, []) := by mcore
theorem m_t24 (args : List (Val Code)) : macroCall fuel k "quote" "t24" c cs args =
    .ok (DeriveRs.t24.quote args, []) := by mcore
theorem m_t25 (args : List (Val Code)) : macroCall fuel k "quote" "t25" c cs args =
    .ok (DeriveRs.t25.quote args, []) := by mcore
theorem m_t26 (args : List (Val Code)) : macroCall fuel k "quote" "t26" c cs args =
    .ok (DeriveRs.t26.quote args, []) := by mcore
theorem m_t27 (args : List (Val Code)) : macroCall fuel k "quote" "t27" c cs args =
    .ok (DeriveRs.t27.quote args, []) := by mcore
theorem m_t28 (args : List (Val Code)) : macroCall fuel k "quote" "t28" c cs args =
    .ok (DeriveRs.t28.quote args, []) := by mcore
theorem m_t29 (args : List (Val Code)) : macroCall fuel k "quote" "t29" c cs args =
    .ok (DeriveRs.t29.quote args, []) := by mcore

theorem m_s0 (args : List (Val Code)) : macroCall fuel k "quote" "s0" c cs args =
    .ok (DeriveRs.s0.quote args, []) := by mcore
theorem m_s1 (args : List (Val Code)) : macroCall fuel k "quote" "s1" c cs args =
    .ok (DeriveRs.s1.quote args, []) := by mcore
theorem m_s2 (args : List (Val Code)) : macroCall fuel k "quote" "s2" c cs args =
    .ok (DeriveRs.s2.quote args, []) := by mcore
theorem m_s3 (args : List (Val Code)) : macroCall fuel k "quote" "s3" c cs args =
    .ok (DeriveRs.s3.quote args, []) := by mcore
theorem m_s4 (args : List (Val Code)) : macroCall fuel k "quote" "s4" c cs args =
    .ok (DeriveRs.s4.quote args, []) := by mcore
theorem m_s5 (args : List (Val Code)) : macroCall fuel k "quote" "s5" c cs args =
    .ok (DeriveRs.s5.quote args, []) := by mcore
theorem m_s6 (args : List (Val Code)) : macroCall fuel k "quote" "s6" c cs args =
    .ok (DeriveRs.s6.quote args, []) := by mcore
theorem m_s7 (args : List (Val Code)) : macroCall fuel k "quote" "s7" c cs args =
    .ok (DeriveRs.s7.quote args, []) := by mcore
theorem m_s8 (args : List (Val Code)) : macroCall fuel k "quote" "s8" c cs args =
    .ok (DeriveRs.s8.quote args, []) := by mcore
theorem m_s9 (args : List (Val Code)) : macroCall fuel k "quote" "s9" c cs args =
    .ok (DeriveRs.s9.quote args, []) := by mcore
theorem m_s10 (args : List (Val Code)) : macroCall fuel k "quote" "s10" c cs args =
    .ok (DeriveRs.s10.quote args, []) := by mcore
theorem m_s11 (args : List (Val Code)) : macroCall fuel k "quote" "s11" c cs args =
    .ok (DeriveRs.s11.quote args, []) := by mcore
theorem m_s12 (args : List (Val Code)) : macroCall fuel k "quote" "s12" c cs args =
    .ok (DeriveRs.s12.quote args, []) := by mcore
theorem m_s13 (args : List (Val Code)) : macroCall fuel k "quote" "s13" c cs args =
    .ok (DeriveRs.s13.quote args, []) := by mcore
theorem m_s14 (args : List (Val Code)) : macroCall fuel k "quote" "s14" c cs args =
    .ok (DeriveRs.s14.quote args, []) := by mcore
theorem m_s15 (args : List (Val Code)) : macroCall fuel k "quote" "s15" c cs args =
    .ok (DeriveRs.s15.quote args, []) := by mcore
theorem m_s16 (args : List (Val Code)) : macroCall fuel k "quote" "s16" c cs args =
    .ok (DeriveRs.s16.quote args, []) := by mcore
theorem m_s17 (args : List (Val Code)) : macroCall fuel k "quote" "s17" c cs args =
    .ok (DeriveRs.s17.quote args, []) := by mcore
theorem m_s18 (args : List (Val Code)) : macroCall fuel k "quote" "s18" c cs args =
    .ok (DeriveRs.s18.quote args, []) := by mcore
theorem m_s19 (args : List (Val Code)) : macroCall fuel k "quote" "s19" c cs args =
    .ok (DeriveRs.s19.quote args, []) := by mcore
theorem m_s20 (args : List (Val Code)) : macroCall fuel k "quote" "s20" c cs args =
    .ok (DeriveRs.s20.quote args, []) := by mcore
theorem m_s21 (args : List (Val Code)) : macroCall fuel k "quote" "s21" c cs args =
    .ok (DeriveRs.s21.quote args, []) := by mcore
theorem m_s22 (args : List (Val Code)) : macroCall fuel k "quote" "s22" c cs args =
    .ok (DeriveRs.s22.quote args, []) := by mcore
theorem m_s23 (args : List (Val Code)) : macroCall fuel k "quote" "s23" c cs args =
    .ok (DeriveRs.s23.quote args, []) := by mcore
theorem m_s24 (args : List (Val Code)) : macroCall fuel k "quote" "s24" c cs args =
    .ok (DeriveRs.s24.quote args, []) := by mcore
theorem m_s25 (args : List (Val Code)) : macroCall fuel k "quote" "s25" c cs args =
    .ok (DeriveRs.s25.quote args, []) := by mcore
theorem m_s26 (args : List (Val Code)) : macroCall fuel k "quote" "s26" c cs args =
    .ok (DeriveRs.s26.quote args, []) := by mcore

theorem m_p0 (args : List (Val Code)) : macroCall fuel k "quote" "p0" c cs args =
    .ok (DeriveRs.p0.quote args, []) := by mcore
theorem m_p1 (args : List (Val Code)) : macroCall fuel k "quote" "p1" c cs args =
    .ok (DeriveRs.p1.quote args, []) := by mcore
theorem ms_proc_macro_crate : DeriveRs.structs.lookup "proc_macro_crate" = none := rfl
theorem m_crate_name : macroCall fuel k "proc_macro_crate" "crate_name" c cs [.str "enumset"] =
    .ok (foundCrate Host.found, []) := by mcore

theorem tag_quote (t : Tmpl) (args : List (Val Code)) : (t.quote args).tag = "TokenStream" := rfl
theorem exp_quote (t : Tmpl) (args : List (Val Code)) : (t.quote args).exp = .any := rfl
theorem adopt_quote (e : Exp) (t : Tmpl) (args : List (Val Code)) : e.adopt (t.quote args) = t.quote args := by
  cases e <;> rfl
theorem adopt_literal (e : Exp) (n : Nat) : e.adopt (literal n) = literal n := by
  cases e <;> rfl
theorem m_u64_word (x : U64) : macroCall fuel k "Literal" "u64_unsuffixed" c cs [word x] =
    .ok (literal x.toNat, []) := m_u64_lit _
theorem m_u128_quad (x : U128) : macroCall fuel k "Literal" "u128_unsuffixed" c cs [quad x] =
    .ok (literal x.toNat, []) := m_u128_lit _
theorem adopt_quad_zero (x : U128) : (quad x : Val Code).exp.adopt (.lit 0) = (quad 0 : Val Code) := rfl
theorem len_arr (C : Ctx Code) (xs : List (Val Code)) (env : Env Code) :
    method C "len" [] (.arr xs) [] env = .ok (.int .usize xs.length, []) := rfl
theorem iter_arr (C : Ctx Code) (xs : List (Val Code)) (env : Env Code) :
    method C "iter" [] (.arr xs) [] env = .ok (.arr xs, []) := rfl
theorem index_zero (v : Val Code) (vs : List (Val Code)) : (Proj.index 0).get (.arr (v :: vs)) = .ok v := rfl
theorem mapItems_map {α : Type} (encA g : α → Val Code) {f : Val Code → Env Code → Res (Out Code)} (xs : List α)
    {env : Env Code} (h : ∀ a, f (encA a) env = .ok (.val (g a) env)) :
    mapItems f (xs.map encA) env = .ok (.val (.arr (xs.map g)) env) := by
  induction xs with
  | nil => rfl
  | cons x xs ih => simp [mapItems, h, ih, andThen_val]
theorem flatten_single {α β : Type} (f : α → β) (l : List α) : (l.map fun x => [f x]).flatten = l.map f := by
  induction l <;> simp_all
theorem m_u64_elim (o : Option U64) : macroCall fuel k "Literal" "u64_unsuffixed" c cs [o.elim (.lit 0) word] =
    .ok (literal (o.getD 0).toNat, []) := by
  cases o
  · exact m_u64_lit' 0
  · exact m_u64_word _
theorem m_extend28 (l : List Stmt) (args : List (Val Code)) : macroCall fuel k "TokenStream" "extend" c cs
    [.host "TokenStream" (.stmts l), DeriveRs.t28.quote args] =
    .ok (.unit, [(0, .host "TokenStream" (.stmts (l ++ toStmts (DeriveRs.t28.quote args))))]) := m_extend _ _
theorem foldl_append {α β : Type} (f : α → List β) (xs : List α) (l : List β) :
    xs.foldl (fun l i => l ++ f i) l = l ++ xs.flatMap f := by
  induction xs generalizing l with
  | nil => simp
  | cons x xs ih => simp [ih]
theorem foldl_push {α β : Type} (f : α → β) (xs : List α) (l : List β) :
    xs.foldl (fun l i => l ++ [f i]) l = l ++ xs.map f := by
  induction xs generalizing l with
  | nil => simp
  | cons x xs ih => simp [ih]
theorem m_get_words (l : List U64) (i : Val Code) : macroCall fuel k "array" "get" c cs [words l, i] =
    asIndex i >>= fun i => .ok (opt word l[i]?, []) := by
  rw [mbase (fn := pureFn fun
    | [.arr xs, i] => asIndex i >>= fun i => .ok (match xs[i]? with
      | some v => .some v
      | none => .none)
    | _ => .ub) rfl rfl]
  simp only [pureFn, words, bind_assoc, Res.ok_bind, List.getElem?_map]
  refine bind_congr fun i => ?_
  cases l[i]? <;> rfl

/-- The right-hand side of the n-th statement of the function. -/
def implRhs (n : Nat) : Expr :=
  match DeriveRs.crate_enum_set_type_impl.body[n]? with
  | some (.let _ _ e) => e
  | some (.semi e) => e
  | some (.tail e) => e
  | _ => .brk

/-- `let enumset = …`, which depends on the feature `proc-macro-crate`. -/
def pathRhs (d : FnDecl) : Expr :=
  match d.body with
  | _ :: .let _ _ e :: _ => e
  | _ => .brk

/-- What the model of the macro in its environment (`MacroEnv.lean`) depends on. -/
def hostEnv : MacroEnv where
  isIdent := Host.isIdent
  serde := Platform.serde
  stdWarning := Host.stdWarning
  procMacroCrate := Host.procMacroCrate
  found := Host.found

variable {C : Ctx Code} {e : Exp}
variable {cr : Option String} {hdr : Header} {info : EnumSetInfo} {env : Env Code}

theorem forItems_fold {H σ α : Type} (enc : σ → Env H) (encA : α → Val H) {f : Val H → Env H → Res (Out H)}
    {g : σ → α → σ} (xs : List α) (s : σ)
    (h : ∀ a s, ∃ v, f (encA a) (enc s) = .ok (.val v (enc (g s a)))) :
    forItems f (xs.map encA) (enc s) = .ok (.val .unit (enc (xs.foldl g s))) := by
  induction xs generalizing s with
  | nil => rfl
  | cons x xs ih =>
    obtain ⟨v, hv⟩ := h x s
    simp only [List.map, forItems, hv]
    exact ih _

theorem evalLet {x : String} {t : Option Ty} {a : Expr} {ss : List Stmt} {v : Val Code} {env : Env Code}
    (h : eval C a (match t with | some t => C.exp t | none => .any) env = .ok (.val v env)) :
    evalStmts C (.let (.var x) t a :: ss) e env = evalStmts C ss e ((x, v) :: env) := by
  cases t <;> simp only at h <;> simp only [evalStmts, h, andThen_val, bindPat, Res.ok_bind]

theorem evalLet_of {α : Type} {x : String} {a : Expr} {ss : List Stmt} {v : Val Code} {env : Env Code} {r : Res α}
    (h : eval C a .any env = r.andThen fun _ => .ok (.val v env)) :
    evalStmts C (.let (.var x) none a :: ss) e env = r.andThen fun _ => evalStmts C ss e ((x, v) :: env) := by
  cases r <;> simp only [evalStmts, h, Res.andThen, andThen_val, bindPat, Res.ok_bind] <;> rfl

/-- What the right-hand sides see of the variables: `info`, and no generic parameters. -/
structure ImplEnv (cr : Option String) (hdr : Header) (info : EnumSetInfo) (env : Env Code) : Prop where
  info : lookup "info" env = some (encInfo cr hdr info)
  none : ∀ x ∈ ["quote", "Literal", "Vec", "Ident", "Span", "SynTokenStream", "proc_macro_crate"], lookup x env = none

theorem ImplEnv.cons (h : ImplEnv cr hdr info env) {x : String} {v : Val Code}
    (hx : x ∉ ["info", "quote", "Literal", "Vec", "Ident", "Span", "SynTokenStream", "proc_macro_crate"]) :
    ImplEnv cr hdr info ((x, v) :: env) := by
  simp only [List.mem_cons, List.not_mem_nil, or_false, not_or, @eq_comm _ x] at hx
  refine ⟨by simp [lookup, hx, h.info], fun y hy => ?_⟩
  rw [lookup, if_neg, h.none y hy]
  rintro rfl
  simp [hx, @eq_comm _ y] at hy

theorem ImplEnv.q (h : ImplEnv cr hdr info env) : lookup "quote" env = .none := h.none _ (by simp)
theorem ImplEnv.l (h : ImplEnv cr hdr info env) : lookup "Literal" env = .none := h.none _ (by simp)
theorem ImplEnv.v (h : ImplEnv cr hdr info env) : lookup "Vec" env = .none := h.none _ (by simp)
theorem ImplEnv.i (h : ImplEnv cr hdr info env) : lookup "Ident" env = .none := h.none _ (by simp)
theorem ImplEnv.s (h : ImplEnv cr hdr info env) : lookup "Span" env = .none := h.none _ (by simp)
theorem ImplEnv.p (h : ImplEnv cr hdr info env) : lookup "proc_macro_crate" env = .none := h.none _ (by simp)
theorem ImplEnv.y (h : ImplEnv cr hdr info env) : lookup "SynTokenStream" env = .none := h.none _ (by simp)

variable (hi : ImplEnv cr hdr info env)
include hi

macro "irun" "[" ls:Lean.Parser.Tactic.simpLemma,* "]" : tactic =>
  `(tactic| mrun [implRhs, DeriveRs.crate_enum_set_type_impl, $ls,*])

theorem impl_name : eval (macroCtx fuel "crate" (macroLink fuel k)) (implRhs 0) .any env =
    .ok (.val (nameTok hdr.name) env) := by
  irun [hi.info, nameTok]

theorem impl_enumset : ∃ v, eval (macroCtx fuel "crate" (macroLink fuel k)) (pathRhs implFn) .any env =
    (enumsetPath hostEnv cr).andThen fun _ => .ok (.val v env) := by
  have h : pathRhs implFn = if Host.procMacroCrate then pathRhs DeriveRs.crate_enum_set_type_impl_path else implRhs 1 := by
    unfold implFn
    cases (Platform.serde : Bool) <;> cases (Host.procMacroCrate : Bool) <;> rfl
  rw [h]
  cases hp : (Host.procMacroCrate : Bool) with
  | false => cases cr <;> irun [hi.info, hi.q, m_t0, m_t1, enumsetPath, hostEnv, hp, Res.andThen]
  | true =>
    cases cr with
    | some _ => irun [pathRhs, DeriveRs.crate_enum_set_type_impl_path, hi.info, hi.q, m_t0, enumsetPath, Res.andThen]
    | none =>
      rcases hf : (Host.found : Option FoundCrate) with _ | _ | s
      · irun [pathRhs, DeriveRs.crate_enum_set_type_impl_path, hi.info, hi.q, hi.p, m_p1, ms_proc_macro_crate, m_crate_name, foundCrate,
          enumsetPath, hostEnv, hp, hf, Res.andThen]
      · irun [pathRhs, DeriveRs.crate_enum_set_type_impl_path, hi.info, hi.q, hi.p, m_p1, ms_proc_macro_crate, m_crate_name, foundCrate,
          enumsetPath, hostEnv, hp, hf, Res.andThen]
      · cases hs : Host.isIdent s <;>
        irun [pathRhs, DeriveRs.crate_enum_set_type_impl_path, hi.info, hi.q, hi.p, hi.i, hi.s, m_p0, ms_proc_macro_crate, m_crate_name,
          foundCrate, enumsetPath, hostEnv, hp, hf, hs, MacroEnv.ident, Res.andThen]
        exact ⟨.unit, trivial⟩

theorem impl_typed (hn : lookup "name" env = some (nameTok hdr.name)) :
    eval (macroCtx fuel "crate" (macroLink fuel k)) (implRhs 2) .any env = .ok (.val (typedTok hdr.name) env) := by
  irun [hi.info, hi.q, hn, m_t2, typedTok]

theorem impl_core : eval (macroCtx fuel "crate" (macroLink fuel k)) (implRhs 3) .any env =
    .ok (.val (DeriveRs.t3.quote []) env) := by
  irun [hi.q, m_t3]

theorem impl_internal : eval (macroCtx fuel "crate" (macroLink fuel k)) (implRhs 4) .any env =
    .ok (.val (DeriveRs.t4.quote []) env) := by
  irun [hi.q, m_t4]

theorem impl_repr (h : info.max_discrim + 64 < 2 ^ usizeBits) :
    eval (macroCtx fuel "crate" (macroLink fuel (k + 1))) (implRhs 5) .any env =
      .ok (.val (reprTok info.internal_repr) env) := by
  have hr := fun c cs => C70_internal_repr (fuel := fuel) k c cs cr hdr info h
  generalize info.internal_repr = r at *
  cases r <;> irun [hi.info, hi.q, hr, m_t5, m_t6, m_t7, m_t8, m_t9, m_t10, encRepr, reprTok]

theorem impl_variant_map (hf : 2 ^ 26 ≤ fuel) (hh : 32 ≤ usizeBits)
    (h : ∀ v ∈ info.variants, v.variant_repr < 0xFFFFFFC0) :
    eval (macroCtx fuel "crate" (macroLink fuel (k + 1))) (implRhs 6) .any env =
      .ok (.val (words info.variant_map) env) := by
  have hv := fun c cs => C70_variant_map (k := k) (c := c) (cs := cs) (cr := cr) (hdr := hdr) (info := info) hf hh h
  irun [hi.info, hv]

omit hi in
theorem variant_map_ne : info.variant_map ≠ [] := by
  have : ∀ vs : List EnumSetValue, ∀ l : List U64, l ≠ [] →
      vs.foldl (fun vec v => EnumSetInfo.variantMapStep vec v.variant_repr) l ≠ [] := by
    intro vs
    induction vs with
    | nil => exact fun l hl => hl
    | cons v vs ih => exact fun l hl => ih _ (by simp [EnumSetInfo.variantMapStep, hl])
  exact this _ _ (by simp)

theorem impl_all_variants (h : info.max_discrim + 64 < 2 ^ usizeBits)
    (hv : lookup "variant_map" env = some (words info.variant_map)) :
    eval (macroCtx fuel "crate" (macroLink fuel (k + 1))) (implRhs 7) .any env =
      .ok (.val (allTok info.variant_map info.internal_repr) env) := by
  have hr := fun c cs => C70_internal_repr (fuel := fuel) k c cs cr hdr info h
  have hne : info.variant_map ≠ [] := variant_map_ne
  generalize info.variant_map = vm at *
  obtain ⟨x, vm, rfl⟩ := List.exists_cons_of_ne_nil hne
  generalize info.internal_repr = r at *
  cases r with
  | u128 =>
    cases vm <;>
      irun [hi.info, hi.q, hi.l, hi.v, hr, hv, m_get_words, encRepr, index_words, idxL, m_u64_word, m_u128_quad, tag_words,
        shl_quad, bor_quad, cast_quad, allTok, lit128, adopt_quad_zero]
  | array n =>
    irun [hi.info, hi.q, hi.l, hi.v, hr, hv, m_get_words, encRepr, iterate, tag_words]
    rw [forItems_fold (fun l => ("new", .arr l) :: ("size", .int .usize n) :: env) (Val.int .usize) (range 0 n) []
      (g := fun l i => l ++ [literal ((x :: vm).getD i 0).toNat])]
    · irun [hi.info, hi.q, m_t11, allTok, foldl_push, range, List.range_eq_range', flatten_single]
    · intro i l
      refine ⟨.unit, ?_⟩
      irun [hi.info, hi.q, hi.l, hi.v, hr, hv, m_get_words, encRepr, iterate, tag_words, m_u64_elim]
  | _ => irun [hi.info, hi.q, hi.l, hi.v, hr, hv, encRepr, index_words, idxL, m_u64_word, allTok]

theorem impl_ops (ht : lookup "typed_enumset" env = some (typedTok hdr.name)) (hn : lookup "name" env = some (nameTok hdr.name)) :
    eval (macroCtx fuel "crate" (macroLink fuel k)) (implRhs 8) .any env = .ok (.val (opsTok hdr.name info) env) := by
  cases h : info.no_ops <;> irun [hi.info, hi.q, m_t12, m_t13, ht, hn, opsTok, h]

theorem impl_serde : eval (macroCtx fuel "crate" (macroLink fuel k)) (implRhs 9) .any env =
    .ok (.val (DeriveRs.t14.quote []) env) := by
  irun [hi.info, hi.q, m_t14]

theorem impl_uninhabited : eval (macroCtx fuel "crate" (macroLink fuel k)) (implRhs 10) .any env =
    .ok (.val (.bool info.variants.isEmpty) env) := by
  irun [hi.info, hi.q]

theorem impl_zst : eval (macroCtx fuel "crate" (macroLink fuel k)) (implRhs 11) .any env =
    .ok (.val (.bool (info.variants.length == 1)) env) := by
  irun [hi.info, hi.q, len_arr]
  rfl

/-- The last branch of `into_impl`. -/
def intoBlock : List Stmt :=
  match implRhs 12 with
  | .ite _ _ (.ite _ _ (.block b)) => b
  | _ => []

theorem impl_into (hn : lookup "name" env = some (nameTok hdr.name))
    (hu : lookup "is_uninhabited" env = some (.bool info.variants.isEmpty))
    (hz : lookup "is_zst" env = some (.bool (info.variants.length == 1))) :
    eval (macroCtx fuel "crate" (macroLink fuel k)) (implRhs 12) .any env = .ok (.val (intoTok hdr.name info) env) := by
  rcases h : info.variants with _ | ⟨v, _ | ⟨w, vs⟩⟩
  · irun [hi.info, hi.q, hi.i, hi.s, hi.v, hn, hu, hz, h, m_t15, intoTok]
  · irun [hi.info, hi.q, hi.i, hi.s, hi.v, hn, hu, hz, h, m_t16, intoTok, index_zero, encValue]
  · have hu' : info.variants.isEmpty = false := by simp [h]
    have hz' : (info.variants.length == 1) = false := by simp [h]
    have ht : intoTok hdr.name info = DeriveRs.t17.quote [.arr (["IS_U8", "IS_U16", "IS_U32", "IS_U64", "IS_U128"].map ident),
        nameTok hdr.name, .arr (["u8", "u16", "u32", "u64", "u128"].map ident),
        .arr (info.variants.map fun v => .int .u32 v.variant_repr), .arr (info.variants.map fun v => ident v.name)] := by
      simp only [intoTok, h]
    rw [ht]
    rw [hu'] at hu
    rw [hz'] at hz
    clear ht h hu' hz'
    have ho := Host.isIdent_own
    simp only [List.forall_mem_cons] at ho
    rw [show implRhs 12 = .ite (.var "is_uninhabited") (.block [.tail (.pcall "quote" "t15" [] [.var "name"])]) (.ite
      (.var "is_zst") (.block [.let (.var "variant") none (.un .ref (.field (.index (.field (.var
      "info") "variants") (.lit 0)) "name")), .tail (.pcall "quote" "t16" [] [.var "name", .var
      "variant"])]) (.block intoBlock)) from rfl]
    rw [show intoBlock = [.let (.var "variant_name") (some (.name "Vec" [.name "_" []])) (.mcall
      (.mclosure (.mcall (.field (.var "info") "variants") "iter" [] []) "map" (.var "x") (.un .ref
      (.field (.var "x") "name"))) "collect" [] []), .let (.var "variant_value") (some (.name "Vec"
      [.name "_" []])) (.mcall (.mclosure (.mcall (.field (.var "info") "variants") "iter" [] [])
      "map" (.var "x") (.field (.var "x") "variant_repr")) "collect" [] []), .let (.var "const_field")
      (some (.name "Vec" [.name "_" []])) (.mcall (.mclosure (.mcall (.array [.str "IS_U8", .str
      "IS_U16", .str "IS_U32", .str "IS_U64", .str "IS_U128"]) "iter" [] []) "map" (.var "x") (.pcall
      "Ident" "new" [] [.var "x", .pcall "Span" "call_site" [] []])) "collect" [] []), .let (.var
      "int_type") (some (.name "Vec" [.name "_" []])) (.mcall (.mclosure (.mcall (.array [.str "u8",
      .str "u16", .str "u32", .str "u64", .str "u128"]) "iter" [] []) "map" (.var "x") (.pcall "Ident"
      "new" [] [.var "x", .pcall "Span" "call_site" [] []])) "collect" [] []), .tail (.pcall "quote"
      "t17" [] [.var "const_field", .var "name", .var "int_type", .var "variant_value", .var
      "variant_name"])] from rfl]
    simp only [eval, hu, hz, need_some, Res.ok_bind, pure_ok, adopt_bool, andThen_val, cond_bool, Bool.false_eq_true,
      if_false]
    rw [evalLet (v := .arr (info.variants.map fun v => ident v.name)),
      evalLet (v := .arr (info.variants.map fun v => .int .u32 v.variant_repr)),
      evalLet (v := .arr (["IS_U8", "IS_U16", "IS_U32", "IS_U64", "IS_U128"].map ident)),
      evalLet (v := .arr (["u8", "u16", "u32", "u64", "u128"].map ident))]
    · irun [hi.info, hi.q, hn, m_t17]
      rw [show env.length + 1 + 1 + 1 + 1 - env.length = 4 by omega]
      rfl
    · irun [hi.i, hi.s, iter_arr, mapItems, ho]
    · irun [hi.i, hi.s, iter_arr, mapItems, ho]
    · irun [hi.info, iter_arr]
      rw [mapItems_map encValue (fun v => .int .u32 v.variant_repr)]
      · irun []
      · intro v
        irun [encValue]
    · irun [hi.info, iter_arr]
      rw [mapItems_map encValue (fun v => ident v.name)]
      · irun []
      · intro v
        irun [encValue]

theorem impl_eq (hn : lookup "name" env = some (nameTok hdr.name))
    (hu : lookup "is_uninhabited" env = some (.bool info.variants.isEmpty)) :
    eval (macroCtx fuel "crate" (macroLink fuel k)) (implRhs 13) .any env = .ok (.val (eqTok hdr.name info) env) := by
  cases h : info.variants.isEmpty <;> irun [hi.info, hi.q, hn, hu, h, m_t18, m_t19, eqTok]

theorem impl_super (hn : lookup "name" env = some (nameTok hdr.name)) (he : lookup "eq_impl" env = some (eqTok hdr.name info)) :
    eval (macroCtx fuel "crate" (macroLink fuel k)) (implRhs 14) .any env = .ok (.val (superTok hdr.name info) env) := by
  cases h : info.no_super_impls <;> irun [hi.info, hi.q, hn, he, h, m_t20, m_t21, superTok]

theorem impl_with_repr (hn : lookup "name" env = some (nameTok hdr.name))
    (hr : lookup "repr" env = some (reprTok info.internal_repr)) :
    eval (macroCtx fuel "crate" (macroLink fuel k)) (implRhs 15) .any env = .ok (.val (withReprTok hdr.name info) env) := by
  cases h : info.explicit_internal_repr.isSome <;> irun [hi.info, hi.q, hn, hr, h, m_t22, m_t23, withReprTok]

theorem impl_inherent (h : info.max_discrim + 64 < 2 ^ usizeBits) (hn : lookup "name" env = some (nameTok hdr.name))
    (hp : lookup "repr" env = some (reprTok info.internal_repr))
    (hu : lookup "is_uninhabited" env = some (.bool info.variants.isEmpty)) :
    eval (macroCtx fuel "crate" (macroLink fuel (k + 1))) (implRhs 16) .any env =
      .ok (.val (inherentTok hdr.name info) env) := by
  have hr := fun c cs => C70_internal_repr (fuel := fuel) k c cs cr hdr info h
  cases hv : info.variants.isEmpty <;> cases hq : info.internal_repr <;> rw [hq] at hr hp <;>
    irun [hi.info, hi.q, hn, hp, hu, hr, hv, hq, m_t24, m_t25, m_t26, m_t27, encRepr, inherentTok, maskTok]

theorem impl_warnings : eval (macroCtx fuel "crate" (macroLink fuel k)) (implRhs 17) .any env =
    .ok (.val (.host "TokenStream" (.stmts [])) env) := by
  irun [hi.y]

theorem impl_warnings_loop (ws : List (Span × String)) (hw : lookup "warnings" env = some (encWarnings ws)) :
    eval (macroCtx fuel "crate" (macroLink fuel k)) (implRhs 18) .any
      (("generated_warnings", .host "TokenStream" (.stmts [])) :: env) =
      .ok (.val .unit (("generated_warnings", .host "TokenStream" (.stmts (warnStmts ws))) :: env)) := by
  irun [hw, iterate, encWarnings]
  rw [forItems_fold (fun l => ("generated_warnings", .host "TokenStream" (.stmts l)) :: env)
    (fun w => .tup [encSpan w.1, .str w.2]) ws [] (g := fun l w => l ++ toStmts (DeriveRs.t28.quote [encSpan w.1, .str w.2]))]
  · rw [foldl_append, List.nil_append, warnStmts]
  · intro w l
    refine ⟨.unit, ?_⟩
    irun [hi.q, m_t28, m_extend28]

theorem impl_bit_width (h : info.max_discrim + 1 < 2 ^ 32) :
    eval (macroCtx fuel "crate" (macroLink fuel k)) (implRhs 19) .any env =
      .ok (.val (.int .u32 (info.max_discrim + 1)) env) := by
  irun [hi.info, addW_ok, h]

theorem impl_variant_count :
    eval (macroCtx fuel "crate" (macroLink fuel k)) (implRhs 20) .any env =
      .ok (.val (.int .u32 (castW 32 info.variants.length)) env) := by
  irun [hi.info, len_arr]

theorem impl_vis : ∃ v, eval (macroCtx fuel "crate" (macroLink fuel k)) (implRhs 21) .any env =
    .ok (.val v env) := by
  irun [hi.info]

theorem impl_tail (ws : List (Span × String))
    (g0 : lookup "name" env = some (nameTok hdr.name))
    (g1 : lookup "repr" env = some (reprTok info.internal_repr))
    (g2 : lookup "all_variants" env = some (allTok info.variant_map info.internal_repr))
    (g3 : lookup "bit_width" env = some (.int .u32 (info.max_discrim + 1)))
    (g4 : lookup "variant_count" env = some (.int .u32 (castW 32 info.variants.length)))
    (g5 : lookup "into_impl" env = some (intoTok hdr.name info))
    (g6 : lookup "serde_ops" env = some (serdeTok hdr.name info))
    (g7 : lookup "impl_with_repr" env = some (withReprTok hdr.name info))
    (g8 : lookup "super_impls" env = some (superTok hdr.name info))
    (g9 : lookup "ops" env = some (opsTok hdr.name info))
    (g10 : lookup "inherent_impl_blocks" env = some (inherentTok hdr.name info))
    (g11 : lookup "generated_warnings" env = some (.host "TokenStream" (.stmts (warnStmts ws)))) :
    eval (macroCtx fuel "crate" (macroLink fuel k)) (implRhs 22) e env = .ok (.val (genTok hdr.name info ws) env) := by
  irun [hi.q, g0, g1, g2, g3, g4, g5, g6, g7, g8, g9, g10, g11, m_t29, genTok, genArgs]

/-- The right-hand side of the n-th statement of the function with the feature `serde`. -/
def serdeRhs (n : Nat) : Expr :=
  match DeriveRs.crate_enum_set_type_impl_serde.body[n]? with
  | some (.let _ _ e) => e
  | _ => .brk

theorem impl_serde_crate : eval (macroCtx fuel "crate" (macroLink fuel k)) (serdeRhs 5) .any env =
    .ok (.val (DeriveRs.s0.quote []) env) := by
  mrun [serdeRhs, DeriveRs.crate_enum_set_type_impl_serde, hi.q, m_s0]

theorem impl_serde_repr : eval (macroCtx fuel "crate" (macroLink fuel (k + 1))) (serdeRhs 10) .any env =
    .ok (.val (encSerde info.serde_repr) env) := by
  mrun [serdeRhs, DeriveRs.crate_enum_set_type_impl_serde, hi.info, C70_serde_repr]

set_option maxHeartbeats 4000000 in
theorem impl_serde_ops (hn : lookup "name" env = some (nameTok hdr.name))
    (h1 : lookup "repr" env = some (reprTok info.internal_repr))
    (h2 : lookup "all_variants" env = some (allTok info.variant_map info.internal_repr))
    (h3 : lookup "serde_repr" env = some (encSerde info.serde_repr)) :
    eval (macroCtx fuel "crate" (macroLink fuel k)) (serdeRhs 11) .any env = .ok (.val (serdeOnTok hdr.name info) env) := by
  have hd : (Proj.field "serialize_deny_unknown").get (encInfo cr hdr info) = .ok (.bool info.serialize_deny_unknown) := rfl
  have hl : List.length env + 1 + 1 + 1 + 1 - List.length env + (List.length env + 1 + 1 + 1 + 1 -
    (List.length env + 1 + 1 + 1 + 1 - List.length env) - List.length env) = 4 := by omega
  have hl' : List.length env + 1 + 1 + 1 - List.length env + (List.length env + 1 + 1 + 1 -
    (List.length env + 1 + 1 + 1 - List.length env) - List.length env) = 3 := by omega
  simp only [serdeOnTok, serdeNumTok]
  generalize info.serde_repr = r at *
  generalize info.serialize_deny_unknown = d at *
  conv => lhs; arg 2; whnf
  cases r <;> cases d <;>
    mrun [hi.info, hi.q, hi.i, hi.s, hd, hn, h1, h2, h3, encSerde, adopt_quote, hl, hl',
      m_s1, m_s2, m_s3, m_s4, m_s5, m_s6, m_s7, m_s8, m_s9, m_s10, m_s11, m_s12, m_s13, m_s14, m_s15, m_s16, m_s17,
      m_s18, m_s19, m_s20, m_s21, m_s22, m_s23, m_s24, m_s25, m_s26, nameTok]
  all_goals rfl

/-- The first statements of the function. -/
def implHead : List Stmt :=
  [.let (.var "name") none (implRhs 0), .let (.var "enumset") none (pathRhs implFn),
   .let (.var "typed_enumset") none (implRhs 2), .let (.var "core") none (implRhs 3),
   .let (.var "internal") none (implRhs 4)]
/-- The statements before `serde_ops`. -/
def implMid : List Stmt :=
  [.let (.var "repr") none (implRhs 5), .let (.var "variant_map") none (implRhs 6),
   .let (.var "all_variants") none (implRhs 7), .let (.var "ops") none (implRhs 8)]
/-- The statements after `serde_ops`. -/
def implRest : List Stmt :=
  [.let (.var "is_uninhabited") none (implRhs 10), .let (.var "is_zst") none (implRhs 11),
   .let (.var "into_impl") none (implRhs 12), .let (.var "eq_impl") none (implRhs 13),
   .let (.var "super_impls") none (implRhs 14), .let (.var "impl_with_repr") none (implRhs 15),
   .let (.var "inherent_impl_blocks") none (implRhs 16), .let (.var "generated_warnings") none (implRhs 17),
   .semi (implRhs 18), .let (.var "bit_width") none (implRhs 19), .let (.var "variant_count") none (implRhs 20),
   .let (.var "vis") none (implRhs 21), .tail (implRhs 22)]

/-- The statements about serde. -/
def implSerde : List Stmt × List Stmt :=
  if Platform.serde then
    ([.let (.var "serde") none (serdeRhs 5)],
     [.let (.var "serde_repr") none (serdeRhs 10), .let (.var "serde_ops") none (serdeRhs 11)])
  else ([], [.let (.var "serde_ops") none (implRhs 9)])

omit hi in
theorem impl_body : implFn.body = implHead ++ implSerde.1 ++ implMid ++ implSerde.2 ++ implRest := by
  unfold implHead implSerde implFn
  cases (Platform.serde : Bool) <;> cases (Host.procMacroCrate : Bool) <;> rfl

/-- The variables after `implHead`. -/
def headEnv (hdr : Header) (en : Val Code) (env : Env Code) : Env Code :=
  ("internal", DeriveRs.t4.quote []) :: ("core", DeriveRs.t3.quote []) :: ("typed_enumset", typedTok hdr.name) ::
    ("enumset", en) :: ("name", nameTok hdr.name) :: env
/-- The variables after `implMid`. -/
def midEnv (hdr : Header) (info : EnumSetInfo) (env : Env Code) : Env Code :=
  ("ops", opsTok hdr.name info) :: ("all_variants", allTok info.variant_map info.internal_repr) ::
    ("variant_map", words info.variant_map) :: ("repr", reprTok info.internal_repr) :: env

omit hi in
theorem ImplEnv.head (h : ImplEnv cr hdr info env) (en : Val Code) : ImplEnv cr hdr info (headEnv hdr en env) :=
  ((((h.cons (by simp)).cons (by simp)).cons (by simp)).cons (by simp)).cons (by simp)
omit hi in
theorem ImplEnv.mid (h : ImplEnv cr hdr info env) : ImplEnv cr hdr info (midEnv hdr info env) :=
  (((h.cons (by simp)).cons (by simp)).cons (by simp)).cons (by simp)

theorem impl_head (ss : List Stmt) (e : Exp) :
    ∃ en, evalStmts (macroCtx fuel "crate" (macroLink fuel k)) (implHead ++ ss) e env =
      (enumsetPath hostEnv cr).andThen fun _ => evalStmts (macroCtx fuel "crate" (macroLink fuel k)) ss e (headEnv hdr en env) := by
  simp only [implHead, List.cons_append, List.nil_append]
  rw [evalLet (impl_name hi)]
  have h1 := hi.cons (x := "name") (v := (nameTok hdr.name)) (by simp)
  obtain ⟨en, hen⟩ := impl_enumset (fuel := fuel) (k := k) h1
  rw [evalLet_of hen]
  refine ⟨en, ?_⟩
  congr 1
  funext _
  have h2 := h1.cons (x := "enumset") (v := en) (by simp)
  rw [evalLet (impl_typed h2 (by simp [lookup]))]
  have h3 := h2.cons (x := "typed_enumset") (v := (typedTok hdr.name)) (by simp)
  rw [evalLet (impl_core h3)]
  have h4 := h3.cons (x := "core") (v := (DeriveRs.t3.quote [])) (by simp)
  rw [evalLet (impl_internal h4)]
  rfl

theorem impl_mid (hf : 2 ^ 26 ≤ fuel) (hh : 32 ≤ usizeBits) (hm' : info.max_discrim + 64 < 2 ^ usizeBits)
    (hv : ∀ v ∈ info.variants, v.variant_repr < 0xFFFFFFC0)
    (hn : lookup "name" env = some (nameTok hdr.name)) (ht : lookup "typed_enumset" env = some (typedTok hdr.name))
    (ss : List Stmt) (e : Exp) :
    evalStmts (macroCtx fuel "crate" (macroLink fuel (k + 1))) (implMid ++ ss) e env =
      evalStmts (macroCtx fuel "crate" (macroLink fuel (k + 1))) ss e (midEnv hdr info env) := by
  simp only [implMid, List.cons_append, List.nil_append]
  rw [evalLet (impl_repr hi hm')]
  have h6 := hi.cons (x := "repr") (v := (reprTok info.internal_repr)) (by simp)
  rw [evalLet (impl_variant_map h6 hf hh hv)]
  have h7 := h6.cons (x := "variant_map") (v := (words info.variant_map)) (by simp)
  rw [evalLet (impl_all_variants h7 hm' (by simp [lookup]))]
  have h8 := h7.cons (x := "all_variants") (v := (allTok info.variant_map info.internal_repr)) (by simp)
  rw [evalLet (impl_ops h8 (by simp [lookup, ht]) (by simp [lookup, hn]))]
  rfl

theorem impl_rest (ws : List (Span × String)) (hm' : info.max_discrim + 64 < 2 ^ usizeBits)
    (hm : info.max_discrim < 0xFFFFFFC0)
    (g0 : lookup "name" env = some (nameTok hdr.name))
    (g1 : lookup "repr" env = some (reprTok info.internal_repr))
    (g2 : lookup "all_variants" env = some (allTok info.variant_map info.internal_repr))
    (g6 : lookup "serde_ops" env = some (serdeTok hdr.name info))
    (g9 : lookup "ops" env = some (opsTok hdr.name info))
    (gw : lookup "warnings" env = some (encWarnings ws)) (e : Exp) :
    ∃ env', evalStmts (macroCtx fuel "crate" (macroLink fuel (k + 1))) implRest e env =
      .ok (.val (genTok hdr.name info ws) env') := by
  rw [implRest]
  rw [evalLet (impl_uninhabited hi)]
  have h11 := hi.cons (x := "is_uninhabited") (v := (.bool info.variants.isEmpty)) (by simp)
  rw [evalLet (impl_zst h11)]
  have h12 := h11.cons (x := "is_zst") (v := (.bool (info.variants.length == 1))) (by simp)
  rw [evalLet (impl_into h12 (by simp [lookup, g0]) (by simp [lookup]) (by simp [lookup]))]
  have h13 := h12.cons (x := "into_impl") (v := (intoTok hdr.name info)) (by simp)
  rw [evalLet (impl_eq h13 (by simp [lookup, g0]) (by simp [lookup]))]
  have h14 := h13.cons (x := "eq_impl") (v := (eqTok hdr.name info)) (by simp)
  rw [evalLet (impl_super h14 (by simp [lookup, g0]) (by simp [lookup]))]
  have h15 := h14.cons (x := "super_impls") (v := (superTok hdr.name info)) (by simp)
  rw [evalLet (impl_with_repr h15 (by simp [lookup, g0]) (by simp [lookup, g1]))]
  have h16 := h15.cons (x := "impl_with_repr") (v := (withReprTok hdr.name info)) (by simp)
  rw [evalLet (impl_inherent h16 hm' (by simp [lookup, g0]) (by simp [lookup, g1]) (by simp [lookup]))]
  have h17 := h16.cons (x := "inherent_impl_blocks") (v := (inherentTok hdr.name info)) (by simp)
  rw [evalLet (impl_warnings h17), evalStmts, impl_warnings_loop h17 ws (by simp [lookup, gw]), andThen_val]
  have h18 := h17.cons (x := "generated_warnings") (v := .host "TokenStream" (.stmts (warnStmts ws))) (by simp)
  rw [evalLet (impl_bit_width h18 (by omega))]
  have h19 := h18.cons (x := "bit_width") (v := .int .u32 (info.max_discrim + 1)) (by simp)
  rw [evalLet (impl_variant_count h19)]
  have h20 := h19.cons (x := "variant_count") (v := .int .u32 (castW 32 info.variants.length)) (by simp)
  obtain ⟨vi, hvi⟩ := impl_vis (fuel := fuel) (k := k + 1) h20
  rw [evalLet hvi]
  have h21 := h20.cons (x := "vis") (v := vi) (by simp)
  rw [evalStmts]
  exact ⟨_, impl_tail h21 ws (by simp [lookup, g0]) (by simp [lookup, g1]) (by simp [lookup, g2]) (by simp [lookup])
    (by simp [lookup]) (by simp [lookup]) (by simp [lookup, g6]) (by simp [lookup]) (by simp [lookup])
    (by simp [lookup, g9]) (by simp [lookup]) (by simp [lookup])⟩

omit hi in
theorem impl_stmts (hf : 2 ^ 26 ≤ fuel) (hh : 32 ≤ usizeBits) (ws : List (Span × String))
    (hm : info.max_discrim < 0xFFFFFFC0) (hv : ∀ v ∈ info.variants, v.variant_repr < 0xFFFFFFC0) (e : Exp) :
    ∃ env, evalStmts (macroCtx fuel "crate" (macroLink fuel (k + 1))) implFn.body e
      [("info", encInfo cr hdr info), ("warnings", encWarnings ws)] =
      (enumsetPath hostEnv cr).andThen fun _ => .ok (.val (genTok hdr.name info ws) env) := by
  have hu := Nat.pow_le_pow_right (show 0 < 2 by omega) hh
  have hm' : info.max_discrim + 64 < 2 ^ usizeBits := by omega
  have h0 : ImplEnv cr hdr info [("info", encInfo cr hdr info), ("warnings", encWarnings ws)] :=
    ⟨rfl, by simp [lookup]⟩
  have lift : ∀ {α : Type} {r : Res α} {x : Res (Out Code)} {g : Env Code → Res (Out Code)}, (∃ env, x = g env) →
      ∃ env, (r.andThen fun _ => x) = r.andThen fun _ => g env := fun ⟨env, h⟩ => ⟨env, by rw [h]⟩
  rw [impl_body]
  cases hs : (Platform.serde : Bool) with
  | false =>
    rw [implSerde, hs, if_neg (by simp), List.append_nil, List.append_assoc, List.append_assoc]
    obtain ⟨en, h⟩ := impl_head (fuel := fuel) (k := k + 1) h0
      (implMid ++ ([.let (.var "serde_ops") none (implRhs 9)] ++ implRest)) e
    rw [h, impl_mid (h0.head en) hf hh hm' hv (by simp [lookup, headEnv]) (by simp [lookup, headEnv]), List.singleton_append,
      evalLet (impl_serde (h0.head en).mid)]
    exact lift (impl_rest ((h0.head en).mid.cons (by simp)) ws hm' hm (by simp [lookup, headEnv, midEnv])
      (by simp [lookup, headEnv, midEnv]) (by simp [lookup, headEnv, midEnv]) (by simp [lookup, serdeTok, hs])
      (by simp [lookup, headEnv, midEnv]) (by simp [lookup, headEnv, midEnv]) e)
  | true =>
    rw [implSerde, hs, if_pos rfl, List.append_assoc, List.append_assoc, List.append_assoc]
    obtain ⟨en, h⟩ := impl_head (fuel := fuel) (k := k + 1) h0
      ([.let (.var "serde") none (serdeRhs 5)] ++ (implMid ++
      ([.let (.var "serde_repr") none (serdeRhs 10), .let (.var "serde_ops") none (serdeRhs 11)] ++ implRest))) e
    have h1 := (h0.head en).cons (x := "serde") (v := DeriveRs.s0.quote []) (by simp)
    have h2 := h1.mid.cons (x := "serde_repr") (v := encSerde info.serde_repr) (by simp)
    rw [h, List.singleton_append, evalLet (impl_serde_crate (h0.head en)),
      impl_mid h1 hf hh hm' hv (by simp [lookup, headEnv]) (by simp [lookup, headEnv]),
      List.cons_append, List.singleton_append, evalLet (impl_serde_repr h1.mid),
      evalLet (impl_serde_ops h2 (by simp [lookup, headEnv, midEnv]) (by simp [lookup, headEnv, midEnv])
        (by simp [lookup, headEnv, midEnv]) (by simp [lookup, headEnv, midEnv]))]
    exact lift (impl_rest (h2.cons (by simp)) ws hm' hm (by simp [lookup, headEnv, midEnv])
      (by simp [lookup, headEnv, midEnv]) (by simp [lookup, headEnv, midEnv]) (by simp [lookup, serdeTok, hs])
      (by simp [lookup, headEnv, midEnv]) (by simp [lookup, headEnv, midEnv]) e)

omit hi in
/-- Running the text of `enum_set_type_impl` (enumset_derive/src/lib.rs:320-971). -/
theorem C71_impl (hf : 2 ^ 26 ≤ fuel) (hh : 32 ≤ usizeBits) (ws : List (Span × String))
    (hm : info.max_discrim < 0xFFFFFFC0) (hv : ∀ v ∈ info.variants, v.variant_repr < 0xFFFFFFC0) :
    macroCall fuel (k + 2) "crate" "enum_set_type_impl" c cs [encInfo cr hdr info, encWarnings ws] =
      (enumsetPath hostEnv cr).andThen fun _ => .ok (genTok hdr.name info ws, []) := by
  rw [mcall_of (d := implFn) rfl]
  obtain ⟨env, he⟩ := impl_stmts (cr := cr) (hdr := hdr) (k := k) hf hh ws hm hv
    ((macroCtx fuel "crate" (macroLink fuel (k + 1))).exp (Ty.name "SynTokenStream" []))
  have hp : implFn.params = [("info", .name "EnumSetInfo" []), ("warnings", .name "Vec" [.tuple [.name "Span" [],
      .ref (.name "str" [])]])] := by unfold implFn; split <;> rfl
  have hr : implFn.ret = .name "SynTokenStream" [] := by unfold implFn; split <;> rfl
  have hg : implFn.gens = [] := by unfold implFn; split <;> rfl
  have hg' : implFn.implGens = [] := by unfold implFn; split <;> rfl
  simp only [mbound, FnDecl.fn, hp, hr, hg, hg', bindParams, bindGens, inferGens, need_some, Res.ok_bind, List.nil_append,
    List.append_nil, List.cons_append, Option.map, he]
  cases enumsetPath hostEnv cr <;> simp only [Res.andThen] <;> try rfl
  simp only [Res.ok_bind]
  rw [mutVals_none _ _ _ (by simp)]

omit hi in
/-- Everything accepted has discriminants that fit. -/
theorem deriveInfo_bounds {inp : DeriveInput} (h : deriveInfo inp = .ok info) :
    info.max_discrim < 0xFFFFFFC0 ∧ ∀ v ∈ info.variants, v.variant_repr < 0xFFFFFFC0 := by
  unfold deriveInfo at h
  split at h
  · simp at h
  split at h
  case isFalse => simp at h
  have hD : (checkReprAttrs 0 inp.reprAttrs >>= fun _ =>
      (match inp.attrs.repr with
        | some r => (EnumSetInfo.new inp.attrs).push_repr r
        | none => pure (EnumSetInfo.new inp.attrs)) >>= fun i =>
      (match inp.attrs.serialize_repr with
        | some r => i.push_serialize_repr r
        | none => pure i) >>= fun i =>
      let i := if inp.attrs.serialize_as_map then { i with explicit_serde_repr := some .map } else i
      let i := if inp.attrs.serialize_as_list then { i with explicit_serde_repr := some .list } else i
      inp.variants.foldlM EnumSetInfo.push_variant i >>= fun i =>
      i.validate >>= fun _ => pure i) = .ok info := by
    rw [← h]
    cases inp.attrs.repr <;> cases inp.attrs.serialize_repr <;> rfl
  clear h
  cases h1 : checkReprAttrs 0 inp.reprAttrs with
  | error e => rw [h1] at hD; cases hD
  | ok _ =>
  rw [h1, Except.ok_bind'] at hD
  cases h2 : (match inp.attrs.repr with
        | some r => (EnumSetInfo.new inp.attrs).push_repr r
        | none => pure (EnumSetInfo.new inp.attrs)) with
  | error e => rw [h2] at hD; cases hD
  | ok i1 =>
  rw [h2, Except.ok_bind'] at hD
  have f1 := fresh_repr _ (fresh_new _) h2
  cases h3 : (match inp.attrs.serialize_repr with
        | some r => i1.push_serialize_repr r
        | none => pure i1) with
  | error e => rw [h3] at hD; cases hD
  | ok i2 =>
  rw [h3, Except.ok_bind'] at hD
  have f2 := fresh_serialize _ f1 h3
  simp only at hD
  have f3 : Fresh (if inp.attrs.serialize_as_map = true then { i2 with explicit_serde_repr := some .map } else i2) := by
    split <;> exact ⟨f2.1, f2.2.1, f2.2.2⟩
  generalize (if inp.attrs.serialize_as_map = true then { i2 with explicit_serde_repr := some .map } else i2) = i3 at *
  have f4 : Fresh (if inp.attrs.serialize_as_list = true then { i3 with explicit_serde_repr := some .list } else i3) := by
    split <;> exact ⟨f3.1, f3.2.1, f3.2.2⟩
  generalize (if inp.attrs.serialize_as_list = true then { i3 with explicit_serde_repr := some .list } else i3) = i4 at *
  cases h5 : inp.variants.foldlM EnumSetInfo.push_variant i4 with
  | error e => rw [h5] at hD; cases hD
  | ok i5 =>
  rw [h5, Except.ok_bind'] at hD
  have ⟨f5, f6, _⟩ := push_variants_ok h5 (by rw [f4.2.1]; decide) (by rw [f4.1]; simp)
  cases h6 : i5.validate with
  | error e => rw [h6] at hD; cases hD
  | ok _ =>
  rw [h6, Except.ok_bind'] at hD
  cases hD
  exact ⟨f5, f6⟩

omit hi in
theorem infoCrateName_panic {a : EnumsetAttrs} {x : String} (hx : a.crate_name = some x) (h : Host.isIdent x = false) :
    infoCrateName hostEnv a = .panic (.explicit "not a valid identifier") := by
  simp only [infoCrateName, hx, MacroEnv.ident, hostEnv, h]
  rfl

omit hi in
/-- Running the text of `derive_enum_set_type_0` (enumset_derive/src/lib.rs:983-1061) on any item, with any
features: the diagnostic of the model, or the code `genTok`; unless one of the names of the crate `enumset`
is no identifier, when the macro panics. -/
theorem C71_total (hf : 2 ^ 26 ≤ fuel) (hh : 32 ≤ usizeBits) (inp : DeriveInput) (v : Val Code)
    (hin : SynInput inp hdr v) :
    macroCall fuel (k + 4) "crate" "derive_enum_set_type_0" c cs [v, encAttrs inp.attrs, encSpan .item] =
      (if inp.hasGenerics || !inp.isEnum then .ok none else infoCrateName hostEnv inp.attrs).andThen fun cr =>
      match deriveInfo inp with
      | .ok info => (enumsetPath hostEnv cr).andThen fun _ =>
          .ok (.ok (genTok hdr.name info (deriveWarnings Host.stdWarning inp.attrs)), [])
      | .error e => .ok (.err (encErr e), []) := by
  cases h1 : inp.hasGenerics
  case true =>
    rw [C71_generics (hin := hin) (h := h1)]
    simp [deriveInfo, h1, Res.andThen]
  cases h2 : inp.isEnum
  case false =>
    rw [C71_not_enum (hin := hin) (h := h1) (he := h2)]
    simp [deriveInfo, h1, h2, Res.andThen]
  simp only [Bool.not_true, Bool.or_self, Bool.false_eq_true, if_false]
  have run := fun hc => C71_run k c cs hdr hh inp v hin hc
    (fun info => (enumsetPath hostEnv inp.attrs.crate_name).andThen fun _ =>
      .ok (DeriveRs.t29.code.subst (DeriveRs.t29.holes.zip (genArgs hdr.name info (deriveWarnings Host.stdWarning inp.attrs)))))
    fun _ h _ _ => (C71_impl hf hh _ (deriveInfo_bounds h).1 (deriveInfo_bounds h).2).trans
      (by cases enumsetPath hostEnv inp.attrs.crate_name <;> rfl)
  cases hx : inp.attrs.crate_name with
  | none =>
    rw [run (by simp [hx]), hx]
    simp only [infoCrateName, hx, Res.andThen]
    cases deriveInfo inp with
    | error _ => rfl
    | ok _ => simp only; cases enumsetPath hostEnv none <;> rfl
  | some x =>
    cases h : (Host.isIdent x : Bool) with
    | false =>
      rw [C71_attr_panics k c cs hdr inp v hin h1 h2 x hx h, infoCrateName_panic hx h]
      rfl
    | true =>
      rw [run (by simp [hx, h])]
      simp only [infoCrateName, hx, MacroEnv.ident, hostEnv, h, Res.andThen, enumsetPath, if_true]
      cases deriveInfo inp <;> rfl

/-- The names by which the macro refers to the crate `enumset` are identifiers. -/
structure NamesOk (a : EnumsetAttrs) : Prop where
  /-- the attribute `crate_name` -/
  attr : ∀ x, a.crate_name = some x → Host.isIdent x = true
  /-- what `proc_macro_crate` finds -/
  found : a.crate_name = none → Host.procMacroCrate = true → ∀ s, Host.found = some (.name s) → Host.isIdent s = true

omit hi in
/-- With such names the macro does not panic. -/
theorem C71_derive (hf : 2 ^ 26 ≤ fuel) (hh : 32 ≤ usizeBits) (inp : DeriveInput) (v : Val Code)
    (hn : NamesOk inp.attrs) (hin : SynInput inp hdr v) :
    macroCall fuel (k + 4) "crate" "derive_enum_set_type_0" c cs [v, encAttrs inp.attrs, encSpan .item] =
      match deriveInfo inp with
      | .ok info => .ok (.ok (genTok hdr.name info (deriveWarnings Host.stdWarning inp.attrs)), [])
      | .error e => .ok (.err (encErr e), []) := by
  rw [C71_total hf hh inp v hin]
  have hp : ∀ cr, cr = inp.attrs.crate_name → ∃ s, enumsetPath hostEnv cr = .ok s := by
    rintro cr rfl
    unfold enumsetPath
    split
    · exact ⟨_, rfl⟩
    split
    · next h0 h1 =>
      split
      · next s h2 => exact ⟨s, by simp [MacroEnv.ident, hostEnv, hn.found h0 h1 s h2]⟩
      · exact ⟨_, rfl⟩
    · exact ⟨_, rfl⟩
  have hc : infoCrateName hostEnv inp.attrs = .ok inp.attrs.crate_name := by
    unfold infoCrateName
    cases h : inp.attrs.crate_name with
    | none => rfl
    | some x => simp only [MacroEnv.ident, hostEnv, hn.attr x h, if_true]; rfl
  obtain ⟨s, hs⟩ := hp _ rfl
  split
  · next h =>
    simp only [Res.andThen]
    cases hd : deriveInfo inp with
    | error _ => rfl
    | ok _ => revert h hd; unfold deriveInfo; cases inp.hasGenerics <;> cases inp.isEnum <;> simp
  · rw [hc]
    simp only [Res.andThen, hs]

omit hi in
/-- If the names are no identifiers, an accepted item makes the macro panic. -/
theorem C71_panics (hf : 2 ^ 26 ≤ fuel) (hh : 32 ≤ usizeBits) (inp : DeriveInput) (v : Val Code) {info : EnumSetInfo}
    (hn : ¬ NamesOk inp.attrs) (hin : SynInput inp hdr v) (hd : deriveInfo inp = .ok info) :
    macroCall fuel (k + 4) "crate" "derive_enum_set_type_0" c cs [v, encAttrs inp.attrs, encSpan .item] =
      .panic (.explicit "not a valid identifier") := by
  rw [C71_total hf hh inp v hin, hd]
  have hg : inp.hasGenerics = false ∧ inp.isEnum = true := by
    revert hd; unfold deriveInfo; cases inp.hasGenerics <;> cases inp.isEnum <;> simp
  simp only [hg.1, hg.2, Bool.not_true, Bool.or_self, Bool.false_eq_true, if_false]
  cases hx : inp.attrs.crate_name with
  | some x =>
    have h : Host.isIdent x = false := Bool.eq_false_iff.2 fun h => hn ⟨by simp [hx, h], by simp [hx]⟩
    rw [infoCrateName_panic hx h]
    rfl
  | none =>
    have e : enumsetPath hostEnv none = .panic (.explicit "not a valid identifier") := by
      have hp : hostEnv.procMacroCrate = true := eq_true_of_ne_false fun hp =>
        hn ⟨by simp [hx], fun _ h => by rw [show Host.procMacroCrate = false from hp] at h; cases h⟩
      simp only [enumsetPath, hp, if_true]
      rcases hf : hostEnv.found with _ | _ | s
      · exact absurd ⟨by simp [hx], fun _ _ s h => by rw [show Host.found = none from hf] at h; cases h⟩ hn
      · exact absurd ⟨by simp [hx], fun _ _ s h => by rw [show Host.found = some .itself from hf] at h; cases h⟩ hn
      · have h : hostEnv.isIdent s = false := Bool.eq_false_iff.2 fun h => hn ⟨by simp [hx], fun _ _ t ht => by
          rw [show Host.found = some (.name s) from hf] at ht; cases ht; exact h⟩
        simp [MacroEnv.ident, h]
    simp only [infoCrateName, hx, Res.andThen, e]

end

/-! ### concrete cases -/
namespace Ex
open scoped Enumset.Ex
open Enumset.Ex (inpT)

/-- A machine; the features other than `serde` are off. -/
scoped instance host64 : Host where
  toPlatform := Enumset.Ex.plat64
  isIdent s := s.toList.all fun c => c.isAlphanum || c == '_'
  isIdent_own := by decide +kernel
  stdWarning := false
  procMacroCrate := false
  found := none

/-- The same, with all features and `enum-set = { package = "enumset", … }` in the manifest; `proc_macro_crate`
makes `enum_set` of it.  `s` is the name it finds. -/
@[reducible] def hostAll (s : String) : Host := { host64 with
  stdWarning := true
  procMacroCrate := true
  found := some (.name s) }

theorem namesOff {H : Host} {a : EnumsetAttrs} (hp : H.procMacroCrate = false) (h : a.crate_name = none) :
    @NamesOk H a := ⟨by simp [h], by simp [hp]⟩

/-- What `syn` makes of a variant without `= e`. -/
def synUnit (i : Nat) (s : String) (d : Val Code) : Val Code :=
  .struct "Variant" [("ident", ident s), ("fields", .enum "Fields" "Unit" []), ("discriminant", d),
    ("span", encSpan (.variant i))]

/-- `enum T` -/
def hdrT : Header := ⟨"T", .unit⟩

/-- What `syn` makes of `#[non_exhaustive] enum T<gs> { A, B = 3, C }`; `darling` finds no attributes. -/
def synT (gs : List (Val Code)) : Val Code :=
  .struct "DeriveInput" [("attrs", .arr [synAttribute ["non_exhaustive"] .unit .unit]),
    ("vis", visibility .unit), ("ident", ident "T"),
    ("generics", .struct "Generics" [("params", .arr gs), ("span", encSpan .generics)]),
    ("data", .enum "Data" "Enum" [("0", .struct "DataEnum" [("variants", .arr
      [synUnit 0 "A" .none,
       synUnit 1 "B" (.some (.tup [.unit, .enum "Expr" "Lit" [("0", .struct "ExprLit" [("lit",
        .enum "Lit" "Int" [("0", .struct "LitInt" [("0", .lit 3)])])]),
        ("span", encSpan (.discriminant 1))]])),
       synUnit 2 "C" .none])])]),
    ("span", encSpan .item), ("from_derive_input", .ok (encAttrs {}))]

theorem synT_ok (gs : List (Val Code)) : SynInput { inpT with hasGenerics := !gs.isEmpty } hdrT (synT gs) :=
  .mk _ gs _ (.other 0 _ (by decide) _ _ _ _ (.nil 0)) rfl
    (.enum _ rfl (.cons 0 _ _ _ _ (.mk "Unit" _ _ rfl .none)
      (.cons 1 _ _ _ _ (.mk "Unit" _ _ rfl (.some _ _ (.lit 3)))
        (.cons 2 _ _ _ _ (.mk "Unit" _ _ rfl .none) (.nil 3))))) _

/-- What the macro has in `info` at the end for `enum T { A, B = 3, C }`. -/
def infoT : EnumSetInfo :=
  { variants := [⟨"A", 0⟩, ⟨"B", 3⟩, ⟨"C", 4⟩], max_discrim := 4, max_discrim_span := some (.variant 2),
    cur_discrim := 5, used_variant_names := ["C", "B", "A"], used_discriminants := [4, 3, 0],
    explicit_internal_repr := none, internal_repr_force_array := false, explicit_serde_repr := none,
    no_ops := false, no_super_impls := false, serialize_deny_unknown := false }

theorem infoT_ok : deriveInfo { inpT with hasGenerics := !(List.isEmpty (α := Val Code) []) } = .ok infoT := by
  rfl

/-- The macro accepts the enum and returns `genTok`. -/
example (fuel : Nat) (h : 2 ^ 26 ≤ fuel) :
    macroCall fuel 4 "crate" "derive_enum_set_type_0" [] [] [synT [], encAttrs {}, encSpan .item] =
      .ok (.ok (genTok "T" infoT []), []) :=
  (C71_derive (k := 0) h (by decide) _ _ (namesOff rfl rfl) (synT_ok [])).trans (by rw [infoT_ok]; rfl)

/-- With a type parameter the macro answers with an error. -/
example (fuel : Nat) (h : 2 ^ 26 ≤ fuel) :
    macroCall fuel 4 "crate" "derive_enum_set_type_0" [] [] [synT [.unit], encAttrs {}, encSpan .item] =
      .ok (.err (synError (encSpan .generics)
        (.str "`#[derive(EnumSetType)]` cannot be used on enums with type parameters.")), []) :=
  C71_derive (k := 0) h (by decide) _ _ (namesOff rfl rfl) (synT_ok [.unit])

end Ex
end Enumset.Src
