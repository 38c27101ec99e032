import Verif.Props.SrcMacroMap
/-!
# C71: `derive_enum_set_type_0`
-/
set_option autoImplicit false
set_option linter.unusedSectionVars false
set_option linter.unusedSimpArgs false

namespace Enumset.Src

/-- The warnings handed to `enum_set_type_impl`. -/
def encWarnings (ws : List (Span × String)) : Val Code :=
  .arr (ws.map fun w => .tup [encSpan w.1, .str w.2])

theorem mutVals_none {H : Type} (i : Nat) (ps : List (String × Ty)) (env : Env H)
    (h : ∀ p ∈ ps, ∀ t, p.2 ≠ .refMut t) : mutVals i ps env = [] := by
  induction ps generalizing i env with
  | nil => cases env <;> rfl
  | cons p ps ih =>
    obtain ⟨x, t⟩ := p
    have h1 := h (x, t) (by simp)
    cases env with
    | nil => cases t <;> rfl
    | cons v vs =>
      have := ih (i + 1) vs fun p hp => h p (by simp [hp])
      cases t <;> first | exact this | exact absurd rfl (h1 _)

section
variable [Host] {f : Val Code → Env Code → Res (Out Code)} {K : Val Code → Env Code → Res (Out Code)}
variable {γ : Type} {fin : Out Code → Res γ} {r : Res γ}

/-- `#[repr(…)]` attributes that are accepted -/
def okReprs : List String := ["C", "Rust", "u8", "u16", "u32", "u64", "u128", "usize",
        "i8", "i16", "i32", "i64", "i128", "isize"]

/-- The loop over the attributes. -/
theorem attrs_sim {i : Nat} {rs : List (Option String)} {ws : List (Val Code)} (h : SynAttrs i rs ws)
    {env : Env Code}
    (hgood : ∀ i s, s ∈ okReprs →
      f (synAttribute ["repr"] (.ok (ident s)) (encSpan (.reprAttr i))) env = .ok (.val .unit env))
    (herr : ∀ i s, s ∉ okReprs →
      f (synAttribute ["repr"] (.ok (ident s)) (encSpan (.reprAttr i))) env =
        .ok (.ret (.err (encErr (.msg (.reprAttr i) s!"`#[repr({s})]` cannot be used on enumset variants."))) env))
    (hbad : ∀ i, f (synAttribute ["repr"] (.err (parseError i)) (encSpan (.reprAttr i))) env =
        .ok (.ret (.err (parseError i)) env))
    (hother : ∀ path arg sp, path ≠ ["repr"] → f (synAttribute path arg sp) env = .ok (.val .unit env))
    (hok : checkReprAttrs i rs = .ok () → K .unit env >>= fin = r)
    (her : ∀ e, checkReprAttrs i rs = .error e → fin (.ret (.err (encErr e)) env) = r) :
    Out.andThen (forItems f ws env) K >>= fin = r := by
  induction h with
  | nil i => exact hok rfl
  | repr i s rs ws hs ih =>
    by_cases h : s ∈ okReprs
    · simp only [forItems, hgood i s h, Res.ok_bind]
      have : checkReprAttrs i (some s :: rs) = checkReprAttrs (i + 1) rs := by
        rw [checkReprAttrs, if_pos (by simpa [okReprs] using h)]
      rw [this] at hok her
      exact ih hok her
    · simp only [forItems, herr i s h, Res.ok_bind]
      refine her _ ?_
      rw [checkReprAttrs, if_neg (by simpa [okReprs] using h)]
  | bad i rs ws hs ih =>
    simp only [forItems, hbad i, Res.ok_bind]
    exact her (.parse i) rfl
  | other i path hp arg sp rs ws hs ih =>
    simp only [forItems, hother _ _ _ hp, Res.ok_bind]
    exact ih hok her

theorem push_variant_ok {info info' : EnumSetInfo} {v : Variant} (h : info.push_variant v = .ok info') :
    info'.variants.length = info.variants.length + 1 ∧
    info'.explicit_internal_repr = info.explicit_internal_repr ∧
    (info.max_discrim < 0xFFFFFFC0 → info'.max_discrim < 0xFFFFFFC0) ∧
    ((∀ v ∈ info.variants, v.variant_repr < 0xFFFFFFC0) → ∀ v ∈ info'.variants, v.variant_repr < 0xFFFFFFC0) := by
  rw [model_push_variant] at h
  split at h
  · cases h
  split at h
  · cases h
  split at h
  · cases h
  split at h
  · cases h
  split at h
  · cases h
  split at h <;> cases h <;> refine ⟨by simp, rfl, by simp; try omega, ?_⟩
  all_goals
    intro hv w hw
    simp only [List.mem_append, List.mem_singleton] at hw
    rcases hw with hw | rfl
    · exact hv w hw
    · simp; omega

/-- The loop over the variants. -/
theorem variants_sim {i : Nat} {vs : List Variant} {ws : List (Val Code)} (h : SynVariants i vs ws)
    (enc : EnumSetInfo → Env Code) {env : Env Code} {info : EnumSetInfo} (he : env = enc info)
    (hi : info.variants.length = i)
    (hf : ∀ (info : EnumSetInfo) v w, SynVariant info.variants.length v w →
      match info.push_variant v with
      | .ok info' => f w (enc info) = .ok (.val .unit (enc info'))
      | .error e => ∃ env', f w (enc info) = .ok (.ret (.err (encErr e)) env'))
    (hok : ∀ info', vs.foldlM EnumSetInfo.push_variant info = .ok info' → K .unit (enc info') >>= fin = r)
    (her : ∀ e env', vs.foldlM EnumSetInfo.push_variant info = .error e → fin (.ret (.err (encErr e)) env') = r) :
    Out.andThen (forItems f ws env) K >>= fin = r := by
  subst he
  induction h generalizing info with
  | nil i => exact hok info rfl
  | cons i v vs w ws hv hvs ih =>
    have h1 := hf info v w (hi ▸ hv)
    simp only [forItems]
    cases hp : info.push_variant v with
    | ok info' =>
      rw [hp] at h1
      simp only [h1, Res.ok_bind]
      refine ih (by rw [(push_variant_ok hp).1, hi]) (fun i' hi' => hok i' ?_) (fun e env' he => her e env' ?_)
      · simp only [List.foldlM, hp]; exact hi'
      · simp only [List.foldlM, hp]; exact he
    | error e =>
      rw [hp] at h1
      obtain ⟨env', h1⟩ := h1
      simp only [h1, Res.ok_bind]
      exact her e env' (by simp only [List.foldlM, hp]; rfl)
end

/-! ### `EnumsetAttrs` -/

section
variable {a : EnumsetAttrs}
theorem tag_attrs : (encAttrs a).tag = "EnumsetAttrs" := rfl
theorem exp_attrs : (encAttrs a).exp = .any := rfl
theorem adopt_attrs (e : Exp) : e.adopt (encAttrs a) = encAttrs a := by cases e <;> rfl
theorem get_a_repr : (Proj.field "repr").get (encAttrs a) = .ok (spanned (opt .str a.repr) .repr) := rfl
theorem get_a_serialize_repr : (Proj.field "serialize_repr").get (encAttrs a) =
    .ok (spanned (opt .str a.serialize_repr) .serializeRepr) := rfl
theorem get_a_map : (Proj.field "serialize_as_map").get (encAttrs a) =
    .ok (spanned (.bool a.serialize_as_map) .serializeAsMap) := rfl
theorem get_a_list : (Proj.field "serialize_as_list").get (encAttrs a) =
    .ok (spanned (.bool a.serialize_as_list) .serializeAsList) := rfl
end

section
variable [Host] {fuel : Nat} (k : Nat) (c : Env Code) (cs : List (Val Code))
variable (hdr : Header)

theorem deriveFn_cases : deriveFn = DeriveRs.crate_derive_enum_set_type_0 ∨
    deriveFn = DeriveRs.crate_derive_enum_set_type_0_std := by
  unfold deriveFn; split <;> simp

theorem C71_generics (inp : DeriveInput) (v sp : Val Code) (hin : SynInput inp hdr v) (h : inp.hasGenerics = true) :
    macroCall fuel (k + 4) "crate" "derive_enum_set_type_0" c cs [v, encAttrs inp.attrs, sp] =
      .ok (.err (encErr (.msg .generics "`#[derive(EnumSetType)]` cannot be used on enums with type parameters.")), []) := by
  rw [mcall_of (d := deriveFn) rfl]
  obtain ⟨as, gs, d, ha, hg, hd, dl⟩ := hin
  have hg : gs.isEmpty = false := by simpa [h] using hg.symm
  rcases deriveFn_cases with hf | hf <;> rw [hf]
  · mrun [DeriveRs.crate_derive_enum_set_type_0, hg, C70_crate_error, encErr]
  · mrun [DeriveRs.crate_derive_enum_set_type_0_std, hg, C70_crate_error, encErr]

theorem C71_not_enum (inp : DeriveInput) (v sp : Val Code) (hin : SynInput inp hdr v)
    (h : inp.hasGenerics = false) (he : inp.isEnum = false) :
    macroCall fuel (k + 4) "crate" "derive_enum_set_type_0" c cs [v, encAttrs inp.attrs, sp] =
      .ok (.err (encErr (.msg .item "`#[derive(EnumSetType)]` may only be used on enums")), []) := by
  rw [mcall_of (d := deriveFn) rfl]
  obtain ⟨as, gs, d, ha, hg, hd, dl⟩ := hin
  have hg : gs.isEmpty = true := by simpa [h] using hg.symm
  cases hd with
  | enum _ h => simp [h] at he
  | other cc fs hc =>
    rcases deriveFn_cases with hf | hf <;> rw [hf]
    · mrun [DeriveRs.crate_derive_enum_set_type_0, hg, C70_crate_error, encErr, hc, Ne.symm hc]
    · mrun [DeriveRs.crate_derive_enum_set_type_0_std, hg, C70_crate_error, encErr, hc, Ne.symm hc]

/-- The statements for an enum. -/
def deriveBlock : List Stmt :=
  match DeriveRs.crate_derive_enum_set_type_0.body with
  | [.tail (.ite _ _ (.match _ (.mk _ _ (.block ss) :: _)))] => ss
  | _ => []

/-- The statement for the feature `std_deprecation_warning`. -/
def stdStmt : Stmt :=
  match DeriveRs.crate_derive_enum_set_type_0_std.body with
  | [.tail (.ite _ _ (.match _ (.mk _ _ (.block ss) :: _)))] => ss.getD 7 (.semi .brk)
  | _ => .semi .brk

/-- The statements for an enum, with the features of the build. -/
def deriveStmts : List Stmt :=
  deriveBlock.take 7 ++ ((if Host.stdWarning then [stdStmt] else []) ++ deriveBlock.drop 7)

theorem deriveFn_eq : deriveFn = { DeriveRs.crate_derive_enum_set_type_0 with
    body := [.tail (.ite (.un .not (.mcall (.field (.field (.var "input") "generics") "params") "is_empty" [] []))
        (.block [.tail (.pcall "crate" "error" [] [.mcall (.field (.var "input") "generics") "span" [] [],
          .str "`#[derive(EnumSetType)]` cannot be used on enums with type parameters."])])
        (.match (.un .ref (.field (.var "input") "data"))
          [.mk (.variant "Data" "Enum" ["0"] [.var "data"]) (.bool true) (.block deriveStmts),
           .mk .wild (.bool true) (.block [.tail (.pcall "crate" "error" [] [.mcall (.var "input") "span" [] [],
            .str "`#[derive(EnumSetType)]` may only be used on enums"])])]))] } := by
  unfold deriveFn deriveStmts
  cases (Host.stdWarning : Bool) <;> rfl

section steps
variable {e : Exp} {γ : Type} {fin : Out Code → Res γ} {r : Res γ} {rest : List Stmt}
variable {cr : Option String} {info : EnumSetInfo} {ws : List (Span × String)} {a : EnumsetAttrs} {D I sp : Val Code}
variable {hdr}

/-- The variables of the function. -/
def deriveEnv (cr : Option String) (hdr : Header) (a : EnumsetAttrs) (D I sp : Val Code)
    (info : EnumSetInfo) (ws : List (Span × String)) : Env Code :=
  [("warnings", encWarnings ws), ("info", encInfo cr hdr info), ("data", D), ("input", I),
   ("attrs", encAttrs a), ("_input_span", sp)]

theorem m_span_synAttribute (p : List String) (arg sp : Val Code) :
    macroCall fuel k "Attribute" "span" c cs [synAttribute p arg sp] = .ok (sp, []) :=
  m_span_attribute _

theorem step_repr
    (hok : ∀ i, (match a.repr with | some r => info.push_repr r | none => pure info) = .ok i →
      evalStmts (macroCtx fuel "crate" (macroLink fuel (k + 3))) rest e (deriveEnv cr hdr a D I sp i ws) >>= fin = r)
    (her : ∀ err env', (match a.repr with | some r => info.push_repr r | none => pure info) = .error err →
      fin (.ret (.err (encErr err)) env') = r) :
    evalStmts (macroCtx fuel "crate" (macroLink fuel (k + 3))) (deriveBlock[3] :: rest) e
      (deriveEnv cr hdr a D I sp info ws) >>= fin = r := by
  have h := fun c ty => C70_push_repr (fuel := fuel) (k + 1) c [] cr hdr info ty
  simp only [deriveEnv] at *
  cases ha : a.repr with
  | none =>
    mrun [deriveBlock, DeriveRs.crate_derive_enum_set_type_0, tag_attrs, exp_attrs, adopt_attrs, get_a_repr, ha]
    exact hok _ (by rw [ha]; rfl)
  | some x =>
    have h := fun c => h c x
    rw [ha] at hok her
    simp only [] at hok her
    cases hp : info.push_repr x with
    | ok i =>
      simp only [hp, Pushed] at h
      mrun [deriveBlock, DeriveRs.crate_derive_enum_set_type_0, tag_attrs, exp_attrs, adopt_attrs, get_a_repr, ha, h]
      exact hok _ hp
    | error err =>
      simp only [hp, Pushed] at h
      obtain ⟨w, h⟩ := h _
      mrun [deriveBlock, DeriveRs.crate_derive_enum_set_type_0, tag_attrs, exp_attrs, adopt_attrs, get_a_repr, ha]
      rw [h]
      mrun []
      exact her _ _ hp

theorem step_serialize
    (hok : ∀ i, (match a.serialize_repr with | some r => info.push_serialize_repr r | none => pure info) = .ok i →
      evalStmts (macroCtx fuel "crate" (macroLink fuel (k + 3))) rest e (deriveEnv cr hdr a D I sp i ws) >>= fin = r)
    (her : ∀ err env', (match a.serialize_repr with
        | some r => info.push_serialize_repr r | none => pure info) = .error err →
      fin (.ret (.err (encErr err)) env') = r) :
    evalStmts (macroCtx fuel "crate" (macroLink fuel (k + 3))) (deriveBlock[4] :: rest) e
      (deriveEnv cr hdr a D I sp info ws) >>= fin = r := by
  have h := fun c ty => C70_push_serialize_repr (fuel := fuel) (k + 1) c [] cr hdr info ty
  simp only [deriveEnv] at *
  cases ha : a.serialize_repr with
  | none =>
    mrun [deriveBlock, DeriveRs.crate_derive_enum_set_type_0, tag_attrs, exp_attrs, adopt_attrs,
      get_a_serialize_repr, ha]
    exact hok _ (by rw [ha]; rfl)
  | some x =>
    have h := fun c => h c x
    rw [ha] at hok her
    simp only [] at hok her
    cases hp : info.push_serialize_repr x with
    | ok i =>
      simp only [hp, Pushed] at h
      mrun [deriveBlock, DeriveRs.crate_derive_enum_set_type_0, tag_attrs, exp_attrs, adopt_attrs,
        get_a_serialize_repr, ha, h]
      exact hok _ hp
    | error err =>
      simp only [hp, Pushed] at h
      obtain ⟨w, h⟩ := h _
      mrun [deriveBlock, DeriveRs.crate_derive_enum_set_type_0, tag_attrs, exp_attrs, adopt_attrs,
        get_a_serialize_repr, ha]
      rw [h]
      mrun []
      exact her _ _ hp

theorem push_warning (ws : List (Span × String)) (sp : Span) (m : String) :
    macroCall fuel k "array" "push" c cs [encWarnings ws, .tup [encSpan sp, .str m]] =
      .ok (.unit, [(0, encWarnings (ws ++ [(sp, m)]))]) := by
  rw [encWarnings, m_push_tup]
  simp [encWarnings]
theorem tag_warnings : (encWarnings ws).tag = "array" := rfl
theorem adopt_warnings {x : Exp} : x.adopt (encWarnings ws) = encWarnings ws := by
  cases x <;> rfl

theorem adopt_warnings' {v : Val Code} {ws' : List (Span × String)} (h : v = encWarnings ws) :
    v.exp.adopt (encWarnings ws') = encWarnings ws' := by
  subst h
  cases ws with
  | nil => cases ws' <;> simp [encWarnings, Val.exp, Exp.adopt]
  | cons w ws => simp [encWarnings, Val.exp, Exp.adopt]

theorem step_map :
    evalStmts (macroCtx fuel "crate" (macroLink fuel (k + 3))) (deriveBlock[5] :: rest) e
      (deriveEnv cr hdr a D I sp info ws) =
    evalStmts (macroCtx fuel "crate" (macroLink fuel (k + 3))) rest e
      (deriveEnv cr hdr a D I sp
        (if a.serialize_as_map then { info with explicit_serde_repr := some .map } else info)
        (if a.serialize_as_map then ws ++ [(.serializeAsMap, "#[enumset(serialize_as_map)] is deprecated. \
      Use `#[enumset(serialize_repr = \"map\")]` instead.")] else ws)) := by
  simp only [deriveEnv]
  cases ha : a.serialize_as_map <;>
  mrun [deriveBlock, DeriveRs.crate_derive_enum_set_type_0, tag_attrs, exp_attrs, adopt_attrs, get_a_map, ha,
    push_warning, tag_warnings, adopt_warnings]

theorem step_list :
    evalStmts (macroCtx fuel "crate" (macroLink fuel (k + 3))) (deriveBlock[6] :: rest) e
      (deriveEnv cr hdr a D I sp info ws) =
    evalStmts (macroCtx fuel "crate" (macroLink fuel (k + 3))) rest e
      (deriveEnv cr hdr a D I sp
        (if a.serialize_as_list then { info with explicit_serde_repr := some .list } else info)
        (if a.serialize_as_list then ws ++ [(.serializeAsList, "#[enumset(serialize_as_list)] is deprecated. \
      Use `#[enumset(serialize_repr = \"list\")]` instead.")] else ws)) := by
  simp only [deriveEnv]
  cases ha : a.serialize_as_list <;>
  mrun [deriveBlock, DeriveRs.crate_derive_enum_set_type_0, tag_attrs, exp_attrs, adopt_attrs, get_a_list, ha,
    push_warning, tag_warnings, adopt_warnings]

theorem step_std (hsp : sp = encSpan .item) :
    evalStmts (macroCtx fuel "crate" (macroLink fuel (k + 3))) ((if Host.stdWarning then [stdStmt] else []) ++ rest) e
      (deriveEnv cr hdr a D I sp info ws) =
    evalStmts (macroCtx fuel "crate" (macroLink fuel (k + 3))) rest e
      (deriveEnv cr hdr a D I sp info
        (if Host.stdWarning then ws ++ [(.item, "feature = \"std\" is depercated. If you rename `enumset`, use \
      feature = \"proc-macro-crate\" instead. If you don't, remove the feature.")] else ws)) := by
  simp only [deriveEnv]
  subst hsp
  cases (Host.stdWarning : Bool) with
  | false => rfl
  | true =>
    rw [if_pos rfl, List.singleton_append]
    mrun [stdStmt, DeriveRs.crate_derive_enum_set_type_0_std, push_warning, tag_warnings, adopt_warnings]

theorem step_variants {vs : List Variant} {xs : List (Val Code)} (h : SynVariants 0 vs xs)
    (hi : info.variants = [])
    (hok : ∀ i, vs.foldlM EnumSetInfo.push_variant info = .ok i →
      evalStmts (macroCtx fuel "crate" (macroLink fuel (k + 3))) rest e
        (deriveEnv cr hdr a (.struct "DataEnum" [("variants", .arr xs)]) I sp i ws) >>= fin = r)
    (her : ∀ err env', vs.foldlM EnumSetInfo.push_variant info = .error err →
      fin (.ret (.err (encErr err)) env') = r) :
    evalStmts (macroCtx fuel "crate" (macroLink fuel (k + 3))) (deriveBlock[7] :: rest) e
      (deriveEnv cr hdr a (.struct "DataEnum" [("variants", .arr xs)]) I sp info ws) >>= fin = r := by
  mrun [deriveBlock, DeriveRs.crate_derive_enum_set_type_0, deriveEnv, iterate]
  refine variants_sim h (fun i => deriveEnv cr hdr a (.struct "DataEnum" [("variants", .arr xs)]) I sp i ws) rfl
    (by simp [hi]) ?_ hok her
  intro i v w hw
  have hp := fun c => C70_push_variant (fuel := fuel) (k + 1) c [] cr hdr i v w hw
  have tw : w.tag = "Variant" := by cases hw; rfl
  cases hm : i.push_variant v with
  | ok i' =>
    simp only [hm, Pushed] at hp ⊢
    mrun [deriveEnv, hp]
  | error err =>
    simp only [hm, Pushed] at hp ⊢
    mrun [deriveEnv]
    obtain ⟨w, hp⟩ := hp _
    rw [hp]
    mrun []

theorem step_validate (hh : 32 ≤ usizeBits) (h : info.max_discrim < 0xFFFFFFC0)
    (ha : ∀ n, info.explicit_internal_repr ≠ some (.array n))
    (hok : info.validate = .ok () →
      evalStmts (macroCtx fuel "crate" (macroLink fuel (k + 3))) rest e (deriveEnv cr hdr a D I sp info ws) >>= fin = r)
    (her : ∀ err env', info.validate = .error err → fin (.ret (.err (encErr err)) env') = r) :
    evalStmts (macroCtx fuel "crate" (macroLink fuel (k + 3))) (deriveBlock[8] :: rest) e
      (deriveEnv cr hdr a D I sp info ws) >>= fin = r := by
  have hp := fun c => C70_validate (fuel := fuel) (k + 1) c [] cr hdr info hh h ha
  simp only [deriveEnv] at *
  cases hm : info.validate with
  | ok x =>
    simp only [hm] at hp
    mrun [deriveBlock, DeriveRs.crate_derive_enum_set_type_0, hp]
    exact hok hm
  | error err =>
    simp only [hm] at hp
    mrun [deriveBlock, DeriveRs.crate_derive_enum_set_type_0, hp]
    exact her _ _ hm

theorem step_end {g : Res Code} (hg : ∀ c cs, macroCall fuel (k + 3) "crate" "enum_set_type_impl" c cs
      [encInfo cr hdr info, encWarnings ws] = g >>= fun t => .ok (.host "TokenStream" t, [])) :
    evalStmts (macroCtx fuel "crate" (macroLink fuel (k + 3))) (deriveBlock[9] :: rest) e
      (deriveEnv cr hdr a D I sp info ws) =
      g >>= fun t => .ok (.val (.ok (.host "TokenStream" t)) (deriveEnv cr hdr a D I sp info ws)) := by
  simp only [deriveEnv]
  cases g <;>
  mrun [deriveBlock, DeriveRs.crate_derive_enum_set_type_0, hg, adopt_warnings]
  rfl

theorem step_attrs {as : List (Val Code)} {rs : List (Option String)} (h : SynAttrs 0 rs as) {fs}
    (hI : I = .struct "DeriveInput" (("attrs", .arr as) :: fs))
    (hnew : ∀ c cs, macroCall fuel (k + 3) "EnumSetInfo" "new" c cs [I, encAttrs a] = .ok (encInfo cr hdr info, []))
    (hok : checkReprAttrs 0 rs = .ok () →
      evalStmts (macroCtx fuel "crate" (macroLink fuel (k + 3))) rest e (deriveEnv cr hdr a D I sp info []) >>= fin = r)
    (her : ∀ err env', checkReprAttrs 0 rs = .error err → fin (.ret (.err (encErr err)) env') = r) :
    evalStmts (macroCtx fuel "crate" (macroLink fuel (k + 3)))
      (deriveBlock[0] :: deriveBlock[1] :: deriveBlock[2] :: rest) e
      [("data", D), ("input", I), ("attrs", encAttrs a), ("_input_span", sp)] >>= fin = r := by
  have hn : ∀ e : Exp, e.adopt I = I := by subst hI; intro e; cases e <;> rfl
  have hx : I.exp = .any := by subst hI; rfl
  have hgt : (Proj.field "attrs").get I = .ok (.arr as) := by subst hI; rfl
  mrun [deriveBlock, DeriveRs.crate_derive_enum_set_type_0, iterate, hnew, hx, hgt, tag_attrs, exp_attrs, adopt_attrs]
  refine attrs_sim h ?_ ?_ ?_ ?_ hok (fun e => her e _)
  · intro i s hs
    simp only [okReprs, List.mem_cons, List.not_mem_nil, or_false] at hs
    rcases hs with rfl | rfl | rfl | rfl | rfl | rfl | rfl | rfl | rfl | rfl | rfl | rfl | rfl | rfl <;>
      mrun []
  · intro i s hs
    simp only [okReprs, List.mem_cons, List.not_mem_nil, or_false, not_or, @eq_comm _ s] at hs
    mrun [hs, C70_crate_error, encErr, m_span_synAttribute]
    simp [toString, String.append_assoc]
  · intro i
    mrun []
  · intro path arg sp hp
    mrun [hp]
end steps

theorem Except.ok_bind' {ε α β : Type} (x : α) (f : α → Except ε β) : (Except.ok x >>= f) = f x := rfl
theorem Except.error_bind' {ε α β : Type} (x : ε) (f : α → Except ε β) : (Except.error x >>= f) = .error x := rfl

/-- What `info` is like before the variants: nothing but the attributes has been looked at. -/
def Fresh (info : EnumSetInfo) : Prop :=
  info.variants = [] ∧ info.max_discrim = 0 ∧ ∀ n, info.explicit_internal_repr ≠ some (.array n)

omit [Host] in
theorem fresh_new (a : EnumsetAttrs) : Fresh (EnumSetInfo.new a) := ⟨rfl, rfl, by simp [EnumSetInfo.new]⟩
omit [Host] in
theorem fresh_repr {info i : EnumSetInfo} (o : Option String) (h : Fresh info)
    (hi : (match o with | some r => info.push_repr r | none => pure info) = .ok i) : Fresh i := by
  cases o with
  | none => cases hi; exact h
  | some x =>
    simp only [EnumSetInfo.push_repr] at hi
    split at hi <;> cases hi <;> exact ⟨h.1, h.2.1, by simp [h.2.2]⟩
omit [Host] in
theorem fresh_serialize {info i : EnumSetInfo} (o : Option String) (h : Fresh info)
    (hi : (match o with | some r => info.push_serialize_repr r | none => pure info) = .ok i) : Fresh i := by
  cases o with
  | none => cases hi; exact h
  | some x =>
    simp only [EnumSetInfo.push_serialize_repr] at hi
    split at hi <;> cases hi <;> exact ⟨h.1, h.2.1, h.2.2⟩

theorem push_variants_ok {vs : List Variant} {info i : EnumSetInfo}
    (h : vs.foldlM EnumSetInfo.push_variant info = .ok i)
    (hm : info.max_discrim < 0xFFFFFFC0) (hv : ∀ v ∈ info.variants, v.variant_repr < 0xFFFFFFC0) :
    i.max_discrim < 0xFFFFFFC0 ∧ (∀ v ∈ i.variants, v.variant_repr < 0xFFFFFFC0) ∧
    i.explicit_internal_repr = info.explicit_internal_repr := by
  induction vs generalizing info with
  | nil => cases h; exact ⟨hm, hv, rfl⟩
  | cons v vs ih =>
    simp only [List.foldlM] at h
    cases hp : info.push_variant v with
    | error e => rw [hp] at h; cases h
    | ok i' =>
      rw [hp] at h
      have ⟨_, h2, h3, h4⟩ := push_variant_ok hp
      have ⟨a, b, c⟩ := ih h (h3 hm) (h4 hv)
      exact ⟨a, b, c.trans h2⟩

/-- `derive_enum_set_type_0`: if the model reports an error, the text returns this error; otherwise it
hands the `EnumSetInfo` and the warnings of the model to `enum_set_type_impl`. -/
theorem C71_run (hh : 32 ≤ usizeBits) (inp : DeriveInput) (v : Val Code) (hin : SynInput inp hdr v)
    (hc : ∀ x, inp.attrs.crate_name = some x → Host.isIdent x = true) (g : EnumSetInfo → Res Code)
    (hg : ∀ info, deriveInfo inp = .ok info → ∀ c cs,
      macroCall fuel (k + 3) "crate" "enum_set_type_impl" c cs
        [encInfo inp.attrs.crate_name hdr info, encWarnings (deriveWarnings Host.stdWarning inp.attrs)] =
        g info >>= fun t => .ok (.host "TokenStream" t, [])) :
    macroCall fuel (k + 4) "crate" "derive_enum_set_type_0" c cs [v, encAttrs inp.attrs, encSpan .item] =
      match deriveInfo inp with
      | .ok info => g info >>= fun t => .ok (.ok (.host "TokenStream" t), [])
      | .error e => .ok (.err (encErr e), []) := by
  cases h1 : inp.hasGenerics
  case true =>
    rw [C71_generics (hin := hin) (h := h1)]
    simp [deriveInfo, h1]
  cases h2 : inp.isEnum
  case false =>
    rw [C71_not_enum (hin := hin) (h := h1) (he := h2)]
    simp [deriveInfo, h1, h2]
  have hnew := fun c cs => C70_new (fuel := fuel) (k + 2) (c := c) (cs := cs) hdr inp v hin inp.attrs hc
  rw [mcall_of (d := deriveFn) rfl, deriveFn_eq]
  obtain ⟨as, gs, d, ha, hgs, hd, dl⟩ := hin
  have hgs : gs.isEmpty = true := by simpa [h1] using hgs.symm
  cases hd with
  | other _ _ _ h => simp [h] at h2
  | enum vs h hs =>
  simp only [mbound, FnDecl.fn]
  mrun [DeriveRs.crate_derive_enum_set_type_0, hgs, adopt_attrs]
  have hmv : ∀ env : Env Code, mutVals 0 [("input", Ty.name "DeriveInput" []), ("attrs", Ty.name "EnumsetAttrs" []),
      ("_input_span", Ty.name "Span" [])] env = [] := fun env => mutVals_none _ _ _ (by simp)
  have hbl : deriveStmts = deriveBlock[0] :: deriveBlock[1] :: deriveBlock[2] :: deriveBlock[3] ::
    deriveBlock[4] :: deriveBlock[5] :: deriveBlock[6] :: ((if Host.stdWarning then [stdStmt] else []) ++
      (deriveBlock[7] :: deriveBlock[8] :: deriveBlock[9] :: [])) := rfl
  simp only [hmv, Out.restore, bind_assoc]
  have hD : deriveInfo inp = (checkReprAttrs 0 inp.reprAttrs >>= fun _ =>
      (match inp.attrs.repr with
        | some r => (EnumSetInfo.new inp.attrs).push_repr r
        | none => pure (EnumSetInfo.new inp.attrs)) >>= fun i =>
      (match inp.attrs.serialize_repr with
        | some r => i.push_serialize_repr r
        | none => pure i) >>= fun i =>
      let i := if inp.attrs.serialize_as_map then { i with explicit_serde_repr := some .map } else i
      let i := if inp.attrs.serialize_as_list then { i with explicit_serde_repr := some .list } else i
      inp.variants.foldlM EnumSetInfo.push_variant i >>= fun i =>
      i.validate >>= fun _ => pure i) := by
    unfold deriveInfo
    rw [if_neg (by simp [h1]), if_pos h2]
    cases inp.attrs.repr <;> cases inp.attrs.serialize_repr <;> rfl
  rw [hbl]
  refine step_attrs k ha rfl hnew ?_ ?_
  case refine_2 =>
    intro e env' he
    rw [hD, he]
    rfl
  intro hok1
  rw [hok1] at hD
  refine step_repr k ?_ ?_
  case refine_2 =>
    intro e env' he
    rw [hD, he]
    rfl
  intro i1 hi1
  rw [hi1] at hD
  have f1 := fresh_repr _ (fresh_new _) hi1
  refine step_serialize k ?_ ?_
  case refine_2 =>
    intro e env' he
    simp only [hD, Except.ok_bind', he]
    rfl
  intro i2 hi2
  have f2 := fresh_serialize _ f1 hi2
  rw [step_map, step_list, step_std k rfl]
  simp only [Except.ok_bind', hi2] at hD
  have hw : (if Host.stdWarning = true then (if inp.attrs.serialize_as_list = true then _ ++ [(Span.serializeAsList, _)]
      else _) ++ [(Span.item, _)] else _) = deriveWarnings Host.stdWarning inp.attrs := rfl
  rw [hw]
  have f3 : Fresh (if inp.attrs.serialize_as_map = true then { i2 with explicit_serde_repr := some .map } else i2) := by
    split <;> exact ⟨f2.1, f2.2.1, f2.2.2⟩
  generalize (if inp.attrs.serialize_as_map = true then { i2 with explicit_serde_repr := some .map } else i2) = i3 at *
  have f4 : Fresh (if inp.attrs.serialize_as_list = true then { i3 with explicit_serde_repr := some .list } else i3) := by
    split <;> exact ⟨f3.1, f3.2.1, f3.2.2⟩
  generalize (if inp.attrs.serialize_as_list = true then { i3 with explicit_serde_repr := some .list } else i3) = i4 at *
  refine step_variants k hs f4.1 ?_ ?_
  case refine_2 =>
    intro e env' he
    rw [hD, he]
    rfl
  intro i5 hi5
  rw [hi5, Except.ok_bind'] at hD
  have ⟨f5, _, f6⟩ := push_variants_ok hi5 (by rw [f4.2.1]; decide) (by rw [f4.1]; simp)
  refine step_validate k hh f5 (by rw [f6]; exact f4.2.2) ?_ ?_
  case refine_2 =>
    intro e env' he
    rw [hD, he]
    rfl
  intro hok6
  rw [hok6] at hD
  rw [step_end k (hg i5 hD), hD]
  show _ = (g i5 >>= fun t => Res.ok (Val.ok (.host "TokenStream" t), []))
  cases g i5 <;> rfl

/-- `Ident::new` panics if the attribute `crate_name` is no identifier. -/
theorem C71_attr_panics (inp : DeriveInput) (v : Val Code) (hin : SynInput inp hdr v)
    (h1 : inp.hasGenerics = false) (h2 : inp.isEnum = true) (x : String) (hx : inp.attrs.crate_name = some x)
    (h : Host.isIdent x = false) (sp : Val Code) :
    macroCall fuel (k + 4) "crate" "derive_enum_set_type_0" c cs [v, encAttrs inp.attrs, sp] =
      .panic (.explicit "not a valid identifier") := by
  have hnew := fun c cs => C70_new_panic (fuel := fuel) (k + 2) (c := c) (cs := cs) hdr inp v hin inp.attrs x hx h
  rw [mcall_of (d := deriveFn) rfl, deriveFn_eq]
  obtain ⟨as, gs, d, ha, hgs, hd, dl⟩ := hin
  have hgs : gs.isEmpty = true := by simpa [h1] using hgs.symm
  cases hd with
  | other _ _ _ h => simp [h] at h2
  | enum vs h hs =>
  simp only [mbound, FnDecl.fn]
  mrun [DeriveRs.crate_derive_enum_set_type_0, hgs, adopt_attrs]
  have hbl : deriveStmts = deriveBlock[0] :: deriveStmts.tail := rfl
  rw [hbl]
  mrun [deriveBlock, DeriveRs.crate_derive_enum_set_type_0, hnew, tag_attrs, exp_attrs, adopt_attrs]
end
end Enumset.Src
