import Verif.Props.Diag
import Verif.Props.SrcGenHistory
/-!
# C78: the function the compiler calls

`derive_enum_set_type` (enumset_derive/src/lib.rs:973-982) hands the input to `syn` and `darling`, runs
`derive_enum_set_type_0` and turns what it returns into tokens.  What `syn` and `darling` answer is arbitrary.
-/
set_option autoImplicit false

namespace Enumset.Src

/-- What `EnumsetAttrs::from_derive_input` of `darling` answers for the item `v`. -/
def Darling (v r : Val Code) : Prop := ∃ ty fs, v = .struct ty fs ∧ lookup "from_derive_input" fs = some r

/-- Every diagnostic of the macro is an error of `syn`. -/
theorem deriveInfo_encErr {inp : DeriveInput} {e : DeriveErr} (h : deriveInfo inp = .error e) :
    ∃ sp m, encErr e = synError sp m := by
  obtain ⟨p, -, -, rfl⟩ := first_problem inp e h
  cases p with
  | variant i k => cases k <;> exact ⟨_, _, rfl⟩
  | _ => exact ⟨_, _, rfl⟩

theorem ms_syn : DeriveRs.structs.lookup "syn" = none := rfl
theorem ms_EnumsetAttrs : DeriveRs.structs.lookup "EnumsetAttrs" = some
    { gens := [],
      fields := [("no_ops", .name "bool" []), ("no_super_impls", .name "bool" []),
        ("repr", .name "SpannedValue" [.name "Option" [.name "String" []]]),
        ("serialize_repr", .name "SpannedValue" [.name "Option" [.name "String" []]]),
        ("serialize_deny_unknown", .name "bool" []), ("crate_name", .name "Option" [.name "String" []]),
        ("serialize_as_list", .name "SpannedValue" [.name "bool" []]),
        ("serialize_as_map", .name "SpannedValue" [.name "bool" []])],
      derives := ["FromDeriveInput", "Default"] } := rfl
theorem on_DeriveInput : NumTy.ofName "DeriveInput" = none := rfl
theorem on_EnumsetAttrs : NumTy.ofName "EnumsetAttrs" = none := rfl

theorem tag_synError (sp m : Val Code) : (synError sp m).tag = "Error" := rfl
theorem tag_darlingError (e : Val Code) : (darlingError e).tag = "DarlingError" := rfl
theorem tag_compileError (e : Val Code) : (compileError e).tag = "TokenStream" := rfl
theorem tag_writtenErrors (e : Val Code) : (writtenErrors e).tag = "TokenStream" := rfl

/-- The tokens the compiler passes to the macro, of which `syn` makes `r`. -/
def tokens (r : Val Code) : Val Code := .struct "TokenStream" [("parse", r)]

section
variable [Host] {fuel : Nat} (k : Nat) (c : Env Code) (cs : List (Val Code))

theorem m_parse (r : Val Code) : macroCall fuel k "syn" "parse" c cs [tokens r] = .ok (r, []) := by mcore
theorem m_to_compile_error (sp m : Val Code) : macroCall fuel k "Error" "to_compile_error" c cs [synError sp m] =
    .ok (compileError (synError sp m), []) := by mcore
theorem m_write_errors (e : Val Code) : macroCall fuel k "DarlingError" "write_errors" c cs [darlingError e] =
    .ok (writtenErrors (darlingError e), []) := by mcore
theorem m_from_derive_input (ty : String) (fs : List (String × Val Code)) :
    macroCall fuel k "EnumsetAttrs" "from_derive_input" c cs [.struct ty fs] =
      need (lookup "from_derive_input" fs) >>= fun v => .ok (v, []) :=
  (mbase rfl rfl _ _ _).trans rfl
theorem m_into_compileError (e : Val Code) : macroCall fuel k "TokenStream" "into" c cs [compileError e] =
    .ok (compileError e, []) := by mcore
theorem m_into_writtenErrors (e : Val Code) : macroCall fuel k "TokenStream" "into" c cs [writtenErrors e] =
    .ok (writtenErrors e, []) := by mcore

variable (hdr : Header)

/-- `syn` does not understand the input: the macro expands to its error. -/
theorem C78_syntax (sp m : Val Code) :
    macroCall fuel (k + 5) "crate" "derive_enum_set_type" c cs [tokens (.err (synError sp m))] =
      .ok (compileError (synError sp m), []) := by
  rw [mcall_of (d := DeriveRs.crate_derive_enum_set_type) rfl]
  mrun [DeriveRs.crate_derive_enum_set_type, ms_syn, m_parse, m_to_compile_error, tag_synError, on_DeriveInput]

/-- `darling` does not understand the attributes: the macro expands to its errors. -/
theorem C78_attributes {inp : DeriveInput} {v : Val Code} (hin : SynInput inp hdr v) (e : Val Code)
    (hd : Darling v (.err (darlingError e))) :
    macroCall fuel (k + 5) "crate" "derive_enum_set_type" c cs [tokens (.ok v)] =
      .ok (writtenErrors (darlingError e), []) := by
  rw [mcall_of (d := DeriveRs.crate_derive_enum_set_type) rfl]
  obtain ⟨as, gs, d, ha, hg, hd, dl⟩ := hin
  obtain ⟨ty, fs, h1, h2⟩ := hd
  injection h1 with h1 h3
  subst h1; subst h3
  simp [lookup] at h2
  subst h2
  mrun [DeriveRs.crate_derive_enum_set_type, ms_syn, m_parse, on_DeriveInput, m_from_derive_input, ms_EnumsetAttrs,
    on_EnumsetAttrs, m_write_errors, tag_darlingError, m_into_writtenErrors, tag_writtenErrors]

/-- `derive_enum_set_type_0` returns code. -/
theorem entry_ok {inp : DeriveInput} {v : Val Code} (hin : SynInput inp hdr v)
    (hd : Darling v (.ok (encAttrs inp.attrs))) {t : Code}
    (H : ∀ c cs, macroCall fuel (k + 4) "crate" "derive_enum_set_type_0" c cs [v, encAttrs inp.attrs, encSpan .item] =
      .ok (.ok (.host "TokenStream" t), [])) :
    macroCall fuel (k + 5) "crate" "derive_enum_set_type" c cs [tokens (.ok v)] =
      .ok (.host "TokenStream" t, []) := by
  rw [mcall_of (d := DeriveRs.crate_derive_enum_set_type) rfl]
  obtain ⟨as, gs, d, ha, hg, hd, dl⟩ := hin
  obtain ⟨ty, fs, h1, h2⟩ := hd
  injection h1 with h1 h3
  subst h1; subst h3
  simp [lookup] at h2
  subst h2
  mrun [DeriveRs.crate_derive_enum_set_type, ms_syn, m_parse, on_DeriveInput, m_from_derive_input, ms_EnumsetAttrs,
    on_EnumsetAttrs, adopt_attrs, H]

/-- `derive_enum_set_type_0` returns an error. -/
theorem entry_err {inp : DeriveInput} {v : Val Code} (hin : SynInput inp hdr v)
    (hd : Darling v (.ok (encAttrs inp.attrs))) {sp m : Val Code}
    (H : ∀ c cs, macroCall fuel (k + 4) "crate" "derive_enum_set_type_0" c cs [v, encAttrs inp.attrs, encSpan .item] =
      .ok (.err (synError sp m), [])) :
    macroCall fuel (k + 5) "crate" "derive_enum_set_type" c cs [tokens (.ok v)] =
      .ok (compileError (synError sp m), []) := by
  rw [mcall_of (d := DeriveRs.crate_derive_enum_set_type) rfl]
  obtain ⟨as, gs, d, ha, hg, hd, dl⟩ := hin
  obtain ⟨ty, fs, h1, h2⟩ := hd
  injection h1 with h1 h3
  subst h1; subst h3
  simp [lookup] at h2
  subst h2
  mrun [DeriveRs.crate_derive_enum_set_type, ms_syn, m_parse, on_DeriveInput, m_from_derive_input, ms_EnumsetAttrs,
    on_EnumsetAttrs, adopt_attrs, H, tag_synError, m_to_compile_error, m_into_compileError, tag_compileError]

/-- `derive_enum_set_type_0` panics. -/
theorem entry_panic {inp : DeriveInput} {v : Val Code} (hin : SynInput inp hdr v)
    (hd : Darling v (.ok (encAttrs inp.attrs))) {p : Panic}
    (H : ∀ c cs, macroCall fuel (k + 4) "crate" "derive_enum_set_type_0" c cs [v, encAttrs inp.attrs, encSpan .item] =
      .panic p) :
    macroCall fuel (k + 5) "crate" "derive_enum_set_type" c cs [tokens (.ok v)] = .panic p := by
  rw [mcall_of (d := DeriveRs.crate_derive_enum_set_type) rfl]
  obtain ⟨as, gs, d, ha, hg, hd, dl⟩ := hin
  obtain ⟨ty, fs, h1, h2⟩ := hd
  injection h1 with h1 h3
  subst h1; subst h3
  simp [lookup] at h2
  subst h2
  mrun [DeriveRs.crate_derive_enum_set_type, ms_syn, m_parse, on_DeriveInput, m_from_derive_input, ms_EnumsetAttrs,
    on_EnumsetAttrs, adopt_attrs, H]
theorem entry_ub {inp : DeriveInput} {v : Val Code} (hin : SynInput inp hdr v)
    (hd : Darling v (.ok (encAttrs inp.attrs)))
    (H : ∀ c cs, macroCall fuel (k + 4) "crate" "derive_enum_set_type_0" c cs [v, encAttrs inp.attrs, encSpan .item] =
      .ub) :
    macroCall fuel (k + 5) "crate" "derive_enum_set_type" c cs [tokens (.ok v)] = .ub := by
  rw [mcall_of (d := DeriveRs.crate_derive_enum_set_type) rfl]
  obtain ⟨as, gs, d, ha, hg, hd, dl⟩ := hin
  obtain ⟨ty, fs, h1, h2⟩ := hd
  injection h1 with h1 h3
  subst h1; subst h3
  simp [lookup] at h2
  subst h2
  mrun [DeriveRs.crate_derive_enum_set_type, ms_syn, m_parse, on_DeriveInput, m_from_derive_input, ms_EnumsetAttrs,
    on_EnumsetAttrs, adopt_attrs, H]
theorem entry_diverge {inp : DeriveInput} {v : Val Code} (hin : SynInput inp hdr v)
    (hd : Darling v (.ok (encAttrs inp.attrs)))
    (H : ∀ c cs, macroCall fuel (k + 4) "crate" "derive_enum_set_type_0" c cs [v, encAttrs inp.attrs, encSpan .item] =
      .diverge) :
    macroCall fuel (k + 5) "crate" "derive_enum_set_type" c cs [tokens (.ok v)] = .diverge := by
  rw [mcall_of (d := DeriveRs.crate_derive_enum_set_type) rfl]
  obtain ⟨as, gs, d, ha, hg, hd, dl⟩ := hin
  obtain ⟨ty, fs, h1, h2⟩ := hd
  injection h1 with h1 h3
  subst h1; subst h3
  simp [lookup] at h2
  subst h2
  mrun [DeriveRs.crate_derive_enum_set_type, ms_syn, m_parse, on_DeriveInput, m_from_derive_input, ms_EnumsetAttrs,
    on_EnumsetAttrs, adopt_attrs, H]

/-- Otherwise the macro expands to `genTok`, or to the error of `derive_enum_set_type_0`; or it panics, if a name
of the crate `enumset` is no identifier. -/
theorem C78_total (hf : 2 ^ 26 ≤ fuel) (hh : 32 ≤ usizeBits) {inp : DeriveInput} {v : Val Code}
    (hin : SynInput inp hdr v) (hd : Darling v (.ok (encAttrs inp.attrs))) :
    macroCall fuel (k + 5) "crate" "derive_enum_set_type" c cs [tokens (.ok v)] =
      (if inp.hasGenerics || !inp.isEnum then .ok none else infoCrateName hostEnv inp.attrs).andThen fun cr =>
      match deriveInfo inp with
      | .ok info => (enumsetPath hostEnv cr).andThen fun _ =>
          .ok (genTok hdr.name info (deriveWarnings Host.stdWarning inp.attrs), [])
      | .error e => .ok (compileError (encErr e), []) := by
  have H := fun c cs => C71_total (fuel := fuel) (k := k) (c := c) (cs := cs) hf hh inp v hin
  revert H
  generalize (if inp.hasGenerics || !inp.isEnum then .ok none else infoCrateName hostEnv inp.attrs) = r
  cases r with
  | panic p => exact entry_panic k c cs hdr hin hd
  | ub => exact entry_ub k c cs hdr hin hd
  | diverge => exact entry_diverge k c cs hdr hin hd
  | ok cr =>
    simp only [Res.andThen]
    cases hi : deriveInfo inp with
    | ok info =>
      simp only
      cases enumsetPath hostEnv cr with
      | panic p => exact entry_panic k c cs hdr hin hd
      | ub => exact entry_ub k c cs hdr hin hd
      | diverge => exact entry_diverge k c cs hdr hin hd
      | ok _ => exact entry_ok k c cs hdr hin hd
    | error e =>
      obtain ⟨sp, m, he⟩ := deriveInfo_encErr hi
      simp only [he]
      exact entry_err k c cs hdr hin hd

/-- With identifiers as names the macro does not panic. -/
theorem C78_derive (hf : 2 ^ 26 ≤ fuel) (hh : 32 ≤ usizeBits) {inp : DeriveInput} {v : Val Code}
    (hn : NamesOk inp.attrs) (hin : SynInput inp hdr v) (hd : Darling v (.ok (encAttrs inp.attrs))) :
    macroCall fuel (k + 5) "crate" "derive_enum_set_type" c cs [tokens (.ok v)] =
      match deriveInfo inp with
      | .ok info => .ok (genTok hdr.name info (deriveWarnings Host.stdWarning inp.attrs), [])
      | .error e => .ok (compileError (encErr e), []) := by
  have h := C71_derive (fuel := fuel) (k := k) (c := c) (cs := cs) hf hh inp v hn hin
  rw [C71_total hf hh inp v hin] at h
  rw [C78_total k c cs hdr hf hh hin hd]
  revert h
  generalize (if inp.hasGenerics || !inp.isEnum then .ok none else infoCrateName hostEnv inp.attrs) = r
  cases deriveInfo inp with
  | error e => cases r <;> simp [Res.andThen]
  | ok info =>
    cases r with
    | ok cr => simp only [Res.andThen]; cases enumsetPath hostEnv cr <;> simp
    | _ => simp [Res.andThen]

/-- If the names are no identifiers, the macro panics on every item without problems. -/
theorem C78_panics (hf : 2 ^ 26 ≤ fuel) (hh : 32 ≤ usizeBits) {inp : DeriveInput} {v : Val Code}
    (hn : ¬ NamesOk inp.attrs) (hin : SynInput inp hdr v) (hd : Darling v (.ok (encAttrs inp.attrs)))
    (ha : ∀ p : Problem, ¬ p.holds inp) :
    macroCall fuel (k + 5) "crate" "derive_enum_set_type" c cs [tokens (.ok v)] =
      .panic (.explicit "not a valid identifier") := by
  cases hi : deriveInfo inp with
  | error e =>
    obtain ⟨q, hq, -⟩ := first_problem inp e hi
    exact absurd hq (ha q)
  | ok info =>
  have h := C71_panics (fuel := fuel) (k := k) (c := c) (cs := cs) hf hh inp v hn hin hi
  rw [C71_total hf hh inp v hin, hi] at h
  rw [C78_total k c cs hdr hf hh hin hd, hi]
  revert h
  generalize (if inp.hasGenerics || !inp.isEnum then .ok none else infoCrateName hostEnv inp.attrs) = r
  cases r with
  | ok cr => simp only [Res.andThen]; cases enumsetPath hostEnv cr <;> simp
  | _ => simp [Res.andThen]

/-- The macro expands to `compile_error!` with the message of the first problem of the item, at its place. -/
theorem C78_diagnostic (hf : 2 ^ 26 ≤ fuel) (hh : 32 ≤ usizeBits) {inp : DeriveInput} {v : Val Code}
    (hn : NamesOk inp.attrs) (hin : SynInput inp hdr v) (hd : Darling v (.ok (encAttrs inp.attrs))) {p : Problem} (hp : p.holds inp)
    (hmin : ∀ q : Problem, q.holds inp → ¬ q.before p) :
    macroCall fuel (k + 5) "crate" "derive_enum_set_type" c cs [tokens (.ok v)] =
      .ok (compileError (encErr p.error), []) := by
  rw [C78_derive k c cs hdr hf hh hn hin hd]
  cases hi : deriveInfo inp with
  | ok info => exact absurd hp (no_problem ((deriveInfo_iff inp).1 ⟨_, hi⟩) p)
  | error e =>
    obtain ⟨q, hq, hmin', rfl⟩ := first_problem inp e hi
    exact congrArg (fun e => Res.ok (compileError (encErr e), [])) (C54_unique inp q p hq hp hmin' hmin)

end

/-- What the macro expands to for an item without problems is the code whose meaning C72 to C77 are about. -/
theorem C78_expands [target : Platform] (host : Host) (hserde : host.serde = target.serde)
    (hhost : 32 ≤ @usizeBits host.toTarget) {fuel : Nat} (hf : 2 ^ 26 ≤ fuel) (k : Nat) (c : Env Code)
    (cs : List (Val Code)) {inp : DeriveInput} {vis v : Val Code} (hn : @NamesOk host inp.attrs)
    (hin : SynInput inp ⟨"T", vis⟩ v) (hd : Darling v (.ok (encAttrs inp.attrs))) (ha : ∀ p : Problem, ¬ p.holds inp) :
    ∃ tok, @Expands target inp tok ∧
      @macroCall host fuel (k + 5) "crate" "derive_enum_set_type" c cs [tokens (.ok v)] = .ok (tok, []) := by
  rw [@C78_derive host fuel k c cs ⟨"T", vis⟩ hf hhost inp v hn hin hd]
  cases hi : deriveInfo inp with
  | error e =>
    obtain ⟨q, hq, -⟩ := first_problem inp e hi
    exact absurd hq (ha q)
  | ok info =>
    have h := @C71_derive host fuel k c cs ⟨"T", vis⟩ hf hhost inp v hn hin
    rw [hi] at h
    exact ⟨_, ⟨host, fuel, k, c, cs, vis, v, hserde, hhost, hf, hin, h⟩, rfl⟩

/-! ### concrete cases -/
namespace Ex
open scoped Enumset.Ex
open Enumset.Ex (inpT)

variable (fuel : Nat)

/-- `enum T { A, B = 3, C }`: the code for the enum. -/
example (h : 2 ^ 26 ≤ fuel) :
    macroCall fuel 5 "crate" "derive_enum_set_type" [] [] [tokens (.ok (synT []))] = .ok (genTok "T" infoT [], []) :=
  (C78_derive 0 [] [] hdrT h (by decide) (namesOff rfl rfl) (synT_ok []) ⟨_, _, rfl, rfl⟩).trans (by rw [infoT_ok]; rfl)

/-- `enum Color {}`: the name is that of the enum. -/
example (h : 2 ^ 26 ≤ fuel) : ∃ info, deriveInfo { variants := [], attrs := {} } = .ok info ∧
    macroCall fuel 5 "crate" "derive_enum_set_type" [] [] [tokens (.ok (.struct "DeriveInput"
      [("attrs", .arr []), ("vis", visibility .unit), ("ident", ident "Color"),
       ("generics", .struct "Generics" [("params", .arr []), ("span", encSpan .generics)]),
       ("data", .enum "Data" "Enum" [("0", .struct "DataEnum" [("variants", .arr [])])]),
       ("span", encSpan .item), ("from_derive_input", .ok (encAttrs {}))]))] = .ok (genTok "Color" info [], []) ∧
    toItems (superTok "Color" info) ≠ toItems (superTok "T" info) :=
  ⟨_, rfl, (C78_derive 0 [] [] ⟨"Color", .unit⟩ h (by decide) (namesOff rfl rfl)
    (inp := { variants := [], attrs := {} }) (.mk [] [] _ (.nil 0) rfl (.enum _ rfl (.nil 0)) _) ⟨_, _, rfl, rfl⟩).trans rfl,
    fun h => by injection h with h _; injection h with _ _ h _; injection h with h _; exact absurd h (by decide)⟩

/-- `enum T<X> { A, B = 3, C }`: an error. -/
example (h : 2 ^ 26 ≤ fuel) :
    macroCall fuel 5 "crate" "derive_enum_set_type" [] [] [tokens (.ok (synT [.unit]))] =
      .ok (.struct "TokenStream" [("compile_error", .struct "Error" [("span", encSpan .generics), ("message",
        .str "`#[derive(EnumSetType)]` cannot be used on enums with type parameters.")])], []) :=
  C78_diagnostic 0 [] [] hdrT h (by decide) (namesOff rfl rfl) (synT_ok [.unit]) ⟨_, _, rfl, rfl⟩ (p := .generics) rfl
    fun q _ hb => by cases q <;> simp [Problem.before, Problem.stage, Problem.position, Problem.check] at hb

/-- `#[enumset(crate_name = "enum-set")] enum T {}`: the macro panics. -/
example (h : 2 ^ 26 ≤ fuel) : macroCall fuel 5 "crate" "derive_enum_set_type" [] [] [tokens (.ok (.struct "DeriveInput"
      [("attrs", .arr []), ("vis", visibility .unit), ("ident", ident "T"),
        ("generics", .struct "Generics" [("params", .arr []), ("span", encSpan .generics)]),
        ("data", .enum "Data" "Enum" [("0", .struct "DataEnum" [("variants", .arr [])])]), ("span", encSpan .item),
        ("from_derive_input", .ok (encAttrs { crate_name := some "enum-set" }))]))] =
    .panic (.explicit "not a valid identifier") :=
  C78_panics 0 [] [] hdrT (inp := { variants := [], attrs := { crate_name := some "enum-set" } }) h (by decide)
    (fun h => absurd (h.attr _ rfl) (by decide +kernel))
    (.mk [] [] _ (.nil 0) rfl (.enum [] rfl (.nil 0)) _) ⟨_, _, rfl, rfl⟩
    (no_problem ((deriveInfo_iff _).1 ⟨_, rfl⟩))

/-- Tokens that are no item. -/
example : macroCall fuel 5 "crate" "derive_enum_set_type" [] [] [tokens (.err (synError .unit (.str "expected `;`")))] =
    .ok (.struct "TokenStream" [("compile_error", .struct "Error" [("span", .unit), ("message", .str "expected `;`")])], []) :=
  C78_syntax 0 [] [] _ _

/-- `#[enumset(no_opps)] struct T;` -/
example : macroCall fuel 5 "crate" "derive_enum_set_type" [] [] [tokens (.ok (.struct "DeriveInput"
      [("attrs", .arr []), ("vis", visibility .unit), ("ident", ident "T"),
        ("generics", .struct "Generics" [("params", .arr []), ("span", encSpan .generics)]),
        ("data", .enum "Data" "Struct" []), ("span", encSpan .item),
        ("from_derive_input", .err (darlingError (.str "Unknown field: `no_opps`")))]))] =
    .ok (.struct "TokenStream" [("write_errors", .struct "DarlingError" [("0", .str "Unknown field: `no_opps`")])], []) :=
  C78_attributes 0 [] [] hdrT (inp := { isEnum := false, variants := [] })
    (.mk [] [] _ (.nil 0) rfl (.other "Struct" [] (by decide) rfl) _) _ ⟨_, _, rfl, rfl⟩

end Ex
end Enumset.Src
