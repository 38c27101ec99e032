import Verif.Derive
/-!
# The derive macro in its environment: features, `crate_name`, panics of the macro itself

`derive` (Derive.lean) is the macro without the parts that depend on how it was built and on the
manifest of the crate that uses it.  Citations `lib.rs` are to `enumset_derive/src/lib.rs`.
-/
set_option autoImplicit false

namespace Enumset

/-- `proc_macro_crate::FoundCrate` -/
inductive FoundCrate where
  /-- the macro is used in the crate `enumset` itself -/
  | itself
  /-- the name under which the crate that uses the macro imports `enumset` -/
  | name (s : String)

/-- What the macro depends on besides its input. -/
structure MacroEnv where
  /-- the strings `proc_macro2::Ident::new` accepts; it panics on all others -/
  isIdent : String → Bool
  /-- the feature `serde` -/
  serde : Bool
  /-- the feature `std_deprecation_warning` -/
  stdWarning : Bool
  /-- the feature `proc-macro-crate` -/
  procMacroCrate : Bool
  /-- the result of `proc_macro_crate::crate_name("enumset")`; `none`: an error -/
  found : Option FoundCrate

/-- `bind` for outcomes of different universes. -/
def Res.andThen.{u, v} {α : Type u} {β : Type v} (x : Res α) (f : α → Res β) : Res β :=
  match x with
  | .ok a => f a
  | .panic p => .panic p
  | .ub => .ub
  | .diverge => .diverge

/-- `Ident::new(s, Span::call_site())` -/
def MacroEnv.ident (env : MacroEnv) (s : String) : Res String :=
  if env.isIdent s then .ok s else .panic (.explicit "not a valid identifier")

/-- What the macro generates: the items, the identifier `c` of the path `::c` by which they refer to
the crate `enumset`, the format of the generated serde functions (if there are any), and the
warnings. -/
structure Expansion [Platform] where
  path : String
  items : EnumSetType
  serde : Option SerdeRepr
  warnings : List (Span × String)

/-- lib.rs:152-155 the field `crate_name` in `EnumSetInfo::new` -/
def infoCrateName (env : MacroEnv) (attrs : EnumsetAttrs) : Res (Option String) :=
  match attrs.crate_name with
  | some x => some <$> env.ident x
  | none => .ok none

/-- lib.rs:323-345 `let enumset = …` -/
def enumsetPath (env : MacroEnv) (crate_name : Option String) : Res String :=
  match crate_name with
  | some crate_name => .ok crate_name
  | none =>
    if env.procMacroCrate then
      match env.found with
      | some (.name name) => env.ident name
      | _ => .ok "enumset"
    else .ok "enumset"

/-- lib.rs:983-1061 `derive_enum_set_type_0`, with panics of the macro (`Res.panic`), which the
compiler reports as an error.  `deriveInfo` is the part of it that can fail with an error;
`EnumSetInfo::new` (lib.rs:995) comes after the checks for generics and for an enum and before all
others.  Simplification: that the literals of the generated code fit their types, which rustc checks
later, is part of `derive` and thus of this function. -/
def expand [Platform] (env : MacroEnv) (input : DeriveInput) : Res (Except DeriveErr Expansion) :=
  if input.hasGenerics then
    .ok (.error (.msg .generics
      "`#[derive(EnumSetType)]` cannot be used on enums with type parameters."))
  else if input.isEnum then
    (infoCrateName env input.attrs).andThen fun crate_name =>
    match deriveInfo input with
    | .error e => .ok (.error e)
    | .ok info =>
      -- lib.rs:1057 `enum_set_type_impl(info, warnings)`
      (enumsetPath env crate_name).andThen fun path =>
      match enum_set_type_impl info fun i =>
          ((rustcDiscriminants input.variants).getD i.val 0).toNat with
      | .error .macroPanic => .panic .overflow
      | .error e => .ok (.error e)
      | .ok items => .ok (.ok {
          path := path
          items := items
          -- lib.rs:427-430, 639-640
          serde := if env.serde then some info.serde_repr else none
          warnings := deriveWarnings env.stdWarning input.attrs })
  else .ok (.error (.msg .item "`#[derive(EnumSetType)]` may only be used on enums"))

end Enumset
