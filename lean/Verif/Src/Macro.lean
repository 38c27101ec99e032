import Verif.Src.Quote
import Verif.Src.DeriveRs
import Verif.MacroEnv
/-!
# The derive macro as a program

`enumset_derive/src/lib.rs` runs in the interpreter of `Verif/Src/Sem.lean`.  Here are the functions of
`std`, `syn`, `proc_macro2`, `quote` and `darling` that it calls, and the linker.

* The values of `syn` types are structs and enums with the fields the macro looks at, and a field
  `span` where the macro asks for the span.
* A `HashSet` is the list of its elements.
* Identifiers are their names; literals are their values.
* A path of an attribute is the list of its segments; `parse_args` of an attribute is a field.
* What `syn` makes of the input of the macro, and `darling` of the attributes, are fields, too.
* The token streams that show an error are structs `TokenStream` with the error.
-/
set_option autoImplicit false

namespace Enumset.Src

/-- The machine that compiles, how the derive macro was built, and what it finds there. -/
class Host extends Platform where
  /-- the strings `Ident::new` accepts; it panics on all others -/
  isIdent : String → Bool
  /-- The macro makes these identifiers itself (enumset_derive/src/lib.rs:674, 678). -/
  isIdent_own : ∀ s ∈ ["IS_U8", "IS_U16", "IS_U32", "IS_U64", "IS_U128", "u8", "u16", "u32", "u64", "u128"],
    isIdent s = true
  /-- the feature `std_deprecation_warning` -/
  stdWarning : Bool
  /-- the feature `proc-macro-crate` -/
  procMacroCrate : Bool
  /-- the result of `proc_macro_crate::crate_name("enumset")`; `none`: an error -/
  found : Option FoundCrate

/-- An identifier. -/
def ident (s : String) : Val Code := .struct "Ident" [("0", .str s)]
/-- A literal without suffix. -/
def literal (n : Nat) : Val Code := .struct "Literal" [("0", .lit n)]
/-- A set. -/
def hashSet (xs : List (Val Code)) : Val Code := .struct "HashSet" [("0", .arr xs)]
/-- A place in the source: what kind of place, and its number. -/
def span (s : String) (n : Nat) : Val Code := .struct "Span" [("0", .str s), ("1", .lit n)]
/-- `syn::Error` -/
def synError (sp msg : Val Code) : Val Code := .struct "Error" [("span", sp), ("message", msg)]

/-- `darling::Error` -/
def darlingError (e : Val Code) : Val Code := .struct "DarlingError" [("0", e)]
/-- What `to_compile_error` of an error of `syn` returns: `compile_error!` with its message at its place. -/
def compileError (e : Val Code) : Val Code := .struct "TokenStream" [("compile_error", e)]
/-- What `write_errors` of an error of `darling` returns: `compile_error!`s. -/
def writtenErrors (e : Val Code) : Val Code := .struct "TokenStream" [("write_errors", e)]

/-- `Result<proc_macro_crate::FoundCrate, proc_macro_crate::Error>` -/
def foundCrate : Option FoundCrate → Val Code
  | none => .err .unit
  | some .itself => .ok (.enum "FoundCrate" "Itself" [])
  | some (.name s) => .ok (.enum "FoundCrate" "Name" [("0", .str s)])

/-- A function without `&mut` parameters. -/
def pureFn (f : List (Val Code) → Res (Val Code)) : Fn Code := fun _ _ args => f args >>= fun v => .ok (v, [])

/-- `==` of the elements of a `HashSet`. -/
def sameKey : Val Code → Val Code → Bool
  | .str a, .str b => a == b
  | .int t a, .int u b => t == u && a == b
  | _, _ => false

/-- `Spanned::span` -/
def spanFn : Fn Code := pureFn fun
  | [.struct _ fs] => need (lookup "span" fs)
  | [.enum _ _ fs] => need (lookup "span" fs)
  | _ => .ub

/-- `Clone::clone` and conversions that do not change the value -/
def idFn : Fn Code := pureFn fun
  | [v] => .ok v
  | _ => .ub

/-- A number, for `Literal::u64_unsuffixed`. -/
def unsuffixed (t : NumTy) : Fn Code := pureFn fun
  | [.int u n] => if t = u then .ok (literal n) else .ub
  | [.lit n] => .ok (literal n)
  | _ => .ub

/-- The functions of the libraries. -/
def stdFn [Host] (ty f : String) : Option (Fn Code) :=
  match ty, f with
  -- std
  | "Vec", "new" => some (pureFn fun _ => .ok (.arr []))
  | "array", "is_empty" => some (pureFn fun
    | [.arr xs] => .ok (.bool xs.isEmpty)
    | _ => .ub)
  | "array", "get" => some (pureFn fun
    | [.arr xs, i] => asIndex i >>= fun i => .ok (match xs[i]? with
      | some v => .some v
      | none => .none)
    | _ => .ub)
  | "array", "push" => some fun _ _ args => match args with
    | [.arr xs, v] => .ok (.unit, [(0, .arr (xs ++ [match xs with
      | x :: _ => x.exp.adopt v
      | [] => v]))])
    | _ => .ub
  | "array", "collect" => some idFn
  | "Option", "as_ref" => some idFn
  | "Option", "is_some" => some (pureFn fun
    | [.some _] => .ok (.bool true)
    | [.none] => .ok (.bool false)
    | _ => .ub)
  | "Option", "unwrap_or" => some (pureFn fun
    | [.some v, _] => .ok v
    | [.none, d] => .ok d
    | _ => .ub)
  | "str", "as_str" => some idFn
  | "HashSet", "new" => some (pureFn fun _ => .ok (hashSet []))
  | "HashSet", "contains" => some (pureFn fun
    | [.struct _ [(_, .arr xs)], v] => .ok (.bool (xs.any (sameKey v)))
    | _ => .ub)
  | "HashSet", "insert" => some fun _ _ args => match args with
    | [.struct _ [(_, .arr xs)], v] => .ok (.bool !(xs.any (sameKey v)), [(0, hashSet (v :: xs))])
    | _ => .ub
  -- proc_macro2
  | "Span", "call_site" => some (pureFn fun _ => .ok (span "callSite" 0))
  | "Ident", "new" => some (pureFn fun
    | [.str s, _] => if Host.isIdent s then .ok (ident s) else .panic (.explicit "not a valid identifier")
    | _ => .ub)
  -- a name with an interpolation, in a `quote!`
  | "Ident", "paste" => some (pureFn fun
    | [.str s, _] => .ok (ident s)
    | _ => .ub)
  | "proc_macro_crate", "crate_name" => some (pureFn fun
    | [.str "enumset"] => .ok (foundCrate Host.found)
    | _ => .ub)
  | "Ident", "to_string" => some (pureFn fun
    | [.struct _ [(_, .str s)]] => .ok (.str s)
    | _ => .ub)
  | "Ident", "clone" => some idFn
  | "Literal", "u64_unsuffixed" => some (unsuffixed .u64)
  | "Literal", "u128_unsuffixed" => some (unsuffixed .u128)
  | "SynTokenStream", "new" => some (pureFn fun _ => .ok (.host "TokenStream" (.stmts [])))
  | "TokenStream", "extend" => some fun _ _ args => match args with
    | [.host _ (.stmts a), .host _ (.stmts b)] =>
      .ok (.unit, [(0, .host "TokenStream" (.stmts (a ++ b)))])
    | _ => .ub
  | "TokenStream", "into" => some idFn
  -- syn
  | "Error", "new" => some (pureFn fun
    | [sp, msg] => .ok (synError sp msg)
    | _ => .ub)
  | "Error", "to_compile_error" => some (pureFn fun
    | [e] => .ok (compileError e)
    | _ => .ub)
  | "syn", "parse" => some (pureFn fun
    | [.struct _ fs] => need (lookup "parse" fs)
    | _ => .ub)
  | "DeriveInput", "span" => some spanFn
  | "Generics", "span" => some spanFn
  | "Attribute", "span" => some spanFn
  | "Variant", "span" => some spanFn
  | "Expr", "span" => some spanFn
  | "Visibility", "clone" => some idFn
  | "Attribute", "path" => some (pureFn fun
    | [.struct _ fs] => need (lookup "path" fs)
    | _ => .ub)
  | "Path", "is_ident" => some (pureFn fun
    | [.struct _ [(_, .arr xs)], s] => .ok (.bool (match xs with
      | [x] => sameKey x s
      | _ => false))
    | _ => .ub)
  | "Attribute", "parse_args" => some (pureFn fun
    | [.struct _ fs] => need (lookup "parse_args" fs)
    | _ => .ub)
  | "LitInt", "base10_parse" => some (pureFn fun
    | [.struct _ [(_, .lit n)]] => .ok (if n < 2 ^ 32 then .ok (.int .u32 n) else .err .unit)
    | _ => .ub)
  -- darling
  | "EnumsetAttrs", "from_derive_input" => some (pureFn fun
    | [.struct _ fs] => need (lookup "from_derive_input" fs)
    | _ => .ub)
  | "DarlingError", "write_errors" => some (pureFn fun
    | [e] => .ok (writtenErrors e)
    | _ => .ub)
  | "SpannedValue", "span" => some spanFn
  | "SpannedValue", "deref" => some (pureFn fun
    | [.struct _ ((_, v) :: _)] => .ok v
    | _ => .ub)
  | _, _ => none

/-- The functions that are not written in the file: the `quote!`s, the variants of its enums, and the
functions of the libraries.  No variant has more than one field. -/
def macroBase [Host] (ty f : String) : Option (Fn Code) :=
  if ty = "quote" then
    (DeriveRs.tmpls.lookup f).map fun t => pureFn fun args => .ok (t.quote args)
  else
    match DeriveRs.enums.lookup ty with
    | some vs =>
      if vs.contains f then some (pureFn fun args => .ok (.enum ty f (["0"].zip args))) else none
    | none => stdFn ty f

/-- The context of the functions of a type. -/
def macroCtx (fuel : Nat) (self : String) (fns : String → String → Option (Fn Code)) : Ctx Code where
  fuel := fuel
  self := self
  alias := id
  ty := NumTy.ofName
  structs s := DeriveRs.structs.lookup s
  fns := fns

/-- `enum_set_type_impl` depends on the features `serde` and `proc-macro-crate`. -/
def implFn [Host] : FnDecl :=
  match (Platform.serde : Bool), (Host.procMacroCrate : Bool) with
  | false, false => DeriveRs.crate_enum_set_type_impl
  | true, false => DeriveRs.crate_enum_set_type_impl_serde
  | false, true => DeriveRs.crate_enum_set_type_impl_path
  | true, true => DeriveRs.crate_enum_set_type_impl_serde_path

/-- `derive_enum_set_type_0` depends on the feature `std_deprecation_warning`. -/
def deriveFn [Host] : FnDecl :=
  match (Host.stdWarning : Bool) with
  | false => DeriveRs.crate_derive_enum_set_type_0
  | true => DeriveRs.crate_derive_enum_set_type_0_std

/-- The function `f` of the type `ty`. -/
def macroDecl [Host] (ty f : String) : Option FnDecl :=
  match ty, f with
  | "crate", "enum_set_type_impl" => some implFn
  | "crate", "derive_enum_set_type_0" => some deriveFn
  | _, _ => DeriveRs.fns.lookup (ty, f)

/-- The functions of the macro, linked `k` levels deep.  `fuel`: how many rounds a `while` runs at
most. -/
def macroLink [Host] (fuel : Nat) : Nat → String → String → Option (Fn Code)
  | 0, ty, f => macroBase ty f
  | k + 1, ty, f =>
    match macroDecl ty f with
    | some d => some (d.fn (macroCtx fuel ty (macroLink fuel k)) [])
    | none => macroBase ty f

/-- Call a function of the macro: its result and the new values of its `&mut` arguments. -/
def macroCall [Host] (fuel k : Nat) (ty f : String) (caller : Env Code)
    (consts args : List (Val Code)) : Res (Val Code × List (Nat × Val Code)) :=
  need (macroLink fuel k ty f) >>= fun fn => fn caller consts args

end Enumset.Src
