import Verif.Src.Syn
/-!
# What `enum_set_type_impl` writes

For each variable of the function (enumset_derive/src/lib.rs:320-971) the tokens it holds, from the
`quote!`s of the text and the `EnumSetInfo` of the model.  `Verif/Props/SrcMacroImpl.lean` proves that
running the text gives these.
-/
set_option autoImplicit false

namespace Enumset.Src
open DeriveRs

/-- `name` -/
def nameTok (name : String) : Val Code := ident name

/-- `typed_enumset` -/
def typedTok (name : String) : Val Code := t2.quote [nameTok name]

/-- `repr` -/
def reprTok : InternalRepr → Val Code
  | .u8 => t5.quote []
  | .u16 => t6.quote []
  | .u32 => t7.quote []
  | .u64 => t8.quote []
  | .u128 => t9.quote []
  | .array n => t10.quote [.int .usize n]

/-- The value of `all_variants` for `u128` -/
def lit128 (vm : List U64) : Nat :=
  (castBV 128 (vm.getD 0 0) ||| ((vm[1]?).elim (0 : U128) fun x => castBV 128 x <<< 64)).toNat

/-- `all_variants` -/
def allTok (vm : List U64) : InternalRepr → Val Code
  | .u128 => literal (lit128 vm)
  | .array n => t11.quote [.arr ((List.range n).map fun i => literal (vm.getD i 0).toNat)]
  | _ => literal (vm.getD 0 0).toNat

/-- `ops` -/
def opsTok (name : String) (info : EnumSetInfo) : Val Code :=
  if info.no_ops then t12.quote [] else t13.quote [typedTok name, nameTok name]

/-- `into_impl` -/
def intoTok (name : String) (info : EnumSetInfo) : Val Code :=
  match info.variants with
  | [] => t15.quote [nameTok name]
  | [v] => t16.quote [nameTok name, ident v.name]
  | vs => t17.quote [.arr (["IS_U8", "IS_U16", "IS_U32", "IS_U64", "IS_U128"].map ident), nameTok name,
      .arr (["u8", "u16", "u32", "u64", "u128"].map ident), .arr (vs.map fun v => .int .u32 v.variant_repr),
      .arr (vs.map fun v => ident v.name)]

/-- `eq_impl` -/
def eqTok (name : String) (info : EnumSetInfo) : Val Code :=
  if info.variants.isEmpty then t18.quote [nameTok name] else t19.quote []

/-- `super_impls` -/
def superTok (name : String) (info : EnumSetInfo) : Val Code :=
  if info.no_super_impls then t20.quote [] else t21.quote [nameTok name, eqTok name info]

/-- `impl_with_repr` -/
def withReprTok (name : String) (info : EnumSetInfo) : Val Code :=
  if info.explicit_internal_repr.isSome then t22.quote [nameTok name, reprTok info.internal_repr] else t23.quote []

/-- `self_as_repr_mask` -/
def maskTok (info : EnumSetInfo) : Val Code :=
  if info.variants.isEmpty then t24.quote [] else t25.quote [reprTok info.internal_repr]

/-- `inherent_impl_blocks` -/
def inherentTok (name : String) (info : EnumSetInfo) : Val Code :=
  match info.internal_repr with
  | .array n => t27.quote [nameTok name, .int .usize n]
  | _ => t26.quote [nameTok name, maskTok info]

/-- `generated_warnings`: the statements of one `quote_spanned!` after the other -/
def warnStmts (ws : List (Span × String)) : List Stmt :=
  ws.flatMap fun w => toStmts (t28.quote [encSpan w.1, .str w.2])

/-- `serde_ops` for an integer type, with `serialize_repr`, `from_fn` and `to_fn` -/
def serdeNumTok (name : String) (info : EnumSetInfo) (serialize_repr from_fn to_fn : Val Code) : Val Code :=
  let all := allTok info.variant_map info.internal_repr
  s18.quote [nameTok name, reprTok info.internal_repr, to_fn, serialize_repr,
    if info.serialize_deny_unknown then s16.quote [all] else s17.quote [], from_fn, all]

/-- `serde_ops` with the feature `serde` -/
def serdeOnTok (name : String) (info : EnumSetInfo) : Val Code :=
  match info.serde_repr with
  | .u8 => serdeNumTok name info (s1.quote []) (s2.quote []) (s3.quote [])
  | .u16 => serdeNumTok name info (s4.quote []) (s5.quote []) (s6.quote [])
  | .u32 => serdeNumTok name info (s7.quote []) (s8.quote []) (s9.quote [])
  | .u64 => serdeNumTok name info (s10.quote []) (s11.quote []) (s12.quote [])
  | .u128 => serdeNumTok name info (s13.quote []) (s14.quote []) (s15.quote [])
  | .list => s19.quote [nameTok name, .str ("a list of " ++ name), ident ("next_element::<" ++ name ++ ">")]
  | .map => s20.quote [nameTok name, .str ("a map from " ++ name ++ " to bool"), ident ("next_entry::<" ++ name ++ ", bool>")]
  | .array => s26.quote [nameTok name, s21.quote [nameTok name, ident (name ++ "::Repr")],
      if info.serialize_deny_unknown then s22.quote [] else s24.quote [],
      if info.serialize_deny_unknown then s23.quote [] else s25.quote []]

/-- `serde_ops` -/
def serdeTok [Platform] (name : String) (info : EnumSetInfo) : Val Code :=
  if Platform.serde then serdeOnTok name info else t14.quote []

/-- What is interpolated into the last `quote!`. -/
def genArgs [Platform] (name : String) (info : EnumSetInfo) (ws : List (Span × String)) : List (Val Code) :=
  [nameTok name, reprTok info.internal_repr, allTok info.variant_map info.internal_repr,
    .int .u32 (info.max_discrim + 1), .int .u32 (castW 32 info.variants.length), intoTok name info, serdeTok name info,
    withReprTok name info, superTok name info, opsTok name info, inherentTok name info,
    .host "TokenStream" (.stmts (warnStmts ws))]

/-- What the function returns. -/
def genTok [Platform] (name : String) (info : EnumSetInfo) (ws : List (Span × String)) : Val Code :=
  t29.quote (genArgs name info ws)

end Enumset.Src
