import Verif.Src.Syn
/-!
# Running the derive macro: lemmas
-/
set_option autoImplicit false
set_option linter.unusedSectionVars false

namespace Enumset.Src

theorem mulW_usize [Platform] (a b : Nat) : mulW NumTy.usize.bits a b = mulW usizeBits a b := rfl

theorem m_not_bool [Platform] {H : Type} (C : Ctx H) (b : Bool) : notVal C (.bool b) = .ok (.bool !b) := rfl

section tags
variable {H : Type}
theorem mtag_none : (Val.none : Val H).tag = "Option" := rfl
theorem mtag_some (v : Val H) : (Val.some v).tag = "Option" := rfl
theorem mtag_arr (xs : List (Val H)) : (Val.arr xs).tag = "array" := rfl
theorem mtag_str (s : String) : (Val.str s : Val H).tag = "str" := rfl
theorem mtag_enum (t v : String) (fs : List (String × Val H)) : (Val.enum t v fs).tag = t := rfl
theorem mtag_host (s : String) (h : H) : (Val.host s h).tag = s := rfl
theorem mtag_opt {α : Type} (g : α → Val H) (o : Option α) : (opt g o).tag = "Option" := by
  cases o <;> rfl
end tags
theorem tag_vis (v : Val Code) : (visibility v).tag = "Visibility" := rfl
theorem tag_span (sp : Span) : (encSpan sp).tag = "Span" := by cases sp <;> rfl
theorem tag_synPath (p : List String) : (synPath p).tag = "Path" := rfl
theorem tag_synAttribute (p : List String) (a sp : Val Code) : (synAttribute p a sp).tag = "Attribute" := rfl

section link
variable [Host] {fuel k : Nat} {ty f : String} {d : FnDecl}

/-- A function of the macro, linked `k` levels deep. -/
def mbound (fuel k : Nat) (ty : String) (d : FnDecl) : Fn Code :=
  d.fn (macroCtx fuel ty (macroLink fuel k)) []

theorem mcall_of (h : macroDecl ty f = some d) (caller : Env Code)
    (consts args : List (Val Code)) :
    macroCall fuel (k + 1) ty f caller consts args = mbound fuel k ty d caller consts args := by
  simp [macroCall, macroLink, h, need, mbound]

theorem mbase {fn : Fn Code} (h : macroDecl ty f = none) (hb : macroBase ty f = some fn)
    (caller : Env Code) (consts args : List (Val Code)) :
    macroCall fuel k ty f caller consts args = fn caller consts args := by
  cases k <;> simp [macroCall, macroLink, h, need, hb]

/-- A function of the surroundings of the macro. -/
macro "mcore" : tactic => `(tactic| exact (mbase rfl rfl _ _ _).trans rfl)

variable {self s : String} {fns : String → String → Option (Fn Code)}

theorem mctx_fuel : (macroCtx fuel self fns).fuel = fuel := rfl
theorem mctx_self : (macroCtx fuel self fns).self = self := rfl
theorem mctx_alias : (macroCtx fuel self fns).alias s = s := rfl
theorem mctx_structs : (macroCtx fuel self fns).structs s = DeriveRs.structs.lookup s := rfl
theorem mctx_ty : (macroCtx fuel self fns).ty s = NumTy.ofName s := rfl
theorem mctx_call {t : String} {env : Env Code} {cs vs : List (Val Code)} :
    (macroCtx fuel self (macroLink fuel k)).call t f env cs vs = macroCall fuel k t f env cs vs := rfl

theorem ms_quote : DeriveRs.structs.lookup "quote" = none := rfl
theorem ms_Vec : DeriveRs.structs.lookup "Vec" = none := rfl
theorem ms_HashSet : DeriveRs.structs.lookup "HashSet" = none := rfl
theorem ms_Span : DeriveRs.structs.lookup "Span" = none := rfl
theorem ms_Ident : DeriveRs.structs.lookup "Ident" = none := rfl
theorem ms_Error : DeriveRs.structs.lookup "Error" = none := rfl
theorem ms_Literal : DeriveRs.structs.lookup "Literal" = none := rfl
theorem ms_Stream : DeriveRs.structs.lookup "SynTokenStream" = none := rfl
theorem ms_crate : DeriveRs.structs.lookup "crate" = none := rfl
theorem ms_Serde : DeriveRs.structs.lookup "SerdeRepr" = none := rfl
theorem ms_Internal : DeriveRs.structs.lookup "InternalRepr" = none := rfl
theorem ms_Value : DeriveRs.structs.lookup "EnumSetValue" = some
    { gens := [], fields := [("name", .name "Ident" []), ("variant_repr", .name "u32" [])],
      derives := [] } := rfl

theorem ms_Info : DeriveRs.structs.lookup "EnumSetInfo" = some
    { gens := [],
      fields := [("name", .name "Ident" []), ("crate_name", .name "Option" [.name "Ident" []]),
        ("explicit_internal_repr", .name "Option" [.name "InternalRepr" []]),
        ("internal_repr_force_array", .name "bool" []),
        ("explicit_serde_repr", .name "Option" [.name "SerdeRepr" []]),
        ("variants", .name "Vec" [.name "EnumSetValue" []]), ("vis", .name "Visibility" []),
        ("max_discrim", .name "u32" []), ("max_discrim_span", .name "Option" [.name "Span" []]),
        ("cur_discrim", .name "u32" []), ("used_variant_names", .name "HashSet" [.name "String" []]),
        ("used_discriminants", .name "HashSet" [.name "u32" []]), ("no_ops", .name "bool" []),
        ("no_super_impls", .name "bool" []), ("serialize_deny_unknown", .name "bool" [])],
      derives := [] } := rfl

theorem on_Ident : NumTy.ofName "Ident" = none := rfl
theorem on_Internal : NumTy.ofName "InternalRepr" = none := rfl
theorem on_Serde : NumTy.ofName "SerdeRepr" = none := rfl
theorem on_Value : NumTy.ofName "EnumSetValue" = none := rfl
theorem on_Info : NumTy.ofName "EnumSetInfo" = none := rfl
theorem on_Vis : NumTy.ofName "Visibility" = none := rfl
theorem on_Span : NumTy.ofName "Span" = none := rfl
theorem on_HashSet : NumTy.ofName "HashSet" = none := rfl
theorem on_String : NumTy.ofName "String" = none := rfl
theorem on_Syn : NumTy.ofName "SynTokenStream" = none := rfl
theorem on_Stream : NumTy.ofName "TokenStream" = none := rfl
theorem on_us : NumTy.ofName "_" = none := rfl
theorem on_str : NumTy.ofName "str" = none := rfl

variable {c : Env Code} {cs : List (Val Code)}

/-- The variants of the enums of the macro. -/
theorem m_enum {v : String} (args : List (Val Code))
    (hf : macroDecl ty v = none)
    (hb : macroBase ty v = some (pureFn fun args => .ok (.enum ty v (["0"].zip args)))) :
    macroCall fuel k ty v c cs args = .ok (.enum ty v (["0"].zip args), []) := by
  rw [mbase hf hb]; rfl

theorem m_IU8 : macroCall fuel k "InternalRepr" "U8" c cs [] = .ok (encRepr .u8, []) := m_enum _ rfl rfl
theorem m_IU16 : macroCall fuel k "InternalRepr" "U16" c cs [] = .ok (encRepr .u16, []) := m_enum _ rfl rfl
theorem m_IU32 : macroCall fuel k "InternalRepr" "U32" c cs [] = .ok (encRepr .u32, []) := m_enum _ rfl rfl
theorem m_IU64 : macroCall fuel k "InternalRepr" "U64" c cs [] = .ok (encRepr .u64, []) := m_enum _ rfl rfl
theorem m_IU128 : macroCall fuel k "InternalRepr" "U128" c cs [] = .ok (encRepr .u128, []) := m_enum _ rfl rfl
theorem m_IArray (n : Nat) : macroCall fuel k "InternalRepr" "Array" c cs [.int .usize n] =
    .ok (encRepr (.array n), []) := m_enum _ rfl rfl
theorem m_SU8 : macroCall fuel k "SerdeRepr" "U8" c cs [] = .ok (encSerde .u8, []) := m_enum _ rfl rfl
theorem m_SU16 : macroCall fuel k "SerdeRepr" "U16" c cs [] = .ok (encSerde .u16, []) := m_enum _ rfl rfl
theorem m_SU32 : macroCall fuel k "SerdeRepr" "U32" c cs [] = .ok (encSerde .u32, []) := m_enum _ rfl rfl
theorem m_SU64 : macroCall fuel k "SerdeRepr" "U64" c cs [] = .ok (encSerde .u64, []) := m_enum _ rfl rfl
theorem m_SU128 : macroCall fuel k "SerdeRepr" "U128" c cs [] = .ok (encSerde .u128, []) := m_enum _ rfl rfl
theorem m_SList : macroCall fuel k "SerdeRepr" "List" c cs [] = .ok (encSerde .list, []) := m_enum _ rfl rfl
theorem m_SMap : macroCall fuel k "SerdeRepr" "Map" c cs [] = .ok (encSerde .map, []) := m_enum _ rfl rfl
theorem m_SArray : macroCall fuel k "SerdeRepr" "Array" c cs [] = .ok (encSerde .array, []) := m_enum _ rfl rfl

theorem m_VecNew : macroCall fuel k "Vec" "new" c cs [] = .ok (.arr [], []) := by mcore
theorem m_is_empty (xs : List (Val Code)) : macroCall fuel k "array" "is_empty" c cs [.arr xs] =
    .ok (.bool xs.isEmpty, []) := by mcore
theorem m_collect (v : Val Code) : macroCall fuel k "array" "collect" c cs [v] = .ok (v, []) := by
  mcore
theorem m_as_ref (v : Val Code) : macroCall fuel k "Option" "as_ref" c cs [v] = .ok (v, []) := by
  mcore
theorem m_is_some {α : Type} (g : α → Val Code) (o : Option α) :
    macroCall fuel k "Option" "is_some" c cs [opt g o] = .ok (.bool o.isSome, []) := by
  rw [mbase (fn := pureFn fun
    | [.some _] => .ok (.bool true)
    | [.none] => .ok (.bool false)
    | _ => .ub) rfl rfl]
  cases o <;> rfl
theorem m_unwrap_or {α : Type} (g : α → Val Code) (o : Option α) (d : Val Code) :
    macroCall fuel k "Option" "unwrap_or" c cs [opt g o, d] = .ok (o.elim d g, []) := by
  rw [mbase (fn := pureFn fun
    | [.some v, _] => .ok v
    | [.none, d] => .ok d
    | _ => .ub) rfl rfl]
  cases o <;> rfl
theorem m_as_str (v : Val Code) : macroCall fuel k "str" "as_str" c cs [v] = .ok (v, []) := by
  mcore
theorem m_HashSetNew : macroCall fuel k "HashSet" "new" c cs [] = .ok (hashSet [], []) := by
  mcore
theorem m_contains (xs : List (Val Code)) (v : Val Code) :
    macroCall fuel k "HashSet" "contains" c cs [hashSet xs, v] = .ok (.bool (xs.any (sameKey v)), []) := by
  mcore
theorem m_insert (xs : List (Val Code)) (v : Val Code) :
    macroCall fuel k "HashSet" "insert" c cs [hashSet xs, v] =
      .ok (.bool !(xs.any (sameKey v)), [(0, hashSet (v :: xs))]) := by mcore
theorem sameKey_str (s : String) (xs : List String) :
    (xs.map (.str : String → Val Code)).any (sameKey (.str s)) = xs.contains s := by
  rw [Bool.eq_iff_iff]
  simp [sameKey]
theorem sameKey_int (n : Nat) (xs : List Nat) :
    (xs.map (.int .u32 : Nat → Val Code)).any (sameKey (.int .u32 n)) = xs.contains n := by
  rw [Bool.eq_iff_iff]
  simp [sameKey]
theorem m_contains_str (xs : List String) (s : String) :
    macroCall fuel k "HashSet" "contains" c cs [hashSet (xs.map .str), .str s] =
      .ok (.bool (xs.contains s), []) := by rw [m_contains, sameKey_str]
theorem m_contains_int (xs : List Nat) (n : Nat) :
    macroCall fuel k "HashSet" "contains" c cs [hashSet (xs.map (.int .u32)), .int .u32 n] =
      .ok (.bool (xs.contains n), []) := by rw [m_contains, sameKey_int]
theorem m_insert_str (xs : List String) (s : String) :
    macroCall fuel k "HashSet" "insert" c cs [hashSet (xs.map .str), .str s] =
      .ok (.bool !(xs.contains s), [(0, hashSet (.str s :: xs.map .str))]) := by
  rw [m_insert, sameKey_str]
theorem m_insert_int (xs : List Nat) (n : Nat) :
    macroCall fuel k "HashSet" "insert" c cs [hashSet (xs.map (.int .u32)), .int .u32 n] =
      .ok (.bool !(xs.contains n), [(0, hashSet (.int .u32 n :: xs.map (.int .u32)))]) := by
  rw [m_insert, sameKey_int]
theorem m_push (x : Val Code) (xs : List (Val Code)) (hx : ∀ e : Exp, e.adopt x = x) :
    macroCall fuel k "array" "push" c cs [.arr xs, x] = .ok (.unit, [(0, .arr (xs ++ [x]))]) := by
  rw [mbase (fn := fun _ _ args => match args with
    | [.arr xs, v] => .ok (.unit, [(0, .arr (xs ++ [match xs with
      | x :: _ => x.exp.adopt v
      | [] => v]))])
    | _ => .ub) rfl rfl]
  cases xs <;> simp [hx]
theorem m_push_struct (n : String) (fs : List (String × Val Code)) (xs : List (Val Code)) :
    macroCall fuel k "array" "push" c cs [.arr xs, .struct n fs] =
      .ok (.unit, [(0, .arr (xs ++ [.struct n fs]))]) := m_push _ _ fun e => by cases e <;> rfl
theorem m_push_tup (vs : List (Val Code)) (xs : List (Val Code)) :
    macroCall fuel k "array" "push" c cs [.arr xs, .tup vs] =
      .ok (.unit, [(0, .arr (xs ++ [.tup vs]))]) := m_push _ _ fun e => by cases e <;> rfl
theorem m_push_literal (n : Nat) (xs : List (Val Code)) :
    macroCall fuel k "array" "push" c cs [.arr xs, literal n] =
      .ok (.unit, [(0, .arr (xs ++ [literal n]))]) := m_push _ _ fun e => by cases e <;> rfl
theorem m_call_site : macroCall fuel k "Span" "call_site" c cs [] = .ok (encSpan .callSite, []) := by
  mcore
theorem m_IdentNew (s : String) (sp : Val Code) (h : Host.isIdent s = true) :
    macroCall fuel k "Ident" "new" c cs [.str s, sp] = .ok (ident s, []) :=
  (mbase rfl rfl _ _ _).trans (by simp only [pureFn, h]; rfl)
theorem m_IdentNew_panic (s : String) (sp : Val Code) (h : Host.isIdent s = false) :
    macroCall fuel k "Ident" "new" c cs [.str s, sp] = .panic (.explicit "not a valid identifier") :=
  (mbase rfl rfl _ _ _).trans (by simp only [pureFn, h]; rfl)
theorem m_paste (s : String) (sp : Val Code) : macroCall fuel k "Ident" "paste" c cs [.str s, sp] =
    .ok (ident s, []) := by mcore
theorem m_to_string (s : String) : macroCall fuel k "Ident" "to_string" c cs [ident s] =
    .ok (.str s, []) := by mcore
theorem m_IdentClone (v : Val Code) : macroCall fuel k "Ident" "clone" c cs [v] = .ok (v, []) := by
  mcore
theorem m_VisClone (v : Val Code) : macroCall fuel k "Visibility" "clone" c cs [v] = .ok (v, []) := by
  mcore
theorem m_StreamNew : macroCall fuel k "SynTokenStream" "new" c cs [] =
    .ok (.host "TokenStream" (.stmts []), []) := by mcore
theorem m_extend (a b : List Stmt) : macroCall fuel k "TokenStream" "extend" c cs
    [.host "TokenStream" (.stmts a), .host "TokenStream" (.stmts b)] =
    .ok (.unit, [(0, .host "TokenStream" (.stmts (a ++ b)))]) := by mcore
theorem m_into (v : Val Code) : macroCall fuel k "TokenStream" "into" c cs [v] = .ok (v, []) := by
  mcore
theorem m_ErrorNew (sp msg : Val Code) : macroCall fuel k "Error" "new" c cs [sp, msg] =
    .ok (synError sp msg, []) := by mcore
theorem m_span_struct (hf : macroDecl ty "span" = none) (hb : macroBase ty "span" = some spanFn)
    (n : String) (fs : List (String × Val Code)) :
    macroCall fuel k ty "span" c cs [.struct n fs] = need (lookup "span" fs) >>= fun v => .ok (v, []) :=
  mbase hf hb _ _ _
theorem m_span_enum (hf : macroDecl ty "span" = none) (hb : macroBase ty "span" = some spanFn)
    (n v : String) (fs : List (String × Val Code)) :
    macroCall fuel k ty "span" c cs [.enum n v fs] = need (lookup "span" fs) >>= fun v => .ok (v, []) :=
  mbase hf hb _ _ _
theorem m_span_input (fs : List (String × Val Code)) :
    macroCall fuel k "DeriveInput" "span" c cs [.struct "DeriveInput" fs] =
      need (lookup "span" fs) >>= fun v => .ok (v, []) := m_span_struct rfl rfl _ _
theorem m_span_generics (fs : List (String × Val Code)) :
    macroCall fuel k "Generics" "span" c cs [.struct "Generics" fs] =
      need (lookup "span" fs) >>= fun v => .ok (v, []) := m_span_struct rfl rfl _ _
theorem m_span_attribute (fs : List (String × Val Code)) :
    macroCall fuel k "Attribute" "span" c cs [.struct "Attribute" fs] =
      need (lookup "span" fs) >>= fun v => .ok (v, []) := m_span_struct rfl rfl _ _
theorem m_span_variant (fs : List (String × Val Code)) :
    macroCall fuel k "Variant" "span" c cs [.struct "Variant" fs] =
      need (lookup "span" fs) >>= fun v => .ok (v, []) := m_span_struct rfl rfl _ _
theorem m_span_expr (v : String) (fs : List (String × Val Code)) :
    macroCall fuel k "Expr" "span" c cs [.enum "Expr" v fs] =
      need (lookup "span" fs) >>= fun v => .ok (v, []) := m_span_enum rfl rfl _ _ _
theorem m_span_spanned (v : Val Code) (sp : Span) :
    macroCall fuel k "SpannedValue" "span" c cs [spanned v sp] = .ok (encSpan sp, []) :=
  m_span_struct rfl rfl _ _
theorem m_deref (v : Val Code) (sp : Span) :
    macroCall fuel k "SpannedValue" "deref" c cs [spanned v sp] = .ok (v, []) := by mcore
theorem m_path (p : List String) (arg sp : Val Code) :
    macroCall fuel k "Attribute" "path" c cs [synAttribute p arg sp] =
      .ok (synPath p, []) := by mcore
theorem m_parse_args (p : List String) (arg sp : Val Code) :
    macroCall fuel k "Attribute" "parse_args" c cs [synAttribute p arg sp] = .ok (arg, []) := by
  mcore
theorem m_is_ident (p : List String) (s : String) :
    macroCall fuel k "Path" "is_ident" c cs [synPath p, .str s] =
      .ok (.bool (decide (p = [s])), []) := by
  rw [mbase (fn := pureFn fun
    | [.struct _ [(_, .arr xs)], s] => .ok (.bool (match xs with
      | [x] => sameKey x s
      | _ => false))
    | _ => .ub) rfl rfl]
  match p with
  | [] => simp [pureFn, synPath]
  | [x] => by_cases h : x = s <;> simp [pureFn, sameKey, h, synPath]
  | _ :: _ :: _ => simp [pureFn, synPath]
theorem m_base10 (n : Nat) : macroCall fuel k "LitInt" "base10_parse" c cs
    [.struct "LitInt" [("0", .lit n)]] = .ok (if n < 2 ^ 32 then .ok (.int .u32 n) else .err .unit, []) := by
  mcore
theorem m_u64_lit (n : Nat) : macroCall fuel k "Literal" "u64_unsuffixed" c cs [.int .u64 n] =
    .ok (literal n, []) := by mcore
theorem m_u64_lit' (n : Nat) : macroCall fuel k "Literal" "u64_unsuffixed" c cs [.lit n] =
    .ok (literal n, []) := by mcore
theorem m_u128_lit (n : Nat) : macroCall fuel k "Literal" "u128_unsuffixed" c cs [.int .u128 n] =
    .ok (literal n, []) := by mcore

end link

section info
variable {cr : Option String} {hdr : Header} {i : EnumSetInfo}

theorem tag_info : (encInfo cr hdr i).tag = "EnumSetInfo" := rfl
theorem exp_info : (encInfo cr hdr i).exp = .any := rfl
theorem adopt_info (e : Exp) : e.adopt (encInfo cr hdr i) = encInfo cr hdr i := by cases e <;> rfl
theorem tag_repr (r : InternalRepr) : (encRepr r).tag = "InternalRepr" := by cases r <;> rfl
theorem exp_repr (r : InternalRepr) : (encRepr r).exp = .any := by cases r <;> rfl
theorem tag_serde (r : SerdeRepr) : (encSerde r).tag = "SerdeRepr" := by cases r <;> rfl
theorem tag_hashSet (xs : List (Val Code)) : (hashSet xs).tag = "HashSet" := rfl
theorem exp_hashSet (xs : List (Val Code)) : (hashSet xs).exp = .any := rfl
theorem tag_ident (s : String) : (ident s).tag = "Ident" := rfl
theorem tag_spanned (v : Val Code) (sp : Span) : (spanned v sp).tag = "SpannedValue" := rfl
theorem exp_opt_any {α : Type} (g : α → Val Code) (o : Option α) : (opt g o).exp = .any := by
  cases o <;> rfl
theorem get_name : (Proj.field "name").get (encInfo cr hdr i) = .ok (ident hdr.name) := rfl
theorem get_crate_name : (Proj.field "crate_name").get (encInfo cr hdr i) = .ok (opt ident cr) := rfl
theorem get_explicit_internal_repr : (Proj.field "explicit_internal_repr").get (encInfo cr hdr i) = .ok (opt encRepr i.explicit_internal_repr) := rfl
theorem get_internal_repr_force_array : (Proj.field "internal_repr_force_array").get (encInfo cr hdr i) = .ok (.bool i.internal_repr_force_array) := rfl
theorem get_explicit_serde_repr : (Proj.field "explicit_serde_repr").get (encInfo cr hdr i) = .ok (opt encSerde i.explicit_serde_repr) := rfl
theorem get_variants : (Proj.field "variants").get (encInfo cr hdr i) = .ok (.arr (i.variants.map encValue)) := rfl
theorem get_vis : (Proj.field "vis").get (encInfo cr hdr i) = .ok (visibility hdr.vis) := rfl
theorem get_max_discrim : (Proj.field "max_discrim").get (encInfo cr hdr i) = .ok (.int .u32 i.max_discrim) := rfl
theorem get_max_discrim_span : (Proj.field "max_discrim_span").get (encInfo cr hdr i) = .ok (opt encSpan i.max_discrim_span) := rfl
theorem get_cur_discrim : (Proj.field "cur_discrim").get (encInfo cr hdr i) = .ok (.int .u32 i.cur_discrim) := rfl
theorem get_used_variant_names : (Proj.field "used_variant_names").get (encInfo cr hdr i) = .ok (hashSet (i.used_variant_names.map .str)) := rfl
theorem get_used_discriminants : (Proj.field "used_discriminants").get (encInfo cr hdr i) = .ok (hashSet (i.used_discriminants.map (.int .u32))) := rfl
theorem get_no_ops : (Proj.field "no_ops").get (encInfo cr hdr i) = .ok (.bool i.no_ops) := rfl
theorem get_no_super_impls : (Proj.field "no_super_impls").get (encInfo cr hdr i) = .ok (.bool i.no_super_impls) := rfl
theorem get_serialize_deny_unknown : (Proj.field "serialize_deny_unknown").get (encInfo cr hdr i) = .ok (.bool i.serialize_deny_unknown) := rfl
theorem set_explicit_internal_repr (r : InternalRepr) : (Proj.field "explicit_internal_repr").set (encInfo cr hdr i) (.some (encRepr r)) =
    .ok (encInfo cr hdr { i with explicit_internal_repr := some r }) := by
  simp [Proj.set, encInfo, lookup, need, update, exp_opt_any, Exp.adopt, opt]
theorem set_internal_repr_force_array (b : Bool) : (Proj.field "internal_repr_force_array").set (encInfo cr hdr i) (.bool b) =
    .ok (encInfo cr hdr { i with internal_repr_force_array := b }) := rfl
theorem set_explicit_serde_repr (r : SerdeRepr) : (Proj.field "explicit_serde_repr").set (encInfo cr hdr i) (.some (encSerde r)) =
    .ok (encInfo cr hdr { i with explicit_serde_repr := some r }) := by
  simp [Proj.set, encInfo, lookup, need, update, exp_opt_any, Exp.adopt, opt]
theorem set_variants (xs : List EnumSetValue) : (Proj.field "variants").set (encInfo cr hdr i) (.arr (xs.map encValue)) =
    .ok (encInfo cr hdr { i with variants := xs }) := rfl
theorem set_max_discrim (n : Nat) : (Proj.field "max_discrim").set (encInfo cr hdr i) (.int .u32 n) =
    .ok (encInfo cr hdr { i with max_discrim := n }) := rfl
theorem set_max_discrim_span (sp : Span) : (Proj.field "max_discrim_span").set (encInfo cr hdr i) (.some (encSpan sp)) =
    .ok (encInfo cr hdr { i with max_discrim_span := some sp }) := by
  simp [Proj.set, encInfo, lookup, need, update, exp_opt_any, Exp.adopt, opt]
theorem set_cur_discrim (n : Nat) : (Proj.field "cur_discrim").set (encInfo cr hdr i) (.int .u32 n) =
    .ok (encInfo cr hdr { i with cur_discrim := n }) := rfl
theorem set_used_variant_names (xs : List String) : (Proj.field "used_variant_names").set (encInfo cr hdr i) (hashSet (xs.map .str)) =
    .ok (encInfo cr hdr { i with used_variant_names := xs }) := rfl
theorem set_used_discriminants (xs : List Nat) : (Proj.field "used_discriminants").set (encInfo cr hdr i) (hashSet (xs.map (.int .u32))) =
    .ok (encInfo cr hdr { i with used_discriminants := xs }) := rfl
theorem set_variants' (xs : List EnumSetValue) (s : String) (n : Nat) :
    (Proj.field "variants").set (encInfo cr hdr i) (.arr (xs.map encValue ++
        [.struct "EnumSetValue" [("name", ident s), ("variant_repr", .int .u32 n)]])) =
      .ok (encInfo cr hdr { i with variants := xs ++ [{ name := s, variant_repr := n }] }) := by
  have := set_variants (cr := cr) (hdr := hdr) (i := i) (xs ++ [{ name := s, variant_repr := n }])
  rw [List.map_append] at this
  exact this
theorem set_used_variant_names' (s : String) (xs : List String) :
    (Proj.field "used_variant_names").set (encInfo cr hdr i) (hashSet (.str s :: xs.map .str)) =
      .ok (encInfo cr hdr { i with used_variant_names := s :: xs }) := rfl
theorem set_used_discriminants' (n : Nat) (xs : List Nat) :
    (Proj.field "used_discriminants").set (encInfo cr hdr i) (hashSet (.int .u32 n :: xs.map (.int .u32))) =
      .ok (encInfo cr hdr { i with used_discriminants := n :: xs }) := rfl

end info

set_option maxRecDepth 4000 in
/-- Evaluate a function of the macro. -/
macro "mrun" "[" ls:Lean.Parser.Tactic.simpLemma,* "]" : tactic =>
  `(tactic| simp [mbound, evalArms, matchPat, matchPats, matchFields, matchAny, formatVal, tryVal,
    bind_assoc, diverge_bind, map_eq, andThen_val, andThen_ret, andThen_brk, andThen_panic,
    andThen_ub, andThen_bind, andThen_ite, pure_ok, pure_panic, pure_bind, pure_ite, restore_val,
    restore_ret, restore_brk, restore_panic, restore_bind, restore_ite, bind_ite, need_some,
    FnDecl.fn, bindParams, bindGens, inferGens, inferGen, evalStmts, eval, evalArgs, place, writeAt,
    getAt, setAt, writeBack, writeBacks, constArgs, bindPat, bindPats, matches?, lookup, update,
    asIndex_usize, asIndex_lit, adopt_any, adopt_opt, adopt_arr, adopt_app, adopt_lit, adopt_int,
    adopt_bool, adopt_struct, adopt_host, adopt_items, adopt_tup, adopt_none, adopt_some, adopt_unit,
    mutVals, Ctx.tyName, Ctx.exp, Ctx.expArg, method_not, intrinsics, StructDecl.exp,
    ofName_u8, ofName_u16, ofName_u32, ofName_u64, ofName_u128, ofName_usize, ofName_not_Self,
    ofName_not_Option, ofName_not_Vec, ofName_not_bool, ofName_not_Result, ofName_not_T,
    field_struct, set_field, cond_bool, exp_int, exp_lit, exp_bool, exp_struct, exp_arr,
    assign_int, assign_word, assign_bv, add_int, sub_int, mul_int, div_int, rem_int, eq_int, ne_int, lt_int, le_int, gt_int, ge_int, eq_lit,
    cast_int, tag_struct, addW_u32, subW_u32, mulW_u32, castW_u32, addW_usize, subW_usize,
    castW_usize, withClosure, List.lookup, BinOp.isShift,
    mctx_fuel, mctx_self, mctx_alias, mctx_structs, mctx_ty, mctx_call, ms_quote, ms_Vec, ms_HashSet,
    ms_Span, ms_Ident, ms_Error, ms_Literal, ms_Stream, ms_crate, ms_Serde, ms_Internal, ms_Value,
    on_Ident, on_Internal, on_Serde, on_Value, on_Info, on_Vis, on_Span, on_HashSet, on_String, on_Syn,
    on_Stream, on_us, on_str,
    m_IU8, m_IU16, m_IU32, m_IU64, m_IU128, m_IArray, m_SU8, m_SU16, m_SU32, m_SU64, m_SU128, m_SList,
    m_SMap, m_SArray, m_VecNew, m_is_empty, m_collect, m_as_ref, m_is_some, m_unwrap_or, m_as_str,
    m_HashSetNew, m_contains_str, m_contains_int, m_insert_str, m_insert_int, m_push_struct,
    m_push_tup, m_push_literal, set_variants', set_used_variant_names', set_used_discriminants', m_call_site, m_IdentNew, m_IdentNew_panic, m_paste, m_to_string, m_IdentClone, m_VisClone,
    m_StreamNew, m_extend, m_into, m_ErrorNew, m_span_input, m_span_generics, m_span_attribute,
    m_span_variant, m_span_expr, m_span_spanned, m_deref, m_path, m_parse_args, m_is_ident, m_base10,
    m_u64_lit, m_u64_lit', m_u128_lit, opt_some, opt_none, mulW_usize, m_not_bool, mtag_none, mtag_some, mtag_arr, mtag_str, mtag_enum, mtag_host, mtag_opt,
    tag_vis, tag_span, tag_synAttribute, tag_synPath, ms_Info,
    tag_info, exp_info, adopt_info, tag_repr, exp_repr, tag_serde, tag_hashSet, exp_hashSet, tag_ident, tag_spanned, exp_opt_any, get_name, get_crate_name, get_explicit_internal_repr, get_internal_repr_force_array, get_explicit_serde_repr, get_variants, get_vis, get_max_discrim, get_max_discrim_span, get_cur_discrim, get_used_variant_names, get_used_discriminants, get_no_ops, get_no_super_impls, get_serialize_deny_unknown, set_explicit_internal_repr, set_internal_repr_force_array, set_explicit_serde_repr, set_variants, set_max_discrim, set_max_discrim_span, set_cur_discrim, set_used_variant_names, set_used_discriminants, $ls,*])

end Enumset.Src
