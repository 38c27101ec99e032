import Verif.Props.SrcMacroImpl
/-!
# Concrete runs of the functions of the derive macro

The theorems of C70 and C71 on the enum `enum T { A, B = 3, C }` and its relatives.  Every right hand side is a value:
no function of the model is left in it.
-/
set_option autoImplicit false

namespace Enumset.Src.Ex
open scoped Enumset.Ex
open Enumset.Ex (inpT)

section
variable (fuel : Nat)

/-- `error(span, "no")` -/
example : macroCall fuel 1 "crate" "error" [] [] [encSpan .item, .str "no"] =
    .ok (.err (synError (encSpan .item) (.str "no")), []) :=
  C70_crate_error 0 [] [] _ _

/-- `SerdeRepr::U16.supported_variants()`, `SerdeRepr::List.supported_variants()` -/
example : macroCall fuel 1 "SerdeRepr" "supported_variants" [] [] [.enum "SerdeRepr" "U16" []] =
    .ok (.some (.int .usize 16), []) :=
  C70_serde_supported_variants 0 [] [] .u16
example : macroCall fuel 1 "SerdeRepr" "supported_variants" [] [] [.enum "SerdeRepr" "List" []] = .ok (.none, []) :=
  C70_serde_supported_variants 0 [] [] .list

/-- `InternalRepr::Array(3).supported_variants()` -/
example : macroCall fuel 1 "InternalRepr" "supported_variants" [] [] [.enum "InternalRepr" "Array" [("0", .int .usize 3)]] =
    .ok (.int .usize 192, []) :=
  C70_supported_variants 0 [] [] (.array 3) (by intro n h; cases h; decide)

/-- `info.push_repr(span, "array")`: the flag is set. -/
example : macroCall fuel 2 "EnumSetInfo" "push_repr" [] [] [encInfo none hdrT infoT, encSpan .repr, .str "array"] =
    .ok (.ok .unit, [(0, encInfo none hdrT { infoT with internal_repr_force_array := true })]) :=
  C70_push_repr 0 [] [] none hdrT infoT "array"
/-- `info.push_repr(span, "i8")` is refused. -/
example : ∃ w, macroCall fuel 2 "EnumSetInfo" "push_repr" [] [] [encInfo none hdrT infoT, encSpan .repr, .str "i8"] =
    .ok (.err (synError (encSpan .repr) (.str "`i8` is not a valid internal enumset representation.")), [(0, w)]) :=
  C70_push_repr 0 [] [] none hdrT infoT "i8"

/-- `info.push_serialize_repr(span, "map")` -/
example : macroCall fuel 2 "EnumSetInfo" "push_serialize_repr" [] []
      [encInfo none hdrT infoT, encSpan .serializeRepr, .str "map"] =
    .ok (.ok .unit, [(0, encInfo none hdrT { infoT with explicit_serde_repr := some .map })]) :=
  C70_push_serialize_repr 0 [] [] none hdrT infoT "map"

/-- `info.serde_repr()` -/
example : macroCall fuel 1 "EnumSetInfo" "serde_repr" [] [] [encInfo none hdrT infoT] =
    .ok (.enum "SerdeRepr" "U8" [], []) :=
  C70_serde_repr 0 [] [] none hdrT infoT

/-- `info.internal_repr()`, also with `repr = "array"` -/
example : macroCall fuel 1 "EnumSetInfo" "internal_repr" [] [] [encInfo none hdrT infoT] =
    .ok (.enum "InternalRepr" "U8" [], []) :=
  C70_internal_repr 0 [] [] none hdrT infoT (by decide)
example : macroCall fuel 1 "EnumSetInfo" "internal_repr" [] []
      [encInfo none hdrT { infoT with internal_repr_force_array := true }] =
    .ok (.enum "InternalRepr" "Array" [("0", .int .usize 1)], []) :=
  C70_internal_repr 0 [] [] none hdrT _ (by decide)

/-- `info.validate()` -/
example : macroCall fuel 2 "EnumSetInfo" "validate" [] [] [encInfo none hdrT infoT] = .ok (.ok .unit, []) :=
  C70_validate 0 [] [] none hdrT infoT (by decide) (by decide) (by intro n; nofun)

/-- With a variant `Z = 8` and `repr = "u8"` it is refused. -/
example : macroCall fuel 2 "EnumSetInfo" "validate" [] []
      [encInfo none hdrT { infoT with max_discrim := 8, max_discrim_span := some (.variant 3), explicit_internal_repr := some .u8 }] =
    .ok (.err (synError (encSpan (.variant 3)) (.str "`repr` is too small to contain the largest discriminant.")), []) :=
  C70_validate 0 [] [] none hdrT _ (by decide) (by decide) (by intro n; nofun)

/-- `EnumSetInfo::new(&input, &attrs)` -/
example : macroCall fuel 1 "EnumSetInfo" "new" [] [] [synT [], encAttrs { no_ops := true }] =
    .ok (encInfo none hdrT
      { variants := [], max_discrim := 0, max_discrim_span := none, cur_discrim := 0, used_variant_names := [],
        used_discriminants := [], explicit_internal_repr := none, internal_repr_force_array := false,
        explicit_serde_repr := none, no_ops := true, no_super_impls := false, serialize_deny_unknown := false }, []) :=
  C70_new 0 [] [] hdrT _ _ (synT_ok []) _ (fun _ h => by cases h)

/-- `info.push_variant(&variant)` for a fourth variant `D = 9`; a second variant `A` is refused. -/
example : macroCall fuel 2 "EnumSetInfo" "push_variant" [] [] [encInfo none hdrT infoT,
      synUnit 3 "D" (.some (.tup [.unit, .enum "Expr" "Lit" [("0", .struct "ExprLit" [("lit",
        .enum "Lit" "Int" [("0", .struct "LitInt" [("0", .lit 9)])])]), ("span", encSpan (.discriminant 3))]]))] =
    .ok (.ok .unit, [(0, encInfo none hdrT { infoT with
      variants := [⟨"A", 0⟩, ⟨"B", 3⟩, ⟨"C", 4⟩, ⟨"D", 9⟩], max_discrim := 9, max_discrim_span := some (.variant 3),
      cur_discrim := 10, used_variant_names := ["D", "C", "B", "A"], used_discriminants := [9, 4, 3, 0] })]) :=
  C70_push_variant 0 [] [] none hdrT infoT { ident := "D", unit := true, discriminant := some (.lit 9) } _
    (.mk "Unit" _ _ rfl (.some _ _ (.lit 9)))

example : ∃ w, macroCall fuel 2 "EnumSetInfo" "push_variant" [] [] [encInfo none hdrT infoT, synUnit 3 "A" .none] =
    .ok (.err (synError (encSpan (.variant 3)) (.str "Duplicated variant name.")), [(0, w)]) :=
  C70_push_variant 0 [] [] none hdrT infoT { ident := "A" } _ (.mk "Unit" _ _ rfl .none)

/-- `info.variant_map()` -/
example (h : 2 ^ 26 ≤ fuel) : macroCall fuel 1 "EnumSetInfo" "variant_map" [] [] [encInfo none hdrT infoT] =
    .ok (.arr [.int .u64 0b11001], []) :=
  C70_variant_map 0 [] [] none hdrT infoT h (by decide) (by decide)

/-- `enum_set_type_impl(info, warnings)` -/
example (h : 2 ^ 26 ≤ fuel) :
    macroCall fuel 2 "crate" "enum_set_type_impl" [] [] [encInfo none hdrT infoT, encWarnings []] =
      .ok (genTok "T" infoT [], []) :=
  C71_impl h (by decide) [] (by decide) (by decide)

/-- The whole macro, given what `enum_set_type_impl` does. -/
example (h : 2 ^ 26 ≤ fuel) :
    macroCall fuel 4 "crate" "derive_enum_set_type_0" [] [] [synT [], encAttrs {}, encSpan .item] =
      .ok (.ok (genTok "T" infoT []), []) :=
  (C71_run 0 [] [] hdrT (by decide) _ _ (synT_ok []) (fun _ h => nomatch h)
    (fun info => .ok <| DeriveRs.t29.code.subst (DeriveRs.t29.holes.zip (genArgs "T" info [])))
    fun _ h' _ _ => C71_impl h (by decide) _ (deriveInfo_bounds h').1 (deriveInfo_bounds h').2).trans
  (by rw [infoT_ok]; rfl)

/-- A struct and an enum with a type parameter are refused. -/
example : macroCall fuel 4 "crate" "derive_enum_set_type_0" [] []
      [.struct "DeriveInput" [("attrs", .arr []), ("vis", visibility .unit), ("ident", ident "T"),
        ("generics", .struct "Generics" [("params", .arr []), ("span", encSpan .generics)]),
        ("data", .enum "Data" "Struct" []), ("span", encSpan .item), ("from_derive_input", .ok (encAttrs {}))], encAttrs {}, .unit] =
    .ok (.err (synError (encSpan .item) (.str "`#[derive(EnumSetType)]` may only be used on enums")), []) :=
  C71_not_enum 0 [] [] hdrT { isEnum := false, variants := [] } _ _ (.mk [] [] _ (.nil 0) rfl (.other "Struct" [] (by decide) rfl) _)
    rfl rfl
example : macroCall fuel 4 "crate" "derive_enum_set_type_0" [] [] [synT [.unit], encAttrs {}, .unit] =
    .ok (.err (synError (encSpan .generics)
      (.str "`#[derive(EnumSetType)]` cannot be used on enums with type parameters.")), []) :=
  C71_generics 0 [] [] hdrT _ _ _ (synT_ok [.unit]) rfl

end

theorem namesAll {s : String} (h : (hostAll s).isIdent s = true) : @NamesOk (hostAll s) {} :=
  @NamesOk.mk (hostAll s) {} (fun _ h => by cases h) (fun _ _ t ht => by cases ht; exact h)

theorem not_names : ¬ @NamesOk (hostAll "enum-set") {} := fun h =>
  absurd (@NamesOk.found (hostAll "enum-set") {} h rfl rfl _ rfl) (by decide +kernel)

/-- With the feature `std_deprecation_warning` there is a warning in the code. -/
example (fuel : Nat) (h : 2 ^ 26 ≤ fuel) :
    @macroCall (hostAll "enum_set") fuel 4 "crate" "derive_enum_set_type_0" [] [] [synT [], encAttrs {}, encSpan .item] =
      .ok (.ok (genTok "T" infoT [(.item, "feature = \"std\" is depercated. If you rename `enumset`, use \
        feature = \"proc-macro-crate\" instead. If you don't, remove the feature.")]), []) :=
  (@C71_derive (hostAll "enum_set") fuel 0 [] [] hdrT h (by decide) _ (synT []) (namesAll (by decide +kernel))
    (synT_ok [])).trans (by rw [infoT_ok]; rfl)

/-- A name that is no identifier: the macro panics, unless it finds an error. -/
example (fuel : Nat) (h : 2 ^ 26 ≤ fuel) :
    @macroCall (hostAll "enum-set") fuel 4 "crate" "derive_enum_set_type_0" [] [] [synT [], encAttrs {}, encSpan .item] =
      .panic (.explicit "not a valid identifier") :=
  (@C71_panics (hostAll "enum-set") fuel 0 [] [] hdrT h (by decide) _ (synT []) infoT not_names (synT_ok [])
    infoT_ok).trans rfl
example (fuel : Nat) (h : 2 ^ 26 ≤ fuel) :
    @macroCall (hostAll "enum-set") fuel 4 "crate" "derive_enum_set_type_0" [] []
        [synT [.unit], encAttrs {}, encSpan .item] =
      .ok (.err (synError (encSpan .generics)
        (.str "`#[derive(EnumSetType)]` cannot be used on enums with type parameters.")), []) :=
  (@C71_total (hostAll "enum-set") fuel 0 [] [] hdrT h (by decide) _ (synT [.unit]) (synT_ok [.unit])).trans rfl

end Enumset.Src.Ex
