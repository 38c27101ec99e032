import Verif.Src.Syntax
/-!
# `enumset/src/set.rs`

Written by `tools/rs2lean.py`.
-/
set_option autoImplicit false

namespace Enumset.Src.SetRs

/-- `EnumSet::EMPTY_REPR`, enumset/src/set.rs:134 -/
def EnumSet_EMPTY_REPR : FnDecl where
  implGens := []
  gens := []
  params := []
  ret := .name "Self" []
  body := [.tail (.struct "EnumSet" ["__priv_repr"] [.path "T::Repr" "EMPTY"])]

/-- `EnumSet::ALL_REPR`, enumset/src/set.rs:135 -/
def EnumSet_ALL_REPR : FnDecl where
  implGens := []
  gens := []
  params := []
  ret := .name "Self" []
  body := [.tail (.struct "EnumSet" ["__priv_repr"] [.path "T" "ALL_BITS"])]

/-- `EnumSet::new`, enumset/src/set.rs:139-141 -/
def EnumSet_new : FnDecl where
  implGens := []
  gens := []
  params := []
  ret := .name "Self" []
  body := [.tail (.path "Self" "EMPTY_REPR")]

/-- `EnumSet::only`, enumset/src/set.rs:145-149 -/
def EnumSet_only : FnDecl where
  implGens := []
  gens := []
  params := [("t", .name "T" [])]
  ret := .name "Self" []
  body := [.let (.var "set") none (.pcall "Self" "new" [] []), .semi (.mcall (.var "set") "insert"
    [] [.var "t"]), .tail (.var "set")]

/-- `EnumSet::empty`, enumset/src/set.rs:155-157 -/
def EnumSet_empty : FnDecl where
  implGens := []
  gens := []
  params := []
  ret := .name "Self" []
  body := [.tail (.path "Self" "EMPTY_REPR")]

/-- `EnumSet::all`, enumset/src/set.rs:161-163 -/
def EnumSet_all : FnDecl where
  implGens := []
  gens := []
  params := []
  ret := .name "Self" []
  body := [.tail (.path "Self" "ALL_REPR")]

/-- `EnumSet::bit_width`, enumset/src/set.rs:171-173 -/
def EnumSet_bit_width : FnDecl where
  implGens := []
  gens := []
  params := []
  ret := .name "u32" []
  body := [.tail (.path "T" "BIT_WIDTH")]

/-- `EnumSet::variant_count`, enumset/src/set.rs:180-182 -/
def EnumSet_variant_count : FnDecl where
  implGens := []
  gens := []
  params := []
  ret := .name "u32" []
  body := [.tail (.path "T" "VARIANT_COUNT")]

/-- `EnumSet::len`, enumset/src/set.rs:186-188 -/
def EnumSet_len : FnDecl where
  implGens := []
  gens := []
  params := [("self", .ref (.name "Self" []))]
  ret := .name "usize" []
  body := [.tail (.cast (.mcall (.field (.var "self") "__priv_repr") "count_ones" [] []) (.name
    "usize" []))]

/-- `EnumSet::is_empty`, enumset/src/set.rs:191-193 -/
def EnumSet_is_empty : FnDecl where
  implGens := []
  gens := []
  params := [("self", .ref (.name "Self" []))]
  ret := .name "bool" []
  body := [.tail (.mcall (.field (.var "self") "__priv_repr") "is_empty" [] [])]

/-- `EnumSet::clear`, enumset/src/set.rs:196-198 -/
def EnumSet_clear : FnDecl where
  implGens := []
  gens := []
  params := [("self", .refMut (.name "Self" []))]
  ret := .tuple []
  body := [.semi (.assign (.field (.var "self") "__priv_repr") (.path "T::Repr" "EMPTY"))]

/-- `EnumSet::is_disjoint`, enumset/src/set.rs:203-205 -/
def EnumSet_is_disjoint : FnDecl where
  implGens := []
  gens := []
  params := [("self", .ref (.name "Self" [])), ("other", .name "Self" [])]
  ret := .name "bool" []
  body := [.tail (.mcall (.bin .band (.un .deref (.var "self")) (.var "other")) "is_empty" [] [])]

/-- `EnumSet::is_superset`, enumset/src/set.rs:209-211 -/
def EnumSet_is_superset : FnDecl where
  implGens := []
  gens := []
  params := [("self", .ref (.name "Self" [])), ("other", .name "Self" [])]
  ret := .name "bool" []
  body := [.tail (.bin .eq (.field (.bin .band (.un .deref (.var "self")) (.var "other"))
    "__priv_repr") (.field (.var "other") "__priv_repr"))]

/-- `EnumSet::is_subset`, enumset/src/set.rs:215-217 -/
def EnumSet_is_subset : FnDecl where
  implGens := []
  gens := []
  params := [("self", .ref (.name "Self" [])), ("other", .name "Self" [])]
  ret := .name "bool" []
  body := [.tail (.mcall (.var "other") "is_superset" [] [.un .deref (.var "self")])]

/-- `EnumSet::union`, enumset/src/set.rs:221-223 -/
def EnumSet_union : FnDecl where
  implGens := []
  gens := []
  params := [("self", .ref (.name "Self" [])), ("other", .name "Self" [])]
  ret := .name "Self" []
  body := [.tail (.struct "EnumSet" ["__priv_repr"] [.bin .bor (.field (.var "self") "__priv_repr")
    (.field (.var "other") "__priv_repr")])]

/-- `EnumSet::intersection`, enumset/src/set.rs:226-228 -/
def EnumSet_intersection : FnDecl where
  implGens := []
  gens := []
  params := [("self", .ref (.name "Self" [])), ("other", .name "Self" [])]
  ret := .name "Self" []
  body := [.tail (.struct "EnumSet" ["__priv_repr"] [.bin .band (.field (.var "self") "__priv_repr")
    (.field (.var "other") "__priv_repr")])]

/-- `EnumSet::difference`, enumset/src/set.rs:231-233 -/
def EnumSet_difference : FnDecl where
  implGens := []
  gens := []
  params := [("self", .ref (.name "Self" [])), ("other", .name "Self" [])]
  ret := .name "Self" []
  body := [.tail (.struct "EnumSet" ["__priv_repr"] [.mcall (.field (.var "self") "__priv_repr")
    "and_not" [] [.field (.var "other") "__priv_repr"]])]

/-- `EnumSet::symmetrical_difference`, enumset/src/set.rs:237-239 -/
def EnumSet_symmetrical_difference : FnDecl where
  implGens := []
  gens := []
  params := [("self", .ref (.name "Self" [])), ("other", .name "Self" [])]
  ret := .name "Self" []
  body := [.tail (.struct "EnumSet" ["__priv_repr"] [.bin .bxor (.field (.var "self") "__priv_repr")
    (.field (.var "other") "__priv_repr")])]

/-- `EnumSet::complement`, enumset/src/set.rs:242-244 -/
def EnumSet_complement : FnDecl where
  implGens := []
  gens := []
  params := [("self", .ref (.name "Self" []))]
  ret := .name "Self" []
  body := [.tail (.struct "EnumSet" ["__priv_repr"] [.bin .band (.un .not (.field (.var "self")
    "__priv_repr")) (.path "T" "ALL_BITS")])]

/-- `EnumSet::contains`, enumset/src/set.rs:248-250 -/
def EnumSet_contains : FnDecl where
  implGens := []
  gens := []
  params := [("self", .ref (.name "Self" [])), ("value", .name "T" [])]
  ret := .name "bool" []
  body := [.tail (.mcall (.field (.var "self") "__priv_repr") "has_bit" [] [.mcall (.var "value")
    "enum_into_u32" [] []])]

/-- `EnumSet::insert`, enumset/src/set.rs:258-262 -/
def EnumSet_insert : FnDecl where
  implGens := []
  gens := []
  params := [("self", .refMut (.name "Self" [])), ("value", .name "T" [])]
  ret := .name "bool" []
  body := [.let (.var "contains") none (.un .not (.mcall (.var "self") "contains" [] [.var
    "value"])), .semi (.mcall (.field (.var "self") "__priv_repr") "add_bit" [] [.mcall (.var
    "value") "enum_into_u32" [] []]), .tail (.var "contains")]

/-- `EnumSet::remove`, enumset/src/set.rs:265-269 -/
def EnumSet_remove : FnDecl where
  implGens := []
  gens := []
  params := [("self", .refMut (.name "Self" [])), ("value", .name "T" [])]
  ret := .name "bool" []
  body := [.let (.var "contains") none (.mcall (.var "self") "contains" [] [.var "value"]), .semi
    (.mcall (.field (.var "self") "__priv_repr") "remove_bit" [] [.mcall (.var "value")
    "enum_into_u32" [] []]), .tail (.var "contains")]

/-- `EnumSet::insert_all`, enumset/src/set.rs:273-275 -/
def EnumSet_insert_all : FnDecl where
  implGens := []
  gens := []
  params := [("self", .refMut (.name "Self" [])), ("other", .name "Self" [])]
  ret := .tuple []
  body := [.tail (.assign (.field (.var "self") "__priv_repr") (.bin .bor (.field (.var "self")
    "__priv_repr") (.field (.var "other") "__priv_repr")))]

/-- `EnumSet::remove_all`, enumset/src/set.rs:278-280 -/
def EnumSet_remove_all : FnDecl where
  implGens := []
  gens := []
  params := [("self", .refMut (.name "Self" [])), ("other", .name "Self" [])]
  ret := .tuple []
  body := [.semi (.assign (.field (.var "self") "__priv_repr") (.mcall (.field (.var "self")
    "__priv_repr") "and_not" [] [.field (.var "other") "__priv_repr"]))]

/-- `EnumSet::__impl_enumset_internal__const_helper`, enumset/src/set.rs:290-292 -/
def EnumSet___impl_enumset_internal__const_helper : FnDecl where
  implGens := []
  gens := []
  params := [("self", .ref (.name "Self" []))]
  ret := .name "T::ConstHelper" []
  body := [.tail (.path "T" "CONST_HELPER_INSTANCE")]

/-- `EnumSet::__impl_enumset_internal__const_only`, enumset/src/set.rs:299-301 -/
def EnumSet___impl_enumset_internal__const_only : FnDecl where
  implGens := []
  gens := []
  params := [("self", .name "Self" [])]
  ret := .name "Self" []
  body := [.tail (.var "self")]

/-- `EnumSet::default`, enumset/src/set.rs:306-308 -/
def EnumSet_default : FnDecl where
  implGens := []
  gens := []
  params := []
  ret := .name "Self" []
  body := [.tail (.pcall "Self" "new" [] [])]

/-- `EnumSet::sub`, enumset/src/set.rs:314-316 -/
def EnumSet_sub : FnDecl where
  implGens := []
  gens := []
  params := [("self", .name "Self" []), ("other", .name "O" [])]
  ret := .name "Self::Output" []
  body := [.tail (.mcall (.var "self") "difference" [] [.mcall (.var "other") "into" [] []])]

/-- `EnumSet::bitand`, enumset/src/set.rs:321-323 -/
def EnumSet_bitand : FnDecl where
  implGens := []
  gens := []
  params := [("self", .name "Self" []), ("other", .name "O" [])]
  ret := .name "Self::Output" []
  body := [.tail (.mcall (.var "self") "intersection" [] [.mcall (.var "other") "into" [] []])]

/-- `EnumSet::bitor`, enumset/src/set.rs:328-330 -/
def EnumSet_bitor : FnDecl where
  implGens := []
  gens := []
  params := [("self", .name "Self" []), ("other", .name "O" [])]
  ret := .name "Self::Output" []
  body := [.tail (.mcall (.var "self") "union" [] [.mcall (.var "other") "into" [] []])]

/-- `EnumSet::bitxor`, enumset/src/set.rs:335-337 -/
def EnumSet_bitxor : FnDecl where
  implGens := []
  gens := []
  params := [("self", .name "Self" []), ("other", .name "O" [])]
  ret := .name "Self::Output" []
  body := [.tail (.mcall (.var "self") "symmetrical_difference" [] [.mcall (.var "other") "into" []
    []])]

/-- `EnumSet::sub_assign`, enumset/src/set.rs:342-344 -/
def EnumSet_sub_assign : FnDecl where
  implGens := []
  gens := []
  params := [("self", .refMut (.name "Self" [])), ("rhs", .name "O" [])]
  ret := .tuple []
  body := [.semi (.assign (.un .deref (.var "self")) (.bin .sub (.un .deref (.var "self")) (.var
    "rhs")))]

/-- `EnumSet::bitand_assign`, enumset/src/set.rs:348-350 -/
def EnumSet_bitand_assign : FnDecl where
  implGens := []
  gens := []
  params := [("self", .refMut (.name "Self" [])), ("rhs", .name "O" [])]
  ret := .tuple []
  body := [.semi (.assign (.un .deref (.var "self")) (.bin .band (.un .deref (.var "self")) (.var
    "rhs")))]

/-- `EnumSet::bitor_assign`, enumset/src/set.rs:354-356 -/
def EnumSet_bitor_assign : FnDecl where
  implGens := []
  gens := []
  params := [("self", .refMut (.name "Self" [])), ("rhs", .name "O" [])]
  ret := .tuple []
  body := [.semi (.assign (.un .deref (.var "self")) (.bin .bor (.un .deref (.var "self")) (.var
    "rhs")))]

/-- `EnumSet::bitxor_assign`, enumset/src/set.rs:360-362 -/
def EnumSet_bitxor_assign : FnDecl where
  implGens := []
  gens := []
  params := [("self", .refMut (.name "Self" [])), ("rhs", .name "O" [])]
  ret := .tuple []
  body := [.semi (.assign (.un .deref (.var "self")) (.bin .bxor (.un .deref (.var "self")) (.var
    "rhs")))]

/-- `EnumSet::not`, enumset/src/set.rs:368-370 -/
def EnumSet_not : FnDecl where
  implGens := []
  gens := []
  params := [("self", .name "Self" [])]
  ret := .name "Self::Output" []
  body := [.tail (.mcall (.var "self") "complement" [] [])]

/-- `EnumSet::from`, enumset/src/set.rs:374-376 -/
def EnumSet_from : FnDecl where
  implGens := []
  gens := []
  params := [("t", .name "T" [])]
  ret := .name "Self" []
  body := [.tail (.pcall "EnumSet" "only" [] [.var "t"])]

/-- `EnumSet::eq_variant`, enumset/src/set.rs:380-382 -/
def EnumSet_eq_variant : FnDecl where
  implGens := []
  gens := []
  params := [("self", .ref (.name "Self" [])), ("other", .ref (.name "T" []))]
  ret := .name "bool" []
  body := [.tail (.bin .eq (.field (.var "self") "__priv_repr") (.field (.pcall "EnumSet" "only" []
    [.un .deref (.var "other")]) "__priv_repr"))]

/-- `EnumSet::fmt_debug`, enumset/src/set.rs:386-399 -/
def EnumSet_fmt_debug : FnDecl where
  implGens := []
  gens := []
  params := [("self", .ref (.name "Self" [])), ("f", .refMut (.name "Formatter" []))]
  ret := .name "core::fmt::Result" []
  body := [.let (.var "is_first") none (.bool true), .semi (.try (.mcall (.var "f") "write_str" []
    [.str "EnumSet("])), .semi (.for (.var "v") (.mcall (.var "self") "iter" [] []) (.block [.semi
    (.ite (.un .not (.var "is_first")) (.block [.semi (.try (.mcall (.var "f") "write_str" [] [.str
    " | "]))]) (.block [])), .semi (.assign (.var "is_first") (.bool false)), .semi (.try (.mcall
    (.var "v") "fmt" [] [.var "f"]))])), .semi (.try (.mcall (.var "f") "write_str" [] [.str ")"])),
    .tail (.ok (.tuple []))]

/-- `EnumSet::fmt_display`, enumset/src/set.rs:402-412 -/
def EnumSet_fmt_display : FnDecl where
  implGens := []
  gens := []
  params := [("self", .ref (.name "Self" [])), ("f", .refMut (.name "Formatter" []))]
  ret := .name "core::fmt::Result" []
  body := [.let (.var "is_first") none (.bool true), .semi (.for (.var "v") (.mcall (.var "self")
    "iter" [] []) (.block [.semi (.ite (.un .not (.var "is_first")) (.block [.semi (.try (.mcall
    (.var "f") "write_str" [] [.str " | "]))]) (.block [])), .semi (.assign (.var "is_first") (.bool
    false)), .semi (.try (.mcall (.var "v") "fmt" [] [.var "f"]))])), .tail (.ok (.tuple []))]

/-- `EnumSet::hash`, enumset/src/set.rs:417-419 -/
def EnumSet_hash : FnDecl where
  implGens := []
  gens := []
  params := [("self", .ref (.name "Self" [])), ("state", .refMut (.name "H" []))]
  ret := .tuple []
  body := [.tail (.mcall (.field (.var "self") "__priv_repr") "hash" [] [.var "state"])]

/-- `EnumSet::partial_cmp`, enumset/src/set.rs:423-425 -/
def EnumSet_partial_cmp : FnDecl where
  implGens := []
  gens := []
  params := [("self", .ref (.name "Self" [])), ("other", .ref (.name "Self" []))]
  ret := .name "Option" [.name "Ordering" []]
  body := [.tail (.mcall (.field (.var "self") "__priv_repr") "partial_cmp" [] [.un .ref (.field
    (.var "other") "__priv_repr")])]

/-- `EnumSet::cmp`, enumset/src/set.rs:428-430 -/
def EnumSet_cmp : FnDecl where
  implGens := []
  gens := []
  params := [("self", .ref (.name "Self" [])), ("other", .ref (.name "Self" []))]
  ret := .name "Ordering" []
  body := [.tail (.mcall (.field (.var "self") "__priv_repr") "cmp" [] [.un .ref (.field (.var
    "other") "__priv_repr")])]

/-- `EnumSet::serialize`, enumset/src/set.rs:435-437 -/
def EnumSet_serialize : FnDecl where
  implGens := []
  gens := []
  params := [("self", .ref (.name "Self" [])), ("serializer", .name "S" [])]
  ret := .name "Result" [.name "S::Ok" [], .name "S::Error" []]
  body := [.tail (.pcall "T" "serialize" [] [.un .deref (.var "self"), .var "serializer"])]

/-- `EnumSet::deserialize`, enumset/src/set.rs:442-444 -/
def EnumSet_deserialize : FnDecl where
  implGens := []
  gens := []
  params := [("deserializer", .name "D" [])]
  ret := .name "Result" [.name "Self" [], .name "D::Error" []]
  body := [.tail (.pcall "T" "deserialize" [] [.var "deserializer"])]

/-- `EnumSet::EMPTY`, enumset/src/set.rs:455 -/
def EnumSet_EMPTY : FnDecl where
  implGens := []
  gens := []
  params := []
  ret := .name "Self" []
  body := [.tail (.path "Self" "EMPTY_REPR")]

/-- `EnumSet::ALL`, enumset/src/set.rs:461 -/
def EnumSet_ALL : FnDecl where
  implGens := []
  gens := []
  params := []
  ret := .name "Self" []
  body := [.tail (.path "Self" "ALL_REPR")]

/-- `EnumSet::as_repr`, enumset/src/set.rs:475-477 -/
def EnumSet_as_repr : FnDecl where
  implGens := []
  gens := []
  params := [("self", .ref (.name "Self" []))]
  ret := .name "T::Repr" []
  body := [.tail (.field (.var "self") "__priv_repr")]

/-- `EnumSet::from_repr_unchecked`, enumset/src/set.rs:492-494 -/
def EnumSet_from_repr_unchecked : FnDecl where
  implGens := []
  gens := []
  params := [("bits", .name "T::Repr" [])]
  ret := .name "Self" []
  body := [.tail (.struct "Self" ["__priv_repr"] [.var "bits"])]

/-- `EnumSet::from_repr`, enumset/src/set.rs:504-506 -/
def EnumSet_from_repr : FnDecl where
  implGens := []
  gens := []
  params := [("bits", .name "T::Repr" [])]
  ret := .name "Self" []
  body := [.tail (.mcall (.pcall "Self" "try_from_repr" [] [.var "bits"]) "expect" [] [.str
    "Bitset contains invalid variants."])]

/-- `EnumSet::try_from_repr`, enumset/src/set.rs:516-523 -/
def EnumSet_try_from_repr : FnDecl where
  implGens := []
  gens := []
  params := [("bits", .name "T::Repr" [])]
  ret := .name "Option" [.name "Self" []]
  body := [.let (.var "mask") none (.field (.pcall "Self" "all" [] []) "__priv_repr"), .tail (.ite
    (.mcall (.mcall (.var "bits") "and_not" [] [.var "mask"]) "is_empty" [] []) (.block [.tail
    (.some (.struct "EnumSet" ["__priv_repr"] [.var "bits"]))]) (.block [.tail (.none)]))]

/-- `EnumSet::from_repr_truncated`, enumset/src/set.rs:530-534 -/
def EnumSet_from_repr_truncated : FnDecl where
  implGens := []
  gens := []
  params := [("bits", .name "T::Repr" [])]
  ret := .name "Self" []
  body := [.let (.var "mask") none (.mcall (.pcall "Self" "all" [] []) "as_repr" [] []), .let (.var
    "bits") none (.bin .band (.var "bits") (.var "mask")), .tail (.struct "EnumSet" ["__priv_repr"]
    [.var "bits"])]

/-- `EnumSet::as_u8`, enumset/src/set.rs:555-557 -/
def EnumSet_as_u8 : FnDecl where
  implGens := []
  gens := []
  params := [("self", .ref (.name "Self" []))]
  ret := .name "u8" []
  body := [.tail (.mcall (.mcall (.var "self") "try_as_u8" [] []) "expect" [] [.str
    "Bitset will not fit into this type."])]

/-- `EnumSet::try_as_u8`, enumset/src/set.rs:566-568 -/
def EnumSet_try_as_u8 : FnDecl where
  implGens := []
  gens := []
  params := [("self", .ref (.name "Self" []))]
  ret := .name "Option" [.name "u8" []]
  body := [.tail (.pcall "EnumSetTypeRepr" "to_u8_opt" [] [.un .ref (.field (.var "self")
    "__priv_repr")])]

/-- `EnumSet::as_u8_truncated`, enumset/src/set.rs:577-579 -/
def EnumSet_as_u8_truncated : FnDecl where
  implGens := []
  gens := []
  params := [("self", .ref (.name "Self" []))]
  ret := .name "u8" []
  body := [.tail (.pcall "EnumSetTypeRepr" "to_u8" [] [.un .ref (.field (.var "self")
    "__priv_repr")])]

/-- `EnumSet::from_u8`, enumset/src/set.rs:586-588 -/
def EnumSet_from_u8 : FnDecl where
  implGens := []
  gens := []
  params := [("bits", .name "u8" [])]
  ret := .name "Self" []
  body := [.tail (.mcall (.pcall "Self" "try_from_u8" [] [.var "bits"]) "expect" [] [.str
    "Bitset contains invalid variants."])]

/-- `EnumSet::try_from_u8`, enumset/src/set.rs:595-603 -/
def EnumSet_try_from_u8 : FnDecl where
  implGens := []
  gens := []
  params := [("bits", .name "u8" [])]
  ret := .name "Option" [.name "Self" []]
  body := [.let (.var "bits") none (.pcall "T::Repr" "from_u8_opt" [] [.var "bits"]), .let (.var
    "mask") none (.path "T" "ALL_BITS"), .tail (.mclosure (.var "bits") "and_then" (.var "bits")
    (.ite (.mcall (.mcall (.var "bits") "and_not" [] [.var "mask"]) "is_empty" [] []) (.block [.tail
    (.some (.struct "EnumSet" ["__priv_repr"] [.var "bits"]))]) (.block [.tail (.none)])))]

/-- `EnumSet::from_u8_truncated`, enumset/src/set.rs:609-613 -/
def EnumSet_from_u8_truncated : FnDecl where
  implGens := []
  gens := []
  params := [("bits", .name "u8" [])]
  ret := .name "Self" []
  body := [.let (.var "mask") none (.mcall (.pcall "Self" "all" [] []) "as_u8_truncated" [] []),
    .let (.var "bits") none (.pcall "T::Repr" "from_u8" [] [.bin .band (.var "bits") (.var
    "mask")]), .tail (.struct "EnumSet" ["__priv_repr"] [.var "bits"])]

/-- `EnumSet::from_u8_unchecked`, enumset/src/set.rs:625-627 -/
def EnumSet_from_u8_unchecked : FnDecl where
  implGens := []
  gens := []
  params := [("bits", .name "u8" [])]
  ret := .name "Self" []
  body := [.tail (.struct "EnumSet" ["__priv_repr"] [.pcall "T::Repr" "from_u8" [] [.var "bits"]])]

/-- `EnumSet::as_u16`, enumset/src/set.rs:555-557 -/
def EnumSet_as_u16 : FnDecl where
  implGens := []
  gens := []
  params := [("self", .ref (.name "Self" []))]
  ret := .name "u16" []
  body := [.tail (.mcall (.mcall (.var "self") "try_as_u16" [] []) "expect" [] [.str
    "Bitset will not fit into this type."])]

/-- `EnumSet::try_as_u16`, enumset/src/set.rs:566-568 -/
def EnumSet_try_as_u16 : FnDecl where
  implGens := []
  gens := []
  params := [("self", .ref (.name "Self" []))]
  ret := .name "Option" [.name "u16" []]
  body := [.tail (.pcall "EnumSetTypeRepr" "to_u16_opt" [] [.un .ref (.field (.var "self")
    "__priv_repr")])]

/-- `EnumSet::as_u16_truncated`, enumset/src/set.rs:577-579 -/
def EnumSet_as_u16_truncated : FnDecl where
  implGens := []
  gens := []
  params := [("self", .ref (.name "Self" []))]
  ret := .name "u16" []
  body := [.tail (.pcall "EnumSetTypeRepr" "to_u16" [] [.un .ref (.field (.var "self")
    "__priv_repr")])]

/-- `EnumSet::from_u16`, enumset/src/set.rs:586-588 -/
def EnumSet_from_u16 : FnDecl where
  implGens := []
  gens := []
  params := [("bits", .name "u16" [])]
  ret := .name "Self" []
  body := [.tail (.mcall (.pcall "Self" "try_from_u16" [] [.var "bits"]) "expect" [] [.str
    "Bitset contains invalid variants."])]

/-- `EnumSet::try_from_u16`, enumset/src/set.rs:595-603 -/
def EnumSet_try_from_u16 : FnDecl where
  implGens := []
  gens := []
  params := [("bits", .name "u16" [])]
  ret := .name "Option" [.name "Self" []]
  body := [.let (.var "bits") none (.pcall "T::Repr" "from_u16_opt" [] [.var "bits"]), .let (.var
    "mask") none (.path "T" "ALL_BITS"), .tail (.mclosure (.var "bits") "and_then" (.var "bits")
    (.ite (.mcall (.mcall (.var "bits") "and_not" [] [.var "mask"]) "is_empty" [] []) (.block [.tail
    (.some (.struct "EnumSet" ["__priv_repr"] [.var "bits"]))]) (.block [.tail (.none)])))]

/-- `EnumSet::from_u16_truncated`, enumset/src/set.rs:609-613 -/
def EnumSet_from_u16_truncated : FnDecl where
  implGens := []
  gens := []
  params := [("bits", .name "u16" [])]
  ret := .name "Self" []
  body := [.let (.var "mask") none (.mcall (.pcall "Self" "all" [] []) "as_u16_truncated" [] []),
    .let (.var "bits") none (.pcall "T::Repr" "from_u16" [] [.bin .band (.var "bits") (.var
    "mask")]), .tail (.struct "EnumSet" ["__priv_repr"] [.var "bits"])]

/-- `EnumSet::from_u16_unchecked`, enumset/src/set.rs:625-627 -/
def EnumSet_from_u16_unchecked : FnDecl where
  implGens := []
  gens := []
  params := [("bits", .name "u16" [])]
  ret := .name "Self" []
  body := [.tail (.struct "EnumSet" ["__priv_repr"] [.pcall "T::Repr" "from_u16" [] [.var "bits"]])]

/-- `EnumSet::as_u32`, enumset/src/set.rs:555-557 -/
def EnumSet_as_u32 : FnDecl where
  implGens := []
  gens := []
  params := [("self", .ref (.name "Self" []))]
  ret := .name "u32" []
  body := [.tail (.mcall (.mcall (.var "self") "try_as_u32" [] []) "expect" [] [.str
    "Bitset will not fit into this type."])]

/-- `EnumSet::try_as_u32`, enumset/src/set.rs:566-568 -/
def EnumSet_try_as_u32 : FnDecl where
  implGens := []
  gens := []
  params := [("self", .ref (.name "Self" []))]
  ret := .name "Option" [.name "u32" []]
  body := [.tail (.pcall "EnumSetTypeRepr" "to_u32_opt" [] [.un .ref (.field (.var "self")
    "__priv_repr")])]

/-- `EnumSet::as_u32_truncated`, enumset/src/set.rs:577-579 -/
def EnumSet_as_u32_truncated : FnDecl where
  implGens := []
  gens := []
  params := [("self", .ref (.name "Self" []))]
  ret := .name "u32" []
  body := [.tail (.pcall "EnumSetTypeRepr" "to_u32" [] [.un .ref (.field (.var "self")
    "__priv_repr")])]

/-- `EnumSet::from_u32`, enumset/src/set.rs:586-588 -/
def EnumSet_from_u32 : FnDecl where
  implGens := []
  gens := []
  params := [("bits", .name "u32" [])]
  ret := .name "Self" []
  body := [.tail (.mcall (.pcall "Self" "try_from_u32" [] [.var "bits"]) "expect" [] [.str
    "Bitset contains invalid variants."])]

/-- `EnumSet::try_from_u32`, enumset/src/set.rs:595-603 -/
def EnumSet_try_from_u32 : FnDecl where
  implGens := []
  gens := []
  params := [("bits", .name "u32" [])]
  ret := .name "Option" [.name "Self" []]
  body := [.let (.var "bits") none (.pcall "T::Repr" "from_u32_opt" [] [.var "bits"]), .let (.var
    "mask") none (.path "T" "ALL_BITS"), .tail (.mclosure (.var "bits") "and_then" (.var "bits")
    (.ite (.mcall (.mcall (.var "bits") "and_not" [] [.var "mask"]) "is_empty" [] []) (.block [.tail
    (.some (.struct "EnumSet" ["__priv_repr"] [.var "bits"]))]) (.block [.tail (.none)])))]

/-- `EnumSet::from_u32_truncated`, enumset/src/set.rs:609-613 -/
def EnumSet_from_u32_truncated : FnDecl where
  implGens := []
  gens := []
  params := [("bits", .name "u32" [])]
  ret := .name "Self" []
  body := [.let (.var "mask") none (.mcall (.pcall "Self" "all" [] []) "as_u32_truncated" [] []),
    .let (.var "bits") none (.pcall "T::Repr" "from_u32" [] [.bin .band (.var "bits") (.var
    "mask")]), .tail (.struct "EnumSet" ["__priv_repr"] [.var "bits"])]

/-- `EnumSet::from_u32_unchecked`, enumset/src/set.rs:625-627 -/
def EnumSet_from_u32_unchecked : FnDecl where
  implGens := []
  gens := []
  params := [("bits", .name "u32" [])]
  ret := .name "Self" []
  body := [.tail (.struct "EnumSet" ["__priv_repr"] [.pcall "T::Repr" "from_u32" [] [.var "bits"]])]

/-- `EnumSet::as_u64`, enumset/src/set.rs:555-557 -/
def EnumSet_as_u64 : FnDecl where
  implGens := []
  gens := []
  params := [("self", .ref (.name "Self" []))]
  ret := .name "u64" []
  body := [.tail (.mcall (.mcall (.var "self") "try_as_u64" [] []) "expect" [] [.str
    "Bitset will not fit into this type."])]

/-- `EnumSet::try_as_u64`, enumset/src/set.rs:566-568 -/
def EnumSet_try_as_u64 : FnDecl where
  implGens := []
  gens := []
  params := [("self", .ref (.name "Self" []))]
  ret := .name "Option" [.name "u64" []]
  body := [.tail (.pcall "EnumSetTypeRepr" "to_u64_opt" [] [.un .ref (.field (.var "self")
    "__priv_repr")])]

/-- `EnumSet::as_u64_truncated`, enumset/src/set.rs:577-579 -/
def EnumSet_as_u64_truncated : FnDecl where
  implGens := []
  gens := []
  params := [("self", .ref (.name "Self" []))]
  ret := .name "u64" []
  body := [.tail (.pcall "EnumSetTypeRepr" "to_u64" [] [.un .ref (.field (.var "self")
    "__priv_repr")])]

/-- `EnumSet::from_u64`, enumset/src/set.rs:586-588 -/
def EnumSet_from_u64 : FnDecl where
  implGens := []
  gens := []
  params := [("bits", .name "u64" [])]
  ret := .name "Self" []
  body := [.tail (.mcall (.pcall "Self" "try_from_u64" [] [.var "bits"]) "expect" [] [.str
    "Bitset contains invalid variants."])]

/-- `EnumSet::try_from_u64`, enumset/src/set.rs:595-603 -/
def EnumSet_try_from_u64 : FnDecl where
  implGens := []
  gens := []
  params := [("bits", .name "u64" [])]
  ret := .name "Option" [.name "Self" []]
  body := [.let (.var "bits") none (.pcall "T::Repr" "from_u64_opt" [] [.var "bits"]), .let (.var
    "mask") none (.path "T" "ALL_BITS"), .tail (.mclosure (.var "bits") "and_then" (.var "bits")
    (.ite (.mcall (.mcall (.var "bits") "and_not" [] [.var "mask"]) "is_empty" [] []) (.block [.tail
    (.some (.struct "EnumSet" ["__priv_repr"] [.var "bits"]))]) (.block [.tail (.none)])))]

/-- `EnumSet::from_u64_truncated`, enumset/src/set.rs:609-613 -/
def EnumSet_from_u64_truncated : FnDecl where
  implGens := []
  gens := []
  params := [("bits", .name "u64" [])]
  ret := .name "Self" []
  body := [.let (.var "mask") none (.mcall (.pcall "Self" "all" [] []) "as_u64_truncated" [] []),
    .let (.var "bits") none (.pcall "T::Repr" "from_u64" [] [.bin .band (.var "bits") (.var
    "mask")]), .tail (.struct "EnumSet" ["__priv_repr"] [.var "bits"])]

/-- `EnumSet::from_u64_unchecked`, enumset/src/set.rs:625-627 -/
def EnumSet_from_u64_unchecked : FnDecl where
  implGens := []
  gens := []
  params := [("bits", .name "u64" [])]
  ret := .name "Self" []
  body := [.tail (.struct "EnumSet" ["__priv_repr"] [.pcall "T::Repr" "from_u64" [] [.var "bits"]])]

/-- `EnumSet::as_u128`, enumset/src/set.rs:555-557 -/
def EnumSet_as_u128 : FnDecl where
  implGens := []
  gens := []
  params := [("self", .ref (.name "Self" []))]
  ret := .name "u128" []
  body := [.tail (.mcall (.mcall (.var "self") "try_as_u128" [] []) "expect" [] [.str
    "Bitset will not fit into this type."])]

/-- `EnumSet::try_as_u128`, enumset/src/set.rs:566-568 -/
def EnumSet_try_as_u128 : FnDecl where
  implGens := []
  gens := []
  params := [("self", .ref (.name "Self" []))]
  ret := .name "Option" [.name "u128" []]
  body := [.tail (.pcall "EnumSetTypeRepr" "to_u128_opt" [] [.un .ref (.field (.var "self")
    "__priv_repr")])]

/-- `EnumSet::as_u128_truncated`, enumset/src/set.rs:577-579 -/
def EnumSet_as_u128_truncated : FnDecl where
  implGens := []
  gens := []
  params := [("self", .ref (.name "Self" []))]
  ret := .name "u128" []
  body := [.tail (.pcall "EnumSetTypeRepr" "to_u128" [] [.un .ref (.field (.var "self")
    "__priv_repr")])]

/-- `EnumSet::from_u128`, enumset/src/set.rs:586-588 -/
def EnumSet_from_u128 : FnDecl where
  implGens := []
  gens := []
  params := [("bits", .name "u128" [])]
  ret := .name "Self" []
  body := [.tail (.mcall (.pcall "Self" "try_from_u128" [] [.var "bits"]) "expect" [] [.str
    "Bitset contains invalid variants."])]

/-- `EnumSet::try_from_u128`, enumset/src/set.rs:595-603 -/
def EnumSet_try_from_u128 : FnDecl where
  implGens := []
  gens := []
  params := [("bits", .name "u128" [])]
  ret := .name "Option" [.name "Self" []]
  body := [.let (.var "bits") none (.pcall "T::Repr" "from_u128_opt" [] [.var "bits"]), .let (.var
    "mask") none (.path "T" "ALL_BITS"), .tail (.mclosure (.var "bits") "and_then" (.var "bits")
    (.ite (.mcall (.mcall (.var "bits") "and_not" [] [.var "mask"]) "is_empty" [] []) (.block [.tail
    (.some (.struct "EnumSet" ["__priv_repr"] [.var "bits"]))]) (.block [.tail (.none)])))]

/-- `EnumSet::from_u128_truncated`, enumset/src/set.rs:609-613 -/
def EnumSet_from_u128_truncated : FnDecl where
  implGens := []
  gens := []
  params := [("bits", .name "u128" [])]
  ret := .name "Self" []
  body := [.let (.var "mask") none (.mcall (.pcall "Self" "all" [] []) "as_u128_truncated" [] []),
    .let (.var "bits") none (.pcall "T::Repr" "from_u128" [] [.bin .band (.var "bits") (.var
    "mask")]), .tail (.struct "EnumSet" ["__priv_repr"] [.var "bits"])]

/-- `EnumSet::from_u128_unchecked`, enumset/src/set.rs:625-627 -/
def EnumSet_from_u128_unchecked : FnDecl where
  implGens := []
  gens := []
  params := [("bits", .name "u128" [])]
  ret := .name "Self" []
  body := [.tail (.struct "EnumSet" ["__priv_repr"] [.pcall "T::Repr" "from_u128" [] [.var
    "bits"]])]

/-- `EnumSet::as_usize`, enumset/src/set.rs:555-557 -/
def EnumSet_as_usize : FnDecl where
  implGens := []
  gens := []
  params := [("self", .ref (.name "Self" []))]
  ret := .name "usize" []
  body := [.tail (.mcall (.mcall (.var "self") "try_as_usize" [] []) "expect" [] [.str
    "Bitset will not fit into this type."])]

/-- `EnumSet::try_as_usize`, enumset/src/set.rs:566-568 -/
def EnumSet_try_as_usize : FnDecl where
  implGens := []
  gens := []
  params := [("self", .ref (.name "Self" []))]
  ret := .name "Option" [.name "usize" []]
  body := [.tail (.pcall "EnumSetTypeRepr" "to_usize_opt" [] [.un .ref (.field (.var "self")
    "__priv_repr")])]

/-- `EnumSet::as_usize_truncated`, enumset/src/set.rs:577-579 -/
def EnumSet_as_usize_truncated : FnDecl where
  implGens := []
  gens := []
  params := [("self", .ref (.name "Self" []))]
  ret := .name "usize" []
  body := [.tail (.pcall "EnumSetTypeRepr" "to_usize" [] [.un .ref (.field (.var "self")
    "__priv_repr")])]

/-- `EnumSet::from_usize`, enumset/src/set.rs:586-588 -/
def EnumSet_from_usize : FnDecl where
  implGens := []
  gens := []
  params := [("bits", .name "usize" [])]
  ret := .name "Self" []
  body := [.tail (.mcall (.pcall "Self" "try_from_usize" [] [.var "bits"]) "expect" [] [.str
    "Bitset contains invalid variants."])]

/-- `EnumSet::try_from_usize`, enumset/src/set.rs:595-603 -/
def EnumSet_try_from_usize : FnDecl where
  implGens := []
  gens := []
  params := [("bits", .name "usize" [])]
  ret := .name "Option" [.name "Self" []]
  body := [.let (.var "bits") none (.pcall "T::Repr" "from_usize_opt" [] [.var "bits"]), .let (.var
    "mask") none (.path "T" "ALL_BITS"), .tail (.mclosure (.var "bits") "and_then" (.var "bits")
    (.ite (.mcall (.mcall (.var "bits") "and_not" [] [.var "mask"]) "is_empty" [] []) (.block [.tail
    (.some (.struct "EnumSet" ["__priv_repr"] [.var "bits"]))]) (.block [.tail (.none)])))]

/-- `EnumSet::from_usize_truncated`, enumset/src/set.rs:609-613 -/
def EnumSet_from_usize_truncated : FnDecl where
  implGens := []
  gens := []
  params := [("bits", .name "usize" [])]
  ret := .name "Self" []
  body := [.let (.var "mask") none (.mcall (.pcall "Self" "all" [] []) "as_usize_truncated" [] []),
    .let (.var "bits") none (.pcall "T::Repr" "from_usize" [] [.bin .band (.var "bits") (.var
    "mask")]), .tail (.struct "EnumSet" ["__priv_repr"] [.var "bits"])]

/-- `EnumSet::from_usize_unchecked`, enumset/src/set.rs:625-627 -/
def EnumSet_from_usize_unchecked : FnDecl where
  implGens := []
  gens := []
  params := [("bits", .name "usize" [])]
  ret := .name "Self" []
  body := [.tail (.struct "EnumSet" ["__priv_repr"] [.pcall "T::Repr" "from_usize" [] [.var
    "bits"]])]

/-- `EnumSet::as_array`, enumset/src/set.rs:662-665 -/
def EnumSet_as_array : FnDecl where
  implGens := []
  gens := ["O"]
  params := [("self", .ref (.name "Self" []))]
  ret := .arr (.name "u64" []) "O"
  body := [.tail (.mcall (.mcall (.var "self") "try_as_array" [] []) "expect" [] [.str
    "Bitset will not fit into this type."])]

/-- `EnumSet::try_as_array`, enumset/src/set.rs:671-673 -/
def EnumSet_try_as_array : FnDecl where
  implGens := []
  gens := ["O"]
  params := [("self", .ref (.name "Self" []))]
  ret := .name "Option" [.arr (.name "u64" []) "O"]
  body := [.tail (.mcall (.field (.var "self") "__priv_repr") "to_u64_array_opt" [] [])]

/-- `EnumSet::as_array_truncated`, enumset/src/set.rs:679-681 -/
def EnumSet_as_array_truncated : FnDecl where
  implGens := []
  gens := ["O"]
  params := [("self", .ref (.name "Self" []))]
  ret := .arr (.name "u64" []) "O"
  body := [.tail (.mcall (.field (.var "self") "__priv_repr") "to_u64_array" [] [])]

/-- `EnumSet::from_array`, enumset/src/set.rs:686-688 -/
def EnumSet_from_array : FnDecl where
  implGens := []
  gens := ["O"]
  params := [("v", .arr (.name "u64" []) "O")]
  ret := .name "Self" []
  body := [.tail (.mcall (.pcall "Self" "try_from_array" [] [.var "v"]) "expect" [] [.str
    "Bitset contains invalid variants."])]

/-- `EnumSet::try_from_array`, enumset/src/set.rs:693-703 -/
def EnumSet_try_from_array : FnDecl where
  implGens := []
  gens := ["O"]
  params := [("bits", .arr (.name "u64" []) "O")]
  ret := .name "Option" [.name "Self" []]
  body := [.let (.var "bits") none (.pcall "T::Repr" "from_u64_array_opt" ["O"] [.var "bits"]), .let
    (.var "mask") none (.path "T" "ALL_BITS"), .tail (.mclosure (.var "bits") "and_then" (.var
    "bits") (.block [.tail (.ite (.mcall (.mcall (.var "bits") "and_not" [] [.var "mask"])
    "is_empty" [] []) (.block [.tail (.some (.struct "EnumSet" ["__priv_repr"] [.var "bits"]))])
    (.block [.tail (.none)]))]))]

/-- `EnumSet::from_array_truncated`, enumset/src/set.rs:706-709 -/
def EnumSet_from_array_truncated : FnDecl where
  implGens := []
  gens := ["O"]
  params := [("bits", .arr (.name "u64" []) "O")]
  ret := .name "Self" []
  body := [.let (.var "bits") none (.bin .band (.pcall "T::Repr" "from_u64_array" [] [.var "bits"])
    (.path "T" "ALL_BITS")), .tail (.struct "EnumSet" ["__priv_repr"] [.var "bits"])]

/-- `EnumSet::from_array_unchecked`, enumset/src/set.rs:719-721 -/
def EnumSet_from_array_unchecked : FnDecl where
  implGens := []
  gens := ["O"]
  params := [("bits", .arr (.name "u64" []) "O")]
  ret := .name "Self" []
  body := [.tail (.struct "EnumSet" ["__priv_repr"] [.pcall "T::Repr" "from_u64_array" [] [.var
    "bits"]])]

/-- `EnumSet::to_vec`, enumset/src/set.rs:726-730 -/
def EnumSet_to_vec : FnDecl where
  implGens := []
  gens := []
  params := [("self", .ref (.name "Self" []))]
  ret := .name "alloc::vec::Vec" [.name "u64" []]
  body := [.let (.var "vec") (some (.name "Vec" [.name "u64" []])) (.repeat (.lit 0) (.path
    "T::Repr" "PREFERRED_ARRAY_LEN")), .semi (.mcall (.field (.var "self") "__priv_repr")
    "to_u64_slice" [] [.un .refMut (.var "vec")]), .tail (.var "vec")]

/-- `EnumSet::copy_into_slice`, enumset/src/set.rs:735-738 -/
def EnumSet_copy_into_slice : FnDecl where
  implGens := []
  gens := []
  params := [("self", .ref (.name "Self" [])), ("data", .refMut (.slice (.name "u64" [])))]
  ret := .tuple []
  body := [.tail (.mcall (.mcall (.var "self") "try_copy_into_slice" [] [.var "data"]) "expect" []
    [.str "Bitset will not fit into slice."])]

/-- `EnumSet::try_copy_into_slice`, enumset/src/set.rs:745-747 -/
def EnumSet_try_copy_into_slice : FnDecl where
  implGens := []
  gens := []
  params := [("self", .ref (.name "Self" [])), ("data", .refMut (.slice (.name "u64" [])))]
  ret := .name "Option" [.tuple []]
  body := [.tail (.mcall (.field (.var "self") "__priv_repr") "to_u64_slice_opt" [] [.var "data"])]

/-- `EnumSet::copy_into_slice_truncated`, enumset/src/set.rs:753-755 -/
def EnumSet_copy_into_slice_truncated : FnDecl where
  implGens := []
  gens := []
  params := [("self", .ref (.name "Self" [])), ("data", .refMut (.slice (.name "u64" [])))]
  ret := .tuple []
  body := [.tail (.mcall (.field (.var "self") "__priv_repr") "to_u64_slice" [] [.var "data"])]

/-- `EnumSet::from_slice`, enumset/src/set.rs:760-762 -/
def EnumSet_from_slice : FnDecl where
  implGens := []
  gens := []
  params := [("v", .ref (.slice (.name "u64" [])))]
  ret := .name "Self" []
  body := [.tail (.mcall (.pcall "Self" "try_from_slice" [] [.var "v"]) "expect" [] [.str
    "Bitset contains invalid variants."])]

/-- `EnumSet::try_from_slice`, enumset/src/set.rs:767-777 -/
def EnumSet_try_from_slice : FnDecl where
  implGens := []
  gens := []
  params := [("bits", .ref (.slice (.name "u64" [])))]
  ret := .name "Option" [.name "Self" []]
  body := [.let (.var "bits") none (.pcall "T::Repr" "from_u64_slice_opt" [] [.var "bits"]), .let
    (.var "mask") none (.path "T" "ALL_BITS"), .tail (.mclosure (.var "bits") "and_then" (.var
    "bits") (.block [.tail (.ite (.mcall (.mcall (.var "bits") "and_not" [] [.var "mask"])
    "is_empty" [] []) (.block [.tail (.some (.struct "EnumSet" ["__priv_repr"] [.var "bits"]))])
    (.block [.tail (.none)]))]))]

/-- `EnumSet::from_slice_truncated`, enumset/src/set.rs:780-783 -/
def EnumSet_from_slice_truncated : FnDecl where
  implGens := []
  gens := []
  params := [("bits", .ref (.slice (.name "u64" [])))]
  ret := .name "Self" []
  body := [.let (.var "bits") none (.bin .band (.pcall "T::Repr" "from_u64_slice" [] [.var "bits"])
    (.path "T" "ALL_BITS")), .tail (.struct "EnumSet" ["__priv_repr"] [.var "bits"])]

/-- `EnumSet::from_slice_unchecked`, enumset/src/set.rs:793-795 -/
def EnumSet_from_slice_unchecked : FnDecl where
  implGens := []
  gens := []
  params := [("bits", .ref (.slice (.name "u64" [])))]
  ret := .name "Self" []
  body := [.tail (.struct "EnumSet" ["__priv_repr"] [.pcall "T::Repr" "from_u64_slice" [] [.var
    "bits"]])]

/-- `EnumSetIter::new`, enumset/src/set.rs:806-808 -/
def EnumSetIter_new : FnDecl where
  implGens := []
  gens := []
  params := [("set", .name "EnumSet" [.name "T" []])]
  ret := .name "EnumSetIter" [.name "T" []]
  body := [.tail (.struct "EnumSetIter" ["iter"] [.mcall (.field (.var "set") "__priv_repr") "iter"
    [] []])]

/-- `EnumSet::iter`, enumset/src/set.rs:817-819 -/
def EnumSet_iter : FnDecl where
  implGens := []
  gens := []
  params := [("self", .ref (.name "Self" []))]
  ret := .name "EnumSetIter" [.name "T" []]
  body := [.tail (.pcall "EnumSetIter" "new" [] [.un .deref (.var "self")])]

/-- `EnumSetIter::next`, enumset/src/set.rs:825-827 -/
def EnumSetIter_next : FnDecl where
  implGens := []
  gens := []
  params := [("self", .refMut (.name "Self" []))]
  ret := .name "Option" [.name "Self::Item" []]
  body := [.tail (.mclosure (.mcall (.field (.var "self") "iter") "next" [] []) "map" (.var "x")
    (.block [.tail (.pcall "T" "enum_from_u32" [] [.var "x"])]))]

/-- `EnumSetIter::size_hint`, enumset/src/set.rs:828-830 -/
def EnumSetIter_size_hint : FnDecl where
  implGens := []
  gens := []
  params := [("self", .ref (.name "Self" []))]
  ret := .tuple [.name "usize" [], .name "Option" [.name "usize" []]]
  body := [.tail (.mcall (.field (.var "self") "iter") "size_hint" [] [])]

/-- `EnumSetIter::next_back`, enumset/src/set.rs:834-838 -/
def EnumSetIter_next_back : FnDecl where
  implGens := []
  gens := []
  params := [("self", .refMut (.name "Self" []))]
  ret := .name "Option" [.name "Self::Item" []]
  body := [.tail (.mclosure (.mcall (.field (.var "self") "iter") "next_back" [] []) "map" (.var
    "x") (.block [.tail (.pcall "T" "enum_from_u32" [] [.var "x"])]))]

/-- `EnumSet::extend_variants`, enumset/src/set.rs:844-848 -/
def EnumSet_extend_variants : FnDecl where
  implGens := []
  gens := []
  params := [("self", .refMut (.name "Self" [])), ("iter", .name "I" [])]
  ret := .tuple []
  body := [.semi (.mclosure (.mcall (.var "iter") "into_iter" [] []) "for_each" (.var "v") (.block
    [.semi (.mcall (.var "self") "insert" [] [.var "v"])]))]

/-- `EnumSet::from_iter_variants`, enumset/src/set.rs:852-856 -/
def EnumSet_from_iter_variants : FnDecl where
  implGens := []
  gens := []
  params := [("iter", .name "I" [])]
  ret := .name "Self" []
  body := [.let (.var "set") none (.pcall "EnumSet" "default" [] []), .semi (.mcall (.var "set")
    "extend_variants" [] [.var "iter"]), .tail (.var "set")]

/-- `EnumSet::extend_sets`, enumset/src/set.rs:860-864 -/
def EnumSet_extend_sets : FnDecl where
  implGens := []
  gens := []
  params := [("self", .refMut (.name "Self" [])), ("iter", .name "I" [])]
  ret := .tuple []
  body := [.semi (.mclosure (.mcall (.var "iter") "into_iter" [] []) "for_each" (.var "v") (.block
    [.semi (.mcall (.var "self") "insert_all" [] [.var "v"])]))]

/-- `EnumSet::from_iter_sets`, enumset/src/set.rs:868-872 -/
def EnumSet_from_iter_sets : FnDecl where
  implGens := []
  gens := []
  params := [("iter", .name "I" [])]
  ret := .name "Self" []
  body := [.let (.var "set") none (.pcall "EnumSet" "default" [] []), .semi (.mcall (.var "set")
    "extend_sets" [] [.var "iter"]), .tail (.var "set")]

/-- `EnumSet::into_iter`, enumset/src/set.rs:879-881 -/
def EnumSet_into_iter : FnDecl where
  implGens := []
  gens := []
  params := [("self", .name "Self" [])]
  ret := .name "Self::IntoIter" []
  body := [.tail (.mcall (.var "self") "iter" [] [])]

/-- `EnumSet::sum_sets`, enumset/src/set.rs:884-886 -/
def EnumSet_sum_sets : FnDecl where
  implGens := []
  gens := []
  params := [("iter", .name "I" [])]
  ret := .name "Self" []
  body := [.tail (.fold (.var "iter") (.pcall "EnumSet" "empty" [] []) (.var "a") (.var "v") (.bin
    .bor (.var "a") (.var "v")))]

/-- `EnumSet::sum_set_refs`, enumset/src/set.rs:889-891 -/
def EnumSet_sum_set_refs : FnDecl where
  implGens := []
  gens := []
  params := [("iter", .name "I" [])]
  ret := .name "Self" []
  body := [.tail (.fold (.var "iter") (.pcall "EnumSet" "empty" [] []) (.var "a") (.var "v") (.bin
    .bor (.var "a") (.un .deref (.var "v"))))]

/-- `EnumSet::sum_variants`, enumset/src/set.rs:894-896 -/
def EnumSet_sum_variants : FnDecl where
  implGens := []
  gens := []
  params := [("iter", .name "I" [])]
  ret := .name "Self" []
  body := [.tail (.fold (.var "iter") (.pcall "EnumSet" "empty" [] []) (.var "a") (.var "v") (.bin
    .bor (.var "a") (.var "v")))]

/-- `EnumSet::sum_variant_refs`, enumset/src/set.rs:899-901 -/
def EnumSet_sum_variant_refs : FnDecl where
  implGens := []
  gens := []
  params := [("iter", .name "I" [])]
  ret := .name "Self" []
  body := [.tail (.fold (.var "iter") (.pcall "EnumSet" "empty" [] []) (.var "a") (.var "v") (.bin
    .bor (.var "a") (.un .deref (.var "v"))))]

/-- The functions of the file. -/
def fns : List ((String × String) × FnDecl) :=
  [(("EnumSet", "EMPTY_REPR"), EnumSet_EMPTY_REPR),
   (("EnumSet", "ALL_REPR"), EnumSet_ALL_REPR),
   (("EnumSet", "new"), EnumSet_new),
   (("EnumSet", "only"), EnumSet_only),
   (("EnumSet", "empty"), EnumSet_empty),
   (("EnumSet", "all"), EnumSet_all),
   (("EnumSet", "bit_width"), EnumSet_bit_width),
   (("EnumSet", "variant_count"), EnumSet_variant_count),
   (("EnumSet", "len"), EnumSet_len),
   (("EnumSet", "is_empty"), EnumSet_is_empty),
   (("EnumSet", "clear"), EnumSet_clear),
   (("EnumSet", "is_disjoint"), EnumSet_is_disjoint),
   (("EnumSet", "is_superset"), EnumSet_is_superset),
   (("EnumSet", "is_subset"), EnumSet_is_subset),
   (("EnumSet", "union"), EnumSet_union),
   (("EnumSet", "intersection"), EnumSet_intersection),
   (("EnumSet", "difference"), EnumSet_difference),
   (("EnumSet", "symmetrical_difference"), EnumSet_symmetrical_difference),
   (("EnumSet", "complement"), EnumSet_complement),
   (("EnumSet", "contains"), EnumSet_contains),
   (("EnumSet", "insert"), EnumSet_insert),
   (("EnumSet", "remove"), EnumSet_remove),
   (("EnumSet", "insert_all"), EnumSet_insert_all),
   (("EnumSet", "remove_all"), EnumSet_remove_all),
   (("EnumSet", "__impl_enumset_internal__const_helper"), EnumSet___impl_enumset_internal__const_helper),
   (("EnumSet", "__impl_enumset_internal__const_only"), EnumSet___impl_enumset_internal__const_only),
   (("EnumSet", "default"), EnumSet_default),
   (("EnumSet", "sub"), EnumSet_sub),
   (("EnumSet", "bitand"), EnumSet_bitand),
   (("EnumSet", "bitor"), EnumSet_bitor),
   (("EnumSet", "bitxor"), EnumSet_bitxor),
   (("EnumSet", "sub_assign"), EnumSet_sub_assign),
   (("EnumSet", "bitand_assign"), EnumSet_bitand_assign),
   (("EnumSet", "bitor_assign"), EnumSet_bitor_assign),
   (("EnumSet", "bitxor_assign"), EnumSet_bitxor_assign),
   (("EnumSet", "not"), EnumSet_not),
   (("EnumSet", "from"), EnumSet_from),
   (("EnumSet", "eq_variant"), EnumSet_eq_variant),
   (("EnumSet", "fmt_debug"), EnumSet_fmt_debug),
   (("EnumSet", "fmt_display"), EnumSet_fmt_display),
   (("EnumSet", "hash"), EnumSet_hash),
   (("EnumSet", "partial_cmp"), EnumSet_partial_cmp),
   (("EnumSet", "cmp"), EnumSet_cmp),
   (("EnumSet", "serialize"), EnumSet_serialize),
   (("EnumSet", "deserialize"), EnumSet_deserialize),
   (("EnumSet", "EMPTY"), EnumSet_EMPTY),
   (("EnumSet", "ALL"), EnumSet_ALL),
   (("EnumSet", "as_repr"), EnumSet_as_repr),
   (("EnumSet", "from_repr_unchecked"), EnumSet_from_repr_unchecked),
   (("EnumSet", "from_repr"), EnumSet_from_repr),
   (("EnumSet", "try_from_repr"), EnumSet_try_from_repr),
   (("EnumSet", "from_repr_truncated"), EnumSet_from_repr_truncated),
   (("EnumSet", "as_u8"), EnumSet_as_u8),
   (("EnumSet", "try_as_u8"), EnumSet_try_as_u8),
   (("EnumSet", "as_u8_truncated"), EnumSet_as_u8_truncated),
   (("EnumSet", "from_u8"), EnumSet_from_u8),
   (("EnumSet", "try_from_u8"), EnumSet_try_from_u8),
   (("EnumSet", "from_u8_truncated"), EnumSet_from_u8_truncated),
   (("EnumSet", "from_u8_unchecked"), EnumSet_from_u8_unchecked),
   (("EnumSet", "as_u16"), EnumSet_as_u16),
   (("EnumSet", "try_as_u16"), EnumSet_try_as_u16),
   (("EnumSet", "as_u16_truncated"), EnumSet_as_u16_truncated),
   (("EnumSet", "from_u16"), EnumSet_from_u16),
   (("EnumSet", "try_from_u16"), EnumSet_try_from_u16),
   (("EnumSet", "from_u16_truncated"), EnumSet_from_u16_truncated),
   (("EnumSet", "from_u16_unchecked"), EnumSet_from_u16_unchecked),
   (("EnumSet", "as_u32"), EnumSet_as_u32),
   (("EnumSet", "try_as_u32"), EnumSet_try_as_u32),
   (("EnumSet", "as_u32_truncated"), EnumSet_as_u32_truncated),
   (("EnumSet", "from_u32"), EnumSet_from_u32),
   (("EnumSet", "try_from_u32"), EnumSet_try_from_u32),
   (("EnumSet", "from_u32_truncated"), EnumSet_from_u32_truncated),
   (("EnumSet", "from_u32_unchecked"), EnumSet_from_u32_unchecked),
   (("EnumSet", "as_u64"), EnumSet_as_u64),
   (("EnumSet", "try_as_u64"), EnumSet_try_as_u64),
   (("EnumSet", "as_u64_truncated"), EnumSet_as_u64_truncated),
   (("EnumSet", "from_u64"), EnumSet_from_u64),
   (("EnumSet", "try_from_u64"), EnumSet_try_from_u64),
   (("EnumSet", "from_u64_truncated"), EnumSet_from_u64_truncated),
   (("EnumSet", "from_u64_unchecked"), EnumSet_from_u64_unchecked),
   (("EnumSet", "as_u128"), EnumSet_as_u128),
   (("EnumSet", "try_as_u128"), EnumSet_try_as_u128),
   (("EnumSet", "as_u128_truncated"), EnumSet_as_u128_truncated),
   (("EnumSet", "from_u128"), EnumSet_from_u128),
   (("EnumSet", "try_from_u128"), EnumSet_try_from_u128),
   (("EnumSet", "from_u128_truncated"), EnumSet_from_u128_truncated),
   (("EnumSet", "from_u128_unchecked"), EnumSet_from_u128_unchecked),
   (("EnumSet", "as_usize"), EnumSet_as_usize),
   (("EnumSet", "try_as_usize"), EnumSet_try_as_usize),
   (("EnumSet", "as_usize_truncated"), EnumSet_as_usize_truncated),
   (("EnumSet", "from_usize"), EnumSet_from_usize),
   (("EnumSet", "try_from_usize"), EnumSet_try_from_usize),
   (("EnumSet", "from_usize_truncated"), EnumSet_from_usize_truncated),
   (("EnumSet", "from_usize_unchecked"), EnumSet_from_usize_unchecked),
   (("EnumSet", "as_array"), EnumSet_as_array),
   (("EnumSet", "try_as_array"), EnumSet_try_as_array),
   (("EnumSet", "as_array_truncated"), EnumSet_as_array_truncated),
   (("EnumSet", "from_array"), EnumSet_from_array),
   (("EnumSet", "try_from_array"), EnumSet_try_from_array),
   (("EnumSet", "from_array_truncated"), EnumSet_from_array_truncated),
   (("EnumSet", "from_array_unchecked"), EnumSet_from_array_unchecked),
   (("EnumSet", "to_vec"), EnumSet_to_vec),
   (("EnumSet", "copy_into_slice"), EnumSet_copy_into_slice),
   (("EnumSet", "try_copy_into_slice"), EnumSet_try_copy_into_slice),
   (("EnumSet", "copy_into_slice_truncated"), EnumSet_copy_into_slice_truncated),
   (("EnumSet", "from_slice"), EnumSet_from_slice),
   (("EnumSet", "try_from_slice"), EnumSet_try_from_slice),
   (("EnumSet", "from_slice_truncated"), EnumSet_from_slice_truncated),
   (("EnumSet", "from_slice_unchecked"), EnumSet_from_slice_unchecked),
   (("EnumSetIter", "new"), EnumSetIter_new),
   (("EnumSet", "iter"), EnumSet_iter),
   (("EnumSetIter", "next"), EnumSetIter_next),
   (("EnumSetIter", "size_hint"), EnumSetIter_size_hint),
   (("EnumSetIter", "next_back"), EnumSetIter_next_back),
   (("EnumSet", "extend_variants"), EnumSet_extend_variants),
   (("EnumSet", "from_iter_variants"), EnumSet_from_iter_variants),
   (("EnumSet", "extend_sets"), EnumSet_extend_sets),
   (("EnumSet", "from_iter_sets"), EnumSet_from_iter_sets),
   (("EnumSet", "into_iter"), EnumSet_into_iter),
   (("EnumSet", "sum_sets"), EnumSet_sum_sets),
   (("EnumSet", "sum_set_refs"), EnumSet_sum_set_refs),
   (("EnumSet", "sum_variants"), EnumSet_sum_variants),
   (("EnumSet", "sum_variant_refs"), EnumSet_sum_variant_refs)]

/-- The structs of the file. -/
def structs : List (String × StructDecl) :=
  [("EnumSet",
    { gens := []
      fields := [("__priv_repr", .name "T::Repr" [])]
      derives := ["Copy", "Clone", "PartialEq", "Eq"] }),
   ("EnumSetIter",
    { gens := []
      fields := [("iter", .name "T::Repr::Iter" [])]
      derives := ["Clone", "Debug"] })]

/-- The macro invocations of the file. -/
def invocations : List (List (String × Expr)) :=
  []

/-- The file. -/
def file : File := { fns, structs, invocations }

end Enumset.Src.SetRs
