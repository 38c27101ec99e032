import Verif.Src.Syntax
/-!
# `enumset/src/repr/array.rs`

Written by `tools/rs2lean.py`.
-/
set_option autoImplicit false

namespace Enumset.Src.ArrayRs

/-- `ArrayRepr::split_bit`, enumset/src/repr/array.rs:11-13 -/
def ArrayRepr_split_bit : FnDecl where
  implGens := ["N"]
  gens := []
  params := [("bit", .name "u32" [])]
  ret := .tuple [.name "usize" [], .name "u32" []]
  body := [.tail (.tuple [.bin .div (.cast (.var "bit") (.name "usize" [])) (.lit 64), .bin .rem
    (.var "bit") (.lit 64)])]

/-- `ArrayRepr::bitand`, enumset/src/repr/array.rs:18-23 -/
def ArrayRepr_bitand : FnDecl where
  implGens := ["N"]
  gens := []
  params := [("self", .name "Self" []), ("rhs", .name "Self" [])]
  ret := .name "Self::Output" []
  body := [.semi (.for (.var "i") (.range (.lit 0) (.var "N")) (.block [.semi (.assignOp .band
    (.index (.field (.var "self") "0") (.var "i")) (.index (.field (.var "rhs") "0") (.var
    "i")))])), .tail (.var "self")]

/-- `ArrayRepr::bitor`, enumset/src/repr/array.rs:27-32 -/
def ArrayRepr_bitor : FnDecl where
  implGens := ["N"]
  gens := []
  params := [("self", .name "Self" []), ("rhs", .name "Self" [])]
  ret := .name "Self::Output" []
  body := [.semi (.for (.var "i") (.range (.lit 0) (.var "N")) (.block [.semi (.assignOp .bor
    (.index (.field (.var "self") "0") (.var "i")) (.index (.field (.var "rhs") "0") (.var
    "i")))])), .tail (.var "self")]

/-- `ArrayRepr::bitxor`, enumset/src/repr/array.rs:36-41 -/
def ArrayRepr_bitxor : FnDecl where
  implGens := ["N"]
  gens := []
  params := [("self", .name "Self" []), ("rhs", .name "Self" [])]
  ret := .name "Self::Output" []
  body := [.semi (.for (.var "i") (.range (.lit 0) (.var "N")) (.block [.semi (.assignOp .bxor
    (.index (.field (.var "self") "0") (.var "i")) (.index (.field (.var "rhs") "0") (.var
    "i")))])), .tail (.var "self")]

/-- `ArrayRepr::not`, enumset/src/repr/array.rs:45-50 -/
def ArrayRepr_not : FnDecl where
  implGens := ["N"]
  gens := []
  params := [("self", .name "Self" [])]
  ret := .name "Self::Output" []
  body := [.semi (.for (.var "i") (.range (.lit 0) (.var "N")) (.block [.semi (.assign (.index
    (.field (.var "self") "0") (.var "i")) (.un .not (.index (.field (.var "self") "0") (.var
    "i"))))])), .tail (.var "self")]

/-- `ArrayRepr::PREFERRED_ARRAY_LEN`, enumset/src/repr/array.rs:54 -/
def ArrayRepr_PREFERRED_ARRAY_LEN : FnDecl where
  implGens := ["N"]
  gens := []
  params := []
  ret := .name "usize" []
  body := [.tail (.var "N")]

/-- `ArrayRepr::WIDTH`, enumset/src/repr/array.rs:55 -/
def ArrayRepr_WIDTH : FnDecl where
  implGens := ["N"]
  gens := []
  params := []
  ret := .name "u32" []
  body := [.tail (.bin .mul (.cast (.var "N") (.name "u32" [])) (.lit 64))]

/-- `ArrayRepr::EMPTY`, enumset/src/repr/array.rs:56 -/
def ArrayRepr_EMPTY : FnDecl where
  implGens := ["N"]
  gens := []
  params := []
  ret := .name "Self" []
  body := [.tail (.ctor "ArrayRepr" (.repeat (.lit 0) (.var "N")))]

/-- `ArrayRepr::is_empty`, enumset/src/repr/array.rs:58-60 -/
def ArrayRepr_is_empty : FnDecl where
  implGens := ["N"]
  gens := []
  params := [("self", .ref (.name "Self" []))]
  ret := .name "bool" []
  body := [.tail (.mclosure (.mcall (.field (.var "self") "0") "iter" [] []) "all" (.var "x") (.bin
    .eq (.un .deref (.var "x")) (.lit 0)))]

/-- `ArrayRepr::add_bit`, enumset/src/repr/array.rs:62-65 -/
def ArrayRepr_add_bit : FnDecl where
  implGens := ["N"]
  gens := []
  params := [("self", .refMut (.name "Self" [])), ("bit", .name "u32" [])]
  ret := .tuple []
  body := [.let (.tup [.var "idx", .var "bit"]) none (.pcall "Self" "split_bit" [] [.var "bit"]),
    .semi (.mcall (.index (.field (.var "self") "0") (.var "idx")) "add_bit" [] [.var "bit"])]

/-- `ArrayRepr::remove_bit`, enumset/src/repr/array.rs:66-69 -/
def ArrayRepr_remove_bit : FnDecl where
  implGens := ["N"]
  gens := []
  params := [("self", .refMut (.name "Self" [])), ("bit", .name "u32" [])]
  ret := .tuple []
  body := [.let (.tup [.var "idx", .var "bit"]) none (.pcall "Self" "split_bit" [] [.var "bit"]),
    .semi (.mcall (.index (.field (.var "self") "0") (.var "idx")) "remove_bit" [] [.var "bit"])]

/-- `ArrayRepr::has_bit`, enumset/src/repr/array.rs:70-73 -/
def ArrayRepr_has_bit : FnDecl where
  implGens := ["N"]
  gens := []
  params := [("self", .ref (.name "Self" [])), ("bit", .name "u32" [])]
  ret := .name "bool" []
  body := [.let (.tup [.var "idx", .var "bit"]) none (.pcall "Self" "split_bit" [] [.var "bit"]),
    .tail (.mcall (.index (.field (.var "self") "0") (.var "idx")) "has_bit" [] [.var "bit"])]

/-- `ArrayRepr::count_ones`, enumset/src/repr/array.rs:75-77 -/
def ArrayRepr_count_ones : FnDecl where
  implGens := ["N"]
  gens := []
  params := [("self", .ref (.name "Self" []))]
  ret := .name "u32" []
  body := [.tail (.sum (.mclosure (.mcall (.field (.var "self") "0") "iter" [] []) "map" (.var "x")
    (.mcall (.var "x") "count_ones" [] [])))]

/-- `ArrayRepr::leading_zeros`, enumset/src/repr/array.rs:78-87 -/
def ArrayRepr_leading_zeros : FnDecl where
  implGens := ["N"]
  gens := []
  params := [("self", .ref (.name "Self" []))]
  ret := .name "u32" []
  body := [.let (.var "accum") (some (.name "u32" [])) (.lit 0), .semi (.for (.var "i") (.mcall
    (.range (.lit 0) (.var "N")) "rev" [] []) (.block [.semi (.ite (.bin .ne (.index (.field (.var
    "self") "0") (.var "i")) (.lit 0)) (.block [.semi (.ret (.bin .add (.var "accum") (.mcall
    (.index (.field (.var "self") "0") (.var "i")) "leading_zeros" [] [])))]) (.block [])), .semi
    (.assignOp .add (.var "accum") (.lit 64))])), .tail (.path "Self" "WIDTH")]

/-- `ArrayRepr::trailing_zeros`, enumset/src/repr/array.rs:88-97 -/
def ArrayRepr_trailing_zeros : FnDecl where
  implGens := ["N"]
  gens := []
  params := [("self", .ref (.name "Self" []))]
  ret := .name "u32" []
  body := [.let (.var "accum") (some (.name "u32" [])) (.lit 0), .semi (.for (.var "i") (.range
    (.lit 0) (.var "N")) (.block [.semi (.ite (.bin .ne (.index (.field (.var "self") "0") (.var
    "i")) (.lit 0)) (.block [.semi (.ret (.bin .add (.var "accum") (.mcall (.index (.field (.var
    "self") "0") (.var "i")) "trailing_zeros" [] [])))]) (.block [])), .semi (.assignOp .add (.var
    "accum") (.lit 64))])), .tail (.path "Self" "WIDTH")]

/-- `ArrayRepr::and_not`, enumset/src/repr/array.rs:99-105 -/
def ArrayRepr_and_not : FnDecl where
  implGens := ["N"]
  gens := []
  params := [("self", .ref (.name "Self" [])), ("other", .name "Self" [])]
  ret := .name "Self" []
  body := [.let (.var "new") none (.ctor "Self" (.repeat (.lit 0) (.var "N"))), .semi (.for (.var
    "i") (.range (.lit 0) (.var "N")) (.block [.semi (.assign (.index (.field (.var "new") "0")
    (.var "i")) (.bin .band (.index (.field (.var "self") "0") (.var "i")) (.un .not (.index (.field
    (.var "other") "0") (.var "i")))))])), .tail (.var "new")]

/-- `ArrayRepr::iter`, enumset/src/repr/array.rs:108-110 -/
def ArrayRepr_iter : FnDecl where
  implGens := ["N"]
  gens := []
  params := [("self", .name "Self" [])]
  ret := .name "Self::Iter" []
  body := [.tail (.pcall "ArrayIter" "new" [] [.var "self"])]

/-- `ArrayRepr::from_u8`, enumset/src/repr/array.rs:112-114 -/
def ArrayRepr_from_u8 : FnDecl where
  implGens := ["N"]
  gens := []
  params := [("v", .name "u8" [])]
  ret := .name "Self" []
  body := [.tail (.pcall "Self" "from_u64" [] [.cast (.var "v") (.name "u64" [])])]

/-- `ArrayRepr::from_u16`, enumset/src/repr/array.rs:115-117 -/
def ArrayRepr_from_u16 : FnDecl where
  implGens := ["N"]
  gens := []
  params := [("v", .name "u16" [])]
  ret := .name "Self" []
  body := [.tail (.pcall "Self" "from_u64" [] [.cast (.var "v") (.name "u64" [])])]

/-- `ArrayRepr::from_u32`, enumset/src/repr/array.rs:118-120 -/
def ArrayRepr_from_u32 : FnDecl where
  implGens := ["N"]
  gens := []
  params := [("v", .name "u32" [])]
  ret := .name "Self" []
  body := [.tail (.pcall "Self" "from_u64" [] [.cast (.var "v") (.name "u64" [])])]

/-- `ArrayRepr::from_u64`, enumset/src/repr/array.rs:121-125 -/
def ArrayRepr_from_u64 : FnDecl where
  implGens := ["N"]
  gens := []
  params := [("v", .name "u64" [])]
  ret := .name "Self" []
  body := [.let (.var "new") none (.ctor "Self" (.repeat (.lit 0) (.var "N"))), .semi (.assign
    (.index (.field (.var "new") "0") (.lit 0)) (.var "v")), .tail (.var "new")]

/-- `ArrayRepr::from_u128`, enumset/src/repr/array.rs:126-133 -/
def ArrayRepr_from_u128 : FnDecl where
  implGens := ["N"]
  gens := []
  params := [("v", .name "u128" [])]
  ret := .name "Self" []
  body := [.let (.var "new") none (.ctor "Self" (.repeat (.lit 0) (.var "N"))), .semi (.assign
    (.index (.field (.var "new") "0") (.lit 0)) (.cast (.var "v") (.name "u64" []))), .semi (.ite
    (.bin .ne (.var "N") (.lit 1)) (.block [.semi (.assign (.index (.field (.var "new") "0") (.lit
    1)) (.cast (.bin .shr (.var "v") (.lit 64)) (.name "u64" [])))]) (.block [])), .tail (.var
    "new")]

/-- `ArrayRepr::from_usize`, enumset/src/repr/array.rs:134-136 -/
def ArrayRepr_from_usize : FnDecl where
  implGens := ["N"]
  gens := []
  params := [("v", .name "usize" [])]
  ret := .name "Self" []
  body := [.tail (.pcall "Self" "from_u64" [] [.cast (.var "v") (.name "u64" [])])]

/-- `ArrayRepr::from_u8_opt`, enumset/src/repr/array.rs:138-140 -/
def ArrayRepr_from_u8_opt : FnDecl where
  implGens := ["N"]
  gens := []
  params := [("v", .name "u8" [])]
  ret := .name "Option" [.name "Self" []]
  body := [.tail (.some (.pcall "Self" "from_u8" [] [.var "v"]))]

/-- `ArrayRepr::from_u16_opt`, enumset/src/repr/array.rs:141-143 -/
def ArrayRepr_from_u16_opt : FnDecl where
  implGens := ["N"]
  gens := []
  params := [("v", .name "u16" [])]
  ret := .name "Option" [.name "Self" []]
  body := [.tail (.some (.pcall "Self" "from_u16" [] [.var "v"]))]

/-- `ArrayRepr::from_u32_opt`, enumset/src/repr/array.rs:144-146 -/
def ArrayRepr_from_u32_opt : FnDecl where
  implGens := ["N"]
  gens := []
  params := [("v", .name "u32" [])]
  ret := .name "Option" [.name "Self" []]
  body := [.tail (.some (.pcall "Self" "from_u32" [] [.var "v"]))]

/-- `ArrayRepr::from_u64_opt`, enumset/src/repr/array.rs:147-149 -/
def ArrayRepr_from_u64_opt : FnDecl where
  implGens := ["N"]
  gens := []
  params := [("v", .name "u64" [])]
  ret := .name "Option" [.name "Self" []]
  body := [.tail (.some (.pcall "Self" "from_u64" [] [.var "v"]))]

/-- `ArrayRepr::from_u128_opt`, enumset/src/repr/array.rs:150-156 -/
def ArrayRepr_from_u128_opt : FnDecl where
  implGens := ["N"]
  gens := []
  params := [("v", .name "u128" [])]
  ret := .name "Option" [.name "Self" []]
  body := [.tail (.ite (.and (.bin .eq (.var "N") (.lit 1)) (.bin .ne (.bin .shr (.var "v") (.lit
    64)) (.lit 0))) (.block [.tail (.none)]) (.block [.tail (.some (.pcall "Self" "from_u128" []
    [.var "v"]))]))]

/-- `ArrayRepr::from_usize_opt`, enumset/src/repr/array.rs:157-159 -/
def ArrayRepr_from_usize_opt : FnDecl where
  implGens := ["N"]
  gens := []
  params := [("v", .name "usize" [])]
  ret := .name "Option" [.name "Self" []]
  body := [.tail (.some (.pcall "Self" "from_usize" [] [.var "v"]))]

/-- `ArrayRepr::to_u8`, enumset/src/repr/array.rs:161-163 -/
def ArrayRepr_to_u8 : FnDecl where
  implGens := ["N"]
  gens := []
  params := [("self", .ref (.name "Self" []))]
  ret := .name "u8" []
  body := [.tail (.mcall (.mcall (.var "self") "to_u64" [] []) "to_u8" [] [])]

/-- `ArrayRepr::to_u16`, enumset/src/repr/array.rs:164-166 -/
def ArrayRepr_to_u16 : FnDecl where
  implGens := ["N"]
  gens := []
  params := [("self", .ref (.name "Self" []))]
  ret := .name "u16" []
  body := [.tail (.mcall (.mcall (.var "self") "to_u64" [] []) "to_u16" [] [])]

/-- `ArrayRepr::to_u32`, enumset/src/repr/array.rs:167-169 -/
def ArrayRepr_to_u32 : FnDecl where
  implGens := ["N"]
  gens := []
  params := [("self", .ref (.name "Self" []))]
  ret := .name "u32" []
  body := [.tail (.mcall (.mcall (.var "self") "to_u64" [] []) "to_u32" [] [])]

/-- `ArrayRepr::to_u64`, enumset/src/repr/array.rs:170-172 -/
def ArrayRepr_to_u64 : FnDecl where
  implGens := ["N"]
  gens := []
  params := [("self", .ref (.name "Self" []))]
  ret := .name "u64" []
  body := [.tail (.index (.field (.var "self") "0") (.lit 0))]

/-- `ArrayRepr::to_u128`, enumset/src/repr/array.rs:173-176 -/
def ArrayRepr_to_u128 : FnDecl where
  implGens := ["N"]
  gens := []
  params := [("self", .ref (.name "Self" []))]
  ret := .name "u128" []
  body := [.let (.var "hi") (some (.name "u128" [])) (.ite (.bin .eq (.var "N") (.lit 1)) (.block
    [.tail (.lit 0)]) (.block [.tail (.bin .shl (.cast (.index (.field (.var "self") "0") (.lit 1))
    (.name "u128" [])) (.lit 64))])), .tail (.bin .bor (.cast (.index (.field (.var "self") "0")
    (.lit 0)) (.name "u128" [])) (.var "hi"))]

/-- `ArrayRepr::to_usize`, enumset/src/repr/array.rs:177-179 -/
def ArrayRepr_to_usize : FnDecl where
  implGens := ["N"]
  gens := []
  params := [("self", .ref (.name "Self" []))]
  ret := .name "usize" []
  body := [.tail (.mcall (.mcall (.var "self") "to_u64" [] []) "to_usize" [] [])]

/-- `ArrayRepr::to_u8_opt`, enumset/src/repr/array.rs:181-183 -/
def ArrayRepr_to_u8_opt : FnDecl where
  implGens := ["N"]
  gens := []
  params := [("self", .ref (.name "Self" []))]
  ret := .name "Option" [.name "u8" []]
  body := [.tail (.mclosure (.mcall (.var "self") "to_u64_opt" [] []) "and_then" (.var "x") (.mcall
    (.var "x") "to_u8_opt" [] []))]

/-- `ArrayRepr::to_u16_opt`, enumset/src/repr/array.rs:184-186 -/
def ArrayRepr_to_u16_opt : FnDecl where
  implGens := ["N"]
  gens := []
  params := [("self", .ref (.name "Self" []))]
  ret := .name "Option" [.name "u16" []]
  body := [.tail (.mclosure (.mcall (.var "self") "to_u64_opt" [] []) "and_then" (.var "x") (.mcall
    (.var "x") "to_u16_opt" [] []))]

/-- `ArrayRepr::to_u32_opt`, enumset/src/repr/array.rs:187-189 -/
def ArrayRepr_to_u32_opt : FnDecl where
  implGens := ["N"]
  gens := []
  params := [("self", .ref (.name "Self" []))]
  ret := .name "Option" [.name "u32" []]
  body := [.tail (.mclosure (.mcall (.var "self") "to_u64_opt" [] []) "and_then" (.var "x") (.mcall
    (.var "x") "to_u32_opt" [] []))]

/-- `ArrayRepr::to_u64_opt`, enumset/src/repr/array.rs:190-197 -/
def ArrayRepr_to_u64_opt : FnDecl where
  implGens := ["N"]
  gens := []
  params := [("self", .ref (.name "Self" []))]
  ret := .name "Option" [.name "u64" []]
  body := [.semi (.for (.var "i") (.range (.lit 1) (.var "N")) (.block [.tail (.ite (.bin .ne
    (.index (.field (.var "self") "0") (.var "i")) (.lit 0)) (.block [.semi (.ret (.none))]) (.block
    []))])), .tail (.some (.mcall (.var "self") "to_u64" [] []))]

/-- `ArrayRepr::to_u128_opt`, enumset/src/repr/array.rs:198-205 -/
def ArrayRepr_to_u128_opt : FnDecl where
  implGens := ["N"]
  gens := []
  params := [("self", .ref (.name "Self" []))]
  ret := .name "Option" [.name "u128" []]
  body := [.semi (.for (.var "i") (.range (.lit 2) (.var "N")) (.block [.tail (.ite (.bin .ne
    (.index (.field (.var "self") "0") (.var "i")) (.lit 0)) (.block [.semi (.ret (.none))]) (.block
    []))])), .tail (.some (.mcall (.var "self") "to_u128" [] []))]

/-- `ArrayRepr::to_usize_opt`, enumset/src/repr/array.rs:206-208 -/
def ArrayRepr_to_usize_opt : FnDecl where
  implGens := ["N"]
  gens := []
  params := [("self", .ref (.name "Self" []))]
  ret := .name "Option" [.name "usize" []]
  body := [.tail (.mclosure (.mcall (.var "self") "to_u64_opt" [] []) "and_then" (.var "x") (.mcall
    (.var "x") "to_usize_opt" [] []))]

/-- `ArrayRepr::to_u64_array`, enumset/src/repr/array.rs:210-215 -/
def ArrayRepr_to_u64_array : FnDecl where
  implGens := ["N"]
  gens := ["O"]
  params := [("self", .ref (.name "Self" []))]
  ret := .arr (.name "u64" []) "O"
  body := [.let (.var "array") (some (.arr (.name "u64" []) "O")) (.repeat (.lit 0) (.var "O")),
    .let (.var "copy_len") none (.ite (.bin .lt (.var "N") (.var "O")) (.block [.tail (.var "N")])
    (.block [.tail (.var "O")])), .semi (.mcall (.sliceTo (.var "array") (.var "copy_len"))
    "copy_from_slice" [] [.un .ref (.sliceTo (.field (.var "self") "0") (.var "copy_len"))]), .tail
    (.var "array")]

/-- `ArrayRepr::to_u64_array_opt`, enumset/src/repr/array.rs:216-225 -/
def ArrayRepr_to_u64_array_opt : FnDecl where
  implGens := ["N"]
  gens := ["O"]
  params := [("self", .ref (.name "Self" []))]
  ret := .name "Option" [.arr (.name "u64" []) "O"]
  body := [.semi (.ite (.bin .gt (.var "N") (.var "O")) (.block [.tail (.for (.var "i") (.range
    (.var "O") (.var "N")) (.block [.tail (.ite (.bin .ne (.index (.field (.var "self") "0") (.var
    "i")) (.lit 0)) (.block [.semi (.ret (.none))]) (.block []))]))]) (.block [])), .tail (.some
    (.mcall (.var "self") "to_u64_array" [] []))]

/-- `ArrayRepr::from_u64_array`, enumset/src/repr/array.rs:227-229 -/
def ArrayRepr_from_u64_array : FnDecl where
  implGens := ["N"]
  gens := ["O"]
  params := [("v", .arr (.name "u64" []) "O")]
  ret := .name "Self" []
  body := [.tail (.ctor "ArrayRepr" (.mcall (.ctor "ArrayRepr" (.var "v")) "to_u64_array" ["N"]
    []))]

/-- `ArrayRepr::from_u64_array_opt`, enumset/src/repr/array.rs:230-232 -/
def ArrayRepr_from_u64_array_opt : FnDecl where
  implGens := ["N"]
  gens := ["O"]
  params := [("v", .arr (.name "u64" []) "O")]
  ret := .name "Option" [.name "Self" []]
  body := [.tail (.mapCtor (.mcall (.ctor "ArrayRepr" (.var "v")) "to_u64_array_opt" ["N"] [])
    "ArrayRepr")]

/-- `ArrayRepr::to_u64_slice`, enumset/src/repr/array.rs:234-240 -/
def ArrayRepr_to_u64_slice : FnDecl where
  implGens := ["N"]
  gens := []
  params := [("self", .ref (.name "Self" [])), ("out", .refMut (.slice (.name "u64" [])))]
  ret := .tuple []
  body := [.let (.var "copy_len") none (.ite (.bin .lt (.var "N") (.mcall (.var "out") "len" [] []))
    (.block [.tail (.var "N")]) (.block [.tail (.mcall (.var "out") "len" [] [])])), .semi (.mcall
    (.sliceTo (.var "out") (.var "copy_len")) "copy_from_slice" [] [.un .ref (.sliceTo (.field (.var
    "self") "0") (.var "copy_len"))]), .tail (.for (.var "i") (.range (.var "copy_len") (.mcall
    (.var "out") "len" [] [])) (.block [.semi (.assign (.index (.var "out") (.var "i")) (.lit
    0))]))]

/-- `ArrayRepr::to_u64_slice_opt`, enumset/src/repr/array.rs:242-252 -/
def ArrayRepr_to_u64_slice_opt : FnDecl where
  implGens := ["N"]
  gens := []
  params := [("self", .ref (.name "Self" [])), ("out", .refMut (.slice (.name "u64" [])))]
  ret := .name "Option" [.tuple []]
  body := [.semi (.ite (.bin .gt (.var "N") (.mcall (.var "out") "len" [] [])) (.block [.tail (.for
    (.var "i") (.range (.mcall (.var "out") "len" [] []) (.var "N")) (.block [.tail (.ite (.bin .ne
    (.index (.field (.var "self") "0") (.var "i")) (.lit 0)) (.block [.semi (.ret (.none))]) (.block
    []))]))]) (.block [])), .semi (.mcall (.var "self") "to_u64_slice" [] [.var "out"]), .tail
    (.some (.tuple []))]

/-- `ArrayRepr::from_u64_slice`, enumset/src/repr/array.rs:254-259 -/
def ArrayRepr_from_u64_slice : FnDecl where
  implGens := ["N"]
  gens := []
  params := [("v", .ref (.slice (.name "u64" [])))]
  ret := .name "Self" []
  body := [.let (.var "new") none (.ctor "ArrayRepr" (.repeat (.lit 0) (.var "N"))), .let (.var
    "copy_len") none (.ite (.bin .lt (.var "N") (.mcall (.var "v") "len" [] [])) (.block [.tail
    (.var "N")]) (.block [.tail (.mcall (.var "v") "len" [] [])])), .semi (.mcall (.sliceTo (.field
    (.var "new") "0") (.var "copy_len")) "copy_from_slice" [] [.un .ref (.sliceTo (.var "v") (.var
    "copy_len"))]), .tail (.var "new")]

/-- `ArrayRepr::from_u64_slice_opt`, enumset/src/repr/array.rs:260-269 -/
def ArrayRepr_from_u64_slice_opt : FnDecl where
  implGens := ["N"]
  gens := []
  params := [("v", .ref (.slice (.name "u64" [])))]
  ret := .name "Option" [.name "Self" []]
  body := [.semi (.ite (.bin .gt (.mcall (.var "v") "len" [] []) (.var "N")) (.block [.tail (.for
    (.var "i") (.range (.var "N") (.mcall (.var "v") "len" [] [])) (.block [.tail (.ite (.bin .ne
    (.index (.var "v") (.var "i")) (.lit 0)) (.block [.semi (.ret (.none))]) (.block []))]))])
    (.block [])), .tail (.some (.pcall "Self" "from_u64_slice" [] [.var "v"]))]

/-- `ArrayIter::new`, enumset/src/repr/array.rs:281-287 -/
def ArrayIter_new : FnDecl where
  implGens := ["N"]
  gens := []
  params := [("array", .name "ArrayRepr" [.name "N" []])]
  ret := .name "Self" []
  body := [.let (.var "new") (some (.arr (.name "PrimitiveIter" [.name "u64" []]) "N")) (.repeat
    (.ctor "PrimitiveIter" (.lit 0)) (.var "N")), .semi (.for (.var "i") (.range (.lit 0) (.var
    "N")) (.block [.tail (.assign (.index (.var "new") (.var "i")) (.ctor "PrimitiveIter" (.index
    (.field (.var "array") "0") (.var "i"))))])), .tail (.struct "ArrayIter" ["data", "done",
    "idx_f", "idx_r"] [.var "new", .bool false, .lit 0, .bin .sub (.var "N") (.lit 1)])]

/-- `ArrayIter::next`, enumset/src/repr/array.rs:293-306 -/
def ArrayIter_next : FnDecl where
  implGens := ["N"]
  gens := []
  params := [("self", .refMut (.name "Self" []))]
  ret := .name "Option" [.name "Self::Item" []]
  body := [.semi (.ite (.field (.var "self") "done") (.block [.semi (.ret (.none))]) (.block [])),
    .semi (.while (.bin .le (.field (.var "self") "idx_f") (.field (.var "self") "idx_r")) (.block
    [.tail (.ifLet (.some (.var "x")) (.mcall (.index (.field (.var "self") "data") (.field (.var
    "self") "idx_f")) "next" [] []) (.block [.semi (.ret (.some (.bin .add (.bin .mul (.cast (.field
    (.var "self") "idx_f") (.name "u32" [])) (.lit 64)) (.var "x"))))]) (.block [.semi (.assignOp
    .add (.field (.var "self") "idx_f") (.lit 1))]))])), .semi (.assign (.field (.var "self")
    "done") (.bool true)), .tail (.none)]

/-- `ArrayIter::size_hint`, enumset/src/repr/array.rs:308-314 -/
def ArrayIter_size_hint : FnDecl where
  implGens := ["N"]
  gens := []
  params := [("self", .ref (.name "Self" []))]
  ret := .tuple [.name "usize" [], .name "Option" [.name "usize" []]]
  body := [.let (.var "sum") (some (.name "usize" [])) (.lit 0), .semi (.for (.var "i") (.range
    (.field (.var "self") "idx_f") (.bin .add (.field (.var "self") "idx_r") (.lit 1))) (.block
    [.semi (.assignOp .add (.var "sum") (.cast (.mcall (.field (.index (.field (.var "self") "data")
    (.var "i")) "0") "count_ones" [] []) (.name "usize" [])))])), .tail (.tuple [.var "sum", .some
    (.var "sum")])]

/-- `ArrayIter::next_back`, enumset/src/repr/array.rs:318-334 -/
def ArrayIter_next_back : FnDecl where
  implGens := ["N"]
  gens := []
  params := [("self", .refMut (.name "Self" []))]
  ret := .name "Option" [.name "Self::Item" []]
  body := [.semi (.ite (.field (.var "self") "done") (.block [.semi (.ret (.none))]) (.block [])),
    .semi (.while (.bin .le (.field (.var "self") "idx_f") (.field (.var "self") "idx_r")) (.block
    [.tail (.ifLet (.some (.var "x")) (.mcall (.index (.field (.var "self") "data") (.field (.var
    "self") "idx_r")) "next_back" [] []) (.block [.semi (.ret (.some (.bin .add (.bin .mul (.cast
    (.field (.var "self") "idx_r") (.name "u32" [])) (.lit 64)) (.var "x"))))]) (.block [.semi (.ite
    (.bin .eq (.field (.var "self") "idx_r") (.lit 0)) (.block [.semi (.brk)]) (.block [])), .semi
    (.assignOp .sub (.field (.var "self") "idx_r") (.lit 1))]))])), .semi (.assign (.field (.var
    "self") "done") (.bool true)), .tail (.none)]

/-- The functions of the file. -/
def fns : List ((String × String) × FnDecl) :=
  [(("ArrayRepr", "split_bit"), ArrayRepr_split_bit),
   (("ArrayRepr", "bitand"), ArrayRepr_bitand),
   (("ArrayRepr", "bitor"), ArrayRepr_bitor),
   (("ArrayRepr", "bitxor"), ArrayRepr_bitxor),
   (("ArrayRepr", "not"), ArrayRepr_not),
   (("ArrayRepr", "PREFERRED_ARRAY_LEN"), ArrayRepr_PREFERRED_ARRAY_LEN),
   (("ArrayRepr", "WIDTH"), ArrayRepr_WIDTH),
   (("ArrayRepr", "EMPTY"), ArrayRepr_EMPTY),
   (("ArrayRepr", "is_empty"), ArrayRepr_is_empty),
   (("ArrayRepr", "add_bit"), ArrayRepr_add_bit),
   (("ArrayRepr", "remove_bit"), ArrayRepr_remove_bit),
   (("ArrayRepr", "has_bit"), ArrayRepr_has_bit),
   (("ArrayRepr", "count_ones"), ArrayRepr_count_ones),
   (("ArrayRepr", "leading_zeros"), ArrayRepr_leading_zeros),
   (("ArrayRepr", "trailing_zeros"), ArrayRepr_trailing_zeros),
   (("ArrayRepr", "and_not"), ArrayRepr_and_not),
   (("ArrayRepr", "iter"), ArrayRepr_iter),
   (("ArrayRepr", "from_u8"), ArrayRepr_from_u8),
   (("ArrayRepr", "from_u16"), ArrayRepr_from_u16),
   (("ArrayRepr", "from_u32"), ArrayRepr_from_u32),
   (("ArrayRepr", "from_u64"), ArrayRepr_from_u64),
   (("ArrayRepr", "from_u128"), ArrayRepr_from_u128),
   (("ArrayRepr", "from_usize"), ArrayRepr_from_usize),
   (("ArrayRepr", "from_u8_opt"), ArrayRepr_from_u8_opt),
   (("ArrayRepr", "from_u16_opt"), ArrayRepr_from_u16_opt),
   (("ArrayRepr", "from_u32_opt"), ArrayRepr_from_u32_opt),
   (("ArrayRepr", "from_u64_opt"), ArrayRepr_from_u64_opt),
   (("ArrayRepr", "from_u128_opt"), ArrayRepr_from_u128_opt),
   (("ArrayRepr", "from_usize_opt"), ArrayRepr_from_usize_opt),
   (("ArrayRepr", "to_u8"), ArrayRepr_to_u8),
   (("ArrayRepr", "to_u16"), ArrayRepr_to_u16),
   (("ArrayRepr", "to_u32"), ArrayRepr_to_u32),
   (("ArrayRepr", "to_u64"), ArrayRepr_to_u64),
   (("ArrayRepr", "to_u128"), ArrayRepr_to_u128),
   (("ArrayRepr", "to_usize"), ArrayRepr_to_usize),
   (("ArrayRepr", "to_u8_opt"), ArrayRepr_to_u8_opt),
   (("ArrayRepr", "to_u16_opt"), ArrayRepr_to_u16_opt),
   (("ArrayRepr", "to_u32_opt"), ArrayRepr_to_u32_opt),
   (("ArrayRepr", "to_u64_opt"), ArrayRepr_to_u64_opt),
   (("ArrayRepr", "to_u128_opt"), ArrayRepr_to_u128_opt),
   (("ArrayRepr", "to_usize_opt"), ArrayRepr_to_usize_opt),
   (("ArrayRepr", "to_u64_array"), ArrayRepr_to_u64_array),
   (("ArrayRepr", "to_u64_array_opt"), ArrayRepr_to_u64_array_opt),
   (("ArrayRepr", "from_u64_array"), ArrayRepr_from_u64_array),
   (("ArrayRepr", "from_u64_array_opt"), ArrayRepr_from_u64_array_opt),
   (("ArrayRepr", "to_u64_slice"), ArrayRepr_to_u64_slice),
   (("ArrayRepr", "to_u64_slice_opt"), ArrayRepr_to_u64_slice_opt),
   (("ArrayRepr", "from_u64_slice"), ArrayRepr_from_u64_slice),
   (("ArrayRepr", "from_u64_slice_opt"), ArrayRepr_from_u64_slice_opt),
   (("ArrayIter", "new"), ArrayIter_new),
   (("ArrayIter", "next"), ArrayIter_next),
   (("ArrayIter", "size_hint"), ArrayIter_size_hint),
   (("ArrayIter", "next_back"), ArrayIter_next_back)]

/-- The structs of the file. -/
def structs : List (String × StructDecl) :=
  [("ArrayRepr",
    { gens := ["N"]
      fields := [("0", .arr (.name "u64" []) "N")]
      derives := ["Copy", "Clone", "Eq", "PartialEq", "Ord", "PartialOrd", "Debug", "Hash"] }),
   ("ArrayIter",
    { gens := ["N"]
      fields := [("data", .arr (.name "PrimitiveIter" [.name "u64" []]) "N"), ("done", .name "bool" []), ("idx_f", .name "usize" []), ("idx_r", .name "usize" [])]
      derives := ["Clone", "Debug"] })]

/-- The macro invocations of the file. -/
def invocations : List (List (String × Expr)) :=
  []

/-- The file. -/
def file : File := { fns, structs, invocations }

end Enumset.Src.ArrayRs
