import Verif.Src.Syntax
/-!
# `enumset/src/repr/primitive.rs`

Written by `tools/rs2lean.py`.
-/
set_option autoImplicit false

namespace Enumset.Src.PrimitiveRs

/-- `$name::lo`, enumset/src/repr/primitive.rs:6-8 -/
def prim_lo : FnDecl where
  implGens := []
  gens := []
  params := [("v", .name "$name" [])]
  ret := .name "u64" []
  body := [.tail (.cast (.var "v") (.name "u64" []))]

/-- `$name::hi`, enumset/src/repr/primitive.rs:9-11 -/
def prim_hi : FnDecl where
  implGens := []
  gens := []
  params := [("v", .name "$name" [])]
  ret := .name "u64" []
  body := [.tail (.cast (.bin .shr (.cast (.var "v") (.name "u128" [])) (.lit 64)) (.name "u64"
    []))]

/-- `$name::PREFERRED_ARRAY_LEN`, enumset/src/repr/primitive.rs:14 -/
def prim_PREFERRED_ARRAY_LEN : FnDecl where
  implGens := []
  gens := []
  params := []
  ret := .name "usize" []
  body := [.tail (.var "$preferred_array_len")]

/-- `$name::WIDTH`, enumset/src/repr/primitive.rs:15 -/
def prim_WIDTH : FnDecl where
  implGens := []
  gens := []
  params := []
  ret := .name "u32" []
  body := [.tail (.var "$width")]

/-- `$name::EMPTY`, enumset/src/repr/primitive.rs:16 -/
def prim_EMPTY : FnDecl where
  implGens := []
  gens := []
  params := []
  ret := .name "Self" []
  body := [.tail (.lit 0)]

/-- `$name::is_empty`, enumset/src/repr/primitive.rs:19-21 -/
def prim_is_empty : FnDecl where
  implGens := []
  gens := []
  params := [("self", .ref (.name "Self" []))]
  ret := .name "bool" []
  body := [.tail (.bin .eq (.un .deref (.var "self")) (.lit 0))]

/-- `$name::add_bit`, enumset/src/repr/primitive.rs:24-26 -/
def prim_add_bit : FnDecl where
  implGens := []
  gens := []
  params := [("self", .refMut (.name "Self" [])), ("bit", .name "u32" [])]
  ret := .tuple []
  body := [.semi (.assignOp .bor (.un .deref (.var "self")) (.bin .shl (.lit 1) (.cast (.var "bit")
    (.name "$name" []))))]

/-- `$name::remove_bit`, enumset/src/repr/primitive.rs:28-30 -/
def prim_remove_bit : FnDecl where
  implGens := []
  gens := []
  params := [("self", .refMut (.name "Self" [])), ("bit", .name "u32" [])]
  ret := .tuple []
  body := [.semi (.assignOp .band (.un .deref (.var "self")) (.un .not (.bin .shl (.lit 1) (.cast
    (.var "bit") (.name "$name" [])))))]

/-- `$name::has_bit`, enumset/src/repr/primitive.rs:32-34 -/
def prim_has_bit : FnDecl where
  implGens := []
  gens := []
  params := [("self", .ref (.name "Self" [])), ("bit", .name "u32" [])]
  ret := .name "bool" []
  body := [.tail (.bin .ne (.bin .band (.var "self") (.bin .shl (.lit 1) (.cast (.var "bit") (.name
    "$name" [])))) (.lit 0))]

/-- `$name::count_ones`, enumset/src/repr/primitive.rs:37-39 -/
def prim_count_ones : FnDecl where
  implGens := []
  gens := []
  params := [("self", .ref (.name "Self" []))]
  ret := .name "u32" []
  body := [.tail (.mcall (.un .deref (.var "self")) "count_ones" [] [])]

/-- `$name::leading_zeros`, enumset/src/repr/primitive.rs:41-43 -/
def prim_leading_zeros : FnDecl where
  implGens := []
  gens := []
  params := [("self", .ref (.name "Self" []))]
  ret := .name "u32" []
  body := [.tail (.mcall (.un .deref (.var "self")) "leading_zeros" [] [])]

/-- `$name::trailing_zeros`, enumset/src/repr/primitive.rs:45-47 -/
def prim_trailing_zeros : FnDecl where
  implGens := []
  gens := []
  params := [("self", .ref (.name "Self" []))]
  ret := .name "u32" []
  body := [.tail (.mcall (.un .deref (.var "self")) "trailing_zeros" [] [])]

/-- `$name::and_not`, enumset/src/repr/primitive.rs:50-52 -/
def prim_and_not : FnDecl where
  implGens := []
  gens := []
  params := [("self", .ref (.name "Self" [])), ("other", .name "Self" [])]
  ret := .name "Self" []
  body := [.tail (.bin .band (.un .deref (.var "self")) (.un .not (.var "other")))]

/-- `$name::iter`, enumset/src/repr/primitive.rs:56-58 -/
def prim_iter : FnDecl where
  implGens := []
  gens := []
  params := [("self", .name "Self" [])]
  ret := .name "Self::Iter" []
  body := [.tail (.ctor "PrimitiveIter" (.var "self"))]

/-- `$name::from_u8`, enumset/src/repr/primitive.rs:61-63 -/
def prim_from_u8 : FnDecl where
  implGens := []
  gens := []
  params := [("v", .name "u8" [])]
  ret := .name "Self" []
  body := [.tail (.cast (.var "v") (.name "$name" []))]

/-- `$name::from_u16`, enumset/src/repr/primitive.rs:65-67 -/
def prim_from_u16 : FnDecl where
  implGens := []
  gens := []
  params := [("v", .name "u16" [])]
  ret := .name "Self" []
  body := [.tail (.cast (.var "v") (.name "$name" []))]

/-- `$name::from_u32`, enumset/src/repr/primitive.rs:69-71 -/
def prim_from_u32 : FnDecl where
  implGens := []
  gens := []
  params := [("v", .name "u32" [])]
  ret := .name "Self" []
  body := [.tail (.cast (.var "v") (.name "$name" []))]

/-- `$name::from_u64`, enumset/src/repr/primitive.rs:73-75 -/
def prim_from_u64 : FnDecl where
  implGens := []
  gens := []
  params := [("v", .name "u64" [])]
  ret := .name "Self" []
  body := [.tail (.cast (.var "v") (.name "$name" []))]

/-- `$name::from_u128`, enumset/src/repr/primitive.rs:77-79 -/
def prim_from_u128 : FnDecl where
  implGens := []
  gens := []
  params := [("v", .name "u128" [])]
  ret := .name "Self" []
  body := [.tail (.cast (.var "v") (.name "$name" []))]

/-- `$name::from_usize`, enumset/src/repr/primitive.rs:81-83 -/
def prim_from_usize : FnDecl where
  implGens := []
  gens := []
  params := [("v", .name "usize" [])]
  ret := .name "Self" []
  body := [.tail (.cast (.var "v") (.name "$name" []))]

/-- `$name::to_u8`, enumset/src/repr/primitive.rs:86-88 -/
def prim_to_u8 : FnDecl where
  implGens := []
  gens := []
  params := [("self", .ref (.name "Self" []))]
  ret := .name "u8" []
  body := [.tail (.cast (.un .deref (.var "self")) (.name "u8" []))]

/-- `$name::to_u16`, enumset/src/repr/primitive.rs:90-92 -/
def prim_to_u16 : FnDecl where
  implGens := []
  gens := []
  params := [("self", .ref (.name "Self" []))]
  ret := .name "u16" []
  body := [.tail (.cast (.un .deref (.var "self")) (.name "u16" []))]

/-- `$name::to_u32`, enumset/src/repr/primitive.rs:94-96 -/
def prim_to_u32 : FnDecl where
  implGens := []
  gens := []
  params := [("self", .ref (.name "Self" []))]
  ret := .name "u32" []
  body := [.tail (.cast (.un .deref (.var "self")) (.name "u32" []))]

/-- `$name::to_u64`, enumset/src/repr/primitive.rs:98-100 -/
def prim_to_u64 : FnDecl where
  implGens := []
  gens := []
  params := [("self", .ref (.name "Self" []))]
  ret := .name "u64" []
  body := [.tail (.cast (.un .deref (.var "self")) (.name "u64" []))]

/-- `$name::to_u128`, enumset/src/repr/primitive.rs:102-104 -/
def prim_to_u128 : FnDecl where
  implGens := []
  gens := []
  params := [("self", .ref (.name "Self" []))]
  ret := .name "u128" []
  body := [.tail (.cast (.un .deref (.var "self")) (.name "u128" []))]

/-- `$name::to_usize`, enumset/src/repr/primitive.rs:106-108 -/
def prim_to_usize : FnDecl where
  implGens := []
  gens := []
  params := [("self", .ref (.name "Self" []))]
  ret := .name "usize" []
  body := [.tail (.cast (.un .deref (.var "self")) (.name "usize" []))]

/-- `$name::from_u8_opt`, enumset/src/repr/primitive.rs:111-113 -/
def prim_from_u8_opt : FnDecl where
  implGens := []
  gens := []
  params := [("v", .name "u8" [])]
  ret := .name "Option" [.name "Self" []]
  body := [.tail (.tryIntoOk (.var "v"))]

/-- `$name::from_u16_opt`, enumset/src/repr/primitive.rs:115-117 -/
def prim_from_u16_opt : FnDecl where
  implGens := []
  gens := []
  params := [("v", .name "u16" [])]
  ret := .name "Option" [.name "Self" []]
  body := [.tail (.tryIntoOk (.var "v"))]

/-- `$name::from_u32_opt`, enumset/src/repr/primitive.rs:119-121 -/
def prim_from_u32_opt : FnDecl where
  implGens := []
  gens := []
  params := [("v", .name "u32" [])]
  ret := .name "Option" [.name "Self" []]
  body := [.tail (.tryIntoOk (.var "v"))]

/-- `$name::from_u64_opt`, enumset/src/repr/primitive.rs:123-125 -/
def prim_from_u64_opt : FnDecl where
  implGens := []
  gens := []
  params := [("v", .name "u64" [])]
  ret := .name "Option" [.name "Self" []]
  body := [.tail (.tryIntoOk (.var "v"))]

/-- `$name::from_u128_opt`, enumset/src/repr/primitive.rs:127-129 -/
def prim_from_u128_opt : FnDecl where
  implGens := []
  gens := []
  params := [("v", .name "u128" [])]
  ret := .name "Option" [.name "Self" []]
  body := [.tail (.tryIntoOk (.var "v"))]

/-- `$name::from_usize_opt`, enumset/src/repr/primitive.rs:131-133 -/
def prim_from_usize_opt : FnDecl where
  implGens := []
  gens := []
  params := [("v", .name "usize" [])]
  ret := .name "Option" [.name "Self" []]
  body := [.tail (.tryIntoOk (.var "v"))]

/-- `$name::to_u8_opt`, enumset/src/repr/primitive.rs:136-138 -/
def prim_to_u8_opt : FnDecl where
  implGens := []
  gens := []
  params := [("self", .ref (.name "Self" []))]
  ret := .name "Option" [.name "u8" []]
  body := [.tail (.tryIntoOk (.un .deref (.var "self")))]

/-- `$name::to_u16_opt`, enumset/src/repr/primitive.rs:140-142 -/
def prim_to_u16_opt : FnDecl where
  implGens := []
  gens := []
  params := [("self", .ref (.name "Self" []))]
  ret := .name "Option" [.name "u16" []]
  body := [.tail (.tryIntoOk (.un .deref (.var "self")))]

/-- `$name::to_u32_opt`, enumset/src/repr/primitive.rs:144-146 -/
def prim_to_u32_opt : FnDecl where
  implGens := []
  gens := []
  params := [("self", .ref (.name "Self" []))]
  ret := .name "Option" [.name "u32" []]
  body := [.tail (.tryIntoOk (.un .deref (.var "self")))]

/-- `$name::to_u64_opt`, enumset/src/repr/primitive.rs:148-150 -/
def prim_to_u64_opt : FnDecl where
  implGens := []
  gens := []
  params := [("self", .ref (.name "Self" []))]
  ret := .name "Option" [.name "u64" []]
  body := [.tail (.tryIntoOk (.un .deref (.var "self")))]

/-- `$name::to_u128_opt`, enumset/src/repr/primitive.rs:152-154 -/
def prim_to_u128_opt : FnDecl where
  implGens := []
  gens := []
  params := [("self", .ref (.name "Self" []))]
  ret := .name "Option" [.name "u128" []]
  body := [.tail (.tryIntoOk (.un .deref (.var "self")))]

/-- `$name::to_usize_opt`, enumset/src/repr/primitive.rs:156-158 -/
def prim_to_usize_opt : FnDecl where
  implGens := []
  gens := []
  params := [("self", .ref (.name "Self" []))]
  ret := .name "Option" [.name "usize" []]
  body := [.tail (.tryIntoOk (.un .deref (.var "self")))]

/-- `$name::to_u64_array`, enumset/src/repr/primitive.rs:161-170 -/
def prim_to_u64_array : FnDecl where
  implGens := []
  gens := ["O"]
  params := [("self", .ref (.name "Self" []))]
  ret := .arr (.name "u64" []) "O"
  body := [.let (.var "array") (some (.arr (.name "u64" []) "O")) (.repeat (.lit 0) (.var "O")),
    .semi (.ite (.bin .gt (.var "O") (.lit 0)) (.block [.semi (.assign (.index (.var "array") (.lit
    0)) (.call "lo" [.un .deref (.var "self")]))]) (.block [])), .semi (.ite (.and (.bin .gt (.var
    "O") (.lit 1)) (.bin .eq (.var "$preferred_array_len") (.lit 2))) (.block [.semi (.assign
    (.index (.var "array") (.lit 1)) (.call "hi" [.un .deref (.var "self")]))]) (.block [])), .tail
    (.var "array")]

/-- `$name::to_u64_array_opt`, enumset/src/repr/primitive.rs:172-180 -/
def prim_to_u64_array_opt : FnDecl where
  implGens := []
  gens := ["O"]
  params := [("self", .ref (.name "Self" []))]
  ret := .name "Option" [.arr (.name "u64" []) "O"]
  body := [.tail (.ite (.and (.bin .eq (.var "O") (.lit 0)) (.bin .ne (.un .deref (.var "self"))
    (.lit 0))) (.block [.tail (.none)]) (.ite (.and (.bin .eq (.var "O") (.lit 1)) (.bin .ne (.call
    "hi" [.un .deref (.var "self")]) (.lit 0))) (.block [.tail (.none)]) (.block [.tail (.some
    (.mcall (.var "self") "to_u64_array" [] []))])))]

/-- `$name::from_u64_array`, enumset/src/repr/primitive.rs:183-191 -/
def prim_from_u64_array : FnDecl where
  implGens := []
  gens := ["O"]
  params := [("v", .arr (.name "u64" []) "O")]
  ret := .name "Self" []
  body := [.tail (.ite (.bin .eq (.var "O") (.lit 0)) (.block [.tail (.lit 0)]) (.ite (.and (.bin
    .gt (.var "O") (.lit 1)) (.bin .eq (.var "$preferred_array_len") (.lit 2))) (.block [.tail
    (.pcall "Self" "from_u128" [] [.bin .bor (.cast (.index (.var "v") (.lit 0)) (.name "u128" []))
    (.bin .shl (.cast (.index (.var "v") (.lit 1)) (.name "u128" [])) (.lit 64))])]) (.block [.tail
    (.pcall "Self" "from_u64" [] [.index (.var "v") (.lit 0)])])))]

/-- `$name::from_u64_array_opt`, enumset/src/repr/primitive.rs:193-206 -/
def prim_from_u64_array_opt : FnDecl where
  implGens := []
  gens := ["O"]
  params := [("v", .arr (.name "u64" []) "O")]
  ret := .name "Option" [.name "Self" []]
  body := [.tail (.ite (.bin .eq (.var "O") (.lit 0)) (.block [.tail (.some (.lit 0))]) (.ite (.bin
    .eq (.var "O") (.lit 1)) (.block [.tail (.pcall "Self" "from_u64_opt" [] [.index (.var "v")
    (.lit 0)])]) (.block [.semi (.for (.var "i") (.range (.lit 2) (.var "O")) (.block [.tail (.ite
    (.bin .ne (.index (.var "v") (.var "i")) (.lit 0)) (.block [.semi (.ret (.none))]) (.block
    []))])), .tail (.pcall "Self" "from_u128_opt" [] [.bin .bor (.cast (.index (.var "v") (.lit 0))
    (.name "u128" [])) (.bin .shl (.cast (.index (.var "v") (.lit 1)) (.name "u128" [])) (.lit
    64))])])))]

/-- `$name::to_u64_slice`, enumset/src/repr/primitive.rs:209-219 -/
def prim_to_u64_slice : FnDecl where
  implGens := []
  gens := []
  params := [("self", .ref (.name "Self" [])), ("out", .refMut (.slice (.name "u64" [])))]
  ret := .tuple []
  body := [.semi (.ite (.bin .gt (.mcall (.var "out") "len" [] []) (.lit 0)) (.block [.semi (.assign
    (.index (.var "out") (.lit 0)) (.call "lo" [.un .deref (.var "self")]))]) (.block [])), .semi
    (.ite (.and (.bin .gt (.mcall (.var "out") "len" [] []) (.lit 1)) (.bin .eq (.var
    "$preferred_array_len") (.lit 2))) (.block [.semi (.assign (.index (.var "out") (.lit 1)) (.call
    "hi" [.un .deref (.var "self")]))]) (.block [])), .tail (.for (.var "i") (.range (.var
    "$preferred_array_len") (.mcall (.var "out") "len" [] [])) (.block [.semi (.assign (.index (.var
    "out") (.var "i")) (.lit 0))]))]

/-- `$name::to_u64_slice_opt`, enumset/src/repr/primitive.rs:222-231 -/
def prim_to_u64_slice_opt : FnDecl where
  implGens := []
  gens := []
  params := [("self", .ref (.name "Self" [])), ("out", .refMut (.slice (.name "u64" [])))]
  ret := .name "Option" [.tuple []]
  body := [.tail (.ite (.and (.bin .eq (.mcall (.var "out") "len" [] []) (.lit 0)) (.bin .ne (.un
    .deref (.var "self")) (.lit 0))) (.block [.tail (.none)]) (.ite (.and (.bin .eq (.mcall (.var
    "out") "len" [] []) (.lit 1)) (.bin .ne (.call "hi" [.un .deref (.var "self")]) (.lit 0)))
    (.block [.tail (.none)]) (.block [.semi (.mcall (.var "self") "to_u64_slice" [] [.var "out"]),
    .tail (.some (.tuple []))])))]

/-- `$name::from_u64_slice`, enumset/src/repr/primitive.rs:234-242 -/
def prim_from_u64_slice : FnDecl where
  implGens := []
  gens := []
  params := [("v", .ref (.slice (.name "u64" [])))]
  ret := .name "Self" []
  body := [.tail (.ite (.bin .eq (.mcall (.var "v") "len" [] []) (.lit 0)) (.block [.tail (.lit 0)])
    (.ite (.and (.bin .gt (.mcall (.var "v") "len" [] []) (.lit 1)) (.bin .eq (.var
    "$preferred_array_len") (.lit 2))) (.block [.tail (.pcall "Self" "from_u128" [] [.bin .bor
    (.cast (.index (.var "v") (.lit 0)) (.name "u128" [])) (.bin .shl (.cast (.index (.var "v")
    (.lit 1)) (.name "u128" [])) (.lit 64))])]) (.block [.tail (.pcall "Self" "from_u64" [] [.index
    (.var "v") (.lit 0)])])))]

/-- `$name::from_u64_slice_opt`, enumset/src/repr/primitive.rs:244-257 -/
def prim_from_u64_slice_opt : FnDecl where
  implGens := []
  gens := []
  params := [("v", .ref (.slice (.name "u64" [])))]
  ret := .name "Option" [.name "Self" []]
  body := [.tail (.ite (.bin .eq (.mcall (.var "v") "len" [] []) (.lit 0)) (.block [.tail (.some
    (.lit 0))]) (.ite (.bin .eq (.mcall (.var "v") "len" [] []) (.lit 1)) (.block [.tail (.pcall
    "Self" "from_u64_opt" [] [.index (.var "v") (.lit 0)])]) (.block [.semi (.for (.var "i") (.range
    (.lit 2) (.mcall (.var "v") "len" [] [])) (.block [.tail (.ite (.bin .ne (.index (.var "v")
    (.var "i")) (.lit 0)) (.block [.semi (.ret (.none))]) (.block []))])), .tail (.pcall "Self"
    "from_u128_opt" [] [.bin .bor (.cast (.index (.var "v") (.lit 0)) (.name "u128" [])) (.bin .shl
    (.cast (.index (.var "v") (.lit 1)) (.name "u128" [])) (.lit 64))])])))]

/-- `PrimitiveIter::next`, enumset/src/repr/primitive.rs:275-283 -/
def PrimitiveIter_next : FnDecl where
  implGens := ["T"]
  gens := []
  params := [("self", .refMut (.name "Self" []))]
  ret := .name "Option" [.name "Self::Item" []]
  body := [.tail (.ite (.mcall (.field (.var "self") "0") "is_empty" [] []) (.block [.tail (.none)])
    (.block [.let (.var "bit") none (.mcall (.field (.var "self") "0") "trailing_zeros" [] []),
    .semi (.mcall (.field (.var "self") "0") "remove_bit" [] [.var "bit"]), .tail (.some (.var
    "bit"))]))]

/-- `PrimitiveIter::size_hint`, enumset/src/repr/primitive.rs:285-288 -/
def PrimitiveIter_size_hint : FnDecl where
  implGens := ["T"]
  gens := []
  params := [("self", .ref (.name "Self" []))]
  ret := .tuple [.name "usize" [], .name "Option" [.name "usize" []]]
  body := [.let (.var "left") none (.cast (.mcall (.field (.var "self") "0") "count_ones" [] [])
    (.name "usize" [])), .tail (.tuple [.var "left", .some (.var "left")])]

/-- `PrimitiveIter::next_back`, enumset/src/repr/primitive.rs:292-300 -/
def PrimitiveIter_next_back : FnDecl where
  implGens := ["T"]
  gens := []
  params := [("self", .refMut (.name "Self" []))]
  ret := .name "Option" [.name "Self::Item" []]
  body := [.tail (.ite (.mcall (.field (.var "self") "0") "is_empty" [] []) (.block [.tail (.none)])
    (.block [.let (.var "bit") none (.bin .sub (.bin .sub (.path "T" "WIDTH") (.lit 1)) (.mcall
    (.field (.var "self") "0") "leading_zeros" [] [])), .semi (.mcall (.field (.var "self") "0")
    "remove_bit" [] [.var "bit"]), .tail (.some (.var "bit"))]))]

/-- The functions of the file. -/
def fns : List ((String × String) × FnDecl) :=
  [(("$name", "lo"), prim_lo),
   (("$name", "hi"), prim_hi),
   (("$name", "PREFERRED_ARRAY_LEN"), prim_PREFERRED_ARRAY_LEN),
   (("$name", "WIDTH"), prim_WIDTH),
   (("$name", "EMPTY"), prim_EMPTY),
   (("$name", "is_empty"), prim_is_empty),
   (("$name", "add_bit"), prim_add_bit),
   (("$name", "remove_bit"), prim_remove_bit),
   (("$name", "has_bit"), prim_has_bit),
   (("$name", "count_ones"), prim_count_ones),
   (("$name", "leading_zeros"), prim_leading_zeros),
   (("$name", "trailing_zeros"), prim_trailing_zeros),
   (("$name", "and_not"), prim_and_not),
   (("$name", "iter"), prim_iter),
   (("$name", "from_u8"), prim_from_u8),
   (("$name", "from_u16"), prim_from_u16),
   (("$name", "from_u32"), prim_from_u32),
   (("$name", "from_u64"), prim_from_u64),
   (("$name", "from_u128"), prim_from_u128),
   (("$name", "from_usize"), prim_from_usize),
   (("$name", "to_u8"), prim_to_u8),
   (("$name", "to_u16"), prim_to_u16),
   (("$name", "to_u32"), prim_to_u32),
   (("$name", "to_u64"), prim_to_u64),
   (("$name", "to_u128"), prim_to_u128),
   (("$name", "to_usize"), prim_to_usize),
   (("$name", "from_u8_opt"), prim_from_u8_opt),
   (("$name", "from_u16_opt"), prim_from_u16_opt),
   (("$name", "from_u32_opt"), prim_from_u32_opt),
   (("$name", "from_u64_opt"), prim_from_u64_opt),
   (("$name", "from_u128_opt"), prim_from_u128_opt),
   (("$name", "from_usize_opt"), prim_from_usize_opt),
   (("$name", "to_u8_opt"), prim_to_u8_opt),
   (("$name", "to_u16_opt"), prim_to_u16_opt),
   (("$name", "to_u32_opt"), prim_to_u32_opt),
   (("$name", "to_u64_opt"), prim_to_u64_opt),
   (("$name", "to_u128_opt"), prim_to_u128_opt),
   (("$name", "to_usize_opt"), prim_to_usize_opt),
   (("$name", "to_u64_array"), prim_to_u64_array),
   (("$name", "to_u64_array_opt"), prim_to_u64_array_opt),
   (("$name", "from_u64_array"), prim_from_u64_array),
   (("$name", "from_u64_array_opt"), prim_from_u64_array_opt),
   (("$name", "to_u64_slice"), prim_to_u64_slice),
   (("$name", "to_u64_slice_opt"), prim_to_u64_slice_opt),
   (("$name", "from_u64_slice"), prim_from_u64_slice),
   (("$name", "from_u64_slice_opt"), prim_from_u64_slice_opt),
   (("PrimitiveIter", "next"), PrimitiveIter_next),
   (("PrimitiveIter", "size_hint"), PrimitiveIter_size_hint),
   (("PrimitiveIter", "next_back"), PrimitiveIter_next_back)]

/-- The structs of the file. -/
def structs : List (String × StructDecl) :=
  [("PrimitiveIter",
    { gens := ["T"]
      fields := [("0", .name "T" [])]
      derives := ["Copy", "Clone", "Debug"] })]

/-- The macro invocations of the file. -/
def invocations : List (List (String × Expr)) :=
  [[("$name", .var "u8"), ("$width", .lit 8), ("$preferred_array_len", .lit 1)],
   [("$name", .var "u16"), ("$width", .lit 16), ("$preferred_array_len", .lit 1)],
   [("$name", .var "u32"), ("$width", .lit 32), ("$preferred_array_len", .lit 1)],
   [("$name", .var "u64"), ("$width", .lit 64), ("$preferred_array_len", .lit 1)],
   [("$name", .var "u128"), ("$width", .lit 128), ("$preferred_array_len", .lit 2)]]

/-- The file. -/
def file : File := { fns, structs, invocations }

end Enumset.Src.PrimitiveRs
