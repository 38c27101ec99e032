import Verif.Props.SrcStorage
import Verif.Src.Same
/-!
# Runs of the text on concrete values

For the functions of C66, C67 and C68: what the interpreter answers.  `enum T { A, B = 3, C }` is stored in a `u8`,
`enum T { A, B = 64, C = 130 }` in an array of three words.
-/
set_option autoImplicit false

namespace Enumset.Src.Ex
open Enumset.Ex
open scoped Enumset.Ex

mutual
/-- Compare values; values the interpreter knows nothing about with `f`. -/
def sameVal {H : Type} (f : (a b : H) → Same a b) : (a b : Val H) → Same a b
  | .unit, .unit => .refl _
  | .bool a, .bool b => .app (.refl _) (.dec a b)
  | .int t a, .int u b => .app (.app (.refl Val.int) (.dec t u)) (.dec a b)
  | .lit a, .lit b => .app (.refl _) (.dec a b)
  | .str a, .str b => .app (.refl _) (.dec a b)
  | .arr a, .arr b => .app (.refl _) (sameVals f a b)
  | .tup a, .tup b => .app (.refl _) (sameVals f a b)
  | .struct n a, .struct m b => .app (.app (.refl Val.struct) (.dec n m)) (sameFields f a b)
  | .enum t n a, .enum u m b =>
    .app (.app (.app (.refl Val.enum) (.dec t u)) (.dec n m)) (sameFields f a b)
  | .none, .none => .refl _
  | .some a, .some b => .app (.refl _) (sameVal f a b)
  | .ok a, .ok b => .app (.refl _) (sameVal f a b)
  | .err a, .err b => .app (.refl _) (sameVal f a b)
  | .ty a, .ty b => .app (.refl _) (.dec a b)
  | .host t a, .host u b => .app (.app (.refl Val.host) (.dec t u)) (f a b)
  | _, _ => .no

def sameVals {H : Type} (f : (a b : H) → Same a b) : (a b : List (Val H)) → Same a b
  | [], [] => .refl _
  | a :: as, b :: bs => .app (.app (.refl List.cons) (sameVal f a b)) (sameVals f as bs)
  | _, _ => .no

def sameFields {H : Type} (f : (a b : H) → Same a b) : (a b : List (String × Val H)) → Same a b
  | [], [] => .refl _
  | (x, a) :: as, (y, b) :: bs =>
    .app (.app (.refl List.cons) (.app (.app (.refl Prod.mk) (.dec x y)) (sameVal f a b))) (sameFields f as bs)
  | _, _ => .no
end

def sameRes {α : Type} (f : (a b : α) → Same a b) : (a b : Res α) → Same a b
  | .ok a, .ok b => .app (.refl Res.ok) (f a b)
  | .panic a, .panic b => .app (.refl Res.panic) (.dec a b)
  | _, _ => .no

def sameOut {H : Type} (f : (a b : H) → Same a b) :
    (a b : Res (Val H × List (Nat × Val H))) → Same a b :=
  sameRes (.pair (sameVal f) (.list (.pair .dec (sameVal f))))

/-- Run both sides. -/
macro "run_text" : tactic => `(tactic| exact Same.eq (sameOut .dec) (by decide +kernel))

/-- A set of `enum T { A, B = 3, C }`. -/
abbrev setT (x : BitVec 8) : Val T.Val := setOf encT ⟨⟨x⟩⟩
/-- A set of `enum T { A, B = 64, C = 130 }`. -/
abbrev setL (x : Vector U64 3) : Val L.Val := setOf encL ⟨(⟨x⟩ : ArrayRepr 3)⟩
/-- An iterator over the variants whose bits are set. -/
abbrev iterT (x : BitVec 8) : Val T.Val := .struct "EnumSetIter" [("iter", primIterOf .u8 x)]
abbrev arr2 (x y : U64) : Val T.Val := arrayRepr (⟨#v[x, y]⟩ : ArrayRepr 2)

/-! ### constants and constructors -/

example : progT.call 30 "EnumSet" "EMPTY_REPR" [] [] [] = .ok ((setT 0), []) := by run_text
example : progL.call 30 "EnumSet" "EMPTY_REPR" [] [] [] = .ok ((setL #v[0, 0, 0]), []) := by run_text
example : progT.call 30 "EnumSet" "new" [] [] [] = .ok ((setT 0), []) := by run_text
example : progL.call 30 "EnumSet" "new" [] [] [] = .ok ((setL #v[0, 0, 0]), []) := by run_text
example : progT.call 30 "EnumSet" "empty" [] [] [] = .ok ((setT 0), []) := by run_text
example : progL.call 30 "EnumSet" "empty" [] [] [] = .ok ((setL #v[0, 0, 0]), []) := by run_text
example : progT.call 30 "EnumSet" "EMPTY" [] [] [] = .ok ((setT 0), []) := by run_text
example : progL.call 30 "EnumSet" "EMPTY" [] [] [] = .ok ((setL #v[0, 0, 0]), []) := by run_text
example : progT.call 30 "EnumSet" "default" [] [] [] = .ok ((setT 0), []) := by run_text
example : progL.call 30 "EnumSet" "default" [] [] [] = .ok ((setL #v[0, 0, 0]), []) := by run_text
example : progT.call 30 "EnumSet" "ALL_REPR" [] [] [] = .ok ((setT 0b11001), []) := by run_text
example : progL.call 30 "EnumSet" "ALL_REPR" [] [] [] = .ok ((setL #v[1, 1, 4]), []) := by run_text
example : progT.call 30 "EnumSet" "all" [] [] [] = .ok ((setT 0b11001), []) := by run_text
example : progL.call 30 "EnumSet" "all" [] [] [] = .ok ((setL #v[1, 1, 4]), []) := by run_text
example : progT.call 30 "EnumSet" "ALL" [] [] [] = .ok ((setT 0b11001), []) := by run_text
example : progL.call 30 "EnumSet" "ALL" [] [] [] = .ok ((setL #v[1, 1, 4]), []) := by run_text
example : progT.call 30 "EnumSet" "bit_width" [] [] [] = .ok (.int .u32 5, []) := by run_text
example : progL.call 30 "EnumSet" "bit_width" [] [] [] = .ok (.int .u32 131, []) := by run_text
example : progT.call 30 "EnumSet" "variant_count" [] [] [] = .ok (.int .u32 3, []) := by run_text
example : progL.call 30 "EnumSet" "variant_count" [] [] [] = .ok (.int .u32 3, []) := by run_text
example : progT.call 30 "EnumSet" "only" [] [] [.host "T" tB] = .ok ((setT 0b01000), []) := by run_text
example : progL.call 30 "EnumSet" "only" [] [] [.host "T" lC] = .ok ((setL #v[0, 0, 4]), []) := by run_text
example : progT.call 30 "EnumSet" "from" [] [] [.host "T" tB] = .ok ((setT 0b01000), []) := by run_text
example : progL.call 30 "EnumSet" "from" [] [] [.host "T" lC] = .ok ((setL #v[0, 0, 4]), []) := by run_text
example : progT.call 30 "EnumSet" "__impl_enumset_internal__const_only" [] [] [(setT 0b10000)] =
    .ok ((setT 0b10000), []) := by run_text

/-! ### queries -/

example : progT.call 30 "EnumSet" "len" [] [] [(setT 0b10001)] = .ok (.int .usize 2, []) := by run_text
example : progT.call 30 "EnumSet" "len" [] [] [(setT 0)] = .ok (.int .usize 0, []) := by run_text
example : progT.call 30 "EnumSet" "len" [] [] [(setT 0b11001)] = .ok (.int .usize 3, []) := by run_text
example : progL.call 30 "EnumSet" "len" [] [] [(setL #v[1, 0, 4])] = .ok (.int .usize 2, []) := by run_text
example : progL.call 30 "EnumSet" "len" [] [] [(setL #v[0, 0, 0])] = .ok (.int .usize 0, []) := by run_text
example : progL.call 30 "EnumSet" "len" [] [] [(setL #v[1, 1, 4])] = .ok (.int .usize 3, []) := by run_text
example : progT.call 30 "EnumSet" "is_empty" [] [] [(setT 0b10001)] = .ok (.bool false, []) := by run_text
example : progT.call 30 "EnumSet" "is_empty" [] [] [(setT 0)] = .ok (.bool true, []) := by run_text
example : progL.call 30 "EnumSet" "is_empty" [] [] [(setL #v[0, 1, 0])] = .ok (.bool false, []) := by run_text
example : progL.call 30 "EnumSet" "is_empty" [] [] [(setL #v[0, 0, 0])] = .ok (.bool true, []) := by run_text
example : progT.call 30 "EnumSet" "is_disjoint" [] [] [(setT 0b10001), (setT 0b01000)] =
    .ok (.bool true, []) := by run_text
example : progT.call 30 "EnumSet" "is_disjoint" [] [] [(setT 0b10001), (setT 0b11001)] =
    .ok (.bool false, []) := by run_text
example : progT.call 30 "EnumSet" "is_superset" [] [] [(setT 0b11001), (setT 0b01000)] =
    .ok (.bool true, []) := by run_text
example : progT.call 30 "EnumSet" "is_superset" [] [] [(setT 0b10001), (setT 0b01000)] =
    .ok (.bool false, []) := by run_text
example : progT.call 30 "EnumSet" "is_subset" [] [] [(setT 0b01000), (setT 0b11001)] =
    .ok (.bool true, []) := by run_text
example : progT.call 30 "EnumSet" "is_subset" [] [] [(setT 0b11001), (setT 0b01000)] =
    .ok (.bool false, []) := by run_text
example : progL.call 30 "EnumSet" "is_disjoint" [] [] [(setL #v[1, 0, 4]), (setL #v[0, 1, 0])] =
    .ok (.bool true, []) := by run_text
example : progL.call 30 "EnumSet" "is_disjoint" [] [] [(setL #v[1, 0, 4]), (setL #v[1, 1, 4])] =
    .ok (.bool false, []) := by run_text
example : progL.call 30 "EnumSet" "is_superset" [] [] [(setL #v[1, 1, 4]), (setL #v[0, 1, 0])] =
    .ok (.bool true, []) := by run_text
example : progL.call 30 "EnumSet" "is_superset" [] [] [(setL #v[1, 0, 4]), (setL #v[0, 1, 0])] =
    .ok (.bool false, []) := by run_text
example : progL.call 30 "EnumSet" "is_subset" [] [] [(setL #v[0, 1, 0]), (setL #v[1, 1, 4])] =
    .ok (.bool true, []) := by run_text
example : progL.call 30 "EnumSet" "is_subset" [] [] [(setL #v[1, 1, 4]), (setL #v[0, 1, 0])] =
    .ok (.bool false, []) := by run_text
example : progT.call 30 "EnumSet" "contains" [] [] [(setT 0b10001), .host "T" tC] = .ok (.bool true, []) := by run_text
example : progT.call 30 "EnumSet" "contains" [] [] [(setT 0b10001), .host "T" tB] =
    .ok (.bool false, []) := by run_text
example : progL.call 30 "EnumSet" "contains" [] [] [(setL #v[1, 0, 4]), .host "T" lC] =
    .ok (.bool true, []) := by run_text
example : progL.call 30 "EnumSet" "contains" [] [] [(setL #v[1, 0, 4]), .host "T" lB] =
    .ok (.bool false, []) := by run_text
example : progT.call 30 "EnumSet" "eq" [] [] [(setT 0b10001), (setT 0b10001)] = .ok (.bool true, []) := by run_text
example : progT.call 30 "EnumSet" "eq" [] [] [(setT 0b10001), (setT 0b01000)] = .ok (.bool false, []) := by run_text
example : progT.call 30 "EnumSet" "eq_variant" [] [] [(setT 0b01000), .host "T" tB] =
    .ok (.bool true, []) := by run_text
example : progT.call 30 "EnumSet" "eq_variant" [] [] [(setT 0b11001), .host "T" tB] =
    .ok (.bool false, []) := by run_text
example : progT.call 30 "EnumSet" "cmp" [] [] [(setT 0b10001), (setT 0b01000)] = .ok (ordering .gt, []) := by run_text
example : progT.call 30 "EnumSet" "partial_cmp" [] [] [(setT 0b01000), (setT 0b10001)] =
    .ok (.some (ordering .lt), []) := by run_text
example : progL.call 30 "EnumSet" "cmp" [] [] [(setL #v[0, 1, 0]), (setL #v[0, 1, 0])] =
    .ok (ordering .eq, []) := by run_text
-- the first word decides
example : progL.call 30 "EnumSet" "cmp" [] [] [(setL #v[1, 0, 4]), (setL #v[0, 1, 0])] =
    .ok (ordering .gt, []) := by run_text
example : progL.call 30 "EnumSet" "partial_cmp" [] [] [(setL #v[0, 1, 0]), (setL #v[1, 0, 4])] =
    .ok (.some (ordering .lt), []) := by run_text

/-! ### operations -/

example : progT.call 30 "EnumSet" "union" [] [] [(setT 0b10001), (setT 0b01000)] =
    .ok ((setT 0b11001), []) := by run_text
example : progL.call 30 "EnumSet" "union" [] [] [(setL #v[1, 0, 4]), (setL #v[0, 1, 0])] =
    .ok ((setL #v[1, 1, 4]), []) := by run_text
example : progT.call 30 "EnumSet" "intersection" [] [] [(setT 0b11001), (setT 0b01000)] =
    .ok ((setT 0b01000), []) := by run_text
example : progL.call 30 "EnumSet" "intersection" [] [] [(setL #v[1, 1, 4]), (setL #v[0, 1, 0])] =
    .ok ((setL #v[0, 1, 0]), []) := by run_text
example : progT.call 30 "EnumSet" "difference" [] [] [(setT 0b11001), (setT 0b01000)] =
    .ok ((setT 0b10001), []) := by run_text
example : progL.call 30 "EnumSet" "difference" [] [] [(setL #v[1, 1, 4]), (setL #v[0, 1, 0])] =
    .ok ((setL #v[1, 0, 4]), []) := by run_text
example : progT.call 30 "EnumSet" "symmetrical_difference" [] [] [(setT 0b10001), (setT 0b11001)] =
    .ok ((setT 0b01000), []) := by run_text
example : progL.call 30 "EnumSet" "symmetrical_difference" [] [] [(setL #v[1, 0, 4]), (setL #v[1, 1, 4])] =
    .ok ((setL #v[0, 1, 0]), []) := by run_text
example : progT.call 30 "EnumSet" "bitor" [] [] [(setT 0b10001), (setT 0b01000)] =
    .ok ((setT 0b11001), []) := by run_text
example : progL.call 30 "EnumSet" "bitor" [] [] [(setL #v[1, 0, 4]), (setL #v[0, 1, 0])] =
    .ok ((setL #v[1, 1, 4]), []) := by run_text
example : progT.call 30 "EnumSet" "bitor_assign" [] [] [(setT 0b10001), (setT 0b01000)] =
    .ok (.unit, [(0, (setT 0b11001))]) := by run_text
example : progL.call 30 "EnumSet" "bitor_assign" [] [] [(setL #v[1, 0, 4]), (setL #v[0, 1, 0])] =
    .ok (.unit, [(0, (setL #v[1, 1, 4]))]) := by run_text
example : progT.call 30 "EnumSet" "bitand" [] [] [(setT 0b11001), (setT 0b01000)] =
    .ok ((setT 0b01000), []) := by run_text
example : progL.call 30 "EnumSet" "bitand" [] [] [(setL #v[1, 1, 4]), (setL #v[0, 1, 0])] =
    .ok ((setL #v[0, 1, 0]), []) := by run_text
example : progT.call 30 "EnumSet" "bitand_assign" [] [] [(setT 0b11001), (setT 0b01000)] =
    .ok (.unit, [(0, (setT 0b01000))]) := by run_text
example : progL.call 30 "EnumSet" "bitand_assign" [] [] [(setL #v[1, 1, 4]), (setL #v[0, 1, 0])] =
    .ok (.unit, [(0, (setL #v[0, 1, 0]))]) := by run_text
example : progT.call 30 "EnumSet" "sub" [] [] [(setT 0b11001), (setT 0b01000)] =
    .ok ((setT 0b10001), []) := by run_text
example : progL.call 30 "EnumSet" "sub" [] [] [(setL #v[1, 1, 4]), (setL #v[0, 1, 0])] =
    .ok ((setL #v[1, 0, 4]), []) := by run_text
example : progT.call 30 "EnumSet" "sub_assign" [] [] [(setT 0b11001), (setT 0b01000)] =
    .ok (.unit, [(0, (setT 0b10001))]) := by run_text
example : progL.call 30 "EnumSet" "sub_assign" [] [] [(setL #v[1, 1, 4]), (setL #v[0, 1, 0])] =
    .ok (.unit, [(0, (setL #v[1, 0, 4]))]) := by run_text
example : progT.call 30 "EnumSet" "bitxor" [] [] [(setT 0b10001), (setT 0b11001)] =
    .ok ((setT 0b01000), []) := by run_text
example : progL.call 30 "EnumSet" "bitxor" [] [] [(setL #v[1, 0, 4]), (setL #v[1, 1, 4])] =
    .ok ((setL #v[0, 1, 0]), []) := by run_text
example : progT.call 30 "EnumSet" "bitxor_assign" [] [] [(setT 0b10001), (setT 0b11001)] =
    .ok (.unit, [(0, (setT 0b01000))]) := by run_text
example : progL.call 30 "EnumSet" "bitxor_assign" [] [] [(setL #v[1, 0, 4]), (setL #v[1, 1, 4])] =
    .ok (.unit, [(0, (setL #v[0, 1, 0]))]) := by run_text
-- the operand is a variant
example : progT.call 30 "EnumSet" "bitor" [] [] [(setT 0b10001), .host "T" tB] =
    .ok ((setT 0b11001), []) := by run_text
example : progT.call 30 "EnumSet" "bitor_assign" [] [] [(setT 0b10001), .host "T" tB] =
    .ok (.unit, [(0, (setT 0b11001))]) := by run_text
-- the operand is a variant
example : progT.call 30 "EnumSet" "bitand" [] [] [(setT 0b11001), .host "T" tB] =
    .ok ((setT 0b01000), []) := by run_text
example : progT.call 30 "EnumSet" "bitand_assign" [] [] [(setT 0b11001), .host "T" tB] =
    .ok (.unit, [(0, (setT 0b01000))]) := by run_text
-- the operand is a variant
example : progT.call 30 "EnumSet" "sub" [] [] [(setT 0b11001), .host "T" tB] = .ok ((setT 0b10001), []) := by run_text
example : progT.call 30 "EnumSet" "sub_assign" [] [] [(setT 0b11001), .host "T" tB] =
    .ok (.unit, [(0, (setT 0b10001))]) := by run_text
-- the operand is a variant
example : progT.call 30 "EnumSet" "bitxor" [] [] [(setT 0b10001), .host "T" tB] =
    .ok ((setT 0b11001), []) := by run_text
example : progT.call 30 "EnumSet" "bitxor_assign" [] [] [(setT 0b10001), .host "T" tB] =
    .ok (.unit, [(0, (setT 0b11001))]) := by run_text
example : progT.call 30 "EnumSet" "complement" [] [] [(setT 0b10001)] = .ok ((setT 0b01000), []) := by run_text
example : progL.call 30 "EnumSet" "complement" [] [] [(setL #v[1, 0, 4])] = .ok ((setL #v[0, 1, 0]), []) := by run_text
example : progT.call 30 "EnumSet" "not" [] [] [(setT 0b10001)] = .ok ((setT 0b01000), []) := by run_text
example : progL.call 30 "EnumSet" "not" [] [] [(setL #v[1, 0, 4])] = .ok ((setL #v[0, 1, 0]), []) := by run_text
example : progT.call 30 "EnumSet" "clear" [] [] [(setT 0b10001)] = .ok (.unit, [(0, (setT 0))]) := by run_text
example : progL.call 30 "EnumSet" "clear" [] [] [(setL #v[1, 0, 4])] =
    .ok (.unit, [(0, (setL #v[0, 0, 0]))]) := by run_text
example : progT.call 30 "EnumSet" "insert" [] [] [(setT 0b10001), .host "T" tC] =
    .ok (.bool false, [(0, (setT 0b10001))]) := by run_text
example : progL.call 30 "EnumSet" "insert" [] [] [(setL #v[1, 0, 4]), .host "T" lB] =
    .ok (.bool true, [(0, (setL #v[1, 1, 4]))]) := by run_text
example : progT.call 30 "EnumSet" "remove" [] [] [(setT 0b10001), .host "T" tC] =
    .ok (.bool true, [(0, (setT 1))]) := by run_text
example : progL.call 30 "EnumSet" "remove" [] [] [(setL #v[1, 0, 4]), .host "T" lB] =
    .ok (.bool false, [(0, (setL #v[1, 0, 4]))]) := by run_text
example : progT.call 30 "EnumSet" "insert_all" [] [] [(setT 0b10001), (setT 0b01000)] =
    .ok (.unit, [(0, (setT 0b11001))]) := by run_text
example : progT.call 30 "EnumSet" "remove_all" [] [] [(setT 0b11001), (setT 0b01000)] =
    .ok (.unit, [(0, (setT 0b10001))]) := by run_text
example : progL.call 30 "EnumSet" "insert_all" [] [] [(setL #v[1, 0, 4]), (setL #v[0, 1, 0])] =
    .ok (.unit, [(0, (setL #v[1, 1, 4]))]) := by run_text
example : progL.call 30 "EnumSet" "remove_all" [] [] [(setL #v[1, 1, 4]), (setL #v[0, 1, 0])] =
    .ok (.unit, [(0, (setL #v[1, 0, 4]))]) := by run_text

/-! ### conversions -/

example : progT.call 30 "EnumSet" "as_repr" [] [] [(setT 0b10001)] = .ok (bv .u8 0b10001#8, []) := by run_text
example : progT.call 30 "EnumSet" "from_repr" [] [] [bv .u8 0b10001#8] = .ok ((setT 0b10001), []) := by run_text
example : progT.call 30 "EnumSet" "from_repr" [] [] [bv .u8 2#8] =
    .panic (.expect "Bitset contains invalid variants.") := by run_text
example : progT.call 30 "EnumSet" "try_from_repr" [] [] [bv .u8 0b10001#8] =
    .ok (.some (setT 0b10001), []) := by run_text
example : progT.call 30 "EnumSet" "try_from_repr" [] [] [bv .u8 2#8] = .ok (.none, []) := by run_text
example : progT.call 30 "EnumSet" "from_repr_truncated" [] [] [bv .u8 0b10111#8] =
    .ok ((setT 0b10001), []) := by run_text
-- no check
example : progT.call 30 "EnumSet" "from_repr_unchecked" [] [] [bv .u8 2#8] = .ok ((setT 2), []) := by run_text
example : progT.call 30 "EnumSet" "as_u8" [] [] [(setT 0b10001)] = .ok (.int .u8 17, []) := by run_text
example : progT.call 30 "EnumSet" "try_as_u8" [] [] [(setT 0b10001)] = .ok (.some (.int .u8 17), []) := by run_text
example : progT.call 30 "EnumSet" "as_u8_truncated" [] [] [(setT 0b10001)] = .ok (.int .u8 17, []) := by run_text
example : progT.call 30 "EnumSet" "from_u8" [] [] [.int .u8 17] = .ok ((setT 0b10001), []) := by run_text
example : progT.call 30 "EnumSet" "from_u8" [] [] [.int .u8 18] =
    .panic (.expect "Bitset contains invalid variants.") := by run_text
example : progT.call 30 "EnumSet" "try_from_u8" [] [] [.int .u8 17] = .ok (.some (setT 0b10001), []) := by run_text
example : progT.call 30 "EnumSet" "try_from_u8" [] [] [.int .u8 18] = .ok (.none, []) := by run_text
example : progT.call 30 "EnumSet" "from_u8_truncated" [] [] [.int .u8 23] = .ok ((setT 0b10001), []) := by run_text
example : progT.call 30 "EnumSet" "from_u8_unchecked" [] [] [.int .u8 16] = .ok ((setT 0b10000), []) := by run_text
example : progL.call 30 "EnumSet" "as_u8" [] [] [(setL #v[1, 0, 4])] =
    .panic (.expect "Bitset will not fit into this type.") := by run_text
example : progL.call 30 "EnumSet" "try_as_u8" [] [] [(setL #v[1, 0, 4])] = .ok (.none, []) := by run_text
example : progL.call 30 "EnumSet" "as_u8_truncated" [] [] [(setL #v[1, 0, 4])] = .ok (.int .u8 1, []) := by run_text
example : progL.call 30 "EnumSet" "from_u8" [] [] [.int .u8 1] = .ok ((setL #v[1, 0, 0]), []) := by run_text
example : progL.call 30 "EnumSet" "try_from_u8" [] [] [.int .u8 2] = .ok (.none, []) := by run_text
example : progL.call 30 "EnumSet" "from_u8_truncated" [] [] [.int .u8 3] = .ok ((setL #v[1, 0, 0]), []) := by run_text
example : progT.call 30 "EnumSet" "as_u16" [] [] [(setT 0b10001)] = .ok (.int .u16 17, []) := by run_text
example : progT.call 30 "EnumSet" "try_as_u16" [] [] [(setT 0b10001)] = .ok (.some (.int .u16 17), []) := by run_text
example : progT.call 30 "EnumSet" "as_u16_truncated" [] [] [(setT 0b10001)] = .ok (.int .u16 17, []) := by run_text
example : progT.call 30 "EnumSet" "from_u16" [] [] [.int .u16 17] = .ok ((setT 0b10001), []) := by run_text
example : progT.call 30 "EnumSet" "from_u16" [] [] [.int .u16 18] =
    .panic (.expect "Bitset contains invalid variants.") := by run_text
example : progT.call 30 "EnumSet" "try_from_u16" [] [] [.int .u16 17] = .ok (.some (setT 0b10001), []) := by run_text
example : progT.call 30 "EnumSet" "try_from_u16" [] [] [.int .u16 18] = .ok (.none, []) := by run_text
example : progT.call 30 "EnumSet" "from_u16_truncated" [] [] [.int .u16 23] = .ok ((setT 0b10001), []) := by run_text
example : progT.call 30 "EnumSet" "from_u16_unchecked" [] [] [.int .u16 16] = .ok ((setT 0b10000), []) := by run_text
example : progL.call 30 "EnumSet" "as_u16" [] [] [(setL #v[1, 0, 4])] =
    .panic (.expect "Bitset will not fit into this type.") := by run_text
example : progL.call 30 "EnumSet" "try_as_u16" [] [] [(setL #v[1, 0, 4])] = .ok (.none, []) := by run_text
example : progL.call 30 "EnumSet" "as_u16_truncated" [] [] [(setL #v[1, 0, 4])] = .ok (.int .u16 1, []) := by run_text
example : progL.call 30 "EnumSet" "from_u16" [] [] [.int .u16 1] = .ok ((setL #v[1, 0, 0]), []) := by run_text
example : progL.call 30 "EnumSet" "try_from_u16" [] [] [.int .u16 2] = .ok (.none, []) := by run_text
example : progL.call 30 "EnumSet" "from_u16_truncated" [] [] [.int .u16 3] =
    .ok ((setL #v[1, 0, 0]), []) := by run_text
example : progT.call 30 "EnumSet" "as_u32" [] [] [(setT 0b10001)] = .ok (.int .u32 17, []) := by run_text
example : progT.call 30 "EnumSet" "try_as_u32" [] [] [(setT 0b10001)] = .ok (.some (.int .u32 17), []) := by run_text
example : progT.call 30 "EnumSet" "as_u32_truncated" [] [] [(setT 0b10001)] = .ok (.int .u32 17, []) := by run_text
example : progT.call 30 "EnumSet" "from_u32" [] [] [.int .u32 17] = .ok ((setT 0b10001), []) := by run_text
example : progT.call 30 "EnumSet" "from_u32" [] [] [.int .u32 18] =
    .panic (.expect "Bitset contains invalid variants.") := by run_text
example : progT.call 30 "EnumSet" "try_from_u32" [] [] [.int .u32 17] = .ok (.some (setT 0b10001), []) := by run_text
example : progT.call 30 "EnumSet" "try_from_u32" [] [] [.int .u32 18] = .ok (.none, []) := by run_text
example : progT.call 30 "EnumSet" "from_u32_truncated" [] [] [.int .u32 23] = .ok ((setT 0b10001), []) := by run_text
example : progT.call 30 "EnumSet" "from_u32_unchecked" [] [] [.int .u32 16] = .ok ((setT 0b10000), []) := by run_text
example : progL.call 30 "EnumSet" "as_u32" [] [] [(setL #v[1, 0, 4])] =
    .panic (.expect "Bitset will not fit into this type.") := by run_text
example : progL.call 30 "EnumSet" "try_as_u32" [] [] [(setL #v[1, 0, 4])] = .ok (.none, []) := by run_text
example : progL.call 30 "EnumSet" "as_u32_truncated" [] [] [(setL #v[1, 0, 4])] = .ok (.int .u32 1, []) := by run_text
example : progL.call 30 "EnumSet" "from_u32" [] [] [.int .u32 1] = .ok ((setL #v[1, 0, 0]), []) := by run_text
example : progL.call 30 "EnumSet" "try_from_u32" [] [] [.int .u32 2] = .ok (.none, []) := by run_text
example : progL.call 30 "EnumSet" "from_u32_truncated" [] [] [.int .u32 3] =
    .ok ((setL #v[1, 0, 0]), []) := by run_text
example : progT.call 30 "EnumSet" "as_u64" [] [] [(setT 0b10001)] = .ok (.int .u64 17, []) := by run_text
example : progT.call 30 "EnumSet" "try_as_u64" [] [] [(setT 0b10001)] = .ok (.some (.int .u64 17), []) := by run_text
example : progT.call 30 "EnumSet" "as_u64_truncated" [] [] [(setT 0b10001)] = .ok (.int .u64 17, []) := by run_text
example : progT.call 30 "EnumSet" "from_u64" [] [] [.int .u64 17] = .ok ((setT 0b10001), []) := by run_text
example : progT.call 30 "EnumSet" "from_u64" [] [] [.int .u64 18] =
    .panic (.expect "Bitset contains invalid variants.") := by run_text
example : progT.call 30 "EnumSet" "try_from_u64" [] [] [.int .u64 17] = .ok (.some (setT 0b10001), []) := by run_text
example : progT.call 30 "EnumSet" "try_from_u64" [] [] [.int .u64 18] = .ok (.none, []) := by run_text
example : progT.call 30 "EnumSet" "from_u64_truncated" [] [] [.int .u64 23] = .ok ((setT 0b10001), []) := by run_text
example : progT.call 30 "EnumSet" "from_u64_unchecked" [] [] [.int .u64 16] = .ok ((setT 0b10000), []) := by run_text
example : progL.call 30 "EnumSet" "as_u64" [] [] [(setL #v[1, 0, 4])] =
    .panic (.expect "Bitset will not fit into this type.") := by run_text
example : progL.call 30 "EnumSet" "try_as_u64" [] [] [(setL #v[1, 0, 4])] = .ok (.none, []) := by run_text
example : progL.call 30 "EnumSet" "as_u64_truncated" [] [] [(setL #v[1, 0, 4])] = .ok (.int .u64 1, []) := by run_text
example : progL.call 30 "EnumSet" "from_u64" [] [] [.int .u64 1] = .ok ((setL #v[1, 0, 0]), []) := by run_text
example : progL.call 30 "EnumSet" "try_from_u64" [] [] [.int .u64 2] = .ok (.none, []) := by run_text
example : progL.call 30 "EnumSet" "from_u64_truncated" [] [] [.int .u64 3] =
    .ok ((setL #v[1, 0, 0]), []) := by run_text
example : progT.call 30 "EnumSet" "as_u128" [] [] [(setT 0b10001)] = .ok (.int .u128 17, []) := by run_text
example : progT.call 30 "EnumSet" "try_as_u128" [] [] [(setT 0b10001)] = .ok (.some (.int .u128 17), []) := by run_text
example : progT.call 30 "EnumSet" "as_u128_truncated" [] [] [(setT 0b10001)] = .ok (.int .u128 17, []) := by run_text
example : progT.call 30 "EnumSet" "from_u128" [] [] [.int .u128 17] = .ok ((setT 0b10001), []) := by run_text
example : progT.call 30 "EnumSet" "from_u128" [] [] [.int .u128 18] =
    .panic (.expect "Bitset contains invalid variants.") := by run_text
example : progT.call 30 "EnumSet" "try_from_u128" [] [] [.int .u128 17] = .ok (.some (setT 0b10001), []) := by run_text
example : progT.call 30 "EnumSet" "try_from_u128" [] [] [.int .u128 18] = .ok (.none, []) := by run_text
example : progT.call 30 "EnumSet" "from_u128_truncated" [] [] [.int .u128 23] = .ok ((setT 0b10001), []) := by run_text
example : progT.call 30 "EnumSet" "from_u128_unchecked" [] [] [.int .u128 16] = .ok ((setT 0b10000), []) := by run_text
example : progL.call 30 "EnumSet" "as_u128" [] [] [(setL #v[1, 0, 4])] =
    .panic (.expect "Bitset will not fit into this type.") := by run_text
example : progL.call 30 "EnumSet" "try_as_u128" [] [] [(setL #v[1, 0, 4])] = .ok (.none, []) := by run_text
example : progL.call 30 "EnumSet" "as_u128_truncated" [] [] [(setL #v[1, 0, 4])] =
    .ok (.int .u128 1, []) := by run_text
example : progL.call 30 "EnumSet" "from_u128" [] [] [.int .u128 1] = .ok ((setL #v[1, 0, 0]), []) := by run_text
example : progL.call 30 "EnumSet" "try_from_u128" [] [] [.int .u128 2] = .ok (.none, []) := by run_text
example : progL.call 30 "EnumSet" "from_u128_truncated" [] [] [.int .u128 3] =
    .ok ((setL #v[1, 0, 0]), []) := by run_text
example : progT.call 30 "EnumSet" "as_usize" [] [] [(setT 0b10001)] = .ok (.int .usize 17, []) := by run_text
example : progT.call 30 "EnumSet" "try_as_usize" [] [] [(setT 0b10001)] =
    .ok (.some (.int .usize 17), []) := by run_text
example : progT.call 30 "EnumSet" "as_usize_truncated" [] [] [(setT 0b10001)] = .ok (.int .usize 17, []) := by run_text
example : progT.call 30 "EnumSet" "from_usize" [] [] [.int .usize 17] = .ok ((setT 0b10001), []) := by run_text
example : progT.call 30 "EnumSet" "from_usize" [] [] [.int .usize 18] =
    .panic (.expect "Bitset contains invalid variants.") := by run_text
example : progT.call 30 "EnumSet" "try_from_usize" [] [] [.int .usize 17] =
    .ok (.some (setT 0b10001), []) := by run_text
example : progT.call 30 "EnumSet" "try_from_usize" [] [] [.int .usize 18] = .ok (.none, []) := by run_text
example : progT.call 30 "EnumSet" "from_usize_truncated" [] [] [.int .usize 23] =
    .ok ((setT 0b10001), []) := by run_text
example : progT.call 30 "EnumSet" "from_usize_unchecked" [] [] [.int .usize 16] =
    .ok ((setT 0b10000), []) := by run_text
example : progL.call 30 "EnumSet" "as_usize" [] [] [(setL #v[1, 0, 4])] =
    .panic (.expect "Bitset will not fit into this type.") := by run_text
example : progL.call 30 "EnumSet" "try_as_usize" [] [] [(setL #v[1, 0, 4])] = .ok (.none, []) := by run_text
example : progL.call 30 "EnumSet" "as_usize_truncated" [] [] [(setL #v[1, 0, 4])] =
    .ok (.int .usize 1, []) := by run_text
example : progL.call 30 "EnumSet" "from_usize" [] [] [.int .usize 1] = .ok ((setL #v[1, 0, 0]), []) := by run_text
example : progL.call 30 "EnumSet" "try_from_usize" [] [] [.int .usize 2] = .ok (.none, []) := by run_text
example : progL.call 30 "EnumSet" "from_usize_truncated" [] [] [.int .usize 3] =
    .ok ((setL #v[1, 0, 0]), []) := by run_text
-- too wide for the storage
example : progT.call 30 "EnumSet" "try_from_u16" [] [] [.int .u16 256] = .ok (.none, []) := by run_text
example : progT.call 30 "EnumSet" "from_u16_truncated" [] [] [.int .u16 273] = .ok ((setT 0b10001), []) := by run_text
example : progL.call 30 "EnumSet" "as_u128" [] [] [(setL #v[1, 1, 0])] =
    .ok (.int .u128 18446744073709551617, []) := by run_text
example : progL.call 30 "EnumSet" "from_u128" [] [] [.int .u128 18446744073709551617] =
    .ok ((setL #v[1, 1, 0]), []) := by run_text
-- with a word to spare
example : progL.call 30 "EnumSet" "as_array" [] [.int .usize 4] [(setL #v[1, 0, 4])] =
    .ok (vec #v[1, 0, 4, 0], []) := by run_text
example : progL.call 30 "EnumSet" "as_array" [] [.int .usize 2] [(setL #v[1, 0, 4])] =
    .panic (.expect "Bitset will not fit into this type.") := by run_text
example : progL.call 30 "EnumSet" "try_as_array" [] [.int .usize 3] [(setL #v[1, 0, 4])] =
    .ok (.some (vec #v[1, 0, 4]), []) := by run_text
example : progL.call 30 "EnumSet" "try_as_array" [] [.int .usize 2] [(setL #v[1, 0, 4])] =
    .ok (.none, []) := by run_text
example : progL.call 30 "EnumSet" "as_array_truncated" [] [.int .usize 2] [(setL #v[1, 0, 4])] =
    .ok (vec #v[1, 0], []) := by run_text
example : progL.call 30 "EnumSet" "from_array" [] [] [vec #v[1, 0, 4]] = .ok ((setL #v[1, 0, 4]), []) := by run_text
example : progL.call 30 "EnumSet" "from_array" [] [] [vec #v[2, 0, 4]] =
    .panic (.expect "Bitset contains invalid variants.") := by run_text
example : progL.call 30 "EnumSet" "try_from_array" [] [] [vec #v[1, 0, 4, 0]] =
    .ok (.some (setL #v[1, 0, 4]), []) := by run_text
example : progL.call 30 "EnumSet" "try_from_array" [] [] [vec #v[2, 0, 4]] = .ok (.none, []) := by run_text
example : progL.call 30 "EnumSet" "from_array_truncated" [] [] [vec #v[3, 0, 4, 7]] =
    .ok ((setL #v[1, 0, 4]), []) := by run_text
example : progL.call 30 "EnumSet" "from_array_unchecked" [] [] [vec #v[1, 0, 4]] =
    .ok ((setL #v[1, 0, 4]), []) := by run_text
example : progL.call 30 "EnumSet" "to_vec" [] [] [(setL #v[1, 0, 4])] = .ok (words [1, 0, 4], []) := by run_text
example : progT.call 30 "EnumSet" "to_vec" [] [] [(setT 0b10001)] = .ok (words [17], []) := by run_text
example : progL.call 30 "EnumSet" "copy_into_slice" [] [] [(setL #v[1, 0, 4]), words [9, 9, 9, 9]] =
    .ok (.unit, [(1, words [1, 0, 4, 0])]) := by run_text
example : progL.call 30 "EnumSet" "copy_into_slice" [] [] [(setL #v[1, 0, 4]), words [9, 9]] =
    .panic (.expect "Bitset will not fit into slice.") := by run_text
example : progL.call 30 "EnumSet" "try_copy_into_slice" [] [] [(setL #v[1, 0, 4]), words [9, 9, 9]] =
    .ok (.some .unit, [(1, words [1, 0, 4])]) := by run_text
example : progL.call 30 "EnumSet" "try_copy_into_slice" [] [] [(setL #v[1, 0, 4]), words [9, 9]] =
    .ok (.none, [(1, words [9, 9])]) := by run_text
example : progL.call 30 "EnumSet" "copy_into_slice_truncated" [] [] [(setL #v[1, 0, 4]), words [9, 9]] =
    .ok (.unit, [(1, words [1, 0])]) := by run_text
example : progL.call 30 "EnumSet" "from_slice" [] [] [words [1, 0, 4]] = .ok ((setL #v[1, 0, 4]), []) := by run_text
example : progL.call 30 "EnumSet" "from_slice" [] [] [words [1, 0, 4, 1]] =
    .panic (.expect "Bitset contains invalid variants.") := by run_text
example : progL.call 30 "EnumSet" "try_from_slice" [] [] [words [1]] =
    .ok (.some (setL #v[1, 0, 0]), []) := by run_text
example : progL.call 30 "EnumSet" "try_from_slice" [] [] [words [2]] = .ok (.none, []) := by run_text
example : progL.call 30 "EnumSet" "from_slice_truncated" [] [] [words [3, 0, 4, 7]] =
    .ok ((setL #v[1, 0, 4]), []) := by run_text
example : progL.call 30 "EnumSet" "from_slice_unchecked" [] [] [words [1, 0, 4]] =
    .ok ((setL #v[1, 0, 4]), []) := by run_text

/-! ### iteration -/

example : progT.call 30 "EnumSetIter" "new" [] [] [(setT 0b10001)] = .ok ((iterT 0b10001#8), []) := by run_text
example : progT.call 30 "EnumSet" "iter" [] [] [(setT 0b10001)] = .ok ((iterT 0b10001#8), []) := by run_text
example : progT.call 30 "EnumSet" "into_iter" [] [] [(setT 0b10001)] = .ok ((iterT 0b10001#8), []) := by run_text
example : progT.call 30 "EnumSetIter" "next" [] [] [(iterT 0b10001#8)] =
    .ok (.some (.host "T" tA), [(0, (iterT 0b10000#8))]) := by run_text
example : progT.call 30 "EnumSetIter" "next" [] [] [(iterT 0#8)] = .ok (.none, [(0, (iterT 0#8))]) := by run_text
example : progT.call 30 "EnumSetIter" "next_back" [] [] [(iterT 0b10001#8)] =
    .ok (.some (.host "T" tC), [(0, (iterT 0b00001#8))]) := by run_text
example : progT.call 30 "EnumSetIter" "size_hint" [] [] [(iterT 0b10001#8)] =
    .ok (.tup [.int .usize 2, .some (.int .usize 2)], []) := by run_text
example : progT.call 30 "EnumSet" "extend_variants" [] [] [(setT 0b01000), .arr [.host "T" tA, .host "T" tC]] =
    .ok (.unit, [(0, (setT 0b11001))]) := by run_text
example : progT.call 30 "EnumSet" "from_iter_variants" [] [] [.arr [.host "T" tA, .host "T" tC]] =
    .ok ((setT 0b10001), []) := by run_text
-- from another iterator
example : progT.call 30 "EnumSet" "extend_variants" [] [] [(setT 0b01000), (iterT 0b10001#8)] =
    .ok (.unit, [(0, (setT 0b11001))]) := by run_text
example : progT.call 30 "EnumSet" "from_iter_variants" [] [] [(iterT 0b10001#8)] =
    .ok ((setT 0b10001), []) := by run_text
example : progT.call 30 "EnumSet" "extend_sets" [] [] [(setT 0b10001), .arr [(setT 0b01000), (setT 1)]] =
    .ok (.unit, [(0, (setT 0b11001))]) := by run_text
example : progT.call 30 "EnumSet" "from_iter_sets" [] [] [.arr [(setT 0b01000), (setT 1)]] =
    .ok ((setT 0b01001), []) := by run_text
example : progT.call 30 "EnumSet" "sum_sets" [] [] [.arr [(setT 0b01000), (setT 1)]] =
    .ok ((setT 0b01001), []) := by run_text
example : progT.call 30 "EnumSet" "sum_set_refs" [] [] [.arr [(setT 0b01000), (setT 1)]] =
    .ok ((setT 0b01001), []) := by run_text
example : progT.call 30 "EnumSet" "sum_variants" [] [] [.arr [.host "T" tA, .host "T" tC]] =
    .ok ((setT 0b10001), []) := by run_text
example : progT.call 30 "EnumSet" "sum_variant_refs" [] [] [.arr [.host "T" tA, .host "T" tC]] =
    .ok ((setT 0b10001), []) := by run_text
example : progL.call 30 "EnumSet" "from_iter_variants" [] [] [.arr [.host "T" lA, .host "T" lC, .host "T" lA]] =
    .ok ((setL #v[1, 0, 4]), []) := by run_text

/-! ### u8 … u128 -/

example : progT.call 9 "u8" "lo" [] [] [bv .u8 5#8] = .ok (word 5, []) := by run_text
example : progT.call 9 "u8" "hi" [] [] [bv .u8 5#8] = .ok (word 0, []) := by run_text
example : progT.call 9 "u128" "lo" [] [] [bv .u128 55340232221128654853#128] = .ok (word 5, []) := by run_text
example : progT.call 9 "u128" "hi" [] [] [bv .u128 55340232221128654853#128] = .ok (word 3, []) := by run_text
example : progT.call 9 "u8" "PREFERRED_ARRAY_LEN" [] [] [] = .ok (.int .usize 1, []) := by run_text
example : progT.call 9 "u128" "PREFERRED_ARRAY_LEN" [] [] [] = .ok (.int .usize 2, []) := by run_text
example : progT.call 9 "u16" "WIDTH" [] [] [] = .ok (.int .u32 16, []) := by run_text
example : progT.call 9 "u64" "EMPTY" [] [] [] = .ok (bv .u64 0#64, []) := by run_text
example : progT.call 9 "u8" "is_empty" [] [] [bv .u8 0#8] = .ok (.bool true, []) := by run_text
example : progT.call 9 "u8" "is_empty" [] [] [bv .u8 4#8] = .ok (.bool false, []) := by run_text
example : progT.call 9 "u8" "remove_bit" [] [] [bv .u8 13#8, .int .u32 3] =
    .ok (.unit, [(0, bv .u8 5#8)]) := by run_text
example : progT.call 9 "u8" "remove_bit" [] [] [bv .u8 5#8, .int .u32 3] =
    .ok (.unit, [(0, bv .u8 5#8)]) := by run_text
example : progT.call 9 "u8" "has_bit" [] [] [bv .u8 5#8, .int .u32 1] = .ok (.bool false, []) := by run_text
example : progT.call 9 "u8" "count_ones" [] [] [bv .u8 13#8] = .ok (.int .u32 3, []) := by run_text
example : progT.call 9 "u8" "leading_zeros" [] [] [bv .u8 13#8] = .ok (.int .u32 4, []) := by run_text
example : progT.call 9 "u8" "trailing_zeros" [] [] [bv .u8 12#8] = .ok (.int .u32 2, []) := by run_text
example : progT.call 9 "u8" "and_not" [] [] [bv .u8 13#8, bv .u8 5#8] = .ok (bv .u8 8#8, []) := by run_text
example : progT.call 9 "u8" "iter" [] [] [bv .u8 13#8] = .ok (primIterOf .u8 13#8, []) := by run_text
example : progT.call 9 "u8" "from_u8" [] [] [.int .u8 200] = .ok (bv .u8 200#8, []) := by run_text
example : progT.call 9 "u8" "from_u8_opt" [] [] [.int .u8 200] = .ok (.some (bv .u8 200#8), []) := by run_text
example : progT.call 9 "u128" "to_u8" [] [] [bv .u128 1267650600228229401496703205383#128] =
    .ok (.int .u8 7, []) := by run_text
example : progT.call 9 "u128" "to_u8_opt" [] [] [bv .u128 1267650600228229401496703205383#128] =
    .ok (.none, []) := by run_text
example : progT.call 9 "u128" "to_u8_opt" [] [] [bv .u128 7#128] = .ok (.some (.int .u8 7), []) := by run_text
example : progT.call 9 "u8" "from_u16" [] [] [.int .u16 200] = .ok (bv .u8 200#8, []) := by run_text
example : progT.call 9 "u8" "from_u16" [] [] [.int .u16 456] = .ok (bv .u8 200#8, []) := by run_text
example : progT.call 9 "u8" "from_u16_opt" [] [] [.int .u16 456] = .ok (.none, []) := by run_text
example : progT.call 9 "u8" "from_u16_opt" [] [] [.int .u16 200] = .ok (.some (bv .u8 200#8), []) := by run_text
example : progT.call 9 "u128" "to_u16" [] [] [bv .u128 1267650600228229401496703205383#128] =
    .ok (.int .u16 7, []) := by run_text
example : progT.call 9 "u128" "to_u16_opt" [] [] [bv .u128 1267650600228229401496703205383#128] =
    .ok (.none, []) := by run_text
example : progT.call 9 "u128" "to_u16_opt" [] [] [bv .u128 7#128] = .ok (.some (.int .u16 7), []) := by run_text
example : progT.call 9 "u8" "from_u32" [] [] [.int .u32 200] = .ok (bv .u8 200#8, []) := by run_text
example : progT.call 9 "u8" "from_u32" [] [] [.int .u32 456] = .ok (bv .u8 200#8, []) := by run_text
example : progT.call 9 "u8" "from_u32_opt" [] [] [.int .u32 456] = .ok (.none, []) := by run_text
example : progT.call 9 "u8" "from_u32_opt" [] [] [.int .u32 200] = .ok (.some (bv .u8 200#8), []) := by run_text
example : progT.call 9 "u128" "to_u32" [] [] [bv .u128 1267650600228229401496703205383#128] =
    .ok (.int .u32 7, []) := by run_text
example : progT.call 9 "u128" "to_u32_opt" [] [] [bv .u128 1267650600228229401496703205383#128] =
    .ok (.none, []) := by run_text
example : progT.call 9 "u128" "to_u32_opt" [] [] [bv .u128 7#128] = .ok (.some (.int .u32 7), []) := by run_text
example : progT.call 9 "u8" "from_u64" [] [] [.int .u64 200] = .ok (bv .u8 200#8, []) := by run_text
example : progT.call 9 "u8" "from_u64" [] [] [.int .u64 456] = .ok (bv .u8 200#8, []) := by run_text
example : progT.call 9 "u8" "from_u64_opt" [] [] [.int .u64 456] = .ok (.none, []) := by run_text
example : progT.call 9 "u8" "from_u64_opt" [] [] [.int .u64 200] = .ok (.some (bv .u8 200#8), []) := by run_text
example : progT.call 9 "u128" "to_u64" [] [] [bv .u128 1267650600228229401496703205383#128] =
    .ok (.int .u64 7, []) := by run_text
example : progT.call 9 "u128" "to_u64_opt" [] [] [bv .u128 1267650600228229401496703205383#128] =
    .ok (.none, []) := by run_text
example : progT.call 9 "u128" "to_u64_opt" [] [] [bv .u128 7#128] = .ok (.some (.int .u64 7), []) := by run_text
example : progT.call 9 "u8" "from_u128" [] [] [.int .u128 200] = .ok (bv .u8 200#8, []) := by run_text
example : progT.call 9 "u8" "from_u128" [] [] [.int .u128 456] = .ok (bv .u8 200#8, []) := by run_text
example : progT.call 9 "u8" "from_u128_opt" [] [] [.int .u128 456] = .ok (.none, []) := by run_text
example : progT.call 9 "u8" "from_u128_opt" [] [] [.int .u128 200] = .ok (.some (bv .u8 200#8), []) := by run_text
example : progT.call 9 "u128" "to_u128" [] [] [bv .u128 1267650600228229401496703205383#128] =
    .ok (.int .u128 1267650600228229401496703205383, []) := by run_text
example : progT.call 9 "u128" "to_u128_opt" [] [] [bv .u128 1267650600228229401496703205383#128] =
    .ok (.some (.int .u128 1267650600228229401496703205383), []) := by run_text
example : progT.call 9 "u128" "to_u128_opt" [] [] [bv .u128 7#128] = .ok (.some (.int .u128 7), []) := by run_text
example : progT.call 9 "u8" "from_usize" [] [] [.int .usize 200] = .ok (bv .u8 200#8, []) := by run_text
example : progT.call 9 "u8" "from_usize" [] [] [.int .usize 456] = .ok (bv .u8 200#8, []) := by run_text
example : progT.call 9 "u8" "from_usize_opt" [] [] [.int .usize 456] = .ok (.none, []) := by run_text
example : progT.call 9 "u8" "from_usize_opt" [] [] [.int .usize 200] = .ok (.some (bv .u8 200#8), []) := by run_text
example : progT.call 9 "u128" "to_usize" [] [] [bv .u128 1267650600228229401496703205383#128] =
    .ok (.int .usize 7, []) := by run_text
example : progT.call 9 "u128" "to_usize_opt" [] [] [bv .u128 1267650600228229401496703205383#128] =
    .ok (.none, []) := by run_text
example : progT.call 9 "u128" "to_usize_opt" [] [] [bv .u128 7#128] = .ok (.some (.int .usize 7), []) := by run_text
example : progT.call 9 "u128" "to_u64_array" [] [.int .usize 1] [bv .u128 55340232221128654853#128] =
    .ok (vec #v[5], []) := by run_text
example : progT.call 9 "u128" "to_u64_array_opt" [] [.int .usize 1] [bv .u128 55340232221128654853#128] =
    .ok (.none, []) := by run_text
example : progT.call 9 "u128" "to_u64_array_opt" [] [.int .usize 3] [bv .u128 55340232221128654853#128] =
    .ok (.some (vec #v[5, 3, 0]), []) := by run_text
example : progT.call 9 "u128" "from_u64_array" [] [] [vec #v[5, 3, 9]] =
    .ok (bv .u128 55340232221128654853#128, []) := by run_text
example : progT.call 9 "u128" "from_u64_array_opt" [] [] [vec #v[5, 3, 9]] = .ok (.none, []) := by run_text
example : progT.call 9 "u128" "from_u64_array_opt" [] [] [vec #v[5, 3, 0]] =
    .ok (.some (bv .u128 55340232221128654853#128), []) := by run_text
example : progT.call 9 "u128" "to_u64_slice" [] [] [bv .u128 55340232221128654853#128, words [8, 8, 8]] =
    .ok (.unit, [(1, words [5, 3, 0])]) := by run_text
example : progT.call 9 "u128" "to_u64_slice_opt" [] [] [bv .u128 55340232221128654853#128, words [8, 8]] =
    .ok (.some .unit, [(1, words [5, 3])]) := by run_text
example : progT.call 9 "u128" "from_u64_slice" [] [] [words [5]] = .ok (bv .u128 5#128, []) := by run_text
example : progT.call 9 "u8" "from_u64_slice" [] [] [words [456, 1]] = .ok (bv .u8 200#8, []) := by run_text
example : progT.call 9 "u128" "from_u64_slice_opt" [] [] [words [5, 3]] =
    .ok (.some (bv .u128 55340232221128654853#128), []) := by run_text
example : progT.call 9 "PrimitiveIter" "next" [] [] [primIterOf .u8 12#8] =
    .ok (.some (.int .u32 2), [(0, primIterOf .u8 8#8)]) := by run_text
example : progT.call 9 "PrimitiveIter" "next" [] [] [primIterOf .u8 0#8] =
    .ok (.none, [(0, primIterOf .u8 0#8)]) := by run_text
example : progT.call 9 "PrimitiveIter" "size_hint" [] [] [primIterOf .u8 13#8] =
    .ok (.tup [.int .usize 3, .some (.int .usize 3)], []) := by run_text

/-! ### arrays -/

example : progT.call 9 "ArrayRepr" "bitand" [] [] [arr2 5 1, arr2 4 3] = .ok (arr2 4 1, []) := by run_text
example : progT.call 9 "ArrayRepr" "bitor" [] [] [arr2 5 1, arr2 4 2] = .ok (arr2 5 3, []) := by run_text
example : progT.call 9 "ArrayRepr" "not" [] [] [arr2 18446744073709551614 0] =
    .ok (arr2 1 18446744073709551615, []) := by run_text
example : progT.call 9 "ArrayRepr" "and_not" [] [] [arr2 5 1, arr2 4 2] = .ok (arr2 1 1, []) := by run_text
example : progT.call 9 "ArrayRepr" "PREFERRED_ARRAY_LEN" [("N", .int .usize 2)] [] [] =
    .ok (.int .usize 2, []) := by run_text
example : progT.call 9 "ArrayRepr" "WIDTH" [("N", .int .usize 2)] [] [] = .ok (.int .u32 128, []) := by run_text
example : progT.call 9 "ArrayRepr" "EMPTY" [("N", .int .usize 2)] [] [] = .ok (arr2 0 0, []) := by run_text
example : progT.call 9 "ArrayRepr" "split_bit" [] [] [.int .u32 70] =
    .ok (.tup [.int .usize 1, .int .u32 6], []) := by run_text
example : progT.call 9 "ArrayRepr" "is_empty" [] [] [arr2 0 0] = .ok (.bool true, []) := by run_text
example : progT.call 9 "ArrayRepr" "is_empty" [] [] [arr2 0 1] = .ok (.bool false, []) := by run_text
example : progT.call 9 "ArrayRepr" "remove_bit" [] [] [arr2 5 4, .int .u32 66] =
    .ok (.unit, [(0, arr2 5 0)]) := by run_text
example : progT.call 9 "ArrayRepr" "has_bit" [] [] [arr2 5 4, .int .u32 66] = .ok (.bool true, []) := by run_text
example : progT.call 9 "ArrayRepr" "has_bit" [] [] [arr2 5 4, .int .u32 2] = .ok (.bool true, []) := by run_text
example : progT.call 9 "ArrayRepr" "has_bit" [] [] [arr2 5 4, .int .u32 65] = .ok (.bool false, []) := by run_text
example : progT.call 9 "ArrayRepr" "count_ones" [] [] [arr2 5 1] = .ok (.int .u32 3, []) := by run_text
example : progT.call 9 "ArrayRepr" "leading_zeros" [] [] [arr2 5 1] = .ok (.int .u32 63, []) := by run_text
example : progT.call 9 "ArrayRepr" "trailing_zeros" [] [] [arr2 0 4] = .ok (.int .u32 66, []) := by run_text
example : progT.call 9 "ArrayRepr" "trailing_zeros" [] [] [arr2 0 0] = .ok (.int .u32 128, []) := by run_text
example : progT.call 9 "ArrayRepr" "from_u8" [("N", .int .usize 2)] [] [.int .u8 200] =
    .ok (arr2 200 0, []) := by run_text
example : progT.call 9 "ArrayRepr" "from_u8_opt" [("N", .int .usize 2)] [] [.int .u8 200] =
    .ok (.some (arr2 200 0), []) := by run_text
example : progT.call 9 "ArrayRepr" "to_u8" [] [] [arr2 456 1] = .ok (.int .u8 200, []) := by run_text
example : progT.call 9 "ArrayRepr" "to_u8_opt" [] [] [arr2 456 1] = .ok (.none, []) := by run_text
example : progT.call 9 "ArrayRepr" "to_u8_opt" [] [] [arr2 200 0] = .ok (.some (.int .u8 200), []) := by run_text
example : progT.call 9 "ArrayRepr" "from_u16" [("N", .int .usize 2)] [] [.int .u16 200] =
    .ok (arr2 200 0, []) := by run_text
example : progT.call 9 "ArrayRepr" "from_u16_opt" [("N", .int .usize 2)] [] [.int .u16 200] =
    .ok (.some (arr2 200 0), []) := by run_text
example : progT.call 9 "ArrayRepr" "to_u16" [] [] [arr2 456 1] = .ok (.int .u16 456, []) := by run_text
example : progT.call 9 "ArrayRepr" "to_u16_opt" [] [] [arr2 456 1] = .ok (.none, []) := by run_text
example : progT.call 9 "ArrayRepr" "to_u16_opt" [] [] [arr2 200 0] = .ok (.some (.int .u16 200), []) := by run_text
example : progT.call 9 "ArrayRepr" "from_u32" [("N", .int .usize 2)] [] [.int .u32 200] =
    .ok (arr2 200 0, []) := by run_text
example : progT.call 9 "ArrayRepr" "from_u32_opt" [("N", .int .usize 2)] [] [.int .u32 200] =
    .ok (.some (arr2 200 0), []) := by run_text
example : progT.call 9 "ArrayRepr" "to_u32" [] [] [arr2 456 1] = .ok (.int .u32 456, []) := by run_text
example : progT.call 9 "ArrayRepr" "to_u32_opt" [] [] [arr2 456 1] = .ok (.none, []) := by run_text
example : progT.call 9 "ArrayRepr" "to_u32_opt" [] [] [arr2 200 0] = .ok (.some (.int .u32 200), []) := by run_text
example : progT.call 9 "ArrayRepr" "from_u64" [("N", .int .usize 2)] [] [.int .u64 200] =
    .ok (arr2 200 0, []) := by run_text
example : progT.call 9 "ArrayRepr" "from_u64_opt" [("N", .int .usize 2)] [] [.int .u64 200] =
    .ok (.some (arr2 200 0), []) := by run_text
example : progT.call 9 "ArrayRepr" "to_u64" [] [] [arr2 456 1] = .ok (.int .u64 456, []) := by run_text
example : progT.call 9 "ArrayRepr" "to_u64_opt" [] [] [arr2 456 1] = .ok (.none, []) := by run_text
example : progT.call 9 "ArrayRepr" "to_u64_opt" [] [] [arr2 200 0] = .ok (.some (.int .u64 200), []) := by run_text
example : progT.call 9 "ArrayRepr" "from_u128" [("N", .int .usize 2)] [] [.int .u128 200] =
    .ok (arr2 200 0, []) := by run_text
example : progT.call 9 "ArrayRepr" "from_u128_opt" [("N", .int .usize 2)] [] [.int .u128 200] =
    .ok (.some (arr2 200 0), []) := by run_text
example : progT.call 9 "ArrayRepr" "to_u128" [] [] [arr2 456 1] =
    .ok (.int .u128 18446744073709552072, []) := by run_text
example : progT.call 9 "ArrayRepr" "to_u128_opt" [] [] [arr2 456 1] =
    .ok (.some (.int .u128 18446744073709552072), []) := by run_text
example : progT.call 9 "ArrayRepr" "to_u128_opt" [] [] [arr2 200 0] = .ok (.some (.int .u128 200), []) := by run_text
example : progT.call 9 "ArrayRepr" "from_usize" [("N", .int .usize 2)] [] [.int .usize 200] =
    .ok (arr2 200 0, []) := by run_text
example : progT.call 9 "ArrayRepr" "from_usize_opt" [("N", .int .usize 2)] [] [.int .usize 200] =
    .ok (.some (arr2 200 0), []) := by run_text
example : progT.call 9 "ArrayRepr" "to_usize" [] [] [arr2 456 1] = .ok (.int .usize 456, []) := by run_text
example : progT.call 9 "ArrayRepr" "to_usize_opt" [] [] [arr2 456 1] = .ok (.none, []) := by run_text
example : progT.call 9 "ArrayRepr" "to_usize_opt" [] [] [arr2 200 0] = .ok (.some (.int .usize 200), []) := by run_text
example : progT.call 9 "ArrayRepr" "from_u128" [("N", .int .usize 2)] [] [.int .u128 55340232221128654853] =
    .ok (arr2 5 3, []) := by run_text
example : progT.call 9 "ArrayRepr" "from_u128_opt" [("N", .int .usize 1)] [] [.int .u128 55340232221128654853] =
    .ok (.none, []) := by run_text
example : progT.call 9 "ArrayRepr" "to_u64_array" [] [.int .usize 3] [arr2 5 3] =
    .ok (vec #v[5, 3, 0], []) := by run_text
example : progT.call 9 "ArrayRepr" "to_u64_array" [] [.int .usize 1] [arr2 5 3] = .ok (vec #v[5], []) := by run_text
example : progT.call 9 "ArrayRepr" "to_u64_array_opt" [] [.int .usize 1] [arr2 5 3] = .ok (.none, []) := by run_text
example : progT.call 9 "ArrayRepr" "to_u64_array_opt" [] [.int .usize 1] [arr2 5 0] =
    .ok (.some (vec #v[5]), []) := by run_text
example : progT.call 9 "ArrayRepr" "from_u64_array" [("N", .int .usize 2)] [] [vec #v[5, 3, 9]] =
    .ok (arr2 5 3, []) := by run_text
example : progT.call 9 "ArrayRepr" "from_u64_array_opt" [("N", .int .usize 2)] [] [vec #v[5, 3, 9]] =
    .ok (.none, []) := by run_text
example : progT.call 9 "ArrayRepr" "from_u64_slice" [("N", .int .usize 2)] [] [words [5]] =
    .ok (arr2 5 0, []) := by run_text
example : progT.call 9 "ArrayRepr" "from_u64_slice_opt" [("N", .int .usize 2)] [] [words [5, 3, 0]] =
    .ok (.some (arr2 5 3), []) := by run_text
example : progT.call 9 "ArrayRepr" "from_u64_slice_opt" [("N", .int .usize 2)] [] [words [5, 3, 1]] =
    .ok (.none, []) := by run_text
example : progT.call 9 "ArrayRepr" "to_u64_slice_opt" [] [] [arr2 5 3, words [7, 7]] =
    .ok (.some .unit, [(1, words [5, 3])]) := by run_text
example : progT.call 9 "ArrayRepr" "to_u64_slice_opt" [] [] [arr2 5 3, words [7]] =
    .ok (.none, [(1, words [7])]) := by run_text
example : progT.call 9 "ArrayRepr" "iter" [] [] [arr2 5 3] = .ok (arrayIter ⟨#v[5, 3], false, 0, 1⟩, []) := by run_text
example : progT.call 9 "ArrayIter" "new" [] [] [arr2 5 3] = .ok (arrayIter ⟨#v[5, 3], false, 0, 1⟩, []) := by run_text
example : progT.call 9 "ArrayIter" "size_hint" [] [] [arrayIter ⟨#v[5, 3], false, 0, 1⟩] =
    .ok (.tup [.int .usize 4, .some (.int .usize 4)], []) := by run_text
example : progT.call 9 "ArrayIter" "next_back" [] [] [arrayIter ⟨#v[5, 3], false, 0, 1⟩] =
    .ok (.some (.int .u32 65), [(0, arrayIter ⟨#v[5, 1], false, 0, 1⟩)]) := by run_text

end Enumset.Src.Ex
