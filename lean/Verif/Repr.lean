import Verif.Rust
/-!
# `enumset/src/repr/mod.rs`: the storage trait
-/
set_option autoImplicit false

namespace Enumset

/-- The integer types `EnumSet` converts from and to
(set.rs:631-656, `conversion_impls!` is instantiated at exactly these six). -/
inductive NumTy where
  | u8 | u16 | u32 | u64 | u128 | usize
  deriving DecidableEq, Repr

/-- Width of an integer type on the target. -/
def NumTy.bits [Target] : NumTy → Nat
  | .u8 => 8
  | .u16 => 16
  | .u32 => 32
  | .u64 => 64
  | .u128 => 128
  | .usize => usizeBits

/-- One call on a `core::hash::Hasher`. -/
inductive HashWrite where
  /-- `write_u8` .. `write_u128` (the width is part of the call) -/
  | int (width value : Nat)
  /-- `write_length_prefix` -/
  | lenPrefix (n : Nat)
  /-- `write` of the bytes of a `u64` slice -/
  | words (ws : List U64)
  deriving DecidableEq

/-- repr/mod.rs:18-90 `trait EnumSetTypeRepr`, with its supertraits `Ord`, `Eq`, `Hash`,
`BitAnd`, `BitOr`, `BitXor`, `Not` (mod.rs:20-29) and the iterator `type Iter` (mod.rs:47).

Simplifications: `Copy`/`Clone` are value semantics, `Debug` is not modelled; the families
`from_u8 … from_usize`, `to_u8 … to_usize`, `from_*_opt`, `to_*_opt` (mod.rs:50-76) are one member
each, indexed by `NumTy`; a `&mut` argument is returned; bit positions and counts are `Nat`. -/
class EnumSetTypeRepr [Platform] (R : Type) where
  PREFERRED_ARRAY_LEN : Nat
  WIDTH : Nat
  EMPTY : R
  /-- `PartialEq::eq` -/
  eq : R → R → Bool
  /-- `PartialOrd::partial_cmp` -/
  partial_cmp : R → R → Option Ordering
  /-- `Ord::cmp` -/
  cmp : R → R → Ordering
  /-- `Hash::hash`: the calls made on the hasher, in order -/
  hash : R → List HashWrite
  bitand : R → R → Res R
  bitor : R → R → Res R
  bitxor : R → R → Res R
  not : R → Res R
  is_empty : R → Res Bool
  add_bit : R → Nat → Res R
  remove_bit : R → Nat → Res R
  has_bit : R → Nat → Res Bool
  count_ones : R → Res Nat
  leading_zeros : R → Res Nat
  trailing_zeros : R → Res Nat
  and_not : R → R → Res R
  Iter : Type
  iter : R → Res Iter
  /-- `<Self::Iter as Iterator>::next` -/
  iter_next : Iter → Res (Option Nat × Iter)
  /-- `<Self::Iter as DoubleEndedIterator>::next_back` -/
  iter_next_back : Iter → Res (Option Nat × Iter)
  /-- `<Self::Iter as Iterator>::size_hint` -/
  iter_size_hint : Iter → Res (Nat × Option Nat)
  from_num : (n : NumTy) → BitVec n.bits → Res R
  from_num_opt : (n : NumTy) → BitVec n.bits → Res (Option R)
  to_num : (n : NumTy) → R → Res (BitVec n.bits)
  to_num_opt : (n : NumTy) → R → Res (Option (BitVec n.bits))
  to_u64_array : (O : Nat) → R → Res (Vector U64 O)
  to_u64_array_opt : (O : Nat) → R → Res (Option (Vector U64 O))
  from_u64_array : (O : Nat) → Vector U64 O → Res R
  from_u64_array_opt : (O : Nat) → Vector U64 O → Res (Option R)
  to_u64_slice : R → List U64 → Res (List U64)
  to_u64_slice_opt : R → List U64 → Res (Option Unit × List U64)
  from_u64_slice : List U64 → Res R
  from_u64_slice_opt : List U64 → Res (Option R)

end Enumset
