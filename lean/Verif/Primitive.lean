import Verif.Repr
/-!
# `enumset/src/repr/primitive.rs`: integer storage

The macro `prim!($name, $width, $preferred_array_len)` is modelled by definitions with the
parameters `w` (`$width`, the width of the type `$name`) and `pal` (`$preferred_array_len`).
`Prim.Instantiated` lists the instantiations.
-/
set_option autoImplicit false

namespace Enumset

/-- A value of an integer type used as storage.  primitive.rs:3-4. -/
structure Prim (w pal : Nat) where
  v : BitVec w
  deriving DecidableEq

/-- primitive.rs:262-266 `prim!(u8, 8, 1); … prim!(u128, 128, 2);` -/
def Prim.Instantiated (w pal : Nat) : Prop :=
  (w = 8 ∧ pal = 1) ∨ (w = 16 ∧ pal = 1) ∨ (w = 32 ∧ pal = 1) ∨ (w = 64 ∧ pal = 1) ∨
    (w = 128 ∧ pal = 2)

namespace prim

variable {w : Nat}

/-- primitive.rs:6-8 `v as u64` -/
def lo (v : BitVec w) : U64 := castBV 64 v
/-- primitive.rs:9-11 `((v as u128) >> 64) as u64` -/
def hi (v : BitVec w) : U64 := castBV 64 ((castBV 128 v) >>> 64)

/-- primitive.rs:18-21 -/
def is_empty (self : BitVec w) : Bool := self == 0
/-- primitive.rs:23-26 `*self |= 1 << bit as $name` -/
def add_bit [Platform] (self : BitVec w) (bit : Nat) : Res (BitVec w) := do
  let m ← shl1 w (castW w bit)
  pure (self ||| m)
/-- primitive.rs:27-30 `*self &= !(1 << bit as $name)` -/
def remove_bit [Platform] (self : BitVec w) (bit : Nat) : Res (BitVec w) := do
  let m ← shl1 w (castW w bit)
  pure (self &&& ~~~ m)
/-- primitive.rs:31-34 `(self & (1 << bit as $name)) != 0` -/
def has_bit [Platform] (self : BitVec w) (bit : Nat) : Res Bool := do
  let m ← shl1 w (castW w bit)
  pure ((self &&& m) != 0)

/-- primitive.rs:36-39 -/
def count_ones (self : BitVec w) : Nat := countOnes self
/-- primitive.rs:40-43 -/
def leading_zeros (self : BitVec w) : Nat := leadingZeros self
/-- primitive.rs:44-47 -/
def trailing_zeros (self : BitVec w) : Nat := trailingZeros self
/-- primitive.rs:49-52 `(*self) & !other` -/
def and_not (self other : BitVec w) : BitVec w := self &&& ~~~ other

/-- primitive.rs:272-283 `PrimitiveIter::next` (only ever instantiated at integer types:
primitive.rs:54 and array.rs:274; `PrimitiveIter` is a transparent wrapper) -/
def iter_next [Platform] (self : BitVec w) : Res (Option Nat × BitVec w) :=
  if is_empty self then .ok (none, self)
  else do
    let bit := trailing_zeros self
    let self ← remove_bit self bit
    pure (some bit, self)
/-- primitive.rs:285-288 `PrimitiveIter::size_hint` -/
def iter_size_hint [Platform] (self : BitVec w) : Nat × Option Nat :=
  let left := castW usizeBits (count_ones self)
  (left, some left)
/-- primitive.rs:291-301 `PrimitiveIter::next_back` -/
def iter_next_back [Platform] (self : BitVec w) : Res (Option Nat × BitVec w) :=
  if is_empty self then .ok (none, self)
  else do
    let t ← subW 32 w 1
    let bit ← subW 32 t (leading_zeros self)
    let self ← remove_bit self bit
    pure (some bit, self)

/-- primitive.rs:60-83 `v as $name` -/
def from_num [Platform] (n : NumTy) (v : BitVec n.bits) : BitVec w := castBV w v
/-- primitive.rs:85-108 `(*self) as u8` … `(*self) as usize` -/
def to_num [Platform] (n : NumTy) (self : BitVec w) : BitVec n.bits := castBV n.bits self
/-- primitive.rs:110-133 `v.try_into().ok()` -/
def from_num_opt [Platform] (n : NumTy) (v : BitVec n.bits) : Option (BitVec w) := tryInto w v
/-- primitive.rs:135-158 `(*self).try_into().ok()` -/
def to_num_opt [Platform] (n : NumTy) (self : BitVec w) : Option (BitVec n.bits) :=
  tryInto n.bits self

/-- primitive.rs:160-170 -/
def to_u64_array (pal : Nat) (O : Nat) (self : BitVec w) : Res (Vector U64 O) := do
  let array : Vector U64 O := Vector.replicate O 0
  let array ← if O > 0 then setV array 0 (lo self) else pure array
  let array ← if O > 1 ∧ pal = 2 then setV array 1 (hi self) else pure array
  pure array
/-- primitive.rs:171-180 -/
def to_u64_array_opt (pal : Nat) (O : Nat) (self : BitVec w) : Res (Option (Vector U64 O)) :=
  if O = 0 ∧ self ≠ 0 then .ok none
  else if O = 1 ∧ hi self ≠ 0 then .ok none
  else do
    let a ← to_u64_array pal O self
    pure (some a)

/-- primitive.rs:182-191 (`Self::from_u128` / `Self::from_u64` are the casts of primitive.rs:72-79) -/
def from_u64_array (pal : Nat) (O : Nat) (v : Vector U64 O) : Res (BitVec w) :=
  if O = 0 then .ok 0
  else if O > 1 ∧ pal = 2 then do
    let v0 ← idxV v 0
    let v1 ← idxV v 1
    let x : U128 := castBV 128 v0 ||| (castBV 128 v1 <<< 64)
    pure (castBV w x)
  else do
    let v0 ← idxV v 0
    pure (castBV w v0)
/-- primitive.rs:192-206 -/
def from_u64_array_opt (O : Nat) (v : Vector U64 O) : Res (Option (BitVec w)) :=
  if O = 0 then .ok (some 0)
  else if O = 1 then do
    let v0 ← idxV v 0
    pure (tryInto w v0)
  else do
    let r ← forEachRet (ρ := Option (BitVec w)) (range 2 O) () fun i _ => do
      let x ← idxV v i
      pure (if x ≠ 0 then .ret none else .next ())
    match r with
    | .ret r => pure r
    | .next _ => do
      let v0 ← idxV v 0
      let v1 ← idxV v 1
      let x : U128 := castBV 128 v0 ||| (castBV 128 v1 <<< 64)
      pure (tryInto w x)

/-- primitive.rs:208-219 -/
def to_u64_slice (pal : Nat) (self : BitVec w) (out : List U64) : Res (List U64) := do
  let out ← if out.length > 0 then setL out 0 (lo self) else pure out
  let out ← if out.length > 1 ∧ pal = 2 then setL out 1 (hi self) else pure out
  forEach (range pal out.length) out fun i out => setL out i 0
/-- primitive.rs:220-231 -/
def to_u64_slice_opt (pal : Nat) (self : BitVec w) (out : List U64) :
    Res (Option Unit × List U64) :=
  if out.length = 0 ∧ self ≠ 0 then .ok (none, out)
  else if out.length = 1 ∧ hi self ≠ 0 then .ok (none, out)
  else do
    let out ← to_u64_slice pal self out
    pure (some (), out)

/-- primitive.rs:233-242 -/
def from_u64_slice (pal : Nat) (v : List U64) : Res (BitVec w) :=
  if v.length = 0 then .ok 0
  else if v.length > 1 ∧ pal = 2 then do
    let v0 ← idxL v 0
    let v1 ← idxL v 1
    let x : U128 := castBV 128 v0 ||| (castBV 128 v1 <<< 64)
    pure (castBV w x)
  else do
    let v0 ← idxL v 0
    pure (castBV w v0)
/-- primitive.rs:243-257 -/
def from_u64_slice_opt (v : List U64) : Res (Option (BitVec w)) :=
  if v.length = 0 then .ok (some 0)
  else if v.length = 1 then do
    let v0 ← idxL v 0
    pure (tryInto w v0)
  else do
    let r ← forEachRet (ρ := Option (BitVec w)) (range 2 v.length) () fun i _ => do
      let x ← idxL v i
      pure (if x ≠ 0 then .ret none else .next ())
    match r with
    | .ret r => pure r
    | .next _ => do
      let v0 ← idxL v 0
      let v1 ← idxL v 1
      let x : U128 := castBV 128 v0 ||| (castBV 128 v1 <<< 64)
      pure (tryInto w x)

end prim

/-- primitive.rs:13-258 `impl EnumSetTypeRepr for $name`; the operators `&`, `|`, `^`, `!`, `==`,
`cmp` and `hash` of the integer types are those of `core`. -/
instance [Platform] (w pal : Nat) : EnumSetTypeRepr (Prim w pal) where
  PREFERRED_ARRAY_LEN := pal
  WIDTH := w
  EMPTY := ⟨0⟩
  eq a b := a.v == b.v
  partial_cmp a b := some (compare a.v.toNat b.v.toNat)
  cmp a b := compare a.v.toNat b.v.toNat
  hash a := [.int w a.v.toNat]
  bitand a b := .ok ⟨a.v &&& b.v⟩
  bitor a b := .ok ⟨a.v ||| b.v⟩
  bitxor a b := .ok ⟨a.v ^^^ b.v⟩
  not a := .ok ⟨~~~ a.v⟩
  is_empty a := .ok (prim.is_empty a.v)
  add_bit a b := Prim.mk <$> prim.add_bit a.v b
  remove_bit a b := Prim.mk <$> prim.remove_bit a.v b
  has_bit a b := prim.has_bit a.v b
  count_ones a := .ok (prim.count_ones a.v)
  leading_zeros a := .ok (prim.leading_zeros a.v)
  trailing_zeros a := .ok (prim.trailing_zeros a.v)
  and_not a b := .ok ⟨prim.and_not a.v b.v⟩
  Iter := BitVec w
  iter a := .ok a.v
  iter_next := prim.iter_next
  iter_next_back := prim.iter_next_back
  iter_size_hint it := .ok (prim.iter_size_hint it)
  from_num n v := .ok ⟨prim.from_num n v⟩
  from_num_opt n v := .ok ((prim.from_num_opt n v).map Prim.mk)
  to_num n a := .ok (prim.to_num n a.v)
  to_num_opt n a := .ok (prim.to_num_opt n a.v)
  to_u64_array O a := prim.to_u64_array pal O a.v
  to_u64_array_opt O a := prim.to_u64_array_opt pal O a.v
  from_u64_array O v := Prim.mk <$> prim.from_u64_array pal O v
  from_u64_array_opt O v := (Option.map Prim.mk) <$> prim.from_u64_array_opt O v
  to_u64_slice a out := prim.to_u64_slice pal a.v out
  to_u64_slice_opt a out := prim.to_u64_slice_opt pal a.v out
  from_u64_slice v := Prim.mk <$> prim.from_u64_slice pal v
  from_u64_slice_opt v := (Option.map Prim.mk) <$> prim.from_u64_slice_opt v

end Enumset
