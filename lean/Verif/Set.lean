import Verif.ArrayRepr
/-!
# `enumset/src/traits.rs` and `enumset/src/set.rs`
-/
set_option autoImplicit false

namespace Enumset

/-- enumset_derive/src/lib.rs:68-87 `enum SerdeRepr` -/
inductive SerdeRepr where
  | u8 | u16 | u32 | u64 | u128 | list | map | array
  deriving DecidableEq, Repr

/-- traits.rs:15, 28-33, 36-67: a Rust enum together with everything `#[derive(EnumSetType)]`
generates for it.  `n` and `discr` describe the enum itself as rustc compiled it (its variants in
declaration order and their discriminants); the other fields are the generated items
(enumset_derive/src/lib.rs:923-970).  Values of this type are produced by the model of the derive
macro in `Verif/Derive.lean`. -/
structure EnumSetType [Platform] where
  /-- number of variants of the enum -/
  n : Nat
  /-- the discriminant rustc assigned to each variant -/
  discr : Fin n → Nat
  /-- `EnumSetTypePrivate::Repr` -/
  Repr : Type
  [reprInst : EnumSetTypeRepr Repr]
  ALL_BITS : Repr
  BIT_WIDTH : Nat
  VARIANT_COUNT : Nat
  enum_into_u32 : Fin n → Res Nat
  enum_from_u32 : Nat → Res (Fin n)
  /-- `PartialEq for` the enum (lib.rs:711-726) -/
  val_eq : Fin n → Fin n → Res Bool
  /-- inherent `__impl_enumset_internal__const_only` of the enum -/
  const_only : Fin n → Res Repr
  /-- `__EnumSetConstHelper::const_union` -/
  const_union : Repr → Repr → Res Repr
  const_intersection : Repr → Repr → Res Repr
  const_symmetric_difference : Repr → Repr → Res Repr
  const_complement : Repr → Res Repr
  /-- whether `EnumSetTypeWithRepr` is implemented (lib.rs:741-750) -/
  withRepr : Bool
  /-- whether the operator impls on the enum are generated (lib.rs:381-427) -/
  ops : Bool
  /-- whether `PartialEq`, `Eq`, `Clone` and `Copy` of the enum are generated (lib.rs:717-739) -/
  superImpls : Bool
  /-- how the set is (de)serialized (lib.rs:430-644) -/
  serde : SerdeRepr
  /-- `serialize_deny_unknown` -/
  deny : Bool
  /-- the tokens `#all_variants` as an integer literal, `none` if they are an `ArrayRepr`
  expression (lib.rs:361-379) -/
  allLit : Option Nat

attribute [instance] EnumSetType.reprInst

/-- A value of the enum. -/
abbrev EnumSetType.Val [Platform] (T : EnumSetType) : Type := Fin T.n

/-- set.rs:123-130 `pub struct EnumSet<T>` -/
structure EnumSet [Platform] (T : EnumSetType) where
  priv_repr : T.Repr

/-- set.rs:801-804 `pub struct EnumSetIter<T>` -/
structure EnumSetIter [Platform] (T : EnumSetType) where
  iter : EnumSetTypeRepr.Iter T.Repr

open EnumSetTypeRepr (bitand bitor bitxor and_not)

variable [Platform] {T : EnumSetType}

namespace EnumSet

/-- set.rs:134 -/
def EMPTY_REPR : EnumSet T := ⟨EnumSetTypeRepr.EMPTY⟩
/-- set.rs:135 -/
def ALL_REPR : EnumSet T := ⟨T.ALL_BITS⟩
/-- set.rs:455 (deprecated constant) -/
def EMPTY : EnumSet T := EMPTY_REPR
/-- set.rs:461 (deprecated constant) -/
def ALL : EnumSet T := ALL_REPR

/-- set.rs:139-141 -/
def new : EnumSet T := EMPTY_REPR

/-- set.rs:248-250 -/
def contains (self : EnumSet T) (value : T.Val) : Res Bool := do
  let b ← T.enum_into_u32 value
  EnumSetTypeRepr.has_bit self.priv_repr b

/-- set.rs:258-262; returns the result and the new value of `*self` -/
def insert (self : EnumSet T) (value : T.Val) : Res (Bool × EnumSet T) := do
  let c ← contains self value
  let b ← T.enum_into_u32 value
  let r ← EnumSetTypeRepr.add_bit self.priv_repr b
  pure (!c, ⟨r⟩)
/-- set.rs:265-269 -/
def remove (self : EnumSet T) (value : T.Val) : Res (Bool × EnumSet T) := do
  let c ← contains self value
  let b ← T.enum_into_u32 value
  let r ← EnumSetTypeRepr.remove_bit self.priv_repr b
  pure (c, ⟨r⟩)

/-- set.rs:145-149 -/
def only (t : T.Val) : Res (EnumSet T) := do
  let (_, set) ← insert new t
  pure set
/-- set.rs:155-157 -/
def empty : EnumSet T := EMPTY_REPR
/-- set.rs:161-163 -/
def all : EnumSet T := ALL_REPR
/-- set.rs:171-173 -/
def bit_width (T : EnumSetType) : Nat := T.BIT_WIDTH
/-- set.rs:180-182 -/
def variant_count (T : EnumSetType) : Nat := T.VARIANT_COUNT
/-- set.rs:186-188 -/
def len (self : EnumSet T) : Res Nat := do
  let c ← EnumSetTypeRepr.count_ones self.priv_repr
  pure (castW usizeBits c)
/-- set.rs:191-193 -/
def is_empty (self : EnumSet T) : Res Bool := EnumSetTypeRepr.is_empty self.priv_repr
/-- set.rs:196-198 -/
def clear (_self : EnumSet T) : EnumSet T := ⟨EnumSetTypeRepr.EMPTY⟩

/-- set.rs:221-223 -/
def union (self other : EnumSet T) : Res (EnumSet T) := do
  let r ← bitor self.priv_repr other.priv_repr
  pure ⟨r⟩
/-- set.rs:226-228 -/
def intersection (self other : EnumSet T) : Res (EnumSet T) := do
  let r ← bitand self.priv_repr other.priv_repr
  pure ⟨r⟩
/-- set.rs:231-233 -/
def difference (self other : EnumSet T) : Res (EnumSet T) := do
  let r ← and_not self.priv_repr other.priv_repr
  pure ⟨r⟩
/-- set.rs:237-239 -/
def symmetrical_difference (self other : EnumSet T) : Res (EnumSet T) := do
  let r ← bitxor self.priv_repr other.priv_repr
  pure ⟨r⟩
/-- set.rs:242-244 -/
def complement (self : EnumSet T) : Res (EnumSet T) := do
  let r ← EnumSetTypeRepr.not self.priv_repr
  let r ← bitand r T.ALL_BITS
  pure ⟨r⟩

/-- set.rs:273-275 -/
def insert_all (self other : EnumSet T) : Res (EnumSet T) := do
  let r ← bitor self.priv_repr other.priv_repr
  pure ⟨r⟩
/-- set.rs:278-280 -/
def remove_all (self other : EnumSet T) : Res (EnumSet T) := do
  let r ← and_not self.priv_repr other.priv_repr
  pure ⟨r⟩

/-- set.rs:304-309 `Default` -/
def default : EnumSet T := new

end EnumSet

/-- An operand of type `O: Into<EnumSet<T>>` of the operator impls (set.rs:311-363, lib.rs:385-412):
a variant (`From<T> for EnumSet<T>`, set.rs:373-377) or a set (`From<U> for U`). -/
inductive Operand (T : EnumSetType) where
  | val (v : T.Val)
  | set (s : EnumSet T)

/-- `Into::into`; set.rs:373-377 -/
def Operand.into : Operand T → Res (EnumSet T)
  | .val v => EnumSet.only v
  | .set s => .ok s

namespace EnumSet

/-- set.rs:311-317 -/
def sub (self : EnumSet T) (other : Operand T) : Res (EnumSet T) := do
  let o ← other.into; difference self o
/-- set.rs:318-324 -/
def bitand (self : EnumSet T) (other : Operand T) : Res (EnumSet T) := do
  let o ← other.into; intersection self o
/-- set.rs:325-331 -/
def bitor (self : EnumSet T) (other : Operand T) : Res (EnumSet T) := do
  let o ← other.into; union self o
/-- set.rs:332-338 -/
def bitxor (self : EnumSet T) (other : Operand T) : Res (EnumSet T) := do
  let o ← other.into; symmetrical_difference self o
/-- set.rs:340-345 -/
def sub_assign (self : EnumSet T) (rhs : Operand T) : Res (EnumSet T) := sub self rhs
/-- set.rs:346-351 -/
def bitand_assign (self : EnumSet T) (rhs : Operand T) : Res (EnumSet T) := bitand self rhs
/-- set.rs:352-357 -/
def bitor_assign (self : EnumSet T) (rhs : Operand T) : Res (EnumSet T) := bitor self rhs
/-- set.rs:358-363 -/
def bitxor_assign (self : EnumSet T) (rhs : Operand T) : Res (EnumSet T) := bitxor self rhs
/-- set.rs:365-371 -/
def not (self : EnumSet T) : Res (EnumSet T) := complement self

/-- set.rs:203-205 `(*self & other).is_empty()` -/
def is_disjoint (self other : EnumSet T) : Res Bool := do
  let r ← bitand self (.set other)
  is_empty r
/-- set.rs:209-211 `(*self & other).__priv_repr == other.__priv_repr` -/
def is_superset (self other : EnumSet T) : Res Bool := do
  let r ← bitand self (.set other)
  pure (EnumSetTypeRepr.eq r.priv_repr other.priv_repr)
/-- set.rs:215-217 -/
def is_subset (self other : EnumSet T) : Res Bool := is_superset other self

/-- set.rs:123 `derive(PartialEq)` -/
def eq (self other : EnumSet T) : Bool := EnumSetTypeRepr.eq self.priv_repr other.priv_repr
/-- set.rs:379-383 `PartialEq<T> for EnumSet<T>` -/
def eq_val (self : EnumSet T) (other : T.Val) : Res Bool := do
  let o ← only other
  pure (EnumSetTypeRepr.eq self.priv_repr o.priv_repr)
/-- set.rs:416-420 `Hash` -/
def hash (self : EnumSet T) : List HashWrite := EnumSetTypeRepr.hash self.priv_repr
/-- set.rs:422-426 `PartialOrd` -/
def partial_cmp (self other : EnumSet T) : Option Ordering :=
  EnumSetTypeRepr.partial_cmp self.priv_repr other.priv_repr
/-- set.rs:427-431 `Ord` -/
def cmp (self other : EnumSet T) : Ordering := EnumSetTypeRepr.cmp self.priv_repr other.priv_repr

/-! ### conversions from and to the representation (set.rs:466-535), for `EnumSetTypeWithRepr` -/

/-- set.rs:475-477 -/
def as_repr (self : EnumSet T) : T.Repr := self.priv_repr
/-- set.rs:492-494 -/
def from_repr_unchecked (bits : T.Repr) : EnumSet T := ⟨bits⟩
/-- set.rs:516-523 -/
def try_from_repr (bits : T.Repr) : Res (Option (EnumSet T)) := do
  let mask := (all : EnumSet T).priv_repr
  let x ← and_not bits mask
  if ← EnumSetTypeRepr.is_empty x then pure (some ⟨bits⟩) else pure none
/-- set.rs:504-506 -/
def from_repr (bits : T.Repr) : Res (EnumSet T) := do
  let r ← try_from_repr bits
  Res.expect "Bitset contains invalid variants." r
/-- set.rs:530-534 -/
def from_repr_truncated (bits : T.Repr) : Res (EnumSet T) := do
  let mask := (all : EnumSet T).as_repr
  let bits ← EnumSetTypeRepr.bitand bits mask
  pure ⟨bits⟩

/-! ### `conversion_impls!` (set.rs:538-656), for each of the six integer types -/

/-- set.rs:566-568 `try_as_u8` … `try_as_usize` -/
def try_as_num (n : NumTy) (self : EnumSet T) : Res (Option (BitVec n.bits)) :=
  EnumSetTypeRepr.to_num_opt n self.priv_repr
/-- set.rs:555-557 `as_u8` … `as_usize` -/
def as_num (n : NumTy) (self : EnumSet T) : Res (BitVec n.bits) := do
  let r ← try_as_num n self
  Res.expect "Bitset will not fit into this type." r
/-- set.rs:577-579 `as_u8_truncated` … `as_usize_truncated` -/
def as_num_truncated (n : NumTy) (self : EnumSet T) : Res (BitVec n.bits) :=
  EnumSetTypeRepr.to_num n self.priv_repr
/-- the closure of set.rs:598-602, 696-702, 770-776 -/
def checkMask (bits : T.Repr) : Res (Option (EnumSet T)) := do
  let x ← and_not bits T.ALL_BITS
  if ← EnumSetTypeRepr.is_empty x then pure (some ⟨bits⟩) else pure none
/-- set.rs:595-603 `try_from_u8` … `try_from_usize` -/
def try_from_num (n : NumTy) (bits : BitVec n.bits) : Res (Option (EnumSet T)) := do
  let bits : Option T.Repr ← EnumSetTypeRepr.from_num_opt n bits
  match bits with
  | some bits => checkMask bits
  | none => pure none
/-- set.rs:586-588 `from_u8` … `from_usize` -/
def from_num (n : NumTy) (bits : BitVec n.bits) : Res (EnumSet T) := do
  let r ← try_from_num n bits
  Res.expect "Bitset contains invalid variants." r
/-- set.rs:609-613 `from_u8_truncated` … `from_usize_truncated` -/
def from_num_truncated (n : NumTy) (bits : BitVec n.bits) : Res (EnumSet T) := do
  let mask ← as_num_truncated n (all : EnumSet T)
  let bits ← EnumSetTypeRepr.from_num n (bits &&& mask)
  pure ⟨bits⟩
/-- set.rs:625-627 `from_u8_unchecked` … `from_usize_unchecked` -/
def from_num_unchecked (n : NumTy) (bits : BitVec n.bits) : Res (EnumSet T) := do
  let r ← EnumSetTypeRepr.from_num n bits
  pure ⟨r⟩

/-! ### arrays and slices (set.rs:658-796) -/

/-- set.rs:671-673 -/
def try_as_array (O : Nat) (self : EnumSet T) : Res (Option (Vector U64 O)) :=
  EnumSetTypeRepr.to_u64_array_opt O self.priv_repr
/-- set.rs:662-665 -/
def as_array (O : Nat) (self : EnumSet T) : Res (Vector U64 O) := do
  let r ← try_as_array O self
  Res.expect "Bitset will not fit into this type." r
/-- set.rs:679-681 -/
def as_array_truncated (O : Nat) (self : EnumSet T) : Res (Vector U64 O) :=
  EnumSetTypeRepr.to_u64_array O self.priv_repr
/-- set.rs:693-703 -/
def try_from_array (O : Nat) (bits : Vector U64 O) : Res (Option (EnumSet T)) := do
  let bits : Option T.Repr ← EnumSetTypeRepr.from_u64_array_opt O bits
  match bits with
  | some bits => checkMask bits
  | none => pure none
/-- set.rs:686-688 -/
def from_array (O : Nat) (v : Vector U64 O) : Res (EnumSet T) := do
  let r ← try_from_array O v
  Res.expect "Bitset contains invalid variants." r
/-- set.rs:706-709 -/
def from_array_truncated (O : Nat) (bits : Vector U64 O) : Res (EnumSet T) := do
  let r ← EnumSetTypeRepr.from_u64_array O bits
  let r ← EnumSetTypeRepr.bitand r T.ALL_BITS
  pure ⟨r⟩
/-- set.rs:719-721 -/
def from_array_unchecked (O : Nat) (bits : Vector U64 O) : Res (EnumSet T) := do
  let r ← EnumSetTypeRepr.from_u64_array O bits
  pure ⟨r⟩
/-- set.rs:726-730 -/
def to_vec (self : EnumSet T) : Res (List U64) :=
  let vec := List.replicate (EnumSetTypeRepr.PREFERRED_ARRAY_LEN T.Repr) (0 : U64)
  EnumSetTypeRepr.to_u64_slice self.priv_repr vec
/-- set.rs:745-747; returns the result and the new contents of the slice -/
def try_copy_into_slice (self : EnumSet T) (data : List U64) : Res (Option Unit × List U64) :=
  EnumSetTypeRepr.to_u64_slice_opt self.priv_repr data
/-- set.rs:735-738; the contents of the slice are returned also when the call panics, since the
caller can observe them after unwinding -/
def copy_into_slice (self : EnumSet T) (data : List U64) : Res (Res Unit × List U64) := do
  let (r, data) ← try_copy_into_slice self data
  pure (Res.expect "Bitset will not fit into slice." r, data)
/-- set.rs:753-755 -/
def copy_into_slice_truncated (self : EnumSet T) (data : List U64) : Res (List U64) :=
  EnumSetTypeRepr.to_u64_slice self.priv_repr data
/-- set.rs:767-777 -/
def try_from_slice (bits : List U64) : Res (Option (EnumSet T)) := do
  let bits : Option T.Repr ← EnumSetTypeRepr.from_u64_slice_opt bits
  match bits with
  | some bits => checkMask bits
  | none => pure none
/-- set.rs:760-762 -/
def from_slice (v : List U64) : Res (EnumSet T) := do
  let r ← try_from_slice v
  Res.expect "Bitset contains invalid variants." r
/-- set.rs:780-783 -/
def from_slice_truncated (bits : List U64) : Res (EnumSet T) := do
  let r ← EnumSetTypeRepr.from_u64_slice bits
  let r ← EnumSetTypeRepr.bitand r T.ALL_BITS
  pure ⟨r⟩
/-- set.rs:793-795 -/
def from_slice_unchecked (bits : List U64) : Res (EnumSet T) := do
  let r ← EnumSetTypeRepr.from_u64_slice bits
  pure ⟨r⟩

/-! ### iteration (set.rs:799-841) -/

/-- set.rs:806-808, 817-819, 879-881 (`iter`, `into_iter`) -/
def iter (self : EnumSet T) : Res (EnumSetIter T) := do
  let it ← EnumSetTypeRepr.iter self.priv_repr
  pure ⟨it⟩

end EnumSet

namespace EnumSetIter

/-- set.rs:825-827 -/
def next (self : EnumSetIter T) : Res (Option T.Val × EnumSetIter T) := do
  let (r, it) ← EnumSetTypeRepr.iter_next self.iter
  match r with
  | some x => do
    let v ← T.enum_from_u32 x
    pure (some v, ⟨it⟩)
  | none => pure (none, ⟨it⟩)
/-- set.rs:834-838 -/
def next_back (self : EnumSetIter T) : Res (Option T.Val × EnumSetIter T) := do
  let (r, it) ← EnumSetTypeRepr.iter_next_back self.iter
  match r with
  | some x => do
    let v ← T.enum_from_u32 x
    pure (some v, ⟨it⟩)
  | none => pure (none, ⟨it⟩)
/-- set.rs:828-830 -/
def size_hint (self : EnumSetIter T) : Res (Nat × Option Nat) :=
  EnumSetTypeRepr.iter_size_hint self.iter

/-- `for v in iter { s = body(v, s) }` (`Iterator::for_each`, `fold`, a `for` loop): call `next`
until it returns `None`.  `fuel` bounds the number of `next` calls. -/
def forLoop {σ : Type} : Nat → EnumSetIter T → σ → (T.Val → σ → Res σ) → Res σ
  | 0, _, _, _ => .diverge
  | fuel + 1, it, s, f => do
    let (r, it) ← next it
    match r with
    | none => pure s
    | some v => do
      let s ← f v s
      forLoop fuel it s f

/-- As `forLoop`, from the back (`for v in iter.rev()`). -/
def forLoopBack {σ : Type} : Nat → EnumSetIter T → σ → (T.Val → σ → Res σ) → Res σ
  | 0, _, _, _ => .diverge
  | fuel + 1, it, s, f => do
    let (r, it) ← next_back it
    match r with
    | none => pure s
    | some v => do
      let s ← f v s
      forLoopBack fuel it s f

/-- Enough `next` calls to exhaust any iterator: one per bit and one for the final `None`. -/
def fuel (T : EnumSetType) : Nat := EnumSetTypeRepr.WIDTH T.Repr + 1

/-- `iter.collect::<Vec<_>>()` -/
def collectVec (it : EnumSetIter T) : Res (List T.Val) :=
  forLoop (fuel T) it [] fun v acc => .ok (acc ++ [v])
/-- `iter.rev().collect::<Vec<_>>()` -/
def collectVecRev (it : EnumSetIter T) : Res (List T.Val) :=
  forLoopBack (fuel T) it [] fun v acc => .ok (acc ++ [v])

end EnumSetIter

namespace EnumSet

/-! ### collection traits (set.rs:843-902).  The argument iterator is its sequence of items. -/

/-- set.rs:843-849 `Extend<T>` -/
def extend (self : EnumSet T) (iter : List T.Val) : Res (EnumSet T) :=
  forEach iter self fun v self => do
    let (_, self) ← insert self v
    pure self
/-- set.rs:851-857 `FromIterator<T>` -/
def from_iter (iter : List T.Val) : Res (EnumSet T) := extend default iter
/-- set.rs:859-865 `Extend<EnumSet<T>>` -/
def extend_sets (self : EnumSet T) (iter : List (EnumSet T)) : Res (EnumSet T) :=
  forEach iter self fun v self => insert_all self v
/-- set.rs:867-873 `FromIterator<EnumSet<T>>` -/
def from_iter_sets (iter : List (EnumSet T)) : Res (EnumSet T) := extend_sets default iter
/-- set.rs:883-892 `Sum`, `Sum<&EnumSet<T>>` -/
def sum_sets (iter : List (EnumSet T)) : Res (EnumSet T) :=
  forEach iter empty fun v a => bitor a (.set v)
/-- set.rs:893-902 `Sum<T>`, `Sum<&T>` -/
def sum (iter : List T.Val) : Res (EnumSet T) :=
  forEach iter empty fun v a => bitor a (.val v)
/-- `set.extend(it)` with `it` an `EnumSetIter` -/
def extend_iter (self : EnumSet T) (it : EnumSetIter T) : Res (EnumSet T) :=
  EnumSetIter.forLoop (EnumSetIter.fuel T) it self fun v self => do
    let (_, self) ← insert self v
    pure self
/-- `it.collect::<EnumSet<T>>()` with `it` an `EnumSetIter` -/
def collect (it : EnumSetIter T) : Res (EnumSet T) := extend_iter default it

/-! ### formatting (set.rs:385-413) -/

end EnumSet

/-- A `fmt::Formatter` writing to some sink with state `σ`: `write_str` changes the state and
reports success. -/
structure Sink (σ : Type) where
  write_str : σ → String → Bool × σ

/-- The `?` operator after a `fmt` call. -/
def Sink.andThen {σ : Type} (r : Bool × σ) (k : σ → Res (Bool × σ)) : Res (Bool × σ) :=
  if r.1 then k r.2 else .ok (false, r.2)

namespace EnumSet

/-- The loop of set.rs:390-396 / 404-410 followed by `fin`.  `vfmt` is the variants' own `fmt`. -/
def fmtLoop {σ : Type} (k : Sink σ) (vfmt : T.Val → σ → Bool × σ)
    (fin : σ → Res (Bool × σ)) : Nat → EnumSetIter T → Bool → σ → Res (Bool × σ)
  | 0, _, _, _ => .diverge
  | fuel + 1, it, is_first, s => do
    let (r, it) ← EnumSetIter.next it
    match r with
    | none => fin s
    | some v =>
      let sep := if !is_first then k.write_str s " | " else (true, s)
      Sink.andThen sep fun s =>
        Sink.andThen (vfmt v s) fun s => fmtLoop k vfmt fin fuel it false s

/-- set.rs:385-400 `Debug`; `true` is `Ok(())`. -/
def fmt_debug {σ : Type} (k : Sink σ) (vfmt : T.Val → σ → Bool × σ) (self : EnumSet T) (s : σ) :
    Res (Bool × σ) :=
  Sink.andThen (k.write_str s "EnumSet(") fun s => do
    let it ← iter self
    fmtLoop k vfmt (fun s => .ok (k.write_str s ")")) (EnumSetIter.fuel T) it true s
/-- set.rs:401-413 `Display` -/
def fmt_display {σ : Type} (k : Sink σ) (vfmt : T.Val → σ → Bool × σ) (self : EnumSet T) (s : σ) :
    Res (Bool × σ) := do
  let it ← iter self
  fmtLoop k vfmt (fun s => .ok (true, s)) (EnumSetIter.fuel T) it true s

end EnumSet

/-! ### operators on the enum (enumset_derive/src/lib.rs:381-427), present unless `no_ops` -/

namespace EnumVal

/-- lib.rs:385-391 `EnumSet::only(self) - other.into()` -/
def sub (self : T.Val) (other : Operand T) : Res (EnumSet T) := do
  let a ← EnumSet.only self
  let o ← other.into
  EnumSet.sub a (.set o)
/-- lib.rs:392-398 -/
def bitand (self : T.Val) (other : Operand T) : Res (EnumSet T) := do
  let a ← EnumSet.only self
  let o ← other.into
  EnumSet.bitand a (.set o)
/-- lib.rs:399-405 -/
def bitor (self : T.Val) (other : Operand T) : Res (EnumSet T) := do
  let a ← EnumSet.only self
  let o ← other.into
  EnumSet.bitor a (.set o)
/-- lib.rs:406-412 -/
def bitxor (self : T.Val) (other : Operand T) : Res (EnumSet T) := do
  let a ← EnumSet.only self
  let o ← other.into
  EnumSet.bitxor a (.set o)
/-- lib.rs:413-419 -/
def not (self : T.Val) : Res (EnumSet T) := do
  let a ← EnumSet.only self
  EnumSet.not a
/-- lib.rs:420-425 `PartialEq<EnumSet<T>>` for the enum -/
def eq_set (self : T.Val) (other : EnumSet T) : Res Bool := do
  let a ← EnumSet.only self
  pure (EnumSet.eq a other)

end EnumVal

end Enumset
