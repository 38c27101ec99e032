import Verif.Spec
/-!
# Specification vocabulary: the storage trait

What `repr/mod.rs:9-90` asks of a storage type: it is a set of bit positions.  Nothing here mentions
enums; the contract is about every value of the storage type, also those with bits that belong to no
variant.
-/
set_option autoImplicit false

namespace Enumset

open EnumSetTypeRepr

variable [Platform]

/-- The positions below `w` that satisfy `p`, in increasing order. -/
def positions (w : Nat) (p : Nat → Bool) : List Nat := (List.range w).filter p

/-- A program using a storage iterator: the answers and the iterator afterwards. -/
def runReprIter {R : Type} [EnumSetTypeRepr R] :
    List IterOp → Iter R → Res (List (IterObs Nat) × Iter R)
  | [], it => .ok ([], it)
  | .next :: ops, it => do
    let (r, it) ← iter_next (R := R) it
    let (obs, it) ← runReprIter ops it
    pure (.item r :: obs, it)
  | .nextBack :: ops, it => do
    let (r, it) ← iter_next_back (R := R) it
    let (obs, it) ← runReprIter ops it
    pure (.item r :: obs, it)
  | .sizeHint :: ops, it => do
    let (l, u) ← iter_size_hint (R := R) it
    let (obs, it) ← runReprIter ops it
    pure (.size l u :: obs, it)

/-- The call returns a storage value with these bits. -/
def Gives {R : Type} (bits : R → Nat → Bool) (r : Res R) (p : Nat → Bool) : Prop :=
  ∃ a, r = .ok a ∧ ∀ i, bits a i = p i

/-- The call returns `Some` storage value with these bits if `c`, else `None`. -/
def GivesIf {R : Type} (bits : R → Nat → Bool) (r : Res (Option R)) (c : Prop) (p : Nat → Bool) :
    Prop :=
  (c → ∃ a, r = .ok (some a) ∧ ∀ i, bits a i = p i) ∧ (¬ c → r = .ok none)

/-- `R` stores sets of positions below `width`; `bits r i` says whether `i` is in `r`. -/
structure StorageContract (R : Type) [EnumSetTypeRepr R] (width : Nat) (bits : R → Nat → Bool) :
    Prop where
  width_eq : WIDTH R = width
  below : ∀ {r : R} {i : Nat}, bits r i = true → i < width
  ext : ∀ {a b : R}, (∀ i, bits a i = bits b i) → a = b
  /-- `PREFERRED_ARRAY_LEN` words are enough, and one less is not -/
  words : width ≤ 64 * PREFERRED_ARRAY_LEN R ∧ 64 * PREFERRED_ARRAY_LEN R < width + 64
  empty : ∀ i, bits (EMPTY : R) i = false
  eq : ∀ {a b : R}, EnumSetTypeRepr.eq a b = true ↔ ∀ i, bits a i = bits b i
  hash : ∀ {a b : R}, EnumSetTypeRepr.hash a = EnumSetTypeRepr.hash b ↔ ∀ i, bits a i = bits b i
  bitand : ∀ a b : R, Gives bits (EnumSetTypeRepr.bitand a b) fun i => bits a i && bits b i
  bitor : ∀ a b : R, Gives bits (EnumSetTypeRepr.bitor a b) fun i => bits a i || bits b i
  bitxor : ∀ a b : R, Gives bits (EnumSetTypeRepr.bitxor a b) fun i => bits a i != bits b i
  not : ∀ a : R, Gives bits (EnumSetTypeRepr.not a) fun i => decide (i < width) && !bits a i
  and_not : ∀ a b : R, Gives bits (EnumSetTypeRepr.and_not a b) fun i => bits a i && !bits b i
  is_empty : ∀ a : R, EnumSetTypeRepr.is_empty a = .ok (positions width (bits a)).isEmpty
  add_bit : ∀ (a : R) (b : Nat), b < width →
    Gives bits (EnumSetTypeRepr.add_bit a b) fun i => bits a i || decide (i = b)
  remove_bit : ∀ (a : R) (b : Nat), b < width →
    Gives bits (EnumSetTypeRepr.remove_bit a b) fun i => bits a i && !decide (i = b)
  has_bit : ∀ (a : R) (b : Nat), b < width → EnumSetTypeRepr.has_bit a b = .ok (bits a b)
  count_ones : ∀ a : R, EnumSetTypeRepr.count_ones a = .ok (positions width (bits a)).length
  trailing_zeros : ∀ a : R,
    EnumSetTypeRepr.trailing_zeros a = .ok ((positions width (bits a)).head?.getD width)
  leading_zeros : ∀ a : R, EnumSetTypeRepr.leading_zeros a =
    .ok (((positions width (bits a)).getLast?.map (width - 1 - ·)).getD width)
  /-- under every sequence of calls, the iterator is the queue of the positions -/
  iter : ∀ (a : R) (ops : List IterOp), ∃ it it', EnumSetTypeRepr.iter a = .ok it ∧
    runReprIter ops it = .ok ((runDeque ops (positions width (bits a))).1, it')
  from_num : ∀ (n : NumTy) (v : BitVec n.bits),
    Gives bits (EnumSetTypeRepr.from_num n v) fun i => decide (i < width) && v.getLsbD i
  from_num_opt : ∀ (n : NumTy) (v : BitVec n.bits),
    GivesIf bits (EnumSetTypeRepr.from_num_opt n v) (∀ i, v.getLsbD i = true → i < width) v.getLsbD
  to_num : ∀ (n : NumTy) (a : R), Gives BitVec.getLsbD (EnumSetTypeRepr.to_num n a)
    fun i => decide (i < n.bits) && bits a i
  to_num_opt : ∀ (n : NumTy) (a : R), GivesIf BitVec.getLsbD (EnumSetTypeRepr.to_num_opt n a)
    (∀ i, bits a i = true → i < n.bits) (bits a)
  to_array : ∀ (O : Nat) (a : R), Gives (fun v : Vector U64 O => wbit v.toList)
    (EnumSetTypeRepr.to_u64_array O a) fun i => decide (i < 64 * O) && bits a i
  to_array_opt : ∀ (O : Nat) (a : R), GivesIf (fun v : Vector U64 O => wbit v.toList)
    (EnumSetTypeRepr.to_u64_array_opt O a) (∀ i, bits a i = true → i < 64 * O) (bits a)
  from_array : ∀ (O : Nat) (v : Vector U64 O), Gives bits (EnumSetTypeRepr.from_u64_array O v)
    fun i => decide (i < width) && wbit v.toList i
  from_array_opt : ∀ (O : Nat) (v : Vector U64 O), GivesIf bits
    (EnumSetTypeRepr.from_u64_array_opt O v) (∀ i, wbit v.toList i = true → i < width) (wbit v.toList)
  /-- the length of the slice is kept -/
  to_slice : ∀ (a : R) (out : List U64), ∃ x, EnumSetTypeRepr.to_u64_slice a out = .ok x ∧
    x.length = out.length ∧ ∀ i, wbit x i = (decide (i < 64 * out.length) && bits a i)
  /-- nothing is written on failure -/
  to_slice_opt : ∀ (a : R) (out : List U64),
    ((∀ i, bits a i = true → i < 64 * out.length) →
      ∃ x, EnumSetTypeRepr.to_u64_slice_opt a out = .ok (some (), x) ∧ x.length = out.length ∧
        ∀ i, wbit x i = bits a i) ∧
    (¬ (∀ i, bits a i = true → i < 64 * out.length) →
      EnumSetTypeRepr.to_u64_slice_opt a out = .ok (none, out))
  from_slice : ∀ v : List U64, Gives bits (EnumSetTypeRepr.from_u64_slice v)
    fun i => decide (i < width) && wbit v i
  from_slice_opt : ∀ v : List U64, GivesIf bits (EnumSetTypeRepr.from_u64_slice_opt v)
    (∀ i, wbit v i = true → i < width) (wbit v)

/-! ### sets with arbitrary storage -/

variable {T : EnumSetType}

/-- The one bits of the set's storage are those at the positions satisfying `p`, as every export to
an array shows. -/
def HasBits (s : EnumSet T) (p : Nat → Bool) : Prop :=
  ∀ O : Nat, ∃ x : Vector U64 O, s.as_array_truncated O = .ok x ∧
    ∀ i, wbit x.toList i = (decide (i < 64 * O) && p i)

/-- The call returns a set with these bits. -/
def GivesBits (r : Res (EnumSet T)) (p : Nat → Bool) : Prop := ∃ s, r = .ok s ∧ HasBits s p

/-- Whether `i` is the discriminant of a variant. -/
def isDiscr (T : EnumSetType) (i : Nat) : Bool := (List.finRange T.n).any fun v => T.discr v == i

/-- The same answer about other elements. -/
def IterObs.map {α β : Type} (f : α → β) : IterObs α → IterObs β
  | .item o => .item (o.map f)
  | .size l u => .size l u

end Enumset
