import Verif.Derive
import Verif.SpecWords
import Verif.IterStd
/-!
# Specification vocabulary

Small definitions the property theorems are stated with.  None of them mentions how sets are stored.
-/
set_option autoImplicit false

namespace Enumset

/-! ### which enums the documentation says can be derived -/

/-- The integer types that may be named in `repr` and `serialize_repr`, with their widths. -/
def intWidth (s : String) : Option Nat :=
  if s = "u8" then some 8
  else if s = "u16" then some 16
  else if s = "u32" then some 32
  else if s = "u64" then some 64
  else if s = "u128" then some 128
  else none

/-- What `#[derive(EnumSetType)]` is supposed to accept. -/
structure Acceptable (inp : DeriveInput) : Prop where
  no_generics : inp.hasGenerics = false
  is_enum : inp.isEnum = true
  repr_attrs : ∀ r ∈ inp.reprAttrs, ∃ s ∈ ["C", "Rust", "u8", "u16", "u32", "u64", "u128", "usize",
    "i8", "i16", "i32", "i64", "i128", "isize"], r = some s
  repr_known : ∀ s, inp.attrs.repr = some s → s = "array" ∨ ∃ w, intWidth s = some w
  serialize_repr_known : ∀ s, inp.attrs.serialize_repr = some s →
    s = "list" ∨ s = "map" ∨ s = "array" ∨ ∃ w, intWidth s = some w
  fieldless : ∀ v ∈ inp.variants, v.unit = true
  distinct_names : (inp.variants.map (·.ident)).Nodup
  literal : ∀ v ∈ inp.variants, v.discriminant = none ∨ ∃ n, v.discriminant = some (.lit n)
  distinct_discriminants : (rustcDiscriminants inp.variants).Nodup
  limit : ∀ d ∈ rustcDiscriminants inp.variants, d ≤ 0xFFFFFFBF
  repr_wide : ∀ s w, inp.attrs.repr = some s → intWidth s = some w →
    ∀ d ∈ rustcDiscriminants inp.variants, d < w
  serialize_repr_wide : inp.attrs.serialize_as_list = false → inp.attrs.serialize_as_map = false →
    ∀ s w, inp.attrs.serialize_repr = some s → intWidth s = some w →
    ∀ d ∈ rustcDiscriminants inp.variants, d < w

/-- The largest discriminant (0 if there is none). -/
def maxDiscr (vs : List Variant) : Nat := ((rustcDiscriminants vs).foldl max 0).toNat

/-- How the bits of a set are kept: in an unsigned integer, or in an array of 64-bit words. -/
inductive Storage where
  | int (width : Nat)
  | array (words : Nat)
  deriving DecidableEq, Repr

/-- The number of bits of a storage. -/
def Storage.bits : Storage → Nat
  | .int w => w
  | .array n => 64 * n

/-- The number of 64-bit words needed for a storage. -/
def Storage.words : Storage → Nat
  | .int w => (w + 63) / 64
  | .array n => n

/-- The documented choice of storage: what `repr` names, else the smallest of `u8`, `u16`, `u32`,
`u64` with room for all discriminants, else the shortest array. -/
def storageOf (inp : DeriveInput) : Storage :=
  let array := Storage.array (maxDiscr inp.variants / 64 + 1)
  match inp.attrs.repr with
  | some s => match intWidth s with
    | some w => .int w
    | none => array
  | none => match [8, 16, 32, 64].find? (fun w => maxDiscr inp.variants < w) with
    | some w => .int w
    | none => array

/-- How a set is serialized. -/
inductive Format where
  | int (width : Nat)
  | list
  | map
  | array
  deriving DecidableEq, Repr

/-- The documented choice of serialization: `serialize_as_list`, `serialize_as_map`, what
`serialize_repr` names, else the smallest of `u8`, `u16`, `u32`, `u64`, `u128` with room for all
discriminants, else an array. -/
def formatOf (inp : DeriveInput) : Format :=
  if inp.attrs.serialize_as_list then .list
  else if inp.attrs.serialize_as_map then .map
  else match inp.attrs.serialize_repr with
    | some s => match intWidth s with
      | some w => .int w
      | none => if s = "list" then .list else if s = "map" then .map else .array
    | none => match [8, 16, 32, 64, 128].find? (fun w => maxDiscr inp.variants < w) with
      | some w => .int w
      | none => .array

/-! ### sets and their members -/

variable [Platform] {T : EnumSetType}

/-- Every bit position (and the number of bits) is representable in `usize`.  Always true with a
`usize` of 32 or 64 bits (`C44_fits`). -/
def Fits (T : EnumSetType) : Prop := T.BIT_WIDTH < 2 ^ usizeBits

/-- `s` contains exactly the variants satisfying `A`, as reported by `contains` (which returns for
every variant, without panicking). -/
def Members (s : EnumSet T) (A : T.Val → Bool) : Prop := ∀ v, s.contains v = .ok (A v)

/-- The operand `o` of an operator (a variant or a set) stands for the variants satisfying `B`. -/
def Denotes : Operand T → (T.Val → Bool) → Prop
  | .val v, B => ∀ u, B u = decide (u = v)
  | .set s, B => Members s B

/-- The call returns (no panic, no undefined behaviour, no endless loop). -/
def Returns {α : Type} (r : Res α) : Prop := ∃ a, r = .ok a

/-- Every bit set in `p` is the discriminant of a variant. -/
def OnlyVariants (T : EnumSetType) (p : Nat → Bool) : Prop :=
  ∀ i, p i = true → ∃ v : T.Val, T.discr v = i

/-- `i` is the discriminant of an element of `A`. -/
def DiscrIn (A : T.Val → Bool) (i : Nat) : Prop := ∃ v, T.discr v = i ∧ A v = true

/-- All discriminants of elements of `A` are below `k`. -/
def Below (A : T.Val → Bool) (k : Nat) : Prop := ∀ v, A v = true → T.discr v < k

/-- The elements of `A` in increasing order of discriminant. -/
def sortedMembers {n : Nat} (discr : Fin n → Nat) (A : Fin n → Bool) : List (Fin n) :=
  ((List.finRange n).filter A).mergeSort fun a b => decide (discr a ≤ discr b)

/-- The number of elements of `A`. -/
def card {n : Nat} (A : Fin n → Bool) : Nat := (List.finRange n).countP A

/-! ### iterators -/

/-- What a program can do with an iterator. -/
inductive IterOp where
  | next
  | nextBack
  | sizeHint
  deriving DecidableEq, Repr

/-- What it gets back. -/
inductive IterObs (α : Type) where
  | item (o : Option α)
  | size (lower : Nat) (upper : Option Nat)
  deriving DecidableEq, Repr

/-- A program using an iterator: the answers and the iterator afterwards. -/
def runIter : List IterOp → EnumSetIter T → Res (List (IterObs T.Val) × EnumSetIter T)
  | [], it => .ok ([], it)
  | .next :: ops, it => do
    let (r, it) ← it.next
    let (obs, it) ← runIter ops it
    pure (.item r :: obs, it)
  | .nextBack :: ops, it => do
    let (r, it) ← it.next_back
    let (obs, it) ← runIter ops it
    pure (.item r :: obs, it)
  | .sizeHint :: ops, it => do
    let (l, u) ← it.size_hint
    let (obs, it) ← runIter ops it
    pure (.size l u :: obs, it)

/-- The same program using a list as double-ended queue: `next` takes the first, `nextBack` the last
element. -/
def runDeque {α : Type} : List IterOp → List α → List (IterObs α) × List α
  | [], L => ([], L)
  | .next :: ops, L => let (obs, L') := runDeque ops L.tail; (.item L.head? :: obs, L')
  | .nextBack :: ops, L => let (obs, L') := runDeque ops L.dropLast; (.item L.getLast? :: obs, L')
  | .sizeHint :: ops, L => let (obs, L') := runDeque ops L; (.size L.length (some L.length) :: obs, L')

/-- The elements among the answers. -/
def IterObs.items {α : Type} : List (IterObs α) → List α
  | [] => []
  | .item (some v) :: obs => v :: items obs
  | _ :: obs => items obs

/-- The answer of an exhausted iterator. -/
def IterObs.Exhausted {α : Type} : IterObs α → Prop
  | .item o => o = none
  | .size l u => l = 0 ∧ u = some 0

/-! ### formatting -/

/-- Run write operations one after the other, up to and including the first that fails; the result
says whether all succeeded. -/
def writeAll {σ : Type} : List (σ → Bool × σ) → σ → Bool × σ
  | [], st => (true, st)
  | w :: ws, st => if (w st).1 then writeAll ws (w st).2 else (false, (w st).2)

/-- A string as sink: writing appends and cannot fail. -/
def stringSink : Sink String := ⟨fun st t => (true, st ++ t)⟩

/-! ### comparing results -/

/-- Both computations return, and what they return compares equal with `==`. -/
def EqRes (r₁ r₂ : Res (EnumSet T)) : Prop :=
  (do let x ← r₁; let y ← r₂; pure (x.eq y)) = .ok true

end Enumset
