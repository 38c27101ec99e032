import Verif.Macros
import Verif.Serde
import Verif.IterStd
import Verif.Props.Examples
/-!
# The repository's own tests, run on the model

`/repo/enumset/tests/*.rs` and `/repo/enumset_test_trybuild/tests` transcribed and evaluated by the
kernel.  These are tests of the *model* (do the definitions compute what the code is known to compute?),
on a 64-bit target with overflow checks.  They are not proofs of any property and nothing depends on
them.

A Rust test is a `Res Unit`; a failed assertion is a panic.
-/
set_option autoImplicit false

namespace Enumset.RepoTests

open scoped Ex
open ConstMacro

/-- `assert!` -/
def check (b : Bool) : Res Unit := if b then .ok () else .panic (.explicit "assertion failed")

/-- the test passes -/
def passes (t : Res Unit) : Bool := match t with
  | .ok _ => true
  | _ => false
/-- `#[should_panic]` -/
def panics {α : Type} (t : Res α) : Bool := match t with
  | .panic _ => true
  | _ => false

/-- `for x in l { f(x) }` -/
def each {α : Type} : List α → (α → Res Unit) → Res Unit
  | [], _ => .ok ()
  | a :: l, f => do f a; each l f

section tests

variable {T : EnumSetType}

/-- `v0 | v1 | v2 …` with the operators of the enum and of the set (at least two operands) -/
def ors : List T.Val → Res (EnumSet T)
  | [] => .ok EnumSet.empty
  | [v] => EnumSet.only v
  | v :: w :: rest => do
    let s ← EnumVal.bitor v (.val w)
    forEach rest s fun x s => EnumSet.bitor s (.val x)

/-- `assert_eq!(s, v0 | v1 | …)` -/
def isOr (s : EnumSet T) (l : List T.Val) : Res Unit := do
  let t ← ors l
  check (EnumSet.eq s t)

/-- `assert_eq!(s, v)` with a variant `v` -/
def isVal (s : EnumSet T) (v : T.Val) : Res Unit := do
  let b ← EnumSet.eq_val s v
  check b

/-- `enum_set!(v0 | v1 …)` -/
def const (l : List T.Val) : Res (EnumSet T) := enum_set (l.map .val)

/-- `assert_eq!(a, b)` for values that are compared with `==` on variants -/
def sameVals (a b : List T.Val) : Res Unit := check (decide (a = b))

variable (A B C D E F G H : T.Val)

/-- tests/ops.rs:141-170 `const_set` -/
def const_set : Res Unit := do
  let CONST_SET ← enum_set [.val A, .val C]
  let CONST_1_SET ← enum_set [.val A]
  let CHAIN ← enum_set [.set CONST_SET, .val D]
  let CHAIN_2 ← enum_set [.val E, .set CONST_SET]
  let CHAIN_3 ← enum_set [.set CHAIN, .set CHAIN_2]
  let UNION ← enum_set_union (.set CHAIN) [.set CHAIN_2]
  let INTERSECTION ← enum_set_intersection (.set CHAIN) [.set CHAIN_2]
  let DIFFERENCE ← enum_set_difference (.set UNION) [.set CONST_SET]
  let COMPLEMENT ← enum_set_complement (.set CONST_SET)
  let SYMM ← enum_set_symmetric_difference (.set CHAIN) [.set CHAIN_2]
  isOr CONST_SET [A, C]
  isVal CONST_1_SET A
  isOr CHAIN [A, C, D]
  isOr CHAIN_2 [A, C, E]
  isOr CHAIN_3 [A, C, D, E]
  isOr UNION [A, C, D, E]
  isOr INTERSECTION [A, C]
  isOr DIFFERENCE [D, E]
  let ac ← ors [A, C]
  let nac ← EnumSet.not ac
  check (EnumSet.eq COMPLEMENT nac)
  isOr SYMM [D, E]
  let e ← EnumSet.is_empty (EnumSet.empty (T := T))
  check e
  let l ← EnumSet.len (EnumSet.all (T := T))
  check (l == EnumSet.variant_count T)

/-- tests/ops.rs:173-190 `basic_add_remove` -/
def basic_add_remove : Res Unit := do
  let (_, s) ← EnumSet.insert EnumSet.new A
  let (_, s) ← EnumSet.insert s B
  let (_, s) ← EnumSet.insert s C
  isOr s [A, B, C]
  let (_, s) ← EnumSet.remove s B
  isOr s [A, C]
  let (_, s) ← EnumSet.insert s D
  isOr s [A, C, D]
  let o ← ors [F, E, G]
  let s ← EnumSet.insert_all s o
  isOr s [A, C, D, F, E, G]
  let o ← ors [A, D, G]
  let s ← EnumSet.remove_all s o
  isOr s [C, F, E]
  let e ← EnumSet.is_empty s
  check (!e)
  let e ← EnumSet.is_empty (EnumSet.clear s)
  check e

/-- tests/ops.rs:193-209 `already_present_element`, `empty_is_empty`, `all_len` -/
def already_present_element : Res Unit := do
  let (b, s) ← EnumSet.insert EnumSet.new A
  check b
  let (b, s) ← EnumSet.insert s A
  check (!b)
  let (_, s) ← EnumSet.remove s A
  let (b, _) ← EnumSet.insert s A
  check b
  let l ← EnumSet.len (EnumSet.empty (T := T))
  check (l == 0)
  let l ← EnumSet.len (EnumSet.all (T := T))
  check (l == EnumSet.variant_count T)

/-- the loops of tests/ops.rs:212-248: insert each item, which must be new -/
def insertNew (l : List T.Val) (s : EnumSet T) : Res (EnumSet T) :=
  forEach l s fun v s => do
    let b ← EnumSet.contains s v
    check (!b)
    let (_, s) ← EnumSet.insert s v
    pure s

/-- tests/ops.rs:212-255 `iter_test`, `empty_iter_test` -/
def iter_test : Res Unit := do
  let (_, s) ← EnumSet.insert EnumSet.new A
  let (_, s) ← EnumSet.insert s B
  let ce ← ors [C, E]
  -- `set.extend($e::C | $e::E)`: an `EnumSet` as an iterator of variants
  let it ← EnumSet.iter ce
  let s ← EnumSet.extend_iter s it
  let it ← EnumSet.iter s
  let vec ← EnumSetIter.collectVec it
  let s2 ← insertNew vec EnumSet.new
  check (EnumSet.eq s s2)
  let s3 ← EnumSetIter.forLoop (EnumSetIter.fuel T) it EnumSet.new fun v s => insertNew [v] s
  check (EnumSet.eq s s3)
  let onlys ← vec.mapM EnumSet.only
  let s4 ← EnumSet.from_iter_sets onlys
  check (EnumSet.eq s s4)
  let s5 ← EnumSet.collect it
  check (EnumSet.eq s s5)
  let it ← EnumSet.iter (EnumSet.new (T := T))
  EnumSetIter.forLoop (EnumSetIter.fuel T) it () fun _ _ => .panic (.explicit "should not happen")

/-- tests/ops.rs:258-270 `iter_ordering_test` -/
def iter_ordering_test : Res Unit := do
  let a ← ors [A, B, E]
  let it ← EnumSet.iter a
  let v ← EnumSetIter.collectVec it
  sameVals v [A, B, E]
  let v ← EnumSetIter.collectVecRev it
  sameVals v [E, B, A]
  let b ← ors [B, C, D, G]
  let it ← EnumSet.iter b
  let v ← EnumSetIter.collectVec it
  sameVals v [B, C, D, G]
  let v ← EnumSetIter.collectVecRev it
  sameVals v [G, D, C, B]

/-- tests/ops.rs:272-297 one direction of `check_iter_size_hint` -/
def sizeHintLoop (back : Bool) : Nat → EnumSetIter T → Res Unit
  | 0, it => do
    let h ← EnumSetIter.size_hint it
    check (decide (h = (0, some 0)))
    let l ← EnumSetIter.len it
    check (l == 0)
  | k + 1, it => do
    let h ← EnumSetIter.size_hint it
    check (decide (h = (k + 1, some (k + 1))))
    let l ← EnumSetIter.len it
    check (l == k + 1)
    let (r, it) ← if back then EnumSetIter.next_back it else EnumSetIter.next it
    check r.isSome
    sizeHintLoop back k it

/-- tests/ops.rs:300-308 -/
def test_iter_size_hint : Res Unit := do
  let ace ← EnumSet.from_iter [A, C, E]
  each [EnumSet.new, EnumSet.all, ace] fun s => do
    let count ← EnumSet.len s
    let it ← EnumSet.iter s
    sizeHintLoop false count it
    sizeHintLoop true count it

/-- tests/ops.rs:311-324 `iter_ops_test`, `basic_ops_test` -/
def basic_ops_test : Res Unit := do
  let s ← ors [A, B, C, E]
  let it ← EnumSet.iter s
  let v ← EnumSetIter.collectVec it
  let s2 ← EnumSet.from_iter (v.filter fun v => decide (v ≠ B))
  isOr s2 [A, C, E]
  let ab ← ors [A, B]
  let bc ← ors [B, C]
  let x ← EnumSet.bitor ab (.set bc)
  isOr x [A, B, C]
  let x ← EnumSet.bitand ab (.set bc)
  isVal x B
  let x ← EnumSet.bitxor ab (.set bc)
  isOr x [A, C]
  let x ← EnumSet.sub ab (.set bc)
  isVal x A
  let na ← EnumVal.not A
  let x ← EnumVal.bitor A (.set na)
  check (EnumSet.eq x EnumSet.all)

/-- tests/ops.rs:327-338 `mutable_ops_test` -/
def mutable_ops_test : Res Unit := do
  let s ← ors [A, B]
  isOr s [A, B]
  let o ← ors [C, D]
  let s ← EnumSet.bitor_assign s (.set o)
  isOr s [A, B, C, D]
  let s ← EnumSet.sub_assign s (.val C)
  isOr s [A, B, D]
  let o ← ors [B, E]
  let s ← EnumSet.bitxor_assign s (.set o)
  isOr s [A, D, E]
  let o ← ors [A, E, F]
  let s ← EnumSet.bitand_assign s (.set o)
  isOr s [A, E]

/-- tests/ops.rs:341-346 `basic_set_status` -/
def basic_set_status : Res Unit := do
  let abc ← ors [A, B, C]
  let defs ← ors [D, E, F]
  let b ← EnumSet.is_disjoint abc defs
  check b
  let abcd ← ors [A, B, C, D]
  let b ← EnumSet.is_disjoint abcd defs
  check (!b)
  let ab ← ors [A, B]
  let b ← EnumSet.is_subset ab abc
  check b
  let ad ← ors [A, D]
  let b ← EnumSet.is_subset ad abc
  check (!b)

/-- a `String` as a sink -/
def stringSink : Sink String where
  write_str s t := (true, s ++ t)

/-- tests/ops.rs:349-351 `debug_impl`; the names of the variants are given -/
def debug_impl (name : T.Val → String) : Res Unit := do
  let s ← ors [A, B, D]
  let (b, t) ← EnumSet.fmt_debug stringSink (fun v s => (true, s ++ name v)) s ""
  check b
  check (t == "EnumSet(A | B | D)")

/-- tests/ops.rs:354-371 `to_from_bits` -/
def to_from_bits : Res Unit := do
  let value ← ors [A, C, D, F, E, G]
  each [NumTy.u128, .u64, .u32, .u16, .u8] fun n =>
    if EnumSet.bit_width T < n.bits then do
      let x ← EnumSet.as_num n value
      let y ← EnumSet.from_num n x
      check (EnumSet.eq y value)
    else .ok ()

/-- tests/ops.rs:375-380 `too_many_bits` -/
def too_many_bits (T : EnumSetType) : Res Unit :=
  if EnumSet.variant_count T = 128 then .panic (.explicit "(test skipped)")
  else do
    let _ ← EnumSet.from_num (T := T) .u128 (BitVec.allOnes 128)

/-- tests/ops.rs:391-433 `set_test`: the five sets have pairwise different hashes and are pairwise
different in the order, as `HashSet` and `BTreeSet` need -/
def set_test : Res Unit := do
  let a ← const [A, B, C]
  let b ← const [A, B, D]
  let c ← const [A, B, E]
  let d ← const [A, B, F]
  let e ← const [A, B, G]
  let l := [a, b, c, d, e].zipIdx
  each l fun x => each l fun y => do
    check (decide (EnumSet.hash x.1 = EnumSet.hash y.1) == decide (x.2 = y.2))
    check (decide (EnumSet.cmp x.1 y.1 = .eq) == decide (x.2 = y.2))
    check (EnumSet.eq x.1 y.1 == decide (x.2 = y.2))

/-- tests/ops.rs:436-450 `sum_test` -/
def sum_test : Res Unit := do
  let ab ← ors [A, B]
  let de ← ors [D, E]
  let gh ← ors [G, H]
  let s ← EnumSet.sum_sets [ab, de, gh]
  isOr s [A, B, D, E, G, H]
  let s ← EnumSet.sum [A, B, D, E, G, H]
  isOr s [A, B, D, E, G, H]

/-- `test_enum!`; `mem_size` is in bytes -/
def test_enum (mem_size : Nat) : Bool :=
  passes (const_set A C D E) && passes (basic_add_remove A B C D E F G) &&
  passes (already_present_element A) && passes (iter_test A B C E) &&
  passes (iter_ordering_test A B C D E G) && passes (test_iter_size_hint A C E) &&
  passes (basic_ops_test A B C E) && passes (mutable_ops_test A B C D E F) &&
  passes (basic_set_status A B C D E F) &&
  passes (debug_impl A B D fun v => if v = A then "A" else if v = B then "B" else "D") &&
  passes (to_from_bits A C D E F G) && panics (too_many_bits T) &&
  passes (set_test A B C D E F G) && passes (sum_test A B D E G H) &&
  EnumSetTypeRepr.WIDTH T.Repr == 8 * mem_size

/-- `test_variants!` (tests/ops.rs:104-117) for all variants -/
def test_variants (T : EnumSetType) : Bool :=
  passes (each (List.finRange T.n) fun v => do
    let b ← EnumSet.contains (T := T) EnumSet.empty v
    check (!b)
    let b ← EnumSet.contains (T := T) EnumSet.all v
    check b)

end tests

/-! ### the enums -/

/-- variants without discriminants -/
def plain (l : List String) : List Variant := l.map fun s => { ident := s }
/-- variants with discriminants -/
def expl (l : List (String × Nat)) : List Variant :=
  l.map fun x => { ident := x.1, discriminant := some (.lit x.2) }

def letters : List String := ["A", "B", "C", "D", "E", "F", "G", "H", "I", "J", "K", "L", "M", "N",
  "O", "P", "Q", "R", "S", "T", "U", "V", "W", "X", "Y", "Z"]
def eight : List String := ["A", "B", "C", "D", "E", "F", "G", "H"]

def SmallEnum : DeriveInput := { variants := plain letters }
def SmallEnumExplicitDerive : DeriveInput :=
  { variants := plain letters, attrs := { no_super_impls := true } }
def LargeEnum : DeriveInput :=
  { variants := plain (((List.range 64).map fun i => s!"_{i / 8}{i % 8}") ++ letters)
    attrs := { repr := some "u128" } }
def Enum8 : DeriveInput := { variants := plain eight }
def Enum128 : DeriveInput :=
  { variants := plain (eight ++ (List.range 120).map fun i => s!"_{i + 8}") }
def SparseEnum : DeriveInput :=
  { variants := expl (eight.zip [0xA, 20, 30, 40, 50, 60, 70, 80]) }
def ReprEnum (r : String) : DeriveInput := { variants := plain letters, reprAttrs := [some r] }
def GiantEnum : DeriveInput :=
  { variants := expl (eight.zip [100, 200, 300, 400, 500, 600, 700, 800]) }
def SmallArrayEnum : DeriveInput := { variants := plain eight, attrs := { repr := some "array" } }
def MarginalArrayEnumS2 : DeriveInput :=
  { variants := plain eight ++ expl [("Marginal", 64)], attrs := { repr := some "array" } }
def MarginalArrayEnumS2H : DeriveInput :=
  { variants := expl [("A", 64)] ++ plain (eight.drop 1) ++ expl [("Marginal", 127)]
    attrs := { repr := some "array" } }
def MarginalArrayEnumS3 : DeriveInput :=
  { variants := plain eight ++ expl [("Marginal", 128)], attrs := { repr := some "array" } }
def EmptyEnum : DeriveInput := { variants := [] }
def Enum1 : DeriveInput := { variants := plain ["A"] }

/-- Derive and run `f`. -/
def withEnum (inp : DeriveInput) (f : EnumSetType → Bool) : Bool :=
  match derive inp with
  | .ok T => f T
  | .error _ => false

/-- `test_enum!` with the eight variants from number `k` on -/
def run_test_enum (inp : DeriveInput) (k mem_size : Nat) : Bool :=
  withEnum inp fun T =>
    if h : k + 8 ≤ T.n then
      test_enum (T := T) ⟨k, by omega⟩ ⟨k + 1, by omega⟩ ⟨k + 2, by omega⟩ ⟨k + 3, by omega⟩
        ⟨k + 4, by omega⟩ ⟨k + 5, by omega⟩ ⟨k + 6, by omega⟩ ⟨k + 7, by omega⟩ mem_size
    else false


/-! ### tests/ops.rs:104-136, 462-476 -/

example : withEnum SmallEnum test_variants = true := by decide +kernel
example : withEnum SmallEnumExplicitDerive test_variants = true := by decide +kernel
example : withEnum LargeEnum test_variants = true := by decide +kernel
example : withEnum SparseEnum test_variants = true := by decide +kernel
-- these are not in the file, but cost nothing
example : withEnum EmptyEnum test_variants = true := by decide +kernel
example : withEnum Enum1 test_variants = true := by decide +kernel
example : withEnum GiantEnum test_variants = true := by decide +kernel

example : run_test_enum SmallEnum 0 4 = true := by decide +kernel
example : run_test_enum SmallEnumExplicitDerive 0 4 = true := by decide +kernel
example : run_test_enum LargeEnum 64 16 = true := by decide +kernel
example : run_test_enum Enum8 0 1 = true := by decide +kernel
example : run_test_enum Enum128 0 16 = true := by decide +kernel
example : run_test_enum SparseEnum 0 16 = true := by decide +kernel
example : run_test_enum (ReprEnum "u32") 0 4 = true := by decide +kernel
example : run_test_enum (ReprEnum "u64") 0 4 = true := by decide +kernel
example : run_test_enum (ReprEnum "isize") 0 4 = true := by decide +kernel
example : run_test_enum (ReprEnum "C") 0 4 = true := by decide +kernel
example : run_test_enum GiantEnum 0 104 = true := by decide +kernel
example : run_test_enum SmallArrayEnum 0 8 = true := by decide +kernel
example : run_test_enum MarginalArrayEnumS2 0 16 = true := by decide +kernel
example : run_test_enum MarginalArrayEnumS2H 0 16 = true := by decide +kernel
example : run_test_enum MarginalArrayEnumS3 0 24 = true := by decide +kernel

-- the tests do fail when something is wrong
example : run_test_enum SmallEnum 0 8 = false := by decide +kernel
example : run_test_enum Enum1 0 1 = false := by decide +kernel

/-! ### tests/ops.rs:478-550 `bits_tests!` -/

def ThresholdEnum : DeriveInput :=
  { variants := expl [("A", 1)] ++ plain ["B", "C", "D"] ++
      expl [("U8", 0), ("U16", 8), ("U32", 16), ("U64", 32), ("U128", 64)] }

section bits
variable {T : EnumSetType}

/-- `to_from_basic` -/
def to_from_basic (n : NumTy) (A B C D threshold : T.Val) : Res Unit :=
  each [[threshold, B, C, D], [threshold, A, D], [threshold, B, C]] fun l => do
    let mask ← ors l
    let x ← EnumSet.as_num n mask
    let m ← EnumSet.from_num n x
    check (EnumSet.eq mask m)
    let y ← EnumSet.as_num_truncated n mask
    check (decide (y = x))
    let z ← EnumSet.try_as_num n mask
    check (decide (some x = z))

/-- `try_from_invalid` -/
def try_from_invalid (T : EnumSetType) (n : NumTy) : Res Unit := do
  let r ← EnumSet.try_from_num (T := T) n (BitVec.ofNat n.bits 0xFF)
  check r.isNone

/-- `try_to_overflow`, the second half of `truncated_overflow` -/
def try_to_overflow (n : NumTy) (A big : T.Val) : Res Unit := do
  let s ← EnumSet.only big
  let r ← EnumSet.try_as_num n s
  check r.isNone
  let s ← EnumVal.bitor big (.val A)
  let x ← EnumSet.as_num_truncated n s
  check (decide (x = BitVec.ofNat n.bits 2))

/-- the first half of `truncated_overflow` -/
def truncated_overflow (n : NumTy) (A B C D : T.Val) : Res Unit := do
  let s ← EnumSet.from_num_truncated (T := T) n (BitVec.ofNat n.bits 0xFE)
  isOr s [A, B, C, D]

/-- `bits_tests!`; the threshold variant and the ones that are too big by number -/
def bits_tests (n : NumTy) (threshold : Nat) (too_big : List Nat) : Bool :=
  withEnum ThresholdEnum fun T =>
    if h : 9 ≤ T.n then
      let v : Nat → T.Val := fun i => ⟨i % 9, by omega⟩
      passes (to_from_basic n (v 0) (v 1) (v 2) (v 3) (v threshold)) &&
      panics (EnumSet.from_num (T := T) n (BitVec.ofNat n.bits 0x80)) &&
      passes (try_from_invalid T n) &&
      passes (each too_big fun b => try_to_overflow n (v 0) (v b)) &&
      passes (truncated_overflow n (v 0) (v 1) (v 2) (v 3))
    else false

end bits

example : bits_tests .u8 4 [5] = true := by decide +kernel
example : bits_tests .u16 5 [6] = true := by decide +kernel
example : bits_tests .u32 6 [7] = true := by decide +kernel
example : bits_tests .u64 7 [8] = true := by decide +kernel
example : bits_tests .u128 8 [] = true := by decide +kernel
example : bits_tests .usize 6 [8] = true := by decide +kernel
-- `U64 = 32` is not too big for a 64-bit `usize`
example : bits_tests .usize 6 [7] = false := by decide +kernel

/-- tests/ops.rs:558-561 `test_display_impl` -/
def test_display_impl : Bool :=
  withEnum Enum8 fun T =>
    if h : 8 ≤ T.n then passes do
      let s ← ors (T := T) [⟨0, by omega⟩, ⟨3, by omega⟩, ⟨7, by omega⟩]
      let (b, t) ← EnumSet.fmt_display stringSink (fun v s => (true, s ++ eight.getD v.val "")) s ""
      check b
      check (t == "A | D | H")
    else false
example : test_display_impl = true := by decide +kernel

/-! ### tests/conversions.rs -/

section conversions
variable {T : EnumSetType} (A B C E F G : T.Val)

/-- a list of numbers as a slice of `u64` -/
def words (l : List Nat) : List U64 := l.map (BitVec.ofNat 64)

/-- tests/conversions.rs:73-88 `to_integer` -/
def to_integer : Res Unit := do
  let s ← ors [A, B, C]
  each [NumTy.u8, .u16, .u32, .u64, .u128, .usize] fun n => do
    let x ← EnumSet.as_num n s
    check (decide (x = BitVec.ofNat n.bits 7))

/-- the type and the bit that the tests set in addition to `7` -/
def extraBit : List (NumTy × Nat) :=
  [(.u8, 7), (.u16, 15), (.u32, 31), (.usize, 31), (.u64, 63), (.u128, 127)]

/-- tests/conversions.rs:90-127 `try_from_integer`, `from_integer_truncated` and the `fail_from_*` of
229-267 -/
def from_integer : Res Unit := do
  let r ← EnumSet.try_from_num (T := T) .u8 7
  match r with
  | some s => isOr s [A, B, C]
  | none => check false
  let s ← EnumSet.from_num_truncated (T := T) .u8 7
  isOr s [A, B, C]
  each extraBit fun x => do
    let bits := BitVec.ofNat x.1.bits (7 + 2 ^ x.2)
    let r ← EnumSet.try_from_num (T := T) x.1 bits
    check r.isNone
    let s ← EnumSet.from_num_truncated (T := T) x.1 bits
    isOr s [A, B, C]
    check (panics (EnumSet.from_num (T := T) x.1 bits))

/-- tests/conversions.rs:129-168 `basic_to_array`, `fail_to_array`, `fail_to_slice` -/
def basic_to_array : Res Unit := do
  let s ← ors [A, B, C]
  let a ← EnumSet.as_array_truncated 0 s
  check (decide (a.toList = []))
  let a ← EnumSet.as_array_truncated 0 (EnumSet.empty (T := T))
  check (decide (a.toList = []))
  each [1, 2, 3, 4, 5] fun k => do
    let expected := words (7 :: List.replicate (k - 1) 0)
    let a ← EnumSet.as_array k s
    check (decide (a.toList = expected))
    let (r, l) ← EnumSet.copy_into_slice s (words (List.replicate k 0))
    r
    check (decide (l = expected))
    let l ← EnumSet.copy_into_slice_truncated s (words (List.replicate k 0))
    check (decide (l = expected))
  check (panics (EnumSet.as_array 0 s))
  let (r, _) ← EnumSet.copy_into_slice s []
  check (panics r)

/-- tests/conversions.rs:170-227 `basic_from_array`, `basic_from_array_truncated` and the
`fail_from_array_*`, `fail_from_slice_*` of 281-303 -/
def basic_from_array : Res Unit := do
  let s ← EnumSet.from_array (T := T) 0 ⟨#[], rfl⟩
  check (EnumSet.eq s EnumSet.empty)
  let s ← EnumSet.from_slice (T := T) []
  check (EnumSet.eq s EnumSet.empty)
  let s ← EnumSet.from_array_truncated (T := T) 0 ⟨#[], rfl⟩
  check (EnumSet.eq s EnumSet.empty)
  let s ← EnumSet.from_slice_truncated (T := T) []
  check (EnumSet.eq s EnumSet.empty)
  each [[7], [7, 0, 0], [7, 0, 0, 0], [7, 0, 0, 0, 0]] fun l => do
    let s ← EnumSet.from_array (T := T) _ (Vector.mk (words l).toArray rfl)
    isOr s [A, B, C]
    let s ← EnumSet.from_slice (T := T) (words l)
    isOr s [A, B, C]
  each [[7 + 2 ^ 31], [7, 0, 16], [7, 0, 0, 16], [7, 0, 0, 0, 16]] fun l => do
    let s ← EnumSet.from_array_truncated (T := T) _ (Vector.mk (words l).toArray rfl)
    isOr s [A, B, C]
    let s ← EnumSet.from_slice_truncated (T := T) (words l)
    isOr s [A, B, C]
  each [[7 + 2 ^ 63, 0, 0, 0], [7, 0, 0, 0, 1]] fun l => do
    check (panics (EnumSet.from_array (T := T) _ (Vector.mk (words l).toArray rfl)))
    check (panics (EnumSet.from_slice (T := T) (words l)))

/-- tests/conversions.rs:316-349 `check_oversized_64!` -/
def check_oversized_64 : Res Unit := do
  let s ← ors [A, B, C]
  let x ← EnumSet.try_as_num .u64 s
  check (decide (x.map BitVec.toNat = some 7))
  let x ← EnumSet.try_as_array 1 s
  check (decide (x.map Vector.toList = some (words [7])))
  let (r, l) ← EnumSet.try_copy_into_slice s (words [0])
  check (decide (r = some () ∧ l = words [7]))
  let s ← ors [E, F, G]
  let x ← EnumSet.try_as_num .u64 s
  check x.isNone
  let x ← EnumSet.try_as_array 1 s
  check x.isNone
  let (r, _) ← EnumSet.try_copy_into_slice s (words [0])
  check r.isNone
  let x ← EnumSet.as_num_truncated .u64 s
  check (x.toNat == 0)
  let x ← EnumSet.as_array_truncated 1 s
  check (decide (x.toList = words [0]))
  let l ← EnumSet.copy_into_slice_truncated s (words [0])
  check (decide (l = words [0]))
  check (panics (EnumSet.as_num .u64 s))

/-- tests/conversions.rs:356-378 `check_oversized_128!` -/
def check_oversized_128 : Res Unit := do
  let s ← ors [A, B, C]
  let x ← EnumSet.try_as_num .u128 s
  check (decide (x.map BitVec.toNat = some 7))
  let s ← ors [E, F, G]
  let x ← EnumSet.try_as_num .u128 s
  check x.isNone
  let x ← EnumSet.as_num_truncated .u128 s
  check (x.toNat == 0)
  check (panics (EnumSet.as_num .u128 s))

end conversions

/-- `Enum16` … `Enum256` of tests/conversions.rs:35-65: four variants from 0 and four from `k` -/
def EnumK (k : Nat) : DeriveInput :=
  { variants := plain ["A", "B", "C", "D"] ++ expl [("E", k)] ++ plain ["F", "G", "H"] }
/-- `Enum8` of tests/conversions.rs:30-33 -/
def Enum7 : DeriveInput := { variants := plain (eight.take 7) }

def conversions (inp : DeriveInput) (over64 over128 : Bool) : Bool :=
  withEnum inp fun T =>
    if h : 7 ≤ T.n then
      let v : Nat → T.Val := fun i => ⟨i % 7, by omega⟩
      passes (to_integer (v 0) (v 1) (v 2)) && passes (from_integer (v 0) (v 1) (v 2)) &&
      passes (basic_to_array (v 0) (v 1) (v 2)) && passes (basic_from_array (v 0) (v 1) (v 2)) &&
      (!over64 || passes (check_oversized_64 (v 0) (v 1) (v 2) (v 4) (v 5) (v 6))) &&
      (!over128 || passes (check_oversized_128 (v 0) (v 1) (v 2) (v 4) (v 5) (v 6)))
    else false

example : conversions Enum7 false false = true := by decide +kernel
example : conversions (EnumK 8) false false = true := by decide +kernel
example : conversions (EnumK 16) false false = true := by decide +kernel
example : conversions (EnumK 32) false false = true := by decide +kernel
example : conversions (EnumK 64) true false = true := by decide +kernel
example : conversions (EnumK 128) true true = true := by decide +kernel
example : conversions (EnumK 192) true true = true := by decide +kernel
example : conversions (EnumK 64) true true = false := by decide +kernel

/-! ### tests/repr.rs -/

/-- `Repr` is a `u16` here; the test looks at its value through `to_u64` -/
def repr_test : Bool :=
  withEnum { variants := plain eight, attrs := { repr := some "u16" } } fun T =>
    if h : 8 ≤ T.n then passes do
      check T.withRepr
      let x ← EnumSetTypeRepr.to_num .u64 (EnumSet.as_repr (EnumSet.all (T := T)))
      check (x.toNat == 0b11111111)
      let (_, s) ← EnumSet.insert (T := T) EnumSet.new ⟨1, by omega⟩
      let (_, s) ← EnumSet.insert s ⟨5, by omega⟩
      let r := EnumSet.as_repr s
      let x ← EnumSetTypeRepr.to_num .u64 r
      check (x.toNat == (1 <<< 1 ||| 1 <<< 5))
      check (EnumSet.eq s (EnumSet.from_repr_unchecked r))
    else false
example : repr_test = true := by decide +kernel

/-! ### tests/serde.rs -/

/-- eight variants and a serialized representation -/
def serdeEnum (r : Option String) (deny : Bool := false) : DeriveInput :=
  { variants := plain eight, attrs := { serialize_repr := r, serialize_deny_unknown := deny } }
/-- `LargeEnum` of tests/serde.rs:36-39 -/
def serdeLarge : DeriveInput := EnumK 200

/-- `serialize_deserialize_test_*`: what is written is read back to the same set -/
def serdeRoundTrip (inp : DeriveInput) : Bool :=
  withEnum inp fun T =>
    if h : 8 ≤ T.n then
      let v : Nat → T.Val := fun i => ⟨i % 8, by omega⟩
      passes (each [[], [0, 2, 3, 5, 4, 6], [0], [7], [0, 1], [0, 1, 2, 3], [0, 1, 2, 3, 5, 6, 7],
          [6, 7], [4, 5, 6, 7]] fun l => do
        let value ← const (l.map v)
        check (Serde.compiles T)
        let w ← Serde.serialize value
        match Serde.deserialize (E := Unit) (Serde.SerValue.read w) with
        | none => check false
        | some r => do
          let r ← r
          match r with
          | .ok s => check (EnumSet.eq value s)
          | .error _ => check false)
    else false

example : serdeRoundTrip (serdeEnum (some "list")) = true := by decide +kernel
example : serdeRoundTrip (serdeEnum (some "map")) = true := by decide +kernel
example : serdeRoundTrip (serdeEnum (some "array")) = true := by decide +kernel
example : serdeRoundTrip serdeLarge = true := by decide +kernel
example : serdeRoundTrip (serdeEnum (some "u128")) = true := by decide +kernel
example : serdeRoundTrip (serdeEnum (some "u128") true) = true := by decide +kernel

/-- Deserializing gives the set of these variants, or an error for `none`. -/
def deserializesTo (inp : DeriveInput) (input : (T : EnumSetType) → (Nat → T.Val) → DeInput T.Val Unit)
    (expected : Option (List Nat)) : Bool :=
  withEnum inp fun T =>
    if h : 8 ≤ T.n then
      let v : Nat → T.Val := fun i => ⟨i % 8, by omega⟩
      match Serde.deserialize (input T v) with
      | none => false
      | some r => passes do
        let r ← r
        match r, expected with
        | .ok s, some l => do
          let t ← const (l.map v)
          check (EnumSet.eq s t)
        | .error _, none => check true
        | _, _ => check false
    else false

/-- tests/serde.rs:84-96 `deserialize_all_test`, 100-105 `test_deny_unknown` -/
example : deserializesTo (serdeEnum (some "u128")) (fun _ _ => .int .u128 (.ok (BitVec.allOnes 128)))
    (some [0, 1, 2, 3, 4, 5, 6, 7]) = true := by decide +kernel
example : deserializesTo (serdeEnum (some "u128") true)
    (fun _ _ => .int .u128 (.ok (BitVec.allOnes 128))) none = true := by decide +kernel
/-- tests/serde.rs:107-130 -/
example : deserializesTo (serdeEnum (some "list"))
    (fun _ v => .seq [.ok (v 0), .ok (v 2), .ok (v 5)]) (some [0, 2, 5]) = true := by decide +kernel
example : deserializesTo (serdeEnum (some "map"))
    (fun _ v => .map [.ok (v 0, true), .ok (v 2, true), .ok (v 5, true)]) (some [0, 2, 5]) = true := by
  decide +kernel
example : deserializesTo (serdeEnum (some "u128")) (fun _ _ => .int .u128 (.ok 13)) (some [0, 2, 3])
    = true := by decide +kernel
example : deserializesTo (serdeEnum (some "map"))
    (fun _ v => .map [.ok (v 3, false), .ok (v 0, true), .ok (v 4, false), .ok (v 2, true),
      .ok (v 5, true)]) (some [0, 2, 5]) = true := by decide +kernel
example : deserializesTo serdeLarge (fun _ _ => .words [.ok 15]) (some [0, 1, 2, 3]) = true := by
  decide +kernel

/-- What is written, with variants as numbers. -/
def serializesTo (inp : DeriveInput) (l : List Nat) (ok : (T : EnumSetType) → SerValue T.Val → Bool) :
    Bool :=
  withEnum inp fun T =>
    if h : 8 ≤ T.n then passes do
      let s ← const (T := T) (l.map fun i => ⟨i % 8, by omega⟩)
      let w ← Serde.serialize s
      check (ok T w)
    else false

example : serializesTo (serdeEnum (some "list")) [0, 2, 5] (fun _ w => match w with
    | .seq n es => n == 3 && es.map Fin.val == [0, 2, 5]
    | _ => false) = true := by decide +kernel
example : serializesTo (serdeEnum (some "map")) [0, 2, 5] (fun _ w => match w with
    | .map n es => n == 3 && es.map (fun e => (e.1.val, e.2)) == [(0, true), (2, true), (5, true)]
    | _ => false) = true := by decide +kernel
example : serializesTo (serdeEnum (some "u128")) [0, 2, 3] (fun _ w => match w with
    | .int .u128 x => x == 13
    | _ => false) = true := by decide +kernel

/-! ### enumset_test_trybuild/tests/compile-fail -/

/-- the place and the message of the error the macro rejects the input with -/
def rejects (inp : DeriveInput) (sp : Span) (m : String) : Bool :=
  match derive inp with
  | .error (.msg sp' m') => sp == sp' && m == m'
  | _ => false
def accepts (inp : DeriveInput) : Bool := withEnum inp fun _ => true

-- syntax.rs; `BadRepr` is accepted
example : accepts { variants := plain ["Variant"], reprAttrs := [some "usize"] } = true := by
  decide +kernel
def GenericEnum : DeriveInput where
  hasGenerics := true
  reprAttrs := [some "usize"]
  variants := [{ ident := "Variant" }, { ident := "FieldBlah", unit := false }]
example : rejects GenericEnum
    .generics "`#[derive(EnumSetType)]` cannot be used on enums with type parameters." = true := by
  decide +kernel
example : rejects { isEnum := false, variants := [] }
    .item "`#[derive(EnumSetType)]` may only be used on enums" = true := by decide +kernel
example : rejects { variants := plain ["Variant"], attrs := { repr := some "abcdef" } }
    .repr "`abcdef` is not a valid internal enumset representation." = true := by decide +kernel
example : rejects { variants := plain ["Variant"], attrs := { serialize_repr := some "abcdef" } }
    .serializeRepr "`abcdef` is not a valid serialized representation." = true := by decide +kernel
-- variants.rs
example : rejects { variants := [{ ident := "Variant", discriminant := some (.neg (-1)) }] }
    (.discriminant 0) "Enum discriminants must not be negative." = true := by decide +kernel
example : rejects { variants := [{ ident := "Variant", unit := false }] }
    (.variant 0) "`#[derive(EnumSetType)]` can only be used on fieldless enums." = true := by
  decide +kernel
example : rejects { variants := expl [("Variant", 128)], attrs := { repr := some "u128" } }
    (.variant 0) "`repr` is too small to contain the largest discriminant." = true := by
  decide +kernel
example : rejects { variants := expl [("Variant", 8)], attrs := { serialize_repr := some "u8" } }
    (.variant 0) "`serialize_repr` is too small to contain the largest discriminant." = true := by
  decide +kernel
example : rejects { variants := [{ ident := "Variant", discriminant := some (.other 2) }] }
    (.variant 0) "Enum discriminants must be literal expressions." = true := by decide +kernel
example : rejects { variants := expl [("Variant", 16)], attrs := { repr := some "u16" } }
    (.variant 0) "`repr` is too small to contain the largest discriminant." = true := by
  decide +kernel
example : rejects { variants := expl [("Variant", 0xFFFFFFD0)] }
    (.variant 0) "Maximum discriminant allowed is `0xFFFFFFBF`." = true := by decide +kernel
-- explicit_repr.rs: the enums are fine, but there is no `EnumSetTypeWithRepr`
example : withEnum { variants := plain ["Variant"] } (fun T => !T.withRepr) = true := by
  decide +kernel
example : withEnum { variants := plain ["Variant"], attrs := { repr := some "array" } }
    (fun T => !T.withRepr) = true := by decide +kernel
-- deprecation.rs
example : deriveWarnings false { serialize_as_map := true } = [(.serializeAsMap,
    "#[enumset(serialize_as_map)] is deprecated. Use `#[enumset(serialize_repr = \"map\")]` instead.")]
    := by decide +kernel
example : deriveWarnings false { serialize_as_list := true } = [(.serializeAsList,
    "#[enumset(serialize_as_list)] is deprecated. Use `#[enumset(serialize_repr = \"list\")]` instead.")]
    := by decide +kernel

end Enumset.RepoTests
