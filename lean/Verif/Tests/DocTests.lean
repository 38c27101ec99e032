import Verif.Tests.RepoTests
/-!
# The examples in the documentation, run on the model

The code blocks of `enumset/src/{lib,set,macros}.rs`, and the programs in `enumset_test_no_std` and
`enumset_test_trybuild/tests/compile-pass`, in the style of `RepoTests.lean`.  Tests of the model, not
proofs.
-/
set_option autoImplicit false

namespace Enumset.DocTests

open scoped Ex
open ConstMacro RepoTests

/-- Derive and run a test with the variants. -/
def run (inp : DeriveInput) (f : (T : EnumSetType) → (Nat → Option T.Val) → Option (Res Unit)) : Bool :=
  withEnum inp fun T =>
    match f T fun i => if h : i < T.n then some ⟨i, h⟩ else none with
    | some r => passes r
    | none => false

def Enum : DeriveInput := { variants := plain ["A", "B", "C", "D", "E", "F", "G"] }
def Enum4 : DeriveInput := { variants := plain ["A", "B", "C", "D"] }

-- lib.rs:23-29
example : accepts Enum = true := by decide +kernel

-- lib.rs:39-44
example : run Enum (fun _ v => do
    let (A, C, G) := (← v 0, ← v 2, ← v 6)
    some do
      let s ← EnumVal.bitor A (.val C)
      let new_set ← EnumSet.bitor s (.val G)
      check ((← new_set.len) == 3)) = true := by decide +kernel

-- lib.rs:48-65
example : run Enum (fun _ v => do
    let (A, B, C, D, E, F, G) := (← v 0, ← v 1, ← v 2, ← v 3, ← v 4, ← v 5, ← v 6)
    some do
      let ab ← EnumVal.bitor A (.val B)
      let bc ← EnumVal.bitor B (.val C)
      let ac ← EnumVal.bitor A (.val C)
      check ((← EnumSet.bitand ab (.val C)).eq EnumSet.empty)
      isVal (← EnumSet.bitand ab (.val A)) A
      check ((← EnumVal.bitand A (.val B)).eq EnumSet.empty)
      check ((← EnumSet.bitxor ab (.set bc)).eq ac)
      check ((← EnumVal.bitxor A (.val C)).eq ac)
      let abc ← EnumSet.bitor ab (.val C)
      check ((← EnumSet.sub abc (.val B)).eq ac)
      let eg ← EnumVal.bitor E (.val G)
      isOr (← EnumSet.not eg) [A, B, C, D, F]) = true := by decide +kernel

-- lib.rs:69-74
example : run Enum (fun _ v => do
    let (A, B) := (← v 0, ← v 1)
    some do
      let CONST_SET ← enum_set [.val A, .val B]
      isOr CONST_SET [A, B]) = true := by decide +kernel

-- lib.rs:78-87
example : run Enum (fun T v => do
    let (A, B, E, G) := (← v 0, ← v 1, ← v 4, ← v 6)
    some do
      let set : EnumSet T := EnumSet.new
      let (_, set) ← set.insert A
      let set ← set.insert_all (← EnumVal.bitor E (.val G))
      check (← set.contains A)
      check (!(← set.contains B))
      isOr set [A, E, G]) = true := by decide +kernel

-- lib.rs:179-185; stored in an array, although the documentation says `u128`
example : withEnum { variants := expl [("A", 10), ("B", 20), ("C", 30), ("D", 127)] } (fun T =>
    EnumSetTypeRepr.WIDTH T.Repr == 128 && T.allLit.isNone) = true := by decide +kernel
-- lib.rs:189-196
example : withEnum { Enum with attrs := { no_ops := true } } (fun T => !T.ops) = true := by
  decide +kernel

-- set.rs:87-113: the foreign function is `set & 0b100` on `u32`
example : run { variants := plain ["A", "B", "C"], attrs := { repr := some "u32" } } (fun T v => do
    let (A, C) := (← v 0, ← v 2)
    some do
      let set ← enum_set [.val A, .val C]
      let w ← EnumSet.as_num .u32 set
      let new_set : EnumSet T ← EnumSet.from_num_unchecked .u32 (w &&& 0b100)
      check (new_set.eq (← enum_set [.val C]))) = true := by decide +kernel

-- macros.rs:66-71
example : run Enum (fun _ v => do
    let (A, B) := (← v 0, ← v 1)
    some do isOr (← enum_set_union (.val A) [.val B]) [A, B]) = true := by decide +kernel
-- macros.rs:98-105
example : run Enum4 (fun _ v => do
    let (A, B, C) := (← v 0, ← v 1, ← v 2)
    some do
      let SET_A ← enum_set [.val A, .val B]
      let SET_B ← enum_set [.val B, .val C]
      isVal (← enum_set_intersection (.set SET_A) [.set SET_B]) B) = true := by decide +kernel
-- macros.rs:128-136
example : run Enum4 (fun _ v => do
    let (A, B, C, D) := (← v 0, ← v 1, ← v 2, ← v 3)
    some do
      let SET ← enum_set [.val B, .val C]
      isOr (← enum_set_complement (.set SET)) [A, D]) = true := by decide +kernel
-- macros.rs:156-163
example : run Enum4 (fun _ v => do
    let (A, B, C, D) := (← v 0, ← v 1, ← v 2, ← v 3)
    some do
      let SET_A ← enum_set [.val A, .val B, .val D]
      let SET_B ← enum_set [.val B, .val C]
      isOr (← enum_set_symmetric_difference (.set SET_A) [.set SET_B]) [A, C, D]) = true := by
  decide +kernel
-- macros.rs:190-197
example : run Enum4 (fun _ v => do
    let (A, B, C, D) := (← v 0, ← v 1, ← v 2, ← v 3)
    some do
      let SET_B ← enum_set [.val B, .val C]
      isOr (← enum_set_difference (.set EnumSet.all) [.set SET_B]) [A, D]) = true := by
  decide +kernel

-- enumset_test_no_std/src/main.rs
example : run { variants := plain ["A", "B", "C"] } (fun _ v => do
    let (A, B, C) := (← v 0, ← v 1, ← v 2)
    some do
      let e ← EnumVal.bitor A (.val B)
      if ← e.contains C then .panic (.explicit "oh no!") else .ok ()) = true := by decide +kernel

-- compile-pass/no_std.rs, no_imports.rs
example : [EmptyEnum, Enum1, SmallEnum, Enum128, SparseEnum, ReprEnum "u32", ReprEnum "C"].all
    accepts = true := by decide +kernel

end Enumset.DocTests
