import Verif.Spec
/-!
# Specification vocabulary: what rustc checks of the enum itself

The Rust reference ("Enumerations", "Type layout: primitive representations"); not part of /repo.
-/
set_option autoImplicit false

namespace Enumset

/-- The smallest and the largest value of an integer type that may be named in `#[repr(…)]`; `u` is the
width of `usize`. -/
def intRange (u : Nat) (s : String) : Option (Int × Int) :=
  if s = "u8" then some (0, 2 ^ 8 - 1)
  else if s = "u16" then some (0, 2 ^ 16 - 1)
  else if s = "u32" then some (0, 2 ^ 32 - 1)
  else if s = "u64" then some (0, 2 ^ 64 - 1)
  else if s = "u128" then some (0, 2 ^ 128 - 1)
  else if s = "usize" then some (0, 2 ^ u - 1)
  else if s = "i8" then some (-2 ^ 7, 2 ^ 7 - 1)
  else if s = "i16" then some (-2 ^ 15, 2 ^ 15 - 1)
  else if s = "i32" then some (-2 ^ 31, 2 ^ 31 - 1)
  else if s = "i64" then some (-2 ^ 63, 2 ^ 63 - 1)
  else if s = "i128" then some (-2 ^ 127, 2 ^ 127 - 1)
  else if s = "isize" then some (-2 ^ (u - 1), 2 ^ (u - 1) - 1)
  else none

/-- The integer types named by the `#[repr(…)]` attributes of an enum. -/
def discrTypes (u : Nat) (inp : DeriveInput) : List (Int × Int) :=
  inp.reprAttrs.filterMap fun r => r.bind (intRange u)

/-- The type of the discriminants of an enum: the one named by `#[repr(…)]`, else `isize`. -/
def discrType (u : Nat) (inp : DeriveInput) : Int × Int :=
  (discrTypes u inp).headD (-2 ^ (u - 1), 2 ^ (u - 1) - 1)

/-- What rustc requires of the enum itself, whatever is derived for it. -/
structure RustcAccepts [Target] (inp : DeriveInput) : Prop where
  /-- E0428 -/
  distinct_names : (inp.variants.map (·.ident)).Nodup
  /-- E0081 -/
  distinct_discriminants : (rustcDiscriminants inp.variants).Nodup
  /-- lint `overflowing_literals`, E0370 -/
  in_range : ∀ d ∈ rustcDiscriminants inp.variants, (discrType usizeBits inp).1 ≤ d ∧
    d ≤ (discrType usizeBits inp).2
  /-- lint `conflicting_representation_hints` (deny by default) -/
  one_type : (discrTypes usizeBits inp).length ≤ 1
  /-- E0084 -/
  empty : inp.variants = [] → inp.reprAttrs = []

end Enumset
