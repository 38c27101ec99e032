import Verif.Derive
/-!
# `enum_from_u32` with the size of the enum

`genFrom` (Derive.lean) counts every arm of the generated `match` after those of the variants as
undefined behaviour.  Here these arms are modelled as they are.  Citations `lib.rs` are to
`enumset_derive/src/lib.rs`.
-/
set_option autoImplicit false

namespace Enumset

/-- `*(&x as *const uN as *const Enum)` where both types have `8 * size` bits (lib.rs:701-702): the
variant whose discriminant has the bits of `x`; undefined behaviour if there is none. -/
def reinterpret (n : Nat) (discr : Fin n → Nat) (x : Nat) : Res (Fin n) :=
  match (List.finRange n).find? (fun i => discr i == x) with
  | some i => .ok i
  | none => .ub

/-- lib.rs:686-707: the `match` of `enum_from_u32` for an enum of at least two variants that
occupies `size` bytes.  `reprs` are the discriminants the macro computed, `discr` rustc's.  The
arms `x if IS_U8 => …` to `x if IS_U128 => …` are tried in this order; `x as uN` keeps the low bits. -/
def genFromSized (size n : Nat) (discr reprs : Fin n → Nat) (val : Nat) : Res (Fin n) :=
  match (List.finRange n).find? (fun i => reprs i == val) with
  | some i => .ok i
  | none =>
    if size = 1 then reinterpret n discr (castW 8 val)
    else if size = 2 then reinterpret n discr (castW 16 val)
    else if size = 4 then reinterpret n discr (castW 32 val)
    else if size = 8 then reinterpret n discr (castW 64 val)
    else if size = 16 then reinterpret n discr (castW 128 val)
    else .ub

end Enumset
