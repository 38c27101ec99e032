import Verif.Set
/-!
# Operators whose right operand has a type of the caller

The operator impls take any `O: Into<EnumSet<T>>`.  `Operand` (Set.lean) has the two conversions the
crate itself provides; here `into` is code of the caller, which may have effects and may panic.
-/
set_option autoImplicit false

namespace Enumset

/-- `Into::into` of the caller on a given operand: an outcome, and the state it leaves behind. -/
abbrev UserInto [Platform] (T : EnumSetType) (σ : Type) := σ → Res (EnumSet T) × σ

variable [Platform] {T : EnumSetType} {σ : Type}

/-- `f(other.into())` -/
def callInto (into : UserInto T σ) (f : EnumSet T → Res (EnumSet T)) (st : σ) :
    Res (EnumSet T) × σ :=
  match into st with
  | (r, st) => (r >>= f, st)

/-- `*self = x;`: the value of `*self` afterwards, also if the evaluation of `x` panics. -/
def assignResult (self : EnumSet T) (x : Res (EnumSet T) × σ) : Res Unit × EnumSet T × σ :=
  match x with
  | (.ok s, st) => (.ok (), s, st)
  | (.panic p, st) => (.panic p, self, st)
  | (.ub, st) => (.ub, self, st)
  | (.diverge, st) => (.diverge, self, st)

namespace EnumSet

/-- set.rs:311-317 -/
def sub_user (self : EnumSet T) (into : UserInto T σ) (st : σ) : Res (EnumSet T) × σ :=
  callInto into (fun o => difference self o) st
/-- set.rs:318-324 -/
def bitand_user (self : EnumSet T) (into : UserInto T σ) (st : σ) : Res (EnumSet T) × σ :=
  callInto into (fun o => intersection self o) st
/-- set.rs:325-331 -/
def bitor_user (self : EnumSet T) (into : UserInto T σ) (st : σ) : Res (EnumSet T) × σ :=
  callInto into (fun o => union self o) st
/-- set.rs:332-338 -/
def bitxor_user (self : EnumSet T) (into : UserInto T σ) (st : σ) : Res (EnumSet T) × σ :=
  callInto into (fun o => symmetrical_difference self o) st
/-- set.rs:340-345 `*self = *self - rhs;` -/
def sub_assign_user (self : EnumSet T) (into : UserInto T σ) (st : σ) : Res Unit × EnumSet T × σ :=
  assignResult self (sub_user self into st)
/-- set.rs:346-351 -/
def bitand_assign_user (self : EnumSet T) (into : UserInto T σ) (st : σ) :
    Res Unit × EnumSet T × σ :=
  assignResult self (bitand_user self into st)
/-- set.rs:352-357 -/
def bitor_assign_user (self : EnumSet T) (into : UserInto T σ) (st : σ) :
    Res Unit × EnumSet T × σ :=
  assignResult self (bitor_user self into st)
/-- set.rs:358-363 -/
def bitxor_assign_user (self : EnumSet T) (into : UserInto T σ) (st : σ) :
    Res Unit × EnumSet T × σ :=
  assignResult self (bitxor_user self into st)

end EnumSet

namespace EnumVal

/-- `EnumSet::only(self)` and then the rest, which uses the state. -/
def withOnly (self : T.Val) (f : EnumSet T → Res (EnumSet T) × σ) (st : σ) : Res (EnumSet T) × σ :=
  match EnumSet.only self with
  | .ok a => f a
  | .panic p => (.panic p, st)
  | .ub => (.ub, st)
  | .diverge => (.diverge, st)

/-- enumset_derive/src/lib.rs:385-391 `EnumSet::only(self) - other.into()` -/
def sub_user (self : T.Val) (into : UserInto T σ) (st : σ) : Res (EnumSet T) × σ :=
  withOnly self (fun a => callInto into (fun o => EnumSet.sub a (.set o)) st) st
/-- lib.rs:392-398 -/
def bitand_user (self : T.Val) (into : UserInto T σ) (st : σ) : Res (EnumSet T) × σ :=
  withOnly self (fun a => callInto into (fun o => EnumSet.bitand a (.set o)) st) st
/-- lib.rs:399-405 -/
def bitor_user (self : T.Val) (into : UserInto T σ) (st : σ) : Res (EnumSet T) × σ :=
  withOnly self (fun a => callInto into (fun o => EnumSet.bitor a (.set o)) st) st
/-- lib.rs:406-412 -/
def bitxor_user (self : T.Val) (into : UserInto T σ) (st : σ) : Res (EnumSet T) × σ :=
  withOnly self (fun a => callInto into (fun o => EnumSet.bitxor a (.set o)) st) st

end EnumVal

end Enumset
