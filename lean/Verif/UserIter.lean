import Verif.Set
/-!
# `Extend`, `FromIterator` and `Sum` over a caller's iterator (`enumset/src/set.rs:843-902`)

In `Set.lean` the argument of these functions is a finite list of items.  Here it is an arbitrary
iterator: a state and a `next` that may change the state, panic, not return, or never report an end.
Simplification: the iterator keeps the default `for_each` and `fold` of `core`, which call `next` until
it returns `None`.
-/
set_option autoImplicit false

namespace Enumset

/-- `Iterator::next` of a caller's iterator with state `σ`: what the call does, and the state after it
(also after a panic, since the caller may have passed `&mut iter`). -/
abbrev UserNext (α σ : Type) := σ → Res (Option α) × σ

/-- `Iterator::for_each(|v| b = f(v, b))` / `fold`: the outcome, the value of `b` at that time and the
state of the iterator.  `fuel` bounds the number of `next` calls. -/
def drive {α β σ : Type} (next : UserNext α σ) (f : α → β → Res β) :
    Nat → β → σ → Res Unit × β × σ
  | 0, b, st => (.diverge, b, st)
  | fuel + 1, b, st => match next st with
    | (.ok none, st) => (.ok (), b, st)
    | (.ok (some v), st) => match f v b with
      | .ok b => drive next f fuel b st
      | .panic p => (.panic p, b, st)
      | .ub => (.ub, b, st)
      | .diverge => (.diverge, b, st)
    | (.panic p, st) => (.panic p, b, st)
    | (.ub, st) => (.ub, b, st)
    | (.diverge, st) => (.diverge, b, st)

/-- The value of `b` when the loop ended, for functions that return it. -/
def driveValue {β σ : Type} (r : Res Unit × β × σ) : Res β × σ :=
  (r.1 >>= fun _ => .ok r.2.1, r.2.2)

variable [Platform] {T : EnumSetType} {σ : Type}

namespace EnumSet

/-- set.rs:843-849 `Extend<T>`; the set is returned also when the call panics -/
def extend_user (self : EnumSet T) (next : UserNext T.Val σ) (fuel : Nat) (st : σ) :
    Res Unit × EnumSet T × σ :=
  drive next (fun v self => do
    let (_, self) ← insert self v
    pure self) fuel self st
/-- set.rs:851-857 `FromIterator<T>` -/
def from_iter_user (next : UserNext T.Val σ) (fuel : Nat) (st : σ) : Res (EnumSet T) × σ :=
  driveValue (extend_user default next fuel st)
/-- set.rs:859-865 `Extend<EnumSet<T>>` -/
def extend_sets_user (self : EnumSet T) (next : UserNext (EnumSet T) σ) (fuel : Nat) (st : σ) :
    Res Unit × EnumSet T × σ :=
  drive next (fun v self => insert_all self v) fuel self st
/-- set.rs:867-873 `FromIterator<EnumSet<T>>` -/
def from_iter_sets_user (next : UserNext (EnumSet T) σ) (fuel : Nat) (st : σ) :
    Res (EnumSet T) × σ :=
  driveValue (extend_sets_user default next fuel st)
/-- set.rs:883-892 `Sum`, `Sum<&EnumSet<T>>` -/
def sum_sets_user (next : UserNext (EnumSet T) σ) (fuel : Nat) (st : σ) : Res (EnumSet T) × σ :=
  driveValue (drive next (fun v a => bitor a (.set v)) fuel empty st)
/-- set.rs:893-902 `Sum<T>`, `Sum<&T>` -/
def sum_user (next : UserNext T.Val σ) (fuel : Nat) (st : σ) : Res (EnumSet T) × σ :=
  driveValue (drive next (fun v a => bitor a (.val v)) fuel empty st)

end EnumSet

end Enumset
