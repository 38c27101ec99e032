import Verif.Set
/-!
# Provided methods of `Iterator`, `DoubleEndedIterator` and `ExactSizeIterator`

`EnumSetIter` only defines `next`, `size_hint` and `next_back` (set.rs:822-841); the other methods
are the defaults of `core::iter`, modelled here from their definitions in `core` (which is not part
of /repo).
-/
set_option autoImplicit false

namespace Enumset

variable [Platform] {T : EnumSetType}

namespace EnumSetIter

/-- `Iterator::count`: `self.fold(0, |count, _| count + 1)`; set.rs:822-831 keeps the default. -/
def count (self : EnumSetIter T) : Res Nat :=
  forLoop (fuel T) self 0 fun _ c => addW usizeBits c 1

/-- `Iterator::last`: `self.fold(None, |_, x| Some(x))`; set.rs:822-831 keeps the default. -/
def last (self : EnumSetIter T) : Res (Option T.Val) :=
  forLoop (fuel T) self none fun v _ => .ok (some v)

/-- `Iterator::nth`: `n` calls of `next` (`advance_by`), giving up at the first `None`, then one
more; set.rs:822-831 keeps the default. -/
def nth : Nat → EnumSetIter T → Res (Option T.Val × EnumSetIter T)
  | 0, it => next it
  | n + 1, it => do
    let (r, it) ← next it
    match r with
    | none => pure (none, it)
    | some _ => nth n it

/-- `DoubleEndedIterator::nth_back`; set.rs:833-839 keeps the default. -/
def nth_back : Nat → EnumSetIter T → Res (Option T.Val × EnumSetIter T)
  | 0, it => next_back it
  | n + 1, it => do
    let (r, it) ← next_back it
    match r with
    | none => pure (none, it)
    | some _ => nth_back n it

/-- `Iterator::find`: calls `next` until the predicate holds (`try_fold`); set.rs:822-831 keeps the
default.  `fuel` bounds the number of calls. -/
def find (p : T.Val → Bool) : Nat → EnumSetIter T → Res (Option T.Val × EnumSetIter T)
  | 0, _ => .diverge
  | fuel + 1, it => do
    let (r, it) ← next it
    match r with
    | none => pure (none, it)
    | some v => if p v then pure (some v, it) else find p fuel it

/-- `DoubleEndedIterator::rfind`; set.rs:833-839 keeps the default. -/
def rfind (p : T.Val → Bool) : Nat → EnumSetIter T → Res (Option T.Val × EnumSetIter T)
  | 0, _ => .diverge
  | fuel + 1, it => do
    let (r, it) ← next_back it
    match r with
    | none => pure (none, it)
    | some v => if p v then pure (some v, it) else rfind p fuel it

/-- `ExactSizeIterator::len`: `let (lower, upper) = self.size_hint(); assert_eq!(upper,
Some(lower)); lower`; set.rs:841 keeps the default. -/
def len (self : EnumSetIter T) : Res Nat := do
  let (lower, upper) ← size_hint self
  if upper = some lower then pure lower else .panic (.explicit "assertion failed")

/-- `Iterator::min_by_key(|v| v as u32)`: `reduce` keeping the first of equal keys;
set.rs:822-831 keeps the default. -/
def min_by_discr (self : EnumSetIter T) : Res (Option T.Val) := do
  let (r, it) ← next self
  match r with
  | none => pure none
  | some v => do
    let m ← forLoop (fuel T) it v fun y x => .ok (if T.discr y < T.discr x then y else x)
    pure (some m)

/-- `Iterator::max_by_key(|v| v as u32)`: `reduce` keeping the last of equal keys;
set.rs:822-831 keeps the default. -/
def max_by_discr (self : EnumSetIter T) : Res (Option T.Val) := do
  let (r, it) ← next self
  match r with
  | none => pure none
  | some v => do
    let m ← forLoop (fuel T) it v fun y x => .ok (if T.discr y < T.discr x then x else y)
    pure (some m)

end EnumSetIter

end Enumset
