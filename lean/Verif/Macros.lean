import Verif.Set
/-!
# `enumset/src/macros.rs`: the const macros

A macro call is a list of tokens; `expand*` selects the arm like `macro_rules!` does and returns the
operands bound by it; `eval*` is the value of the expansion.

Simplifications: a `$x:path` fragment is one token that already carries its value (a variant or a
set); paths are constants, so evaluating `$value` twice (macros.rs:79-80) is evaluating it once;
mixing types is a type error of rustc and cannot be written in the model; `EnumSet::empty()` in the
first arm of `enum_set!` (macros.rs:45) is taken to resolve to this crate's `EnumSet`.
-/
set_option autoImplicit false

namespace Enumset

/-- A token of a macro call. -/
inductive Tok (α : Type) where
  /-- something that parses as a `path` fragment -/
  | path (a : α)
  /-- a `|` token -/
  | bar
  /-- a `,` token -/
  | comma
  /-- any other token, including the single token `||` -/
  | other
  deriving DecidableEq, Repr

namespace Tok

variable {α : Type}

/-- `$(|)*` up to the end of the input -/
def bars : List (Tok α) → Bool
  | [] => true
  | .bar :: ts => bars ts
  | _ :: _ => false

/-- `$(,)?` up to the end of the input -/
def optComma : List (Tok α) → Bool
  | [] => true
  | [.comma] => true
  | _ => false

/-- What remains of `$($rest:path)|* $(|)*` after a `path` was matched: a `|` followed by a path
continues the repetition, other `|`s belong to `$(|)*`. -/
def barTail : List (Tok α) → Option (List α)
  | .bar :: .path a :: ts => (barTail ts).map (a :: ·)
  | ts => if bars ts then some [] else none

/-- `$($rest:path)|* $(|)*` -/
def barList : List (Tok α) → Option (List α)
  | .path a :: ts => (barTail ts).map (a :: ·)
  | ts => if bars ts then some [] else none

/-- As `barTail` for `$($rest:path),* $(,)?` -/
def commaTail : List (Tok α) → Option (List α)
  | .comma :: .path a :: ts => (commaTail ts).map (a :: ·)
  | ts => if optComma ts then some [] else none

/-- `$($rest:path),* $(,)?` -/
def commaList : List (Tok α) → Option (List α)
  | .path a :: ts => (commaTail ts).map (a :: ·)
  | ts => if optComma ts then some [] else none

/-- macros.rs:43-56 `enum_set!`: the operands of the arm that is selected.  No operand: the first
arm; one operand: the second; otherwise the third, which calls `enum_set_union!`. -/
def expandEnumSet (ts : List (Tok α)) : Option (List α) :=
  if bars ts then some []
  else match ts with
    | .path a :: ts' =>
      if bars ts' then some [a]
      else match ts' with
        | .bar :: ts'' => (barList ts'').map (a :: ·)
        | _ => none
    | _ => none

/-- macros.rs:73-88, 107-122, 165-180, 199-214: the operands of `enum_set_union!`,
`enum_set_intersection!`, `enum_set_difference!`, `enum_set_symmetric_difference!` -/
def expandList (ts : List (Tok α)) : Option (List α) :=
  match ts with
  | .path a :: ts' =>
    if optComma ts' then some [a]
    else match ts' with
      | .comma :: ts'' => (commaList ts'').map (a :: ·)
      | _ => none
  | _ => none

/-- macros.rs:138-146 `enum_set_complement!` -/
def expandComplement (ts : List (Tok α)) : Option α :=
  match ts with
  | .path a :: ts' => if optComma ts' then some a else none
  | _ => none

end Tok

namespace ConstMacro

variable [Platform] {T : EnumSetType}

/-- `$value.__impl_enumset_internal__const_only()`: the generated method of the enum
(enumset_derive/src/lib.rs:773-777, 835-845) or the one of `EnumSet` (set.rs:299-301) -/
def const_only : Operand T → Res (EnumSet T)
  | .val v => EnumSet.mk <$> T.const_only v
  | .set s => .ok s

/-- `helper.const_union(a, b)` -/
def const_union (a b : EnumSet T) : Res (EnumSet T) :=
  EnumSet.mk <$> T.const_union a.priv_repr b.priv_repr
/-- `helper.const_intersection(a, b)` -/
def const_intersection (a b : EnumSet T) : Res (EnumSet T) :=
  EnumSet.mk <$> T.const_intersection a.priv_repr b.priv_repr
/-- `helper.const_symmetric_difference(a, b)` -/
def const_symmetric_difference (a b : EnumSet T) : Res (EnumSet T) :=
  EnumSet.mk <$> T.const_symmetric_difference a.priv_repr b.priv_repr
/-- `helper.const_complement(a)` -/
def const_complement (a : EnumSet T) : Res (EnumSet T) :=
  EnumSet.mk <$> T.const_complement a.priv_repr

/-- macros.rs:78-86, 112-120, 170-178, 204-212: `let value = …; $(let value = f(value, new);)* value`;
with an empty `rest` also macros.rs:75 etc. -/
def chain (f : EnumSet T → EnumSet T → Res (EnumSet T)) (value : Operand T)
    (rest : List (Operand T)) : Res (EnumSet T) := do
  let value ← const_only value
  forEach rest value fun r value => do
    let new ← const_only r
    f value new

/-- macros.rs:73-88 -/
def enum_set_union (value : Operand T) (rest : List (Operand T)) : Res (EnumSet T) :=
  chain const_union value rest
/-- macros.rs:107-122 -/
def enum_set_intersection (value : Operand T) (rest : List (Operand T)) : Res (EnumSet T) :=
  chain const_intersection value rest
/-- macros.rs:165-180 -/
def enum_set_difference (value : Operand T) (rest : List (Operand T)) : Res (EnumSet T) :=
  chain (fun value new => do
    let c ← const_complement new
    const_intersection value c) value rest
/-- macros.rs:199-214 -/
def enum_set_symmetric_difference (value : Operand T) (rest : List (Operand T)) :
    Res (EnumSet T) :=
  chain const_symmetric_difference value rest
/-- macros.rs:138-146 -/
def enum_set_complement (value : Operand T) : Res (EnumSet T) := do
  let value ← const_only value
  const_complement value

/-- macros.rs:43-56: the three arms -/
def enum_set : List (Operand T) → Res (EnumSet T)
  | [] => .ok EnumSet.empty
  | [value] => const_only value
  | value :: rest => enum_set_union value rest

/-- A whole call of `enum_set!`; `none` is a compile error. -/
def enum_set_call (ts : List (Tok (Operand T))) : Option (Res (EnumSet T)) :=
  (Tok.expandEnumSet ts).map enum_set
/-- The binary macros. -/
inductive Kind where
  | union | intersection | difference | symmetric_difference
  deriving DecidableEq, Repr
/-- The value of an expanded binary macro; an empty operand list does not occur
(`Tok.expandList` never returns one). -/
def evalKind : Kind → List (Operand T) → Option (Res (EnumSet T))
  | _, [] => none
  | .union, v :: r => some (enum_set_union v r)
  | .intersection, v :: r => some (enum_set_intersection v r)
  | .difference, v :: r => some (enum_set_difference v r)
  | .symmetric_difference, v :: r => some (enum_set_symmetric_difference v r)
/-- A whole call of one of the four binary macros; `none` is a compile error. -/
def list_call (k : Kind) (ts : List (Tok (Operand T))) : Option (Res (EnumSet T)) :=
  (Tok.expandList ts).bind (evalKind k)
/-- A whole call of `enum_set_complement!`; `none` is a compile error. -/
def complement_call (ts : List (Tok (Operand T))) : Option (Res (EnumSet T)) :=
  (Tok.expandComplement ts).map enum_set_complement

end ConstMacro

end Enumset
