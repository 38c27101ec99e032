import Verif.SpecMachine
import Verif.Macros
import Verif.IterStd
import Verif.Serde
import Verif.UserIter
/-!
# Running histories on the model of the crate (C01, C28, C45)

The commands of `SpecMachine.lean`, executed by calling the functions of `Set.lean`, `IterStd.lean`,
`Macros.lean`, `Serde.lean` and `UserIter.lean` (each of which cites its lines in /repo).  Nothing here is code of the crate except the
calls; a program that uses the crate is a Lean list of commands.

`h : n = T.n` lets a history be written for the variants of the source enum (`Fin n`) and be run on
different derived types.
-/
set_option autoImplicit false

namespace Enumset

/-- A call inside `catch_unwind`: a panic becomes a value.  Undefined behaviour and divergence stay. -/
def Res.caught {α : Type} : Res α → Res (Except Panic α)
  | .ok a => .ok (.ok a)
  | .panic p => .ok (.error p)
  | .ub => .ub
  | .diverge => .diverge

namespace Hist

variable [Platform]

/-- Values of the variables. -/
structure St (T : EnumSetType) where
  sets : Nat → EnumSet T
  iters : Nat → EnumSetIter T

/-- All set variables `EnumSet::new()`, all iterator variables `EnumSet::new().iter()`. -/
def St.init (T : EnumSetType) : Res (St T) := do
  let it ← (EnumSet.new : EnumSet T).iter
  pure ⟨fun _ => EnumSet.new, fun _ => it⟩

variable {T : EnumSetType} {n : Nat} (h : n = T.n)

def St.setSet (st : St T) (d : Nat) (s : EnumSet T) : St T :=
  { st with sets := fun a => if a = d then s else st.sets a }
def St.setIter (st : St T) (k : Nat) (it : EnumSetIter T) : St T :=
  { st with iters := fun j => if j = k then it else st.iters j }

/-- Variant number `v`. -/
def toVal (v : Fin n) : T.Val := Fin.cast h v
/-- The number of a variant. -/
def ofVal (v : T.Val) : Fin n := Fin.cast h.symm v

def Arg.operand (st : St T) : Arg n → Operand T
  | .val v => .val (toVal h v)
  | .reg a => .set (st.sets a)

/-- `a.union(b)` etc. -/
def BinOp.method : BinOp → EnumSet T → EnumSet T → Res (EnumSet T)
  | .union => EnumSet.union
  | .inter => EnumSet.intersection
  | .diff => EnumSet.difference
  | .symm => EnumSet.symmetrical_difference
/-- `a | x` etc. -/
def BinOp.operator : BinOp → EnumSet T → Operand T → Res (EnumSet T)
  | .union => EnumSet.bitor
  | .inter => EnumSet.bitand
  | .diff => EnumSet.sub
  | .symm => EnumSet.bitxor
/-- `a |= x` etc. -/
def BinOp.assignOp : BinOp → EnumSet T → Operand T → Res (EnumSet T)
  | .union => EnumSet.bitor_assign
  | .inter => EnumSet.bitand_assign
  | .diff => EnumSet.sub_assign
  | .symm => EnumSet.bitxor_assign
/-- `v | x` etc. -/
def BinOp.valOp : BinOp → T.Val → Operand T → Res (EnumSet T)
  | .union => EnumVal.bitor
  | .inter => EnumVal.bitand
  | .diff => EnumVal.sub
  | .symm => EnumVal.bitxor
/-- `enum_set_union!(v, …)` etc. -/
def BinOp.macro : BinOp → Operand T → List (Operand T) → Res (EnumSet T)
  | .union => ConstMacro.enum_set_union
  | .inter => ConstMacro.enum_set_intersection
  | .diff => ConstMacro.enum_set_difference
  | .symm => ConstMacro.enum_set_symmetric_difference

/-- An array of type `[u64; ws.len()]`. -/
def arr (ws : List U64) : Vector U64 ws.length := ⟨ws.toArray, by simp⟩

def Source.tryImport : Source → Res (Option (EnumSet T))
  | .num t x => EnumSet.try_from_num t x
  | .array ws => EnumSet.try_from_array ws.length (arr ws)
  | .slice ws => EnumSet.try_from_slice ws
def Source.import : Source → Res (EnumSet T)
  | .num t x => EnumSet.from_num t x
  | .array ws => EnumSet.from_array ws.length (arr ws)
  | .slice ws => EnumSet.from_slice ws
def Source.importTruncated : Source → Res (EnumSet T)
  | .num t x => EnumSet.from_num_truncated t x
  | .array ws => EnumSet.from_array_truncated ws.length (arr ws)
  | .slice ws => EnumSet.from_slice_truncated ws

/-- The value of an expression. -/
def Expr.eval (st : St T) : Expr n → Res (EnumSet T)
  | .new => .ok EnumSet.new
  | .empty => .ok EnumSet.empty
  | .all => .ok EnumSet.all
  | .EMPTY => .ok EnumSet.EMPTY
  | .ALL => .ok EnumSet.ALL
  | .default => .ok EnumSet.default
  | .only v => EnumSet.only (toVal h v)
  | .copy a => .ok (st.sets a)
  | .into x => (x.operand h st).into
  | .clear a => .ok (st.sets a).clear
  | .method op a b => op.method (st.sets a) (st.sets b)
  | .insertAll a b => (st.sets a).insert_all (st.sets b)
  | .removeAll a b => (st.sets a).remove_all (st.sets b)
  | .complement a => (st.sets a).complement
  | .operator op a x => op.operator (st.sets a) (x.operand h st)
  | .assign op a x => op.assignOp (st.sets a) (x.operand h st)
  | .not a => (st.sets a).not
  | .valOperator op v x => op.valOp (toVal h v) (x.operand h st)
  | .valNot v => EnumVal.not (toVal h v)
  | .fromIter vs => EnumSet.from_iter (vs.map (toVal h))
  | .extend a vs => (st.sets a).extend (vs.map (toVal h))
  | .fromSets l => EnumSet.from_iter_sets (l.map st.sets)
  | .extendSets a l => (st.sets a).extend_sets (l.map st.sets)
  | .sum vs => EnumSet.sum (vs.map (toVal h))
  | .sumSets l => EnumSet.sum_sets (l.map st.sets)
  | .collect k => EnumSet.collect (st.iters k)
  | .extendIter a k => (st.sets a).extend_iter (st.iters k)
  | .enumSet xs => ConstMacro.enum_set (xs.map (Arg.operand h st))
  | .listMacro op x xs => op.macro (x.operand h st) (xs.map (Arg.operand h st))
  | .complementMacro x => ConstMacro.enum_set_complement (x.operand h st)
  | .import src => src.import
  | .importTruncated src => src.importTruncated
  | .viaRepr a => EnumSet.from_repr (st.sets a).as_repr
  | .viaReprTruncated a => EnumSet.from_repr_truncated (st.sets a).as_repr

/-- The text written to a `String`; a `fmt::Error` cannot be reported by one. -/
def textOf (r : Res (Bool × String)) : Res (Obs n) := (fun x => .text x.2) <$> r

/-- What a serializer gets to see. -/
def serObs : SerValue T.Val → Obs n
  | .int t x => .data none (.int t x)
  | .seq len es => .data (some len) (.seq (es.map (ofVal h)))
  | .map len es => .data (some len) (.map (es.map fun x => (ofVal h x.1, x.2)))
  | .words ws => .data none (.words ws)

/-- A deserializer that yields the items `xs`, and after them an error if `broken`. -/
def items {α β : Type} (f : α → β) (broken : Bool) (xs : List α) : List (Except Unit β) :=
  xs.map (fun x => .ok (f x)) ++ if broken then [.error ()] else []

/-- A deserializer that yields the data, and after it an error if `broken`. -/
def Data.input (broken : Bool) : Data n → DeInput T.Val Unit
  | .int t x => .int t (if broken then .error () else .ok x)
  | .seq vs => .seq (items (toVal h) broken vs)
  | .map es => .map (items (fun x => (toVal h x.1, x.2)) broken es)
  | .words ws => .words (items id broken ws)

/-- An iterator that yields the items of the list and then ends or panics. -/
def scripted {α : Type} (p : Option Panic) : UserNext α (List α)
  | x :: xs => (.ok (some x), xs)
  | [] => (p.elim (.ok none) .panic, [])

/-- The answer of a query. -/
def Query.eval (st : St T) : Query n → Res (Obs n)
  | .bitWidth => .ok (.nat (EnumSet.bit_width T))
  | .variantCount => .ok (.nat (EnumSet.variant_count T))
  | .contains a v => .bool <$> (st.sets a).contains (toVal h v)
  | .len a => .nat <$> (st.sets a).len
  | .isEmpty a => .bool <$> (st.sets a).is_empty
  | .isDisjoint a b => .bool <$> (st.sets a).is_disjoint (st.sets b)
  | .isSubset a b => .bool <$> (st.sets a).is_subset (st.sets b)
  | .isSuperset a b => .bool <$> (st.sets a).is_superset (st.sets b)
  | .eq a b => .ok (.bool ((st.sets a).eq (st.sets b)))
  | .eqVal a v => .bool <$> (st.sets a).eq_val (toVal h v)
  | .valEq v a => .bool <$> EnumVal.eq_set (toVal h v) (st.sets a)
  | .valEqVal u v => .bool <$> T.val_eq (toVal h u) (toVal h v)
  | .cmp a b => .ok (.ord ((st.sets a).cmp (st.sets b)))
  | .partialCmp a b => match (st.sets a).partial_cmp (st.sets b) with
    | some o => .ok (.ord o)
    | none => .ok .unavailable
  | .sameHash a b => .ok (.bool (decide ((st.sets a).hash = (st.sets b).hash)))
  | .serialize a =>
    if Serde.compiles T then serObs h <$> Serde.serialize (st.sets a) else .ok .unavailable
  | .asNum .checked t a => (fun x => .nat x.toNat) <$> (st.sets a).as_num t
  | .asNum .try_ t a => (fun o => .optNat (o.map BitVec.toNat)) <$> (st.sets a).try_as_num t
  | .asNum .truncated t a => (fun x => .nat x.toNat) <$> (st.sets a).as_num_truncated t
  | .asArray .checked O a => (fun x => .words x.toList) <$> (st.sets a).as_array O
  | .asArray .try_ O a => (fun o => .optWords (o.map Vector.toList)) <$> (st.sets a).try_as_array O
  | .asArray .truncated O a => (fun x => .words x.toList) <$> (st.sets a).as_array_truncated O
  | .copyIntoSlice .checked a data => do
    let (r, data) ← (st.sets a).copy_into_slice data
    match ← r.caught with
    | .ok () => pure (.slice true data)
    | .error p => pure (.slicePanic p data)
  | .copyIntoSlice .try_ a data =>
    (fun x => .slice x.1.isSome x.2) <$> (st.sets a).try_copy_into_slice data
  | .copyIntoSlice .truncated a data => .slice true <$> (st.sets a).copy_into_slice_truncated data
  | .toVec a => .words <$> (st.sets a).to_vec
  | .debug a names =>
    textOf ((st.sets a).fmt_debug stringSink (fun v t => (true, t ++ names (ofVal h v))) "")
  | .display a names =>
    textOf ((st.sets a).fmt_display stringSink (fun v t => (true, t ++ names (ofVal h v))) "")
  | .sizeHint k => (fun x => .size x.1 x.2) <$> (st.iters k).size_hint
  | .iterLen k => .nat <$> (st.iters k).len
  | .count k => .nat <$> (st.iters k).count
  | .last k => (fun o => .val (o.map (ofVal h))) <$> (st.iters k).last
  | .min k => (fun o => .val (o.map (ofVal h))) <$> (st.iters k).min_by_discr
  | .max k => (fun o => .val (o.map (ofVal h))) <$> (st.iters k).max_by_discr
  | .collectVec k => (fun l => .vals (l.map (ofVal h))) <$> (st.iters k).collectVec
  | .collectVecRev k => (fun l => .vals (l.map (ofVal h))) <$> (st.iters k).collectVecRev

/-- The outcome of a call that may panic: the panic is caught, the variables keep their values. -/
def guarded {α : Type} (st : St T) (r : Res α) (k : α → Obs n × St T) : Res (Obs n × St T) := do
  match ← r.caught with
  | .ok a => pure (k a)
  | .error p => pure (.panic p, st)

/-- One command. -/
def Cmd.exec (st : St T) : Cmd n → Res (Obs n × St T)
  | .set d e => guarded st (e.eval h st) fun s => (.done, st.setSet d s)
  | .tryImport d src => guarded st (src.tryImport (T := T)) fun o =>
    match o with
    | some s => (.bool true, st.setSet d s)
    | none => (.bool false, st)
  | .insert d v => guarded st ((st.sets d).insert (toVal h v)) fun r => (.bool r.1, st.setSet d r.2)
  | .remove d v => guarded st ((st.sets d).remove (toVal h v)) fun r => (.bool r.1, st.setSet d r.2)
  | .deserialize d x broken =>
    if Serde.compiles T then
      match Serde.deserialize (x.input h broken) with
      | none => .ok (.unavailable, st)
      | some r => guarded st r fun o =>
        match o with
        | .ok s => (.done, st.setSet d s)
        | .error (.de ()) => (.refused false, st)
        | .error .unknownBits => (.refused true, st)
    else .ok (.unavailable, st)
  | .extendFrom d vs p => do
    let (r, s, _) := (st.sets d).extend_user (scripted p) (vs.length + 1) (vs.map (toVal h))
    match ← r.caught with
    | .ok () => pure (.done, st.setSet d s)
    | .error p => pure (.panic p, st.setSet d s)
  | .extendSetsFrom d l p => do
    let (r, s, _) := (st.sets d).extend_sets_user (scripted p) (l.length + 1) (l.map st.sets)
    match ← r.caught with
    | .ok () => pure (.done, st.setSet d s)
    | .error p => pure (.panic p, st.setSet d s)
  | .ask q => guarded st (q.eval h st) fun o => (o, st)
  | .iter k a => guarded st (st.sets a).iter fun it => (.done, st.setIter k it)
  | .cloneIter k l => .ok (.done, st.setIter k (st.iters l))
  | .next k => guarded st (st.iters k).next fun r => (.val (r.1.map (ofVal h)), st.setIter k r.2)
  | .nextBack k =>
    guarded st (st.iters k).next_back fun r => (.val (r.1.map (ofVal h)), st.setIter k r.2)
  | .nth k m => guarded st ((st.iters k).nth m) fun r => (.val (r.1.map (ofVal h)), st.setIter k r.2)
  | .nthBack k m =>
    guarded st ((st.iters k).nth_back m) fun r => (.val (r.1.map (ofVal h)), st.setIter k r.2)
  | .find k p => guarded st (EnumSetIter.find (fun v => p (ofVal h v)) (EnumSetIter.fuel T) (st.iters k))
    fun r => (.val (r.1.map (ofVal h)), st.setIter k r.2)
  | .rfind k p => guarded st (EnumSetIter.rfind (fun v => p (ofVal h v)) (EnumSetIter.fuel T) (st.iters k))
    fun r => (.val (r.1.map (ofVal h)), st.setIter k r.2)

/-- The answers of a history. -/
def runFrom : List (Cmd n) → St T → Res (List (Obs n))
  | [], _ => .ok []
  | c :: cs, st => do
    let (o, st) ← c.exec h st
    let os ← runFrom cs st
    pure (o :: os)

def run (cs : List (Cmd n)) : Res (List (Obs n)) := do
  let st ← St.init T
  runFrom h cs st

end Hist

end Enumset
