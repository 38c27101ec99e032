import Verif.SpecMachine
import Verif.SpecMac
import Verif.Src.SerdeLib
/-!
# The histories of SpecMachine.lean, run on the text

`Hist.answers` (SpecMachine.lean) says what a history of commands answers on mathematical sets.  Here the same
commands are run by calling, by name, the functions of the parsed text of the crate and of the code the derive macro
writes, and by expanding the macros of macros.rs.

`histLib` is the library: a formatter that keeps the text, a hasher that keeps the calls, a serializer that keeps the
data, a deserializer that yields given data, an iterator that yields given values and then ends or panics.

`Cmd.Runs` leaves out calls that do not compile, and data of as many items as a loop runs rounds.
-/
set_option autoImplicit false

namespace Enumset.Hist
open Src (Val Prog variant ConstMac)

/-- Values of the variables. -/
structure TSt (n : Nat) where
  sets : Nat → Val (Fin n)
  iters : Nat → Val (Fin n)

def TSt.setSet {n : Nat} (st : TSt n) (d : Nat) (s : Val (Fin n)) : TSt n :=
  { st with sets := fun a => if a = d then s else st.sets a }
def TSt.setIter {n : Nat} (st : TSt n) (k : Nat) (it : Val (Fin n)) : TSt n :=
  { st with iters := fun j => if j = k then it else st.iters j }

/-! ### names -/

def BinOp.methodName : BinOp → String
  | .union => "union" | .inter => "intersection" | .diff => "difference" | .symm => "symmetrical_difference"
def BinOp.operName : BinOp → String
  | .union => "bitor" | .inter => "bitand" | .diff => "sub" | .symm => "bitxor"
def BinOp.assignName : BinOp → String
  | .union => "bitor_assign" | .inter => "bitand_assign" | .diff => "sub_assign" | .symm => "bitxor_assign"
def BinOp.constMac : BinOp → ConstMac
  | .union => .enum_set_union | .inter => .enum_set_intersection | .diff => .enum_set_difference
  | .symm => .enum_set_symmetric_difference

section
variable [Platform] {n : Nat}

/-- `u8` … `usize`, `array`, `slice` -/
def Source.kind : Source → String
  | .num t _ => Src.NumTy.name t
  | .array _ => "array"
  | .slice _ => "slice"

/-- A slice or array of `u64`. -/
def u64s (ws : List U64) : Val (Fin n) := .arr (ws.map fun w => .int .u64 w.toNat)

def Source.value : Source → Val (Fin n)
  | .num t x => .int t x.toNat
  | .array ws | .slice ws => u64s ws

def Arg.value (ρ : TSt n) : Arg n → Val (Fin n)
  | .val v => variant v
  | .reg a => ρ.sets a

/-- An operand of a macro. -/
def Arg.operandOf : Arg n → Src.Arg n
  | .val v => .val v
  | .reg a => .set a

/-! ### reading results -/

def readBool : Val (Fin n) → Res (Obs n)
  | .bool b => .ok (.bool b)
  | _ => .ub
/-- an integer of the type `t` -/
def readNat (t : NumTy) : Val (Fin n) → Res (Obs n)
  | .int t' x => if t' = t then .ok (.nat x) else .ub
  | _ => .ub
def readOptNat (t : NumTy) : Val (Fin n) → Res (Obs n)
  | .some (.int t' x) => if t' = t then .ok (.optNat (some x)) else .ub
  | .none => .ok (.optNat none)
  | _ => .ub
def readU64s : Val (Fin n) → Res (List U64)
  | .arr xs => match Src.wordsOf xs with
    | some ws => .ok ws
    | none => .ub
  | _ => .ub
def readOptU64s : Val (Fin n) → Res (Option (List U64))
  | .some v => readU64s v >>= fun ws => .ok (some ws)
  | .none => .ok none
  | _ => .ub
def readOrd : Val (Fin n) → Res (Obs n)
  | .struct "Less" [] => .ok (.ord .lt)
  | .struct "Equal" [] => .ok (.ord .eq)
  | .struct "Greater" [] => .ok (.ord .gt)
  | _ => .ub
def readOptOrd : Val (Fin n) → Res (Obs n)
  | .some v => readOrd v
  | .none => .ok .unavailable
  | _ => .ub
/-- all items of a list -/
def decodeAll {α : Type} (dec : Val (Fin n) → Option α) : List (Val (Fin n)) → Res (List α)
  | [] => .ok []
  | x :: xs =>
    match dec x with
    | some a => decodeAll dec xs >>= fun l => .ok (a :: l)
    | none => .ub
def readSize : Val (Fin n) → Res (Nat × Option Nat)
  | .tup [.int .usize a, .some (.int .usize b)] => .ok (a, some b)
  | .tup [.int .usize a, .none] => .ok (a, none)
  | _ => .ub

/-! ### the libraries -/

/-- Add an item to a list. -/
def push (x : Val (Fin n)) : Val (Fin n) → Val (Fin n)
  | .arr xs => .arr (xs ++ [x])
  | v => v

/-- A formatter: what the variants are written as, and what was written so far. -/
def formatter (names : Fin n → String) (t : String) : Val (Fin n) :=
  .tup [.arr ((List.finRange n).map fun v => .str (names v)), .str t]
def formatStr : Val (Fin n) → String → Bool × Val (Fin n)
  | .tup [ns, .str t], s => (true, .tup [ns, .str (t ++ s)])
  | st, _ => (false, st)
def formatVariant (v : Fin n) : Val (Fin n) → Bool × Val (Fin n)
  | .tup [.arr ns, .str t] =>
    match ns[v.val]? with
    | some (.str s) => (true, .tup [.arr ns, .str (t ++ s)])
    | _ => (false, .unit)
  | st => (false, st)

/-- A call on a hasher. -/
def hashCall : HashWrite → Val (Fin n)
  | .int w x => .struct "write_int" [("width", .lit w), ("value", .lit x)]
  | .lenPrefix m => .struct "write_length_prefix" [("0", .lit m)]
  | .words ws => .struct "write" [("0", u64s ws)]
def readCall : Val (Fin n) → Option HashWrite
  | .struct "write_int" [("width", .lit w), ("value", .lit x)] => some (.int w x)
  | .struct "write_length_prefix" [("0", .lit m)] => some (.lenPrefix m)
  | .struct "write" [("0", .arr xs)] => (Src.wordsOf xs).map .words
  | _ => none

def entryVal (x : Fin n × Bool) : Val (Fin n) := .tup [variant x.1, .bool x.2]
def readVariant : Val (Fin n) → Option (Fin n)
  | .host "T" v => some v
  | _ => none
def readEntry : Val (Fin n) → Option (Fin n × Bool)
  | .tup [.host "T" v, .bool b] => some (v, b)
  | _ => none
def readWord : Val (Fin n) → Option U64
  | .int .u64 x => some (BitVec.ofNat 64 x)
  | _ => none

/-- Items to be serialized: what was announced, and the items. -/
def record (tag : String) (len : Option Nat) (xs : List (Val (Fin n))) : Val (Fin n) :=
  .struct tag [("len", match len with | some k => .some (.int .usize k) | none => .none), ("items", .arr xs)]
def recordItem (x : Val (Fin n)) : Val (Fin n) → Val (Fin n)
  | .struct tag [("len", len), ("items", xs)] => .struct tag [("len", len), ("items", push x xs)]
  | v => v

/-- A serializer that returns the data. -/
def recorder : Serializer (Fin n) (Val (Fin n)) (Val (Fin n)) (Val (Fin n)) where
  serialize_num t x st := (.ok (.int t x.toNat), st)
  serialize_seq len _ := (.ok (), record "seq" len [])
  serialize_element v st := (.ok (), recordItem (variant v) st)
  seq_end st := (.ok st, st)
  serialize_map len _ := (.ok (), record "map" len [])
  serialize_entry v b st := (.ok (), recordItem (entryVal (v, b)) st)
  map_end st := (.ok st, st)
  serialize_words ws st := (.ok (u64s ws), st)

def readLen : Val (Fin n) → Option (Option Nat)
  | .some (.int .usize k) => some (some k)
  | .none => some none
  | _ => none
/-- The data that the serializer returned. -/
def readData : Val (Fin n) → Res (Obs n)
  | .int t x => .ok (.data none (.int t (BitVec.ofNat t.bits x)))
  | .struct "seq" [("len", len), ("items", .arr xs)] => Src.need (readLen len) >>= fun len =>
      decodeAll readVariant xs >>= fun vs => .ok (.data len (.seq vs))
  | .struct "map" [("len", len), ("items", .arr xs)] => Src.need (readLen len) >>= fun len =>
      decodeAll readEntry xs >>= fun es => .ok (.data len (.map es))
  | .arr xs => decodeAll readWord xs >>= fun ws => .ok (.data none (.words ws))
  | _ => .ub

/-- Data to be deserialized, and whether an error follows (for an integer: instead of it). -/
def Data.value : Data n → Bool → Val (Fin n)
  | .int t x, b => .tup [.struct "int" [("0", .int t x.toNat)], .bool b]
  | .seq vs, b => .tup [.struct "seq" [("0", .arr (vs.map variant))], .bool b]
  | .map es, b => .tup [.struct "map" [("0", .arr (es.map entryVal))], .bool b]
  | .words ws, b => .tup [.struct "words" [("0", u64s ws)], .bool b]

/-- The error that follows the data. -/
def brokenOff : Val (Fin n) := .struct "broken" []
/-- The error that the data does not have the form that is asked for. -/
def invalidType : Val (Fin n) := .struct "invalid type" []
/-- `D::Error::custom(s)` -/
def customError (s : String) : Val (Fin n) := .struct "custom" [("0", .str s)]

def takeInt (t : NumTy) : Val (Fin n) → Except (Val (Fin n)) (BitVec t.bits)
  | .tup [.struct "int" [("0", .int t' x)], .bool b] =>
    if t' = t then if b then .error brokenOff else .ok (BitVec.ofNat t.bits x) else .error invalidType
  | _ => .error invalidType
/-- The next item of a sequence with the given tag. -/
def takeItem {α : Type} (tag : String) (dec : Val (Fin n) → Option α) : Access (Val (Fin n)) α (Val (Fin n))
  | .tup [.struct tag' [("0", .arr xs)], .bool b] =>
    if tag' = tag then
      match xs with
      | [] => (if b then .error brokenOff else .ok none, .tup [.struct tag' [("0", .arr [])], .bool b])
      | x :: xs =>
        match dec x with
        | some a => (.ok (some a), .tup [.struct tag' [("0", .arr xs)], .bool b])
        | none => (.error invalidType, .unit)
    else (.error invalidType, .unit)
  | _ => (.error invalidType, .unit)

/-! #### an iterator of the caller -/

/-- A panic, as a value. -/
def panicVal : Panic → Val (Fin n)
  | .overflow => .struct "overflow" []
  | .index => .struct "index" []
  | .sliceLen => .struct "sliceLen" []
  | .expect m => .struct "expect" [("0", .str m)]
  | .explicit m => .struct "explicit" [("0", .str m)]
/-- The panic with the given value. -/
def readPanic : Val (Fin n) → Option Panic
  | .struct "overflow" [] => some .overflow
  | .struct "index" [] => some .index
  | .struct "sliceLen" [] => some .sliceLen
  | .struct "expect" [("0", .str m)] => some (.expect m)
  | .struct "explicit" [("0", .str m)] => some (.explicit m)
  | _ => none

/-- What an iterator does after the last item: it ends (`none`), or panics with `p` (`some (s, p)`).  Before it panics, it
makes sure that the variable `self` of the function that calls it is `s`; if it is not, the outcome is not the panic. -/
def endVal : Option (Val (Fin n) × Panic) → Val (Fin n)
  | none => .none
  | some (s, p) => .some (.tup [s, panicVal p])
/-- An iterator that yields `xs`. -/
def userIter (xs : List (Val (Fin n))) (e : Option (Val (Fin n) × Panic)) : Val (Fin n) :=
  .struct "UserIter" [("0", .tup [.arr xs, endVal e])]

open Classical in
/-- Its `next`. -/
noncomputable def userNext (env : Src.Env (Fin n)) : Val (Fin n) → Res (Option (Val (Fin n)) × Val (Fin n))
  | .tup [.arr (x :: xs), e] => .ok (some x, .tup [.arr xs, e])
  | .tup [.arr [], .none] => .ok (none, .tup [.arr [], .none])
  | .tup [.arr [], .some (.tup [s, p])] =>
    if Src.lookup "self" env = some s then
      match readPanic p with
      | some p => .panic p
      | none => .ub
    else .ub
  | _ => .ub

/-- The libraries. -/
noncomputable def histLib : Src.SerdeLib n where
  ser := recorder
  deNum := takeInt
  deSeq := .ok
  deMap := .ok
  nextVariant := takeItem "seq" readVariant
  nextWord := takeItem "words" readWord
  nextEntry := takeItem "map" readEntry
  custom := customError
  write_str := formatStr
  fmtVariant := formatVariant
  hashWrite w := push (hashCall w)
  next := userNext

/-! ### provided methods of iterators

As in IterStd.lean, on an arbitrary `next`. -/
section
variable {α ι β : Type} (next : ι → Res (Option α × ι))

/-- `for x in iter { s = body(x, s) }`; `fuel` bounds the number of calls of `next`. -/
def foldIter : Nat → ι → β → (α → β → Res β) → Res β
  | 0, _, _, _ => .diverge
  | fuel + 1, it, s, f => next it >>= fun r =>
    match r.1 with
    | none => .ok s
    | some v => f v s >>= fun s => foldIter fuel r.2 s f

/-- `nth` -/
def nthIter : Nat → ι → Res (Option α × ι)
  | 0, it => next it
  | k + 1, it => next it >>= fun r =>
    match r.1 with
    | none => .ok (none, r.2)
    | some _ => nthIter k r.2

/-- `find` -/
def findIter (p : α → Bool) : Nat → ι → Res (Option α × ι)
  | 0, _ => .diverge
  | fuel + 1, it => next it >>= fun r =>
    match r.1 with
    | none => .ok (none, r.2)
    | some v => if p v then .ok (some v, r.2) else findIter p fuel r.2

/-- `reduce`, with `f y x` the choice between the item `y` and the accumulator `x` -/
def reduceIter (fuel : Nat) (it : ι) (f : α → α → α) : Res (Option α) :=
  next it >>= fun r =>
    match r.1 with
    | none => .ok none
    | some v => foldIter next fuel r.2 v (fun y x => .ok (f y x)) >>= fun m => .ok (some m)
end

/-! ### calls -/
variable (P : Prog (Fin n)) (nm : Fin n → String) (d : Fin n → Nat) (k : Nat)

/-- Call a method that takes `&mut self`, for the new value. -/
def newSelf (f : String) (args : List (Val (Fin n))) : Res (Val (Fin n)) :=
  P.getMut k f args >>= fun x => .ok x.2

/-- `s.extend(iter)` with an iterator that yields `xs` and then ends: the new value of `s`. -/
def extendText (f : String) (s : Val (Fin n)) (xs : List (Val (Fin n))) : Res (Val (Fin n)) :=
  newSelf P k f [s, userIter xs none]

/-- `s.extend(iter)` with an iterator that yields `xs` and then panics with `p`: the value of `s` that unwinding leaves.
The interpreter has no variables after a panic.  It is therefore the iterator that looks at `self` when it panics; the
value that it must see is the one that the loop has for `self` if the iterator ends there. -/
def extendPanicText (f : String) (s : Val (Fin n)) (xs : List (Val (Fin n))) (p : Panic) : Res (Val (Fin n)) :=
  extendText P k f s xs >>= fun s' =>
    match newSelf P k f [s, userIter xs (some (s', p))] with
    | .panic q => if q = p then .ok s' else .ub
    | _ => .ub

/-- `next` or `next_back` of `EnumSetIter` -/
def nextText (f : String) (it : Val (Fin n)) : Res (Option (Fin n) × Val (Fin n)) :=
  P.call k "EnumSetIter" f [] [] [it] >>= fun
    | (.none, [(0, it)]) => .ok (none, it)
    | (.some (.host "T" v), [(0, it)]) => .ok (some v, it)
    | _ => .ub

/-- A call of a macro with operands separated by `sep`. -/
def macroText (ρ : TSt n) (m : ConstMac) (sep : Tok (Src.Arg n)) (l : List (Arg n)) : Res (Val (Fin n)) :=
  P.stepMac nm k ρ.sets (.mac m 0 (List.intersperse sep ((l.map Arg.operandOf).map .path))) >>= fun x => .ok (x.2 0)

/-- The value of an expression. -/
def Expr.text (ρ : TSt n) : Expr n → Res (Val (Fin n))
  | .new => P.get k "new" []
  | .empty => P.get k "empty" []
  | .all => P.get k "all" []
  | .EMPTY => P.get k "EMPTY" []
  | .ALL => P.get k "ALL" []
  | .default => P.get k "default" []
  | .only v => P.get k "only" [variant v]
  | .copy a => .ok (ρ.sets a)
  | .into x => P.getOf k (x.value ρ).tag "into" [x.value ρ]
  | .clear a => newSelf P k "clear" [ρ.sets a]
  | .method op a b => P.get k op.methodName [ρ.sets a, ρ.sets b]
  | .insertAll a b => newSelf P k "insert_all" [ρ.sets a, ρ.sets b]
  | .removeAll a b => newSelf P k "remove_all" [ρ.sets a, ρ.sets b]
  | .complement a => P.get k "complement" [ρ.sets a]
  | .operator op a x => P.get k op.operName [ρ.sets a, x.value ρ]
  | .assign op a x => newSelf P k op.assignName [ρ.sets a, x.value ρ]
  | .not a => P.get k "not" [ρ.sets a]
  | .valOperator op v x => P.getOf k "T" op.operName [variant v, x.value ρ]
  | .valNot v => P.getOf k "T" "not" [variant v]
  | .fromIter vs => P.get k "from_iter_variants" [.arr (vs.map variant)]
  | .extend a vs => newSelf P k "extend_variants" [ρ.sets a, .arr (vs.map variant)]
  | .fromSets l => P.get k "from_iter_sets" [.arr (l.map ρ.sets)]
  | .extendSets a l => newSelf P k "extend_sets" [ρ.sets a, .arr (l.map ρ.sets)]
  | .sum vs => P.get k "sum_variants" [.arr (vs.map variant)]
  | .sumSets l => P.get k "sum_sets" [.arr (l.map ρ.sets)]
  | .collect j => P.get k "from_iter_variants" [ρ.iters j]
  | .extendIter a j => newSelf P k "extend_variants" [ρ.sets a, ρ.iters j]
  | .enumSet xs => macroText P nm k ρ .enum_set .bar xs
  | .listMacro op x xs => macroText P nm k ρ op.constMac .comma (x :: xs)
  | .complementMacro x => macroText P nm k ρ .enum_set_complement .comma [x]
  | .import src => P.get k ("from_" ++ src.kind) [src.value]
  | .importTruncated src => P.get k ("from_" ++ src.kind ++ "_truncated") [src.value]
  | .viaRepr a => P.get k "as_repr" [ρ.sets a] >>= fun r => P.get k "from_repr" [r]
  | .viaReprTruncated a => P.get k "as_repr" [ρ.sets a] >>= fun r => P.get k "from_repr_truncated" [r]

/-- The contents of a slice after a call that changes it. -/
def sliceText (f : String) (s : Val (Fin n)) (data : List U64) : Res (Val (Fin n) × List U64) :=
  P.call k "EnumSet" f [] [] [s, u64s data] >>= fun
    | (v, [(1, ws)]) => readU64s ws >>= fun ws => .ok (v, ws)
    | _ => .ub

/-- `as_array` etc. with the const parameter `O` -/
def arrayText (f : String) (O : Nat) (s : Val (Fin n)) : Res (Val (Fin n)) :=
  P.call k "EnumSet" f [] [.int .usize O] [s] >>= fun r => .ok r.1

/-- The calls that `hash` makes. -/
def hashText (s : Val (Fin n)) : Res (List HashWrite) :=
  P.call k "EnumSet" "hash" [] [] [s, .struct "Hasher" [("0", .arr [])]] >>= fun
    | (_, [(1, .struct "Hasher" [("0", .arr l)])]) => decodeAll readCall l
    | _ => .ub

/-- What `fmt` writes. -/
def formatText (f : String) (names : Fin n → String) (s : Val (Fin n)) : Res (Obs n) :=
  P.call k "EnumSet" f [] [] [s, .struct "Formatter" [("0", formatter names "")]] >>= fun
    | (.ok _, [(1, .struct "Formatter" [("0", .tup [_, .str t])])]) => .ok (.text t)
    | _ => .ub

/-- The answer of a query. -/
def Query.text (ρ : TSt n) : Query n → Res (Obs n)
  | .bitWidth => P.get k "bit_width" [] >>= readNat .u32
  | .variantCount => P.get k "variant_count" [] >>= readNat .u32
  | .contains a v => P.get k "contains" [ρ.sets a, variant v] >>= readBool
  | .len a => P.get k "len" [ρ.sets a] >>= readNat .usize
  | .isEmpty a => P.get k "is_empty" [ρ.sets a] >>= readBool
  | .isDisjoint a b => P.get k "is_disjoint" [ρ.sets a, ρ.sets b] >>= readBool
  | .isSubset a b => P.get k "is_subset" [ρ.sets a, ρ.sets b] >>= readBool
  | .isSuperset a b => P.get k "is_superset" [ρ.sets a, ρ.sets b] >>= readBool
  | .eq a b => P.get k "eq" [ρ.sets a, ρ.sets b] >>= readBool
  | .eqVal a v => P.get k "eq_variant" [ρ.sets a, variant v] >>= readBool
  | .valEq v a => P.getOf k "T" "eq_set" [variant v, ρ.sets a] >>= readBool
  | .valEqVal u v => P.getOf k "T" "eq" [variant u, variant v] >>= readBool
  | .cmp a b => P.get k "cmp" [ρ.sets a, ρ.sets b] >>= readOrd
  | .partialCmp a b => P.get k "partial_cmp" [ρ.sets a, ρ.sets b] >>= readOptOrd
  | .asNum .checked t a => P.get k ("as_" ++ Src.NumTy.name t) [ρ.sets a] >>= readNat t
  | .asNum .try_ t a => P.get k ("try_as_" ++ Src.NumTy.name t) [ρ.sets a] >>= readOptNat t
  | .asNum .truncated t a => P.get k ("as_" ++ Src.NumTy.name t ++ "_truncated") [ρ.sets a] >>= readNat t
  | .asArray .checked O a => arrayText P k "as_array" O (ρ.sets a) >>= fun v => readU64s v >>= fun ws => .ok (.words ws)
  | .asArray .try_ O a =>
    arrayText P k "try_as_array" O (ρ.sets a) >>= fun v => readOptU64s v >>= fun ws => .ok (.optWords ws)
  | .asArray .truncated O a =>
    arrayText P k "as_array_truncated" O (ρ.sets a) >>= fun v => readU64s v >>= fun ws => .ok (.words ws)
  | .copyIntoSlice .checked a data =>
    sliceText P k "copy_into_slice" (ρ.sets a) data >>= fun r => .ok (.slice true r.2)
  | .copyIntoSlice .try_ a data =>
    sliceText P k "try_copy_into_slice" (ρ.sets a) data >>= fun
      | (.some _, ws) => .ok (.slice true ws)
      | (.none, ws) => .ok (.slice false ws)
      | _ => .ub
  | .copyIntoSlice .truncated a data =>
    sliceText P k "copy_into_slice_truncated" (ρ.sets a) data >>= fun r => .ok (.slice true r.2)
  | .toVec a => P.get k "to_vec" [ρ.sets a] >>= fun v => readU64s v >>= fun ws => .ok (.words ws)
  | .sizeHint j => P.getOf k "EnumSetIter" "size_hint" [ρ.iters j] >>= fun v =>
      readSize v >>= fun x => .ok (.size x.1 x.2)
  | .iterLen j => P.getOf k "EnumSetIter" "size_hint" [ρ.iters j] >>= fun v => readSize v >>= fun x =>
      if x.2 = some x.1 then .ok (.nat x.1) else .panic (.explicit "assertion failed")
  | .count j => foldIter (nextText P k "next") P.fuel (ρ.iters j) 0 (fun _ c => addW usizeBits c 1) >>= fun c => .ok (.nat c)
  | .last j => foldIter (nextText P k "next") P.fuel (ρ.iters j) none (fun v _ => .ok (some v)) >>= fun o => .ok (.val o)
  | .min j => reduceIter (nextText P k "next") P.fuel (ρ.iters j) (fun y x => if d y < d x then y else x) >>= fun o => .ok (.val o)
  | .max j => reduceIter (nextText P k "next") P.fuel (ρ.iters j) (fun y x => if d y < d x then x else y) >>= fun o => .ok (.val o)
  | .collectVec j =>
    foldIter (nextText P k "next") P.fuel (ρ.iters j) [] (fun v acc => .ok (acc ++ [v])) >>= fun l => .ok (.vals l)
  | .collectVecRev j =>
    foldIter (nextText P k "next_back") P.fuel (ρ.iters j) [] (fun v acc => .ok (acc ++ [v])) >>= fun l => .ok (.vals l)
  | .sameHash a b => hashText P k (ρ.sets a) >>= fun x => hashText P k (ρ.sets b) >>= fun y => .ok (.bool (decide (x = y)))
  | .serialize a => P.get k "serialize" [ρ.sets a, .struct "Serializer" [("0", .unit)]] >>= fun
    | .ok (.tup [x, _]) => readData x
    | _ => .ub
  | .debug a names => formatText P k "fmt_debug" names (ρ.sets a)
  | .display a names => formatText P k "fmt_display" names (ρ.sets a)

/-- A call inside `catch_unwind`; the variables keep their values. -/
def guardText {α : Type} (ρ : TSt n) (r : Res α) (f : α → Obs n × TSt n) : Res (Obs n × TSt n) :=
  match r with
  | .ok a => .ok (f a)
  | .panic p => .ok (.panic p, ρ)
  | .ub => .ub
  | .diverge => .diverge

/-- One command. -/
def Cmd.text (ρ : TSt n) : Cmd n → Res (Obs n × TSt n)
  | .set r e => guardText ρ (e.text P nm k ρ) fun s => (.done, ρ.setSet r s)
  | .tryImport r src => guardText ρ (P.get k ("try_from_" ++ src.kind) [src.value] >>= fun
      | .some s => .ok (.bool true, ρ.setSet r s)
      | .none => .ok (.bool false, ρ)
      | _ => .ub) id
  | .insert r v => guardText ρ (P.getMut k "insert" [ρ.sets r, variant v] >>= fun x =>
      readBool x.1 >>= fun b => .ok (b, ρ.setSet r x.2)) id
  | .remove r v => guardText ρ (P.getMut k "remove" [ρ.sets r, variant v] >>= fun x =>
      readBool x.1 >>= fun b => .ok (b, ρ.setSet r x.2)) id
  | .ask q => guardText ρ (q.text P d k ρ) fun o => (o, ρ)
  | .iter j a => guardText ρ (P.get k "iter" [ρ.sets a]) fun it => (.done, ρ.setIter j it)
  | .cloneIter j l => .ok (.done, ρ.setIter j (ρ.iters l))
  | .next j => guardText ρ (nextText P k "next" (ρ.iters j)) fun r => (.val r.1, ρ.setIter j r.2)
  | .nextBack j => guardText ρ (nextText P k "next_back" (ρ.iters j)) fun r => (.val r.1, ρ.setIter j r.2)
  | .nth j m => guardText ρ (nthIter (nextText P k "next") m (ρ.iters j)) fun r => (.val r.1, ρ.setIter j r.2)
  | .nthBack j m => guardText ρ (nthIter (nextText P k "next_back") m (ρ.iters j)) fun r => (.val r.1, ρ.setIter j r.2)
  | .find j p => guardText ρ (findIter (nextText P k "next") p P.fuel (ρ.iters j)) fun r => (.val r.1, ρ.setIter j r.2)
  | .rfind j p => guardText ρ (findIter (nextText P k "next_back") p P.fuel (ρ.iters j)) fun r => (.val r.1, ρ.setIter j r.2)
  | .deserialize r x broken => guardText ρ (P.get k "deserialize" [.struct "Deserializer" [("0", x.value broken)]] >>= fun
      | .ok s => .ok (.done, ρ.setSet r s)
      | .err (.struct "custom" [("0", .str "enumset contains unknown bits")]) => .ok (.refused true, ρ)
      | .err (.struct "broken" []) => .ok (.refused false, ρ)
      | .err (.struct "invalid type" []) => .ok (.unavailable, ρ)
      | _ => .ub) id
  | .extendFrom r vs none =>
    guardText ρ (extendText P k "extend_variants" (ρ.sets r) (vs.map variant)) fun s => (.done, ρ.setSet r s)
  | .extendSetsFrom r l none =>
    guardText ρ (extendText P k "extend_sets" (ρ.sets r) (l.map ρ.sets)) fun s => (.done, ρ.setSet r s)
  | .extendFrom r vs (some p) =>
    extendPanicText P k "extend_variants" (ρ.sets r) (vs.map variant) p >>= fun s => .ok (.panic p, ρ.setSet r s)
  | .extendSetsFrom r l (some p) =>
    extendPanicText P k "extend_sets" (ρ.sets r) (l.map ρ.sets) p >>= fun s => .ok (.panic p, ρ.setSet r s)

/-- The answers of a history, from given values of the variables. -/
def runTextFrom : List (Cmd n) → TSt n → Res (List (Obs n))
  | [], _ => .ok []
  | c :: cs, ρ => c.text P nm d k ρ >>= fun x => runTextFrom cs x.2 >>= fun os => .ok (x.1 :: os)

/-- The answers of a history; all set variables are `EnumSet::new()`, all iterator variables `EnumSet::new().iter()`. -/
def runText (cs : List (Cmd n)) : Res (List (Obs n)) :=
  P.get k "new" [] >>= fun s => P.get k "iter" [s] >>= fun it => runTextFrom P nm d k cs ⟨fun _ => s, fun _ => it⟩

end

section
variable [Target] {n : Nat}

/-- Expressions that can be run: those that compile. -/
def Expr.Runs (attrs : EnumsetAttrs) : Expr n → Prop
  | .valOperator .. | .valNot _ => attrs.no_ops = false
  | _ => True

/-- Queries that can be run; `serde` says whether the serde code is there. -/
def Query.Runs (attrs : EnumsetAttrs) (serde : Bool) : Query n → Prop
  | .valEq .. => attrs.no_ops = false
  | .valEqVal .. => attrs.no_super_impls = false
  | .serialize _ => serde = true
  | _ => True

/-- The number of items. -/
def Data.items : Data n → Nat
  | .int .. => 1
  | .seq vs => vs.length
  | .map es => es.length
  | .words ws => ws.length

/-- Commands that can be run; a loop runs at most `fuel` rounds. -/
def Cmd.Runs (attrs : EnumsetAttrs) (serde : Bool) (fuel : Nat) : Cmd n → Prop
  | .set _ e => e.Runs attrs
  | .ask q => q.Runs attrs serde
  | .deserialize _ x _ => serde = true ∧ x.items < fuel
  | .extendFrom _ vs _ => vs.length < fuel
  | .extendSetsFrom _ l _ => l.length < fuel
  | _ => True

/-- The contents of a slice after `copy_into_slice` panicked are not observed. -/
def Obs.blur : Obs n → Obs n
  | .slicePanic p _ => .panic p
  | o => o
end

end Enumset.Hist
