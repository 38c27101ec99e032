import Verif.Spec
/-!
# Specification of histories of calls (C01, C28, C45)

A *history* is a list of commands over numbered set variables and numbered iterator variables.  This
file says what every command answers when a set is a mathematical set of variants (`Fin n → Bool`) and
an iterator is the list of the variants still to come.  Nothing here mentions how the crate works; the
only facts about the enum that enter are its discriminants `discr` and, for the calls whose answer
exposes the layout (`cmp`, `partialCmp`, `toVec`, `serialize`, `deserialize`), its documented storage
and serialized form.

A call that panics answers `Obs.panic` and leaves the variables unchanged (the program caught the
panic), except that `extend` over a caller's iterator that panics has inserted the items before.
-/
set_option autoImplicit false

namespace Enumset

namespace Hist

variable [Target]

/-- An operand of an operator or macro: a variant or a set variable. -/
inductive Arg (n : Nat) where
  | val (v : Fin n)
  | reg (a : Nat)
  deriving DecidableEq

inductive BinOp where
  | union | inter | diff | symm
  deriving DecidableEq

/-- Data a set can be imported from. -/
inductive Source where
  | num (t : NumTy) (x : BitVec t.bits)
  | array (ws : List U64)
  | slice (ws : List U64)

/-- Serialized data: an integer, a sequence of variants, a map from variants to booleans, a sequence of
words. -/
inductive Data (n : Nat) where
  | int (t : NumTy) (x : BitVec t.bits)
  | seq (vs : List (Fin n))
  | map (es : List (Fin n × Bool))
  | words (ws : List U64)

/-- What is documented about an enum besides its discriminants. -/
structure Layout where
  storage : Storage
  format : Format
  /-- `serialize_deny_unknown` -/
  deny : Bool

/-- The enum can be serialized.  The documentation does not say that it sometimes cannot; this is what
`C40_compiles` says about the generated code. -/
def Layout.serializable (lay : Layout) : Bool :=
  match lay.deny, lay.format, lay.storage with
  | false, _, _ => true
  | true, .list, _ => true
  | true, .map, _ => true
  | true, .int _, .int _ => true
  | true, _, _ => false

/-- Expressions whose value is a set. -/
inductive Expr (n : Nat) where
  | new | empty | all | EMPTY | ALL | default
  | only (v : Fin n)
  /-- `let d = a;` / `a.clone()` -/
  | copy (a : Nat)
  /-- `From<T>` / `Into` -/
  | into (x : Arg n)
  | clear (a : Nat)
  /-- `union`, `intersection`, `difference`, `symmetrical_difference` -/
  | method (op : BinOp) (a b : Nat)
  | insertAll (a b : Nat)
  | removeAll (a b : Nat)
  | complement (a : Nat)
  /-- `a | x` etc. -/
  | operator (op : BinOp) (a : Nat) (x : Arg n)
  /-- `a |= x` etc. -/
  | assign (op : BinOp) (a : Nat) (x : Arg n)
  | not (a : Nat)
  /-- `v | x` etc. -/
  | valOperator (op : BinOp) (v : Fin n) (x : Arg n)
  | valNot (v : Fin n)
  | fromIter (vs : List (Fin n))
  | extend (a : Nat) (vs : List (Fin n))
  | fromSets (l : List Nat)
  | extendSets (a : Nat) (l : List Nat)
  | sum (vs : List (Fin n))
  | sumSets (l : List Nat)
  /-- `it.clone().collect()` -/
  | collect (k : Nat)
  /-- `a.extend(it.clone())` -/
  | extendIter (a k : Nat)
  /-- `enum_set!(x | y | …)` -/
  | enumSet (xs : List (Arg n))
  /-- `enum_set_union!(x, y, …)` etc. -/
  | listMacro (op : BinOp) (x : Arg n) (xs : List (Arg n))
  /-- `enum_set_complement!(x)` -/
  | complementMacro (x : Arg n)
  /-- `from_u8` … `from_usize`, `from_array`, `from_slice` -/
  | import (src : Source)
  /-- `from_u8_truncated` … -/
  | importTruncated (src : Source)
  /-- `EnumSet::from_repr(a.as_repr())` -/
  | viaRepr (a : Nat)
  /-- `EnumSet::from_repr_truncated(a.as_repr())` -/
  | viaReprTruncated (a : Nat)

/-- `as_u8`, `try_as_u8`, `as_u8_truncated` … -/
inductive Mode where
  | checked | try_ | truncated
  deriving DecidableEq

/-- Calls that change nothing. -/
inductive Query (n : Nat) where
  | bitWidth
  | variantCount
  | contains (a : Nat) (v : Fin n)
  | len (a : Nat)
  | isEmpty (a : Nat)
  | isDisjoint (a b : Nat)
  | isSubset (a b : Nat)
  | isSuperset (a b : Nat)
  | eq (a b : Nat)
  /-- `a == v` -/
  | eqVal (a : Nat) (v : Fin n)
  /-- `v == a` -/
  | valEq (v : Fin n) (a : Nat)
  /-- `u == v` -/
  | valEqVal (u v : Fin n)
  | cmp (a b : Nat)
  | partialCmp (a b : Nat)
  /-- `hash(a) == hash(b)` with the same hasher: both feed it the same data -/
  | sameHash (a b : Nat)
  /-- `a.serialize(…)` -/
  | serialize (a : Nat)
  | asNum (m : Mode) (t : NumTy) (a : Nat)
  | asArray (m : Mode) (O : Nat) (a : Nat)
  | copyIntoSlice (m : Mode) (a : Nat) (data : List U64)
  | toVec (a : Nat)
  | debug (a : Nat) (names : Fin n → String)
  | display (a : Nat) (names : Fin n → String)
  | sizeHint (k : Nat)
  | iterLen (k : Nat)
  /-- `it.clone().count()` etc. -/
  | count (k : Nat)
  | last (k : Nat)
  | min (k : Nat)
  | max (k : Nat)
  | collectVec (k : Nat)
  | collectVecRev (k : Nat)

inductive Cmd (n : Nat) where
  /-- `d = e;` -/
  | set (d : Nat) (e : Expr n)
  /-- `if let Some(s) = EnumSet::try_from_…(src) { d = s; true } else { false }` -/
  | tryImport (d : Nat) (src : Source)
  | insert (d : Nat) (v : Fin n)
  | remove (d : Nat) (v : Fin n)
  /-- `if let Ok(s) = EnumSet::deserialize(x) { d = s; }`; if `broken`, the deserializer fails after the
  items of `x` (for an integer, instead of it) -/
  | deserialize (d : Nat) (x : Data n) (broken : Bool)
  /-- `d.extend(iter)` with an iterator of the caller that yields `vs` and then panics with `p` (`none`:
  ends) -/
  | extendFrom (d : Nat) (vs : List (Fin n)) (p : Option Panic)
  /-- the same with an iterator that yields sets -/
  | extendSetsFrom (d : Nat) (l : List Nat) (p : Option Panic)
  | ask (q : Query n)
  /-- `k = a.iter();` -/
  | iter (k a : Nat)
  /-- `k = l.clone();` -/
  | cloneIter (k l : Nat)
  | next (k : Nat)
  | nextBack (k : Nat)
  | nth (k m : Nat)
  | nthBack (k m : Nat)
  /-- `k.find(|v| p(v))` -/
  | find (k : Nat) (p : Fin n → Bool)
  /-- `k.rfind(|v| p(v))` -/
  | rfind (k : Nat) (p : Fin n → Bool)

/-- Answers. -/
inductive Obs (n : Nat) where
  | done
  | bool (b : Bool)
  | nat (x : Nat)
  | optNat (x : Option Nat)
  | val (v : Option (Fin n))
  | vals (vs : List (Fin n))
  | size (lower : Nat) (upper : Option Nat)
  | words (ws : List U64)
  | optWords (ws : Option (List U64))
  /-- whether the copy took place, and the contents of the slice afterwards -/
  | slice (copied : Bool) (ws : List U64)
  /-- a panic, and the contents of the slice afterwards -/
  | slicePanic (p : Panic) (ws : List U64)
  | ord (o : Ordering)
  | text (s : String)
  /-- the data handed to a serializer, and the number of items announced to it -/
  | data (announced : Option Nat) (x : Data n)
  /-- deserialization ends with an error: of the deserializer, or about unknown bits -/
  | refused (unknown : Bool)
  /-- there is no such program, or the deserializer cannot find what it is asked for -/
  | unavailable
  | panic (p : Panic)

/-! ### the meaning of commands on mathematical sets -/

/-- Values of the variables. -/
structure ASt (n : Nat) where
  sets : Nat → Fin n → Bool
  iters : Nat → List (Fin n)

/-- All variables empty. -/
def ASt.init {n : Nat} : ASt n := ⟨fun _ _ => false, fun _ => []⟩

def ASt.setSet {n : Nat} (st : ASt n) (d : Nat) (A : Fin n → Bool) : ASt n :=
  { st with sets := fun a => if a = d then A else st.sets a }
def ASt.setIter {n : Nat} (st : ASt n) (k : Nat) (L : List (Fin n)) : ASt n :=
  { st with iters := fun j => if j = k then L else st.iters j }

def BinOp.bool : BinOp → Bool → Bool → Bool
  | .union, a, b => a || b
  | .inter, a, b => a && b
  | .diff, a, b => a && !b
  | .symm, a, b => a != b

/-- The documented panics. -/
def doesNotFitType : Panic := .expect "Bitset will not fit into this type."
def doesNotFitSlice : Panic := .expect "Bitset will not fit into slice."
def invalidVariants : Panic := .expect "Bitset contains invalid variants."

/-- The number whose bits are the discriminants of the elements. -/
def mask {n : Nat} (discr : Fin n → Nat) (A : Fin n → Bool) : Nat :=
  ((List.finRange n).filter A).foldl (fun m v => m ||| 1 <<< discr v) 0

/-- The number with the given 64-bit digits, least significant first. -/
def ofWords : List U64 → Nat
  | [] => 0
  | w :: ws => w.toNat + 2 ^ 64 * ofWords ws

/-- The `k` least significant 64-bit digits. -/
def toWords (k m : Nat) : List U64 := (List.range k).map fun i => BitVec.ofNat 64 (m >>> (64 * i))

def Source.toNat : Source → Nat
  | .num _ x => x.toNat
  | .array ws => ofWords ws
  | .slice ws => ofWords ws

/-- All bits of `x` are discriminants. -/
def known {n : Nat} (discr : Fin n → Nat) (x : Nat) : Bool :=
  decide (x &&& mask discr (fun _ => true) = x)

/-- Bit `i` is compared before bit `j` in the given storage: an integer is compared from the top bit
down, an array word by word from the first word, each word from its top bit down. -/
def before : Storage → Nat → Nat → Bool
  | .int _, i, j => decide (j < i)
  | .array _, i, j => decide (i / 64 < j / 64 ∨ (i / 64 = j / 64 ∧ j < i))

/-- `A` is less than `B` as sets kept in the given storage: at the first bit where they differ, `B` has
the element. -/
def less {n : Nat} (discr : Fin n → Nat) (storage : Storage) (A B : Fin n → Bool) : Bool :=
  decide (∃ v, A v = false ∧ B v = true ∧ ∀ u, before storage (discr u) (discr v) = true → A u = B u)

/-- How `A` compares to `B` as sets kept in the given storage. -/
def compared {n : Nat} (discr : Fin n → Nat) (storage : Storage) (A B : Fin n → Bool) : Ordering :=
  if less discr storage A B then .lt else if less discr storage B A then .gt else .eq

/-- The serialized integer types by width. -/
def numOfWidth (w : Nat) : Option NumTy := [NumTy.u8, .u16, .u32, .u64, .u128].find? (·.bits == w)

/-- The largest discriminant of an element. -/
def largest {n : Nat} (discr : Fin n → Nat) (A : Fin n → Bool) : Nat :=
  ((List.finRange n).filter A).foldl (fun m v => Nat.max m (discr v)) 0

/-- What a set is serialized as. -/
def serialized {n : Nat} (discr : Fin n → Nat) (lay : Layout) (A : Fin n → Bool) : Obs n :=
  if lay.serializable then match lay.format with
    | .int w => match numOfWidth w with
      | some t => .data none (.int t (BitVec.ofNat t.bits (mask discr A)))
      | none => .unavailable
    | .list => .data (some (card A)) (.seq (sortedMembers discr A))
    | .map => .data (some (card A)) (.map ((sortedMembers discr A).map fun v => (v, true)))
    | .array =>
      if ∀ v, A v = false then .data none (.words [0])
      else .data none (.words (toWords (Nat.min lay.storage.words (largest discr A / 64 + 2))
        (mask discr A)))
  else .unavailable

/-- What serialized data means. -/
inductive Read (n : Nat) where
  | set (A : Fin n → Bool)
  | refused (unknown : Bool)
  | panic (p : Panic)
  | unavailable

/-- The meaning of data that is `broken` off by an error of the deserializer, or complete. -/
def Data.read {n : Nat} (discr : Fin n → Nat) (lay : Layout) (x : Data n) (broken : Bool) : Read n :=
  if lay.serializable then match lay.format, x with
    | .int w, .int t x =>
      if numOfWidth w = some t then
        if broken then .refused false
        else if lay.deny && !known discr x.toNat then .refused true
        else .set fun u => x.toNat.testBit (discr u)
      else .unavailable
    | .list, .seq vs => if broken then .refused false else .set fun u => decide (u ∈ vs)
    | .map, .map es => if broken then .refused false else .set fun u => decide ((u, true) ∈ es)
    | .array, .words ws =>
      if broken then .refused false
      else if known discr (ofWords (ws.take lay.storage.words)) then
        .set fun u => (ofWords (ws.take lay.storage.words)).testBit (discr u)
      else .panic invalidVariants
    | _, _ => .unavailable
  else .unavailable

section

variable {n : Nat} (discr : Fin n → Nat) (lay : Layout)

def Arg.den (st : ASt n) : Arg n → Fin n → Bool
  | .val v, u => decide (u = v)
  | .reg a, u => st.sets a u

def Expr.den (st : ASt n) : Expr n → Except Panic (Fin n → Bool)
  | .new | .empty | .EMPTY | .default => .ok fun _ => false
  | .all | .ALL => .ok fun _ => true
  | .only v => .ok fun u => decide (u = v)
  | .copy a => .ok (st.sets a)
  | .into x => .ok (x.den st)
  | .clear _ => .ok fun _ => false
  | .method op a b => .ok fun u => op.bool (st.sets a u) (st.sets b u)
  | .insertAll a b => .ok fun u => st.sets a u || st.sets b u
  | .removeAll a b => .ok fun u => st.sets a u && !st.sets b u
  | .complement a => .ok fun u => !st.sets a u
  | .operator op a x => .ok fun u => op.bool (st.sets a u) (x.den st u)
  | .assign op a x => .ok fun u => op.bool (st.sets a u) (x.den st u)
  | .not a => .ok fun u => !st.sets a u
  | .valOperator op v x => .ok fun u => op.bool (decide (u = v)) (x.den st u)
  | .valNot v => .ok fun u => !decide (u = v)
  | .fromIter vs => .ok fun u => decide (u ∈ vs)
  | .extend a vs => .ok fun u => st.sets a u || decide (u ∈ vs)
  | .fromSets l => .ok fun u => l.any fun a => st.sets a u
  | .extendSets a l => .ok fun u => st.sets a u || l.any fun b => st.sets b u
  | .sum vs => .ok fun u => decide (u ∈ vs)
  | .sumSets l => .ok fun u => l.any fun a => st.sets a u
  | .collect k => .ok fun u => decide (u ∈ st.iters k)
  | .extendIter a k => .ok fun u => st.sets a u || decide (u ∈ st.iters k)
  | .enumSet xs => .ok fun u => xs.any fun x => x.den st u
  | .listMacro op x xs => .ok fun u => xs.foldl (fun b y => op.bool b (y.den st u)) (x.den st u)
  | .complementMacro x => .ok fun u => !x.den st u
  | .import src =>
    if known discr src.toNat then .ok fun u => src.toNat.testBit (discr u)
    else .error invalidVariants
  | .importTruncated src => .ok fun u => src.toNat.testBit (discr u)
  | .viaRepr a => .ok (st.sets a)
  | .viaReprTruncated a => .ok (st.sets a)

/-- The text of a set: the names in increasing order of discriminant, separated by ` | `. -/
def setText (A : Fin n → Bool) (names : Fin n → String) : String :=
  String.join (((sortedMembers discr A).map names).intersperse " | ")

def Query.den (st : ASt n) : Query n → Obs n
  | .bitWidth => .nat ((List.finRange n).foldl (fun m v => Nat.max m (discr v)) 0 + 1)
  | .variantCount => .nat n
  | .contains a v => .bool (st.sets a v)
  | .len a => .nat (card (st.sets a))
  | .isEmpty a => .bool (decide (∀ u, st.sets a u = false))
  | .isDisjoint a b => .bool (decide (∀ u, ¬ (st.sets a u = true ∧ st.sets b u = true)))
  | .isSubset a b => .bool (decide (∀ u, st.sets a u = true → st.sets b u = true))
  | .isSuperset a b => .bool (decide (∀ u, st.sets b u = true → st.sets a u = true))
  | .eq a b => .bool (decide (∀ u, st.sets a u = st.sets b u))
  | .eqVal a v => .bool (decide (∀ u, st.sets a u = decide (u = v)))
  | .valEq v a => .bool (decide (∀ u, st.sets a u = decide (u = v)))
  | .valEqVal u v => .bool (decide (u = v))
  | .cmp a b => .ord (compared discr lay.storage (st.sets a) (st.sets b))
  | .partialCmp a b => .ord (compared discr lay.storage (st.sets a) (st.sets b))
  | .sameHash a b => .bool (decide (∀ u, st.sets a u = st.sets b u))
  | .serialize a => serialized discr lay (st.sets a)
  | .asNum m t a =>
    let x := mask discr (st.sets a)
    match m with
    | .checked => if x < 2 ^ t.bits then .nat x else .panic doesNotFitType
    | .try_ => .optNat (if x < 2 ^ t.bits then some x else none)
    | .truncated => .nat (x % 2 ^ t.bits)
  | .asArray m O a =>
    let x := mask discr (st.sets a)
    match m with
    | .checked => if x < 2 ^ (64 * O) then .words (toWords O x) else .panic doesNotFitType
    | .try_ => .optWords (if x < 2 ^ (64 * O) then some (toWords O x) else none)
    | .truncated => .words (toWords O x)
  | .copyIntoSlice m a data =>
    let x := mask discr (st.sets a)
    match m with
    | .checked =>
      if x < 2 ^ (64 * data.length) then .slice true (toWords data.length x)
      else .slicePanic doesNotFitSlice data
    | .try_ =>
      if x < 2 ^ (64 * data.length) then .slice true (toWords data.length x) else .slice false data
    | .truncated => .slice true (toWords data.length x)
  | .toVec a => .words (toWords lay.storage.words (mask discr (st.sets a)))
  | .debug a names => .text ("EnumSet(" ++ setText discr (st.sets a) names ++ ")")
  | .display a names => .text (setText discr (st.sets a) names)
  | .sizeHint k => .size (st.iters k).length (some (st.iters k).length)
  | .iterLen k => .nat (st.iters k).length
  | .count k => .nat (st.iters k).length
  | .last k => .val (st.iters k).getLast?
  | .min k => .val (st.iters k).head?
  | .max k => .val (st.iters k).getLast?
  | .collectVec k => .vals (st.iters k)
  | .collectVecRev k => .vals (st.iters k).reverse

def Cmd.den (st : ASt n) : Cmd n → Obs n × ASt n
  | .set d e => match e.den discr st with
    | .ok A => (.done, st.setSet d A)
    | .error p => (.panic p, st)
  | .tryImport d src =>
    if known discr src.toNat then (.bool true, st.setSet d fun u => src.toNat.testBit (discr u))
    else (.bool false, st)
  | .insert d v => (.bool (!st.sets d v), st.setSet d fun u => st.sets d u || decide (u = v))
  | .remove d v => (.bool (st.sets d v), st.setSet d fun u => st.sets d u && !decide (u = v))
  | .deserialize d x broken => match x.read discr lay broken with
    | .set A => (.done, st.setSet d A)
    | .refused b => (.refused b, st)
    | .panic p => (.panic p, st)
    | .unavailable => (.unavailable, st)
  | .extendFrom d vs p =>
    (p.elim .done .panic, st.setSet d fun u => st.sets d u || decide (u ∈ vs))
  | .extendSetsFrom d l p =>
    (p.elim .done .panic, st.setSet d fun u => st.sets d u || l.any fun b => st.sets b u)
  | .ask q => (q.den discr lay st, st)
  | .iter k a => (.done, st.setIter k (sortedMembers discr (st.sets a)))
  | .cloneIter k l => (.done, st.setIter k (st.iters l))
  | .next k => (.val (st.iters k).head?, st.setIter k (st.iters k).tail)
  | .nextBack k => (.val (st.iters k).getLast?, st.setIter k (st.iters k).dropLast)
  | .nth k m => (.val (st.iters k)[m]?, st.setIter k ((st.iters k).drop (m + 1)))
  | .nthBack k m =>
    (.val (st.iters k).reverse[m]?, st.setIter k ((st.iters k).reverse.drop (m + 1)).reverse)
  | .find k p =>
    (.val ((st.iters k).find? p), st.setIter k ((st.iters k).dropWhile fun v => !p v).tail)
  | .rfind k p =>
    (.val ((st.iters k).reverse.find? p),
      st.setIter k (((st.iters k).reverse.dropWhile fun v => !p v).tail).reverse)

/-- The answers of a history. -/
def answers : List (Cmd n) → ASt n → List (Obs n)
  | [], _ => []
  | c :: cs, st => (c.den discr lay st).1 :: answers cs (c.den discr lay st).2

end

end Hist

end Enumset

/-! ### vocabulary of C01, C28 and C45 -/

namespace Enumset

namespace Hist

variable [Target] {n : Nat}

/-- The discriminants the compiler assigns to the variants of the input. -/
def discrOf (inp : DeriveInput) (v : Fin inp.variants.length) : Nat :=
  ((rustcDiscriminants inp.variants).getD v 0).toNat

/-- What is documented about the input. -/
def layoutOf (inp : DeriveInput) : Layout :=
  ⟨storageOf inp, formatOf inp, inp.attrs.serialize_deny_unknown⟩

/-- `o` is the answer of a call that panicked with `p`. -/
def Obs.PanicsWith (o : Obs n) (p : Panic) : Prop := o = .panic p ∨ ∃ ws, o = .slicePanic p ws

/-- The calls whose documentation says that they panic, and deserialization of words. -/
def Cmd.Checked : Cmd n → Prop
  | .set _ (.import _) => True
  | .deserialize _ (.words _) _ => True
  | .ask (.asNum .checked _ _) => True
  | .ask (.asArray .checked _ _) => True
  | .ask (.copyIntoSlice .checked _ _) => True
  | _ => False

/-- The call runs an iterator of the caller that panics with `p`. -/
def Cmd.CallerPanics (p : Panic) : Cmd n → Prop
  | .extendFrom _ _ q | .extendSetsFrom _ _ q => q = some p
  | _ => False

/-- The call serializes or deserializes. -/
def Cmd.usesSerde : Cmd n → Bool
  | .ask (.serialize _) | .deserialize _ _ _ => true
  | _ => false

/-- Both layouts serialize in the same form, not words (in which form deserialization depends on the
storage, see `C28_words_fails`). -/
structure Layout.SameSerde (l₁ l₂ : Layout) : Prop where
  format : l₁.format = l₂.format
  not_words : l₁.format ≠ .array
  deny : l₁.deny = l₂.deny
  serializable : l₁.serializable = l₂.serializable

/-- The answer of a call does not expose the layout. -/
def Cmd.Portable : Cmd n → Prop
  | .ask (.cmp _ _) => False
  | .ask (.partialCmp _ _) => False
  | .ask (.toVec _) => False
  | _ => True

/-- Equal answers, where `to_vec` may differ in trailing zero words and `cmp` and `partial_cmp` in the
direction of the order. -/
def Cmd.SameAnswer (c : Cmd n) (o₁ o₂ : Obs n) : Prop :=
  match c with
  | .ask (.toVec _) => ∃ ws k, (o₁ = .words ws ∧ o₂ = .words (ws ++ List.replicate k 0)) ∨
      (o₂ = .words ws ∧ o₁ = .words (ws ++ List.replicate k 0))
  | .ask (.cmp _ _) | .ask (.partialCmp _ _) => ∃ r₁ r₂, o₁ = .ord r₁ ∧ o₂ = .ord r₂ ∧ (r₁ = .eq ↔ r₂ = .eq)
  | _ => o₁ = o₂

/-- The call is made on iterator variable `k` (or a clone of it). -/
def Cmd.onIter (k : Nat) : Cmd n → Bool
  | .next j | .nextBack j | .nth j _ | .nthBack j _ | .find j _ | .rfind j _ => j == k
  | .ask (.sizeHint j) | .ask (.iterLen j) | .ask (.count j) | .ask (.last j) | .ask (.min j)
  | .ask (.max j) | .ask (.collectVec j) | .ask (.collectVecRev j) => j == k
  | _ => false

/-- The command stores another iterator in variable `k`. -/
def Cmd.redefines (k : Nat) : Cmd n → Bool
  | .iter j _ | .cloneIter j _ => j == k
  | _ => false

/-- A call on an iterator. -/
inductive IterCall (n : Nat) where
  | next | nextBack | nth (m : Nat) | nthBack (m : Nat)
  | find (p : Fin n → Bool) | rfind (p : Fin n → Bool)
  | sizeHint | len | count | last | min | max | collectVec | collectVecRev

/-- The call made on iterator variable `k`. -/
def IterCall.on (k : Nat) : IterCall n → Cmd n
  | .next => .next k
  | .nextBack => .nextBack k
  | .nth m => .nth k m
  | .nthBack m => .nthBack k m
  | .find p => .find k p
  | .rfind p => .rfind k p
  | .sizeHint => .ask (.sizeHint k)
  | .len => .ask (.iterLen k)
  | .count => .ask (.count k)
  | .last => .ask (.last k)
  | .min => .ask (.min k)
  | .max => .ask (.max k)
  | .collectVec => .ask (.collectVec k)
  | .collectVecRev => .ask (.collectVecRev k)

end Hist

end Enumset
