import Verif.Macros
import Verif.Serde
import Verif.IterStd
/-!
# Which sets a user can build without `unsafe`

One constructor per safe public function (or macro, operator, trait impl) that returns an `EnumSet`
or changes one through `&mut`.
-/
set_option autoImplicit false

namespace Enumset

variable [Platform] {T : EnumSetType}

/-- Obtained through the safe public API. -/
inductive Safe : EnumSet T → Prop
  | new : Safe EnumSet.new
  | empty : Safe EnumSet.empty
  | all : Safe EnumSet.all
  | EMPTY : Safe EnumSet.EMPTY
  | ALL : Safe EnumSet.ALL
  | default : Safe EnumSet.default
  | only {v : T.Val} {s : EnumSet T} : EnumSet.only v = .ok s → Safe s
  | clear {a : EnumSet T} : Safe a → Safe a.clear
  | insert {a s : EnumSet T} {v : T.Val} {b : Bool} : Safe a → a.insert v = .ok (b, s) → Safe s
  | remove {a s : EnumSet T} {v : T.Val} {b : Bool} : Safe a → a.remove v = .ok (b, s) → Safe s
  | union {a b s : EnumSet T} : Safe a → Safe b → a.union b = .ok s → Safe s
  | intersection {a b s : EnumSet T} : Safe a → Safe b → a.intersection b = .ok s → Safe s
  | difference {a b s : EnumSet T} : Safe a → Safe b → a.difference b = .ok s → Safe s
  | symmetrical_difference {a b s : EnumSet T} :
      Safe a → Safe b → a.symmetrical_difference b = .ok s → Safe s
  | complement {a s : EnumSet T} : Safe a → a.complement = .ok s → Safe s
  | insert_all {a b s : EnumSet T} : Safe a → Safe b → a.insert_all b = .ok s → Safe s
  | remove_all {a b s : EnumSet T} : Safe a → Safe b → a.remove_all b = .ok s → Safe s
  | into {o : Operand T} {s : EnumSet T} : (∀ b, o = .set b → Safe b) → o.into = .ok s → Safe s
  | sub {a s : EnumSet T} {o : Operand T} :
      Safe a → (∀ b, o = .set b → Safe b) → a.sub o = .ok s → Safe s
  | bitand {a s : EnumSet T} {o : Operand T} :
      Safe a → (∀ b, o = .set b → Safe b) → a.bitand o = .ok s → Safe s
  | bitor {a s : EnumSet T} {o : Operand T} :
      Safe a → (∀ b, o = .set b → Safe b) → a.bitor o = .ok s → Safe s
  | bitxor {a s : EnumSet T} {o : Operand T} :
      Safe a → (∀ b, o = .set b → Safe b) → a.bitxor o = .ok s → Safe s
  | sub_assign {a s : EnumSet T} {o : Operand T} :
      Safe a → (∀ b, o = .set b → Safe b) → a.sub_assign o = .ok s → Safe s
  | bitand_assign {a s : EnumSet T} {o : Operand T} :
      Safe a → (∀ b, o = .set b → Safe b) → a.bitand_assign o = .ok s → Safe s
  | bitor_assign {a s : EnumSet T} {o : Operand T} :
      Safe a → (∀ b, o = .set b → Safe b) → a.bitor_assign o = .ok s → Safe s
  | bitxor_assign {a s : EnumSet T} {o : Operand T} :
      Safe a → (∀ b, o = .set b → Safe b) → a.bitxor_assign o = .ok s → Safe s
  | not {a s : EnumSet T} : Safe a → a.not = .ok s → Safe s
  | val_sub {v : T.Val} {s : EnumSet T} {o : Operand T} :
      (∀ b, o = .set b → Safe b) → EnumVal.sub v o = .ok s → Safe s
  | val_bitand {v : T.Val} {s : EnumSet T} {o : Operand T} :
      (∀ b, o = .set b → Safe b) → EnumVal.bitand v o = .ok s → Safe s
  | val_bitor {v : T.Val} {s : EnumSet T} {o : Operand T} :
      (∀ b, o = .set b → Safe b) → EnumVal.bitor v o = .ok s → Safe s
  | val_bitxor {v : T.Val} {s : EnumSet T} {o : Operand T} :
      (∀ b, o = .set b → Safe b) → EnumVal.bitxor v o = .ok s → Safe s
  | val_not {v : T.Val} {s : EnumSet T} : EnumVal.not v = .ok s → Safe s
  | try_from_repr {r : T.Repr} {s : EnumSet T} : EnumSet.try_from_repr r = .ok (some s) → Safe s
  | from_repr {r : T.Repr} {s : EnumSet T} : EnumSet.from_repr r = .ok s → Safe s
  | from_repr_truncated {r : T.Repr} {s : EnumSet T} :
      EnumSet.from_repr_truncated r = .ok s → Safe s
  | try_from_num {n : NumTy} {x : BitVec n.bits} {s : EnumSet T} :
      EnumSet.try_from_num n x = .ok (some s) → Safe s
  | from_num {n : NumTy} {x : BitVec n.bits} {s : EnumSet T} :
      EnumSet.from_num n x = .ok s → Safe s
  | from_num_truncated {n : NumTy} {x : BitVec n.bits} {s : EnumSet T} :
      EnumSet.from_num_truncated n x = .ok s → Safe s
  | try_from_array {O : Nat} {x : Vector U64 O} {s : EnumSet T} :
      EnumSet.try_from_array O x = .ok (some s) → Safe s
  | from_array {O : Nat} {x : Vector U64 O} {s : EnumSet T} :
      EnumSet.from_array O x = .ok s → Safe s
  | from_array_truncated {O : Nat} {x : Vector U64 O} {s : EnumSet T} :
      EnumSet.from_array_truncated O x = .ok s → Safe s
  | try_from_slice {x : List U64} {s : EnumSet T} :
      EnumSet.try_from_slice x = .ok (some s) → Safe s
  | from_slice {x : List U64} {s : EnumSet T} : EnumSet.from_slice x = .ok s → Safe s
  | from_slice_truncated {x : List U64} {s : EnumSet T} :
      EnumSet.from_slice_truncated x = .ok s → Safe s
  | extend {a s : EnumSet T} {l : List T.Val} : Safe a → a.extend l = .ok s → Safe s
  | from_iter {s : EnumSet T} {l : List T.Val} : EnumSet.from_iter l = .ok s → Safe s
  | extend_sets {a s : EnumSet T} {l : List (EnumSet T)} :
      Safe a → (∀ x ∈ l, Safe x) → a.extend_sets l = .ok s → Safe s
  | from_iter_sets {s : EnumSet T} {l : List (EnumSet T)} :
      (∀ x ∈ l, Safe x) → EnumSet.from_iter_sets l = .ok s → Safe s
  | sum_sets {s : EnumSet T} {l : List (EnumSet T)} :
      (∀ x ∈ l, Safe x) → EnumSet.sum_sets l = .ok s → Safe s
  | sum {s : EnumSet T} {l : List T.Val} : EnumSet.sum l = .ok s → Safe s
  | extend_iter {a s : EnumSet T} {it : EnumSetIter T} : Safe a → a.extend_iter it = .ok s → Safe s
  | collect {s : EnumSet T} {it : EnumSetIter T} : EnumSet.collect it = .ok s → Safe s
  | enum_set {s : EnumSet T} {ts : List (Tok (Operand T))} :
      (∀ b, Tok.path (.set b) ∈ ts → Safe b) → ConstMacro.enum_set_call ts = some (.ok s) → Safe s
  | list_macro {s : EnumSet T} {k : ConstMacro.Kind} {ts : List (Tok (Operand T))} :
      (∀ b, Tok.path (.set b) ∈ ts → Safe b) → ConstMacro.list_call k ts = some (.ok s) → Safe s
  | complement_macro {s : EnumSet T} {ts : List (Tok (Operand T))} :
      (∀ b, Tok.path (.set b) ∈ ts → Safe b) → ConstMacro.complement_call ts = some (.ok s) → Safe s
  | deserialize {E : Type} {s : EnumSet T} {i : DeInput T.Val E} :
      Serde.deserialize i = some (.ok (.ok s)) → Safe s

/-- Iterators obtained through the safe public API (`clone` of an iterator is the same value). -/
inductive SafeIter : EnumSetIter T → Prop
  | iter {s : EnumSet T} {it : EnumSetIter T} : Safe s → s.iter = .ok it → SafeIter it
  | next {it it' : EnumSetIter T} {r : Option T.Val} :
      SafeIter it → it.next = .ok (r, it') → SafeIter it'
  | next_back {it it' : EnumSetIter T} {r : Option T.Val} :
      SafeIter it → it.next_back = .ok (r, it') → SafeIter it'
  | nth {it it' : EnumSetIter T} {r : Option T.Val} {k : Nat} :
      SafeIter it → it.nth k = .ok (r, it') → SafeIter it'
  | nth_back {it it' : EnumSetIter T} {r : Option T.Val} {k : Nat} :
      SafeIter it → it.nth_back k = .ok (r, it') → SafeIter it'

end Enumset
