import Verif.Spec
import Verif.Src.Link
/-!
# Histories of calls of the text of set.rs

A program with numbered variables that hold sets; every command calls functions of `set.rs` by name.
`answers` says what it prints, on mathematical sets; `Prog.run` runs the text of the functions.
-/
set_option autoImplicit false

namespace Enumset.Src

/-- Functions without arguments that return a set. -/
inductive Nullary where
  | new | empty | default | EMPTY | all | ALL

/-- Functions of two sets that return a set. -/
inductive Binary where
  | union | intersection | difference | symmetrical_difference

/-- Operators. -/
inductive Oper where
  | bitor | bitand | sub | bitxor

/-- Functions of two sets that return a `bool`. -/
inductive Test where
  | eq | is_subset | is_superset | is_disjoint

/-- The right operand of an operator. -/
inductive Arg (n : Nat) where
  | set (a : Nat)
  | val (v : Fin n)

/-- Commands; `r` and `a`, `b` are numbers of variables, `v` is a variant. -/
inductive Cmd (n : Nat) where
  /-- `r = EnumSet::f()` -/
  | nullary (f : Nullary) (r : Nat)
  /-- `r = EnumSet::only(v)` -/
  | only (r : Nat) (v : Fin n)
  /-- `r = EnumSet::from(v)` -/
  | from (r : Nat) (v : Fin n)
  /-- `r = a.f(b)` -/
  | binary (f : Binary) (r a b : Nat)
  /-- `r = a op o` -/
  | oper (f : Oper) (r a : Nat) (o : Arg n)
  /-- `r op= o` -/
  | operAssign (f : Oper) (r : Nat) (o : Arg n)
  /-- `r = a.complement()` -/
  | complement (r a : Nat)
  /-- `r = !a` -/
  | not (r a : Nat)
  /-- `r.insert_all(a)` -/
  | insert_all (r a : Nat)
  /-- `r.remove_all(a)` -/
  | remove_all (r a : Nat)
  /-- `r.clear()` -/
  | clear (r : Nat)
  /-- `r.insert(v)` -/
  | insert (r : Nat) (v : Fin n)
  /-- `r.remove(v)` -/
  | remove (r : Nat) (v : Fin n)
  /-- `a.contains(v)` -/
  | contains (a : Nat) (v : Fin n)
  /-- `a.f(b)` -/
  | test (f : Test) (a b : Nat)
  /-- `a == v` -/
  | eq_variant (a : Nat) (v : Fin n)
  /-- `a.len()` -/
  | len (a : Nat)
  /-- `a.is_empty()` -/
  | is_empty (a : Nat)
  /-- `a.iter()`, and `next` until there is nothing left -/
  | items (a : Nat)
  /-- `a.iter()`, and `next_back` until there is nothing left -/
  | itemsBack (a : Nat)

/-- What a command prints. -/
inductive Ans (n : Nat) where
  | unit
  | bool (b : Bool)
  | num (k : Nat)
  | list (l : List (Fin n))
  deriving DecidableEq

/-! ### on mathematical sets -/

/-- Set a variable. -/
def upd {α : Type} (f : Nat → α) (r : Nat) (x : α) : Nat → α := fun i => if i = r then x else f i

section
variable {n : Nat}

/-- The set `f` returns. -/
def Nullary.sem : Nullary → Fin n → Bool
  | .new | .empty | .default | .EMPTY => fun _ => false
  | .all | .ALL => fun _ => true

/-- The set `a.f(b)` is. -/
def Binary.sem (A B : Fin n → Bool) : Binary → Fin n → Bool
  | .union => fun v => A v || B v
  | .intersection => fun v => A v && B v
  | .difference => fun v => A v && !B v
  | .symmetrical_difference => fun v => A v != B v

/-- The set `a op b` is. -/
def Oper.sem (A B : Fin n → Bool) : Oper → Fin n → Bool
  | .bitor => fun v => A v || B v
  | .bitand => fun v => A v && B v
  | .sub => fun v => A v && !B v
  | .bitxor => fun v => A v != B v

/-- The set an operand stands for. -/
def Arg.sem (σ : Nat → Fin n → Bool) : Arg n → Fin n → Bool
  | .set a => σ a
  | .val v => fun u => decide (u = v)

/-- Whether `a.f(b)`. -/
def Test.sem (A B : Fin n → Bool) : Test → Bool
  | .eq => decide (∀ v, A v = B v)
  | .is_subset => decide (∀ v, A v = true → B v = true)
  | .is_superset => decide (∀ v, B v = true → A v = true)
  | .is_disjoint => decide (∀ v, ¬ (A v = true ∧ B v = true))

/-- A command, on mathematical sets; `d` are the discriminants. -/
def Cmd.sem (d : Fin n → Nat) (σ : Nat → Fin n → Bool) : Cmd n → Ans n × (Nat → Fin n → Bool)
  | .nullary f r => (.unit, upd σ r f.sem)
  | .only r v => (.unit, upd σ r fun u => decide (u = v))
  | .from r v => (.unit, upd σ r fun u => decide (u = v))
  | .binary f r a b => (.unit, upd σ r (f.sem (σ a) (σ b)))
  | .oper f r a o => (.unit, upd σ r (f.sem (σ a) (o.sem σ)))
  | .operAssign f r o => (.unit, upd σ r (f.sem (σ r) (o.sem σ)))
  | .complement r a => (.unit, upd σ r fun v => !σ a v)
  | .not r a => (.unit, upd σ r fun v => !σ a v)
  | .insert_all r a => (.unit, upd σ r fun v => σ r v || σ a v)
  | .remove_all r a => (.unit, upd σ r fun v => σ r v && !σ a v)
  | .clear r => (.unit, upd σ r fun _ => false)
  | .insert r v => (.bool !σ r v, upd σ r fun u => σ r u || decide (u = v))
  | .remove r v => (.bool (σ r v), upd σ r fun u => σ r u && !decide (u = v))
  | .contains a v => (.bool (σ a v), σ)
  | .test f a b => (.bool (f.sem (σ a) (σ b)), σ)
  | .eq_variant a v => (.bool (decide (∀ u, σ a u = decide (u = v))), σ)
  | .len a => (.num (card (σ a)), σ)
  | .is_empty a => (.bool (decide (∀ v, σ a v = false)), σ)
  | .items a => (.list (sortedMembers d (σ a)), σ)
  | .itemsBack a => (.list (sortedMembers d (σ a)).reverse, σ)

/-- What a history prints. -/
def answers (d : Fin n → Nat) : List (Cmd n) → (Nat → Fin n → Bool) → List (Ans n)
  | [], _ => []
  | c :: cs, σ => (c.sem d σ).1 :: answers d cs (c.sem d σ).2

end

/-! ### on the text -/

def Nullary.name : Nullary → String
  | .new => "new" | .empty => "empty" | .default => "default" | .EMPTY => "EMPTY" | .all => "all"
  | .ALL => "ALL"
def Binary.name : Binary → String
  | .union => "union" | .intersection => "intersection" | .difference => "difference"
  | .symmetrical_difference => "symmetrical_difference"
def Oper.name : Oper → String
  | .bitor => "bitor" | .bitand => "bitand" | .sub => "sub" | .bitxor => "bitxor"
def Oper.assignName : Oper → String
  | .bitor => "bitor_assign" | .bitand => "bitand_assign" | .sub => "sub_assign"
  | .bitxor => "bitxor_assign"
def Test.name : Test → String
  | .eq => "eq" | .is_subset => "is_subset" | .is_superset => "is_superset"
  | .is_disjoint => "is_disjoint"

section
variable [Platform] {n : Nat} (P : Prog (Fin n)) (k : Nat)

/-- The value of a variant. -/
def variant (v : Fin n) : Val (Fin n) := .host "T" v

/-- Call a function of `EnumSet` for its result. -/
def Prog.get (f : String) (args : List (Val (Fin n))) : Res (Val (Fin n)) :=
  P.call k "EnumSet" f [] [] args >>= fun r => .ok r.1

/-- Call a method of `EnumSet` that takes `&mut self`: its result and the new value. -/
def Prog.getMut (f : String) (args : List (Val (Fin n))) : Res (Val (Fin n) × Val (Fin n)) :=
  P.call k "EnumSet" f [] [] args >>= fun
    | (v, [(0, self)]) => .ok (v, self)
    | _ => .ub

/-- The result as a `bool`. -/
def asBool : Val (Fin n) → Res (Ans n)
  | .bool b => .ok (.bool b)
  | _ => .ub
/-- The result as a `usize`. -/
def asNum : Val (Fin n) → Res (Ans n)
  | .int .usize k => .ok (.num k)
  | _ => .ub

/-- Call `next` (or `next_back`) until it returns `None`, at most `fuel` times. -/
def Prog.drain (next : String) : Nat → Val (Fin n) → Res (List (Fin n))
  | 0, _ => .diverge
  | fuel + 1, it => P.call k "EnumSetIter" next [] [] [it] >>= fun
    | (.none, _) => .ok []
    | (.some (.host "T" v), [(0, it)]) => Prog.drain next fuel it >>= fun l => .ok (v :: l)
    | _ => .ub

/-- The value of an operand. -/
def Arg.value (ρ : Nat → Val (Fin n)) : Arg n → Val (Fin n)
  | .set a => ρ a
  | .val v => variant v

/-- A command, run on the text. -/
def Prog.step (ρ : Nat → Val (Fin n)) : Cmd n → Res (Ans n × (Nat → Val (Fin n)))
  | .nullary f r => P.get k f.name [] >>= fun x => .ok (.unit, upd ρ r x)
  | .only r v => P.get k "only" [variant v] >>= fun x => .ok (.unit, upd ρ r x)
  | .from r v => P.get k "from" [variant v] >>= fun x => .ok (.unit, upd ρ r x)
  | .binary f r a b => P.get k f.name [ρ a, ρ b] >>= fun x => .ok (.unit, upd ρ r x)
  | .oper f r a o => P.get k f.name [ρ a, o.value ρ] >>= fun x => .ok (.unit, upd ρ r x)
  | .operAssign f r o => P.getMut k f.assignName [ρ r, o.value ρ] >>= fun x => .ok (.unit, upd ρ r x.2)
  | .complement r a => P.get k "complement" [ρ a] >>= fun x => .ok (.unit, upd ρ r x)
  | .not r a => P.get k "not" [ρ a] >>= fun x => .ok (.unit, upd ρ r x)
  | .insert_all r a => P.getMut k "insert_all" [ρ r, ρ a] >>= fun x => .ok (.unit, upd ρ r x.2)
  | .remove_all r a => P.getMut k "remove_all" [ρ r, ρ a] >>= fun x => .ok (.unit, upd ρ r x.2)
  | .clear r => P.getMut k "clear" [ρ r] >>= fun x => .ok (.unit, upd ρ r x.2)
  | .insert r v => P.getMut k "insert" [ρ r, variant v] >>= fun x =>
      asBool x.1 >>= fun b => .ok (b, upd ρ r x.2)
  | .remove r v => P.getMut k "remove" [ρ r, variant v] >>= fun x =>
      asBool x.1 >>= fun b => .ok (b, upd ρ r x.2)
  | .contains a v => P.get k "contains" [ρ a, variant v] >>= fun x => asBool x >>= fun b => .ok (b, ρ)
  | .test f a b => P.get k f.name [ρ a, ρ b] >>= fun x => asBool x >>= fun b => .ok (b, ρ)
  | .eq_variant a v => P.get k "eq_variant" [ρ a, variant v] >>= fun x =>
      asBool x >>= fun b => .ok (b, ρ)
  | .len a => P.get k "len" [ρ a] >>= fun x => asNum x >>= fun b => .ok (b, ρ)
  | .is_empty a => P.get k "is_empty" [ρ a] >>= fun x => asBool x >>= fun b => .ok (b, ρ)
  | .items a => P.get k "iter" [ρ a] >>= fun it => P.drain k "next" P.fuel it >>= fun l =>
      .ok (.list l, ρ)
  | .itemsBack a => P.get k "iter" [ρ a] >>= fun it => P.drain k "next_back" P.fuel it >>= fun l =>
      .ok (.list l, ρ)

/-- A history, run on the text from given values of the variables. -/
def Prog.runFrom : List (Cmd n) → (Nat → Val (Fin n)) → Res (List (Ans n))
  | [], _ => .ok []
  | c :: cs, ρ => P.step k ρ c >>= fun x => Prog.runFrom cs x.2 >>= fun l => .ok (x.1 :: l)

/-- A history, run on the text; all variables start as `EnumSet::new()`. -/
def Prog.run (cs : List (Cmd n)) : Res (List (Ans n)) :=
  P.get k "new" [] >>= fun x => P.runFrom k cs fun _ => x

end

end Enumset.Src
