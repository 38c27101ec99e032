import Verif.SpecSrc
import Verif.Derive
/-!
# Histories of calls of the text of set.rs and of the generated code

The commands of SpecSrc.lean, and commands that call the functions the derive macro writes.
`genAnswers` says what a history prints, on mathematical sets; `Prog.runGen` runs the text.
-/
set_option autoImplicit false

namespace Enumset.Src

/-- Functions of the generated `__EnumSetConstHelper` with two sets. -/
inductive ConstBin where
  | const_union | const_intersection | const_symmetric_difference

/-- Commands; `r` and `a`, `b` are numbers of variables, `v` and `w` are variants. -/
inductive GenCmd (n : Nat) where
  /-- a call of a function of set.rs -/
  | set (c : Cmd n)
  /-- `r = v op o` -/
  | valOper (f : Oper) (r : Nat) (v : Fin n) (o : Arg n)
  /-- `r = !v` -/
  | valNot (r : Nat) (v : Fin n)
  /-- `v == a` -/
  | valEqSet (v : Fin n) (a : Nat)
  /-- `v == w` -/
  | valEq (v w : Fin n)
  /-- `v.clone()` -/
  | valClone (v : Fin n)
  /-- `r = v.__impl_enumset_internal__const_only()` -/
  | constOnly (r : Nat) (v : Fin n)
  /-- `r = T::CONST_HELPER_INSTANCE.f(a, b)` -/
  | constBin (f : ConstBin) (r a b : Nat)
  /-- `r = T::CONST_HELPER_INSTANCE.const_complement(a)` -/
  | constComplement (r a : Nat)

section
variable {n : Nat}

/-- Whether the command compiles: `#[enumset(no_ops)]` leaves out the operators, and
`#[enumset(no_super_impls)]` leaves out `PartialEq` and `Clone`. -/
def GenCmd.Allowed (attrs : EnumsetAttrs) : GenCmd n → Prop
  | .valOper .. | .valNot .. | .valEqSet .. => attrs.no_ops = false
  | .valEq .. | .valClone .. => attrs.no_super_impls = false
  | _ => True

/-! ### on mathematical sets -/

/-- The set `f(a, b)` is. -/
def ConstBin.sem (A B : Fin n → Bool) : ConstBin → Fin n → Bool
  | .const_union => fun v => A v || B v
  | .const_intersection => fun v => A v && B v
  | .const_symmetric_difference => fun v => A v != B v

/-- A command, on mathematical sets; `d` are the discriminants. -/
def GenCmd.sem (d : Fin n → Nat) (σ : Nat → Fin n → Bool) : GenCmd n → Ans n × (Nat → Fin n → Bool)
  | .set c => c.sem d σ
  | .valOper f r v o => (.unit, upd σ r (f.sem (fun u => decide (u = v)) (o.sem σ)))
  | .valNot r v => (.unit, upd σ r fun u => !decide (u = v))
  | .valEqSet v a => (.bool (decide (∀ u, σ a u = decide (u = v))), σ)
  | .valEq v w => (.bool (decide (v = w)), σ)
  | .valClone v => (.list [v], σ)
  | .constOnly r v => (.unit, upd σ r fun u => decide (u = v))
  | .constBin f r a b => (.unit, upd σ r (f.sem (σ a) (σ b)))
  | .constComplement r a => (.unit, upd σ r fun v => !σ a v)

/-- What a history prints. -/
def genAnswers (d : Fin n → Nat) : List (GenCmd n) → (Nat → Fin n → Bool) → List (Ans n)
  | [], _ => []
  | c :: cs, σ => (c.sem d σ).1 :: genAnswers d cs (c.sem d σ).2

end

/-! ### on the text -/

def ConstBin.name : ConstBin → String
  | .const_union => "const_union" | .const_intersection => "const_intersection"
  | .const_symmetric_difference => "const_symmetric_difference"

section
variable [Platform] {n : Nat} (P : Prog (Fin n)) (k : Nat)

/-- Call a function for its result. -/
def Prog.getOf (ty f : String) (args : List (Val (Fin n))) : Res (Val (Fin n)) :=
  P.call k ty f [] [] args >>= fun r => .ok r.1

/-- The result as a variant. -/
def asVariant : Val (Fin n) → Res (Ans n)
  | .host "T" v => .ok (.list [v])
  | _ => .ub

/-- A command, run on the text. -/
def Prog.stepGen (ρ : Nat → Val (Fin n)) : GenCmd n → Res (Ans n × (Nat → Val (Fin n)))
  | .set c => P.step k ρ c
  | .valOper f r v o => P.getOf k "T" f.name [variant v, o.value ρ] >>= fun x => .ok (.unit, upd ρ r x)
  | .valNot r v => P.getOf k "T" "not" [variant v] >>= fun x => .ok (.unit, upd ρ r x)
  | .valEqSet v a => P.getOf k "T" "eq_set" [variant v, ρ a] >>= fun x => asBool x >>= fun b => .ok (b, ρ)
  | .valEq v w => P.getOf k "T" "eq" [variant v, variant w] >>= fun x => asBool x >>= fun b => .ok (b, ρ)
  | .valClone v => P.getOf k "T" "clone" [variant v] >>= fun x => asVariant x >>= fun b => .ok (b, ρ)
  | .constOnly r v => P.getOf k "T" "__impl_enumset_internal__const_only" [variant v] >>= fun x =>
      .ok (.unit, upd ρ r x)
  | .constBin f r a b => P.getOf k "T" "CONST_HELPER_INSTANCE" [] >>= fun h =>
      P.getOf k "__EnumSetConstHelper" f.name [h, ρ a, ρ b] >>= fun x => .ok (.unit, upd ρ r x)
  | .constComplement r a => P.getOf k "T" "CONST_HELPER_INSTANCE" [] >>= fun h =>
      P.getOf k "__EnumSetConstHelper" "const_complement" [h, ρ a] >>= fun x => .ok (.unit, upd ρ r x)

/-- A history, run on the text from given values of the variables. -/
def Prog.runGenFrom : List (GenCmd n) → (Nat → Val (Fin n)) → Res (List (Ans n))
  | [], _ => .ok []
  | c :: cs, ρ => P.stepGen k ρ c >>= fun x => Prog.runGenFrom cs x.2 >>= fun l => .ok (x.1 :: l)

/-- A history, run on the text; all variables start as `EnumSet::new()`. -/
def Prog.runGen (cs : List (GenCmd n)) : Res (List (Ans n)) :=
  P.get k "new" [] >>= fun x => P.runGenFrom k cs fun _ => x

end
end Enumset.Src
