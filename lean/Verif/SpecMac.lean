import Verif.SpecGen
import Verif.Macros
import Verif.Src.MacrosRs
import Verif.Src.UserProg
/-!
# Histories with calls of the macros of macros.rs

The commands of SpecGen.lean, and calls of the `macro_rules!` macros.  `ConstMac.Grammar` is the syntax of a
call, `ConstMac.sem` the set it stands for, and `macAnswers` says what a history prints; `Prog.runMac`
expands the text of the macros and runs the expansion.
-/
set_option autoImplicit false

namespace Enumset.Src

/-- The macros. -/
inductive ConstMac where
  | enum_set | enum_set_union | enum_set_intersection | enum_set_difference | enum_set_symmetric_difference
  | enum_set_complement

/-- `ts` are the tokens of a well-formed call with the operands `l`.
* `enum_set!`: operands separated by `|`, and any number of `|` at the end;
* `enum_set_complement!`: one operand, and maybe a comma;
* the others: at least one operand, separated by commas, and maybe a comma at the end; a single operand may
  also have two commas after it. -/
def ConstMac.Grammar {α : Type} (m : ConstMac) (ts : List (Tok α)) (l : List α) : Prop :=
  match m with
  | .enum_set => ∃ k, ts = List.intersperse .bar (l.map .path) ++ List.replicate k .bar
  | .enum_set_complement => ∃ a, l = [a] ∧ (ts = [.path a] ∨ ts = [.path a, .comma])
  | _ => l ≠ [] ∧
      (ts = List.intersperse .comma (l.map .path) ∨ ts = List.intersperse .comma (l.map .path) ++ [.comma] ∨
        ∃ a, l = [a] ∧ ts = [.path a, .comma, .comma])

/-- The token of the grammar. -/
def MTok.tok : MTok → Tok Expr
  | .path e => .path e
  | .punct s => if s = "|" then .bar else if s = "," then .comma else .other

/-- Commands. -/
inductive MacCmd (n : Nat) where
  | gen (c : GenCmd n)
  /-- `r = m!(ts)` -/
  | mac (m : ConstMac) (r : Nat) (ts : List (Tok (Arg n)))

section
variable {n : Nat}

/-- Whether the command compiles. -/
def MacCmd.Allowed (attrs : EnumsetAttrs) : MacCmd n → Prop
  | .gen c => c.Allowed attrs
  | .mac m _ ts => ∃ l, m.Grammar ts l

/-- The operands of a call: the paths in it. -/
def pathsOf {α : Type} : List (Tok α) → List α
  | [] => []
  | .path a :: ts => a :: pathsOf ts
  | _ :: ts => pathsOf ts

/-! ### on mathematical sets -/

/-- The set of a call: the union, the intersection, what is in the first operand but in no other, what is
in an odd number of operands, the complement. -/
def ConstMac.sem (As : List (Fin n → Bool)) : ConstMac → Fin n → Bool
  | .enum_set | .enum_set_union => fun v => As.any fun A => A v
  | .enum_set_intersection => fun v => As.all fun A => A v
  | .enum_set_difference => fun v => (As.take 1).any (fun A => A v) && !(As.drop 1).any fun A => A v
  | .enum_set_symmetric_difference => fun v => (As.filter fun A => A v).length % 2 == 1
  | .enum_set_complement => fun v => !As.any fun A => A v

/-- A command, on mathematical sets; `d` are the discriminants. -/
def MacCmd.sem (d : Fin n → Nat) (σ : Nat → Fin n → Bool) : MacCmd n → Ans n × (Nat → Fin n → Bool)
  | .gen c => c.sem d σ
  | .mac m r ts => (.unit, upd σ r (m.sem ((pathsOf ts).map (·.sem σ))))

/-- What a history prints. -/
def macAnswers (d : Fin n → Nat) : List (MacCmd n) → (Nat → Fin n → Bool) → List (Ans n)
  | [], _ => []
  | c :: cs, σ => (c.sem d σ).1 :: macAnswers d cs (c.sem d σ).2

end

/-! ### on the text -/

def ConstMac.name : ConstMac → String
  | .enum_set => "enum_set" | .enum_set_union => "enum_set_union"
  | .enum_set_intersection => "enum_set_intersection" | .enum_set_difference => "enum_set_difference"
  | .enum_set_symmetric_difference => "enum_set_symmetric_difference"
  | .enum_set_complement => "enum_set_complement"

/-- A name for a variable: `x`, `xx`, `xxx`, … -/
def varName (a : Nat) : String := String.ofList (List.replicate (a + 1) 'x')

section
variable [Platform] {n : Nat} (P : Prog (Fin n)) (nm : Fin n → String) (k : Nat)

/-- An operand as a path: `T::A` for a variant, or a variable; `nm` are the names of the variants. -/
def Arg.code : Arg n → Expr
  | .val v => .path "T" (nm v)
  | .set a => .var (varName a)

/-- A token of a call; `||` is a token that no pattern has. -/
def argTok : Tok (Arg n) → MTok
  | .path a => .path (a.code nm)
  | .bar => .punct "|"
  | .comma => .punct ","
  | .other => .punct "||"

/-- The variables in the operands of a call. -/
def argEnv (ρ : Nat → Val (Fin n)) : List (Arg n) → Env (Fin n)
  | [] => []
  | .set a :: l => (varName a, ρ a) :: argEnv ρ l
  | .val _ :: l => argEnv ρ l

/-- A command, run on the text; the recursion limit of rustc is 128. -/
def Prog.stepMac (ρ : Nat → Val (Fin n)) : MacCmd n → Res (Ans n × (Nat → Val (Fin n)))
  | .gen c => P.stepGen k ρ c
  | .mac m r ts =>
    match expandMacro MacrosRs.macros 128 m.name (ts.map (argTok nm)) with
    | none => .ub
    | some e => eval (P.userCtx k) e .any (argEnv ρ (pathsOf ts)) >>= fun
      | .val v _ => .ok (.unit, upd ρ r v)
      | _ => .ub

/-- A history, run on the text from given values of the variables. -/
def Prog.runMacFrom : List (MacCmd n) → (Nat → Val (Fin n)) → Res (List (Ans n))
  | [], _ => .ok []
  | c :: cs, ρ => P.stepMac nm k ρ c >>= fun x => Prog.runMacFrom cs x.2 >>= fun l => .ok (x.1 :: l)

/-- A history, run on the text; all variables start as `EnumSet::new()`. -/
def Prog.runMac (cs : List (MacCmd n)) : Res (List (Ans n)) :=
  P.get k "new" [] >>= fun x => P.runMacFrom nm k cs fun _ => x

end
end Enumset.Src
