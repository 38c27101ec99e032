import Verif.SpecMachine
/-!
# Specification of interactive programs (C65)

A history (`SpecMachine.lean`) fixes the calls in advance.  An interactive program chooses each call
from the answers it has got so far, and may never end.
-/
set_option autoImplicit false

namespace Enumset

namespace Hist

/-- A program that makes calls on set and iterator variables.  From each of its states it either ends
with a result or makes a call and goes on with the answer. -/
structure Program [Target] (n : Nat) (α : Type) where
  State : Type
  start : State
  step : State → α ⊕ (Cmd n × (Obs n → State))

variable [Target] {n : Nat} {α : Type}

/-- The program may make the call `c`. -/
def Program.Makes (p : Program n α) (c : Cmd n) : Prop := ∃ s k, p.step s = .inr (c, k)

/-- The result of the program on mathematical sets, `none` if it makes more than `fuel` calls. -/
def Program.meaningFrom (discr : Fin n → Nat) (lay : Layout) (p : Program n α) :
    Nat → p.State → ASt n → Option α
  | fuel, s, st =>
    match p.step s with
    | .inl a => some a
    | .inr (c, k) =>
      match fuel with
      | 0 => none
      | fuel + 1 => p.meaningFrom discr lay fuel (k (c.den discr lay st).1) (c.den discr lay st).2

def Program.meaning (discr : Fin n → Nat) (lay : Layout) (p : Program n α) (fuel : Nat) : Option α :=
  p.meaningFrom discr lay fuel p.start ASt.init

end Hist

end Enumset
