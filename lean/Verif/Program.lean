import Verif.SpecProgram
import Verif.Machine
/-!
# Running interactive programs on the model of the crate (C65)

As in `Machine.lean`, nothing here is code of the crate except the calls (`Cmd.exec`).
-/
set_option autoImplicit false

namespace Enumset

namespace Hist

variable [Platform] {T : EnumSetType} {n : Nat} {α : Type} (h : n = T.n)

/-- The result of the program, `none` if it makes more than `fuel` calls. -/
def Program.runFrom (p : Program n α) : Nat → p.State → St T → Res (Option α)
  | fuel, s, st =>
    match p.step s with
    | .inl a => .ok (some a)
    | .inr (c, k) =>
      match fuel with
      | 0 => .ok none
      | fuel + 1 => do
        let (o, st) ← c.exec h st
        p.runFrom fuel (k o) st

def Program.run (p : Program n α) (fuel : Nat) : Res (Option α) := do
  let st ← St.init T
  p.runFrom h fuel p.start st

end Hist

end Enumset
