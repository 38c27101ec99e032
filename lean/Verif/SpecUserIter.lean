import Verif.UserIter
import Verif.Spec
/-!
# Specification vocabulary: what a caller's iterator does
-/
set_option autoImplicit false

namespace Enumset

/-- Calling `next` again and again from state `st` yields the items `xs` and leaves `st'`. -/
inductive Produces {α σ : Type} (next : UserNext α σ) : σ → List α → σ → Prop where
  | nil (st : σ) : Produces next st [] st
  | cons {st st₁ st₂ : σ} {x : α} {xs : List α} :
      next st = (.ok (some x), st₁) → Produces next st₁ xs st₂ → Produces next st (x :: xs) st₂

/-- The iterator never ends: it yields any number of items. -/
def NeverEnds {α σ : Type} (next : UserNext α σ) (st : σ) : Prop :=
  ∀ n, ∃ (xs : List α) (st' : σ), xs.length = n ∧ Produces next st xs st'

/-- How a sequence of `next` calls ends: with `None`, or with a panic. -/
inductive Ending where
  | none
  | panic (p : Panic)

/-- The answer of `next` that ends the sequence. -/
def Ending.answer {α : Type} : Ending → Res (Option α)
  | .none => .ok Option.none
  | .panic p => .panic p

/-- What a loop over the iterator does then, if it would return `a`. -/
def Ending.outcome {α : Type} (a : α) : Ending → Res α
  | .none => .ok a
  | .panic p => .panic p

end Enumset
