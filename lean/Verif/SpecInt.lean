import Verif.SpecWords
/-!
# Specification vocabulary: the number of a set
-/
set_option autoImplicit false

namespace Enumset

/-- The "single large integer" of a set of variants: the sum of `2 ^ d` over the discriminants `d` of
its elements. -/
def setInt {n : Nat} (discr : Fin n → Nat) (A : Fin n → Bool) : Nat :=
  (((List.finRange n).filter A).map fun v => 2 ^ discr v).sum

/-- The number with the given digits to the base `2 ^ 64`, least significant first. -/
def wordsInt : List U64 → Nat
  | [] => 0
  | x :: xs => x.toNat + 2 ^ 64 * wordsInt xs

end Enumset
