import Verif.Rust
/-!
# Specification vocabulary: bits of word lists
-/
set_option autoImplicit false

namespace Enumset

/-- Bit `i` of a list of 64-bit words, least significant word first: bit `i % 64` of word `i / 64`;
bits past the end are zero. -/
def wbit (ws : List U64) (i : Nat) : Bool := (ws.getD (i / 64) 0).getLsbD (i % 64)

end Enumset
