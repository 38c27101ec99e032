import Verif.Src.Link
/-!
# Code of a user of the crate

Expressions in a crate that uses the enum `T` and the crate, such as the expansions of the macros of
macros.rs.
-/
set_option autoImplicit false

namespace Enumset.Src

/-- The context of user code.  `T` in user code is the enum; its variants are functions of `enum T` (see
`EnumDef.fn`). -/
def Prog.userCtx [Platform] {H : Type} (P : Prog H) (k : Nat) : Ctx H where
  fuel := P.fuel
  self := "user"
  alias s := if s = "T" then "enum T" else s
  ty := NumTy.ofName
  structs := structDecl
  fns := P.link k

end Enumset.Src
