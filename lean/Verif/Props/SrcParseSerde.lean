import Verif.Props.SrcParsePathStd
/-!
# C76, the derive macro with the feature `serde`
-/
set_option autoImplicit false

namespace Enumset.Src

set_option maxRecDepth 100000

theorem parses_serde : Parses true false false := by decide +kernel

end Enumset.Src
