import Verif.Props.SrcParseStd
/-!
# C76, the derive macro with the feature `proc-macro-crate`
-/
set_option autoImplicit false

namespace Enumset.Src

set_option maxRecDepth 100000

theorem parses_path : Parses false false true := by decide +kernel

end Enumset.Src
