import Verif.Props.SrcParseSerdeStd
/-!
# C76, the derive macro with the features `serde` and `proc-macro-crate`
-/
set_option autoImplicit false

namespace Enumset.Src

set_option maxRecDepth 100000

theorem parses_serde_path : Parses true false true := by decide +kernel

end Enumset.Src
