import Verif.Props.SrcParsePath
/-!
# C76, the derive macro with the features `std_deprecation_warning` and `proc-macro-crate`
-/
set_option autoImplicit false

namespace Enumset.Src

set_option maxRecDepth 100000

theorem parses_path_std : Parses false true true := by decide +kernel

end Enumset.Src
