import Verif.Props.SrcParseSerde
/-!
# C76, the derive macro with the features `serde` and `std_deprecation_warning`
-/
set_option autoImplicit false

namespace Enumset.Src

set_option maxRecDepth 100000

theorem parses_serde_std : Parses true true false := by decide +kernel

end Enumset.Src
