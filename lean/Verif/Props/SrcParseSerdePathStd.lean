import Verif.Props.SrcParseSerdePath
/-!
# C76, the derive macro with the features `serde`, `std_deprecation_warning` and `proc-macro-crate`
-/
set_option autoImplicit false

namespace Enumset.Src

set_option maxRecDepth 100000

theorem parses_serde_path_std : Parses true true true := by decide +kernel

end Enumset.Src
