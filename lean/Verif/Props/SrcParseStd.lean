import Verif.Props.SrcParsePlain
/-!
# C76, the derive macro with the feature `std_deprecation_warning`
-/
set_option autoImplicit false

namespace Enumset.Src

set_option maxRecDepth 100000

theorem parses_std : Parses false true false := by decide +kernel

end Enumset.Src
