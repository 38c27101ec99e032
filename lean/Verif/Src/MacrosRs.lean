import Verif.Src.MacroRules
/-!
# `enumset/src/macros.rs`

Written by `tools/rs2lean.py`.
-/
set_option autoImplicit false

namespace Enumset.Src.MacrosRs

/-- `enum_set!`, enumset/src/macros.rs:43-56 -/
def enum_set : List MArm :=
  [.mk [.rep [.tok "|"] none .star] (.code (.mk [] (.expr (.pcall "EnumSet" "empty" [] [])))), .mk
    [.atom (.path "value"), .rep [.tok "|"] none .star] (.code (.mk ["#value"] (.expr (.block [.let
    (.var "m:value") none (.mcall (.var "#value") "__impl_enumset_internal__const_only" [] []),
    .tail (.var "m:value")])))), .mk [.atom (.path "value"), .atom (.tok "|"), .rep [.path "rest"]
    (some "|") .star, .rep [.tok "|"] none .star] (.call "enum_set_union" [.one (.var "value"), .one
    (.tok ","), .rep [.var "rest", .tok ","]])]

/-- `enum_set_union!`, enumset/src/macros.rs:73-88 -/
def enum_set_union : List MArm :=
  [.mk [.atom (.path "value"), .rep [.tok ","] none .opt] (.call "enum_set" [.one (.var "value")]),
    .mk [.atom (.path "value"), .atom (.tok ","), .rep [.path "rest"] (some ",") .star, .rep [.tok
    ","] none .opt] (.code (.mk ["#value", "#rest"] (.expr (.block [.let (.var "m:helper") none
    (.mcall (.var "#value") "__impl_enumset_internal__const_helper" [] []), .let (.var "m:value")
    none (.mcall (.var "#value") "__impl_enumset_internal__const_only" [] []), .rep ["#rest"] (.let
    (.var "m:value") none (.block [.let (.var "m:new") none (.mcall (.var "#rest")
    "__impl_enumset_internal__const_only" [] []), .tail (.mcall (.var "m:helper") "const_union" []
    [.var "m:value", .var "m:new"])])), .tail (.var "m:value")]))))]

/-- `enum_set_intersection!`, enumset/src/macros.rs:107-122 -/
def enum_set_intersection : List MArm :=
  [.mk [.atom (.path "value"), .rep [.tok ","] none .opt] (.call "enum_set" [.one (.var "value")]),
    .mk [.atom (.path "value"), .atom (.tok ","), .rep [.path "rest"] (some ",") .star, .rep [.tok
    ","] none .opt] (.code (.mk ["#value", "#rest"] (.expr (.block [.let (.var "m:helper") none
    (.mcall (.var "#value") "__impl_enumset_internal__const_helper" [] []), .let (.var "m:value")
    none (.mcall (.var "#value") "__impl_enumset_internal__const_only" [] []), .rep ["#rest"] (.let
    (.var "m:value") none (.block [.let (.var "m:new") none (.mcall (.var "#rest")
    "__impl_enumset_internal__const_only" [] []), .tail (.mcall (.var "m:helper")
    "const_intersection" [] [.var "m:value", .var "m:new"])])), .tail (.var "m:value")]))))]

/-- `enum_set_complement!`, enumset/src/macros.rs:138-146 -/
def enum_set_complement : List MArm :=
  [.mk [.atom (.path "value"), .rep [.tok ","] none .opt] (.code (.mk ["#value"] (.expr (.block
    [.let (.var "m:helper") none (.mcall (.var "#value") "__impl_enumset_internal__const_helper" []
    []), .let (.var "m:value") none (.mcall (.var "#value") "__impl_enumset_internal__const_only" []
    []), .tail (.mcall (.var "m:helper") "const_complement" [] [.var "m:value"])]))))]

/-- `enum_set_difference!`, enumset/src/macros.rs:165-180 -/
def enum_set_difference : List MArm :=
  [.mk [.atom (.path "value"), .rep [.tok ","] none .opt] (.call "enum_set" [.one (.var "value")]),
    .mk [.atom (.path "value"), .atom (.tok ","), .rep [.path "rest"] (some ",") .star, .rep [.tok
    ","] none .opt] (.code (.mk ["#value", "#rest"] (.expr (.block [.let (.var "m:helper") none
    (.mcall (.var "#value") "__impl_enumset_internal__const_helper" [] []), .let (.var "m:value")
    none (.mcall (.var "#value") "__impl_enumset_internal__const_only" [] []), .rep ["#rest"] (.let
    (.var "m:value") none (.block [.let (.var "m:new") none (.mcall (.var "#rest")
    "__impl_enumset_internal__const_only" [] []), .tail (.mcall (.var "m:helper")
    "const_intersection" [] [.var "m:value", .mcall (.var "m:helper") "const_complement" [] [.var
    "m:new"]])])), .tail (.var "m:value")]))))]

/-- `enum_set_symmetric_difference!`, enumset/src/macros.rs:199-214 -/
def enum_set_symmetric_difference : List MArm :=
  [.mk [.atom (.path "value"), .rep [.tok ","] none .opt] (.call "enum_set" [.one (.var "value")]),
    .mk [.atom (.path "value"), .atom (.tok ","), .rep [.path "rest"] (some ",") .star, .rep [.tok
    ","] none .opt] (.code (.mk ["#value", "#rest"] (.expr (.block [.let (.var "m:helper") none
    (.mcall (.var "#value") "__impl_enumset_internal__const_helper" [] []), .let (.var "m:value")
    none (.mcall (.var "#value") "__impl_enumset_internal__const_only" [] []), .rep ["#rest"] (.let
    (.var "m:value") none (.block [.let (.var "m:new") none (.mcall (.var "#rest")
    "__impl_enumset_internal__const_only" [] []), .tail (.mcall (.var "m:helper")
    "const_symmetric_difference" [] [.var "m:value", .var "m:new"])])), .tail (.var "m:value")]))))]

/-- The macros of the file. -/
def macros : List (String × List MArm) :=
  [("enum_set", enum_set),
   ("enum_set_union", enum_set_union),
   ("enum_set_intersection", enum_set_intersection),
   ("enum_set_complement", enum_set_complement),
   ("enum_set_difference", enum_set_difference),
   ("enum_set_symmetric_difference", enum_set_symmetric_difference)]

end Enumset.Src.MacrosRs
