import Verif.Props.SrcParse
import Verif.Src.Macro
import Verif.Src.Text.DeriveRs
import Verif.Src.Text.DeriveToks
/-!
# C76, the derive macro without features

Every other combination of features has a module of its own; the modules are a chain only so that they are checked one
after the other, each of them needs some memory.
-/
set_option autoImplicit false

namespace Enumset.Src
open Parse

set_option maxRecDepth 100000

def MacroFile.same : (a b : MacroFile) → Same a b
  | ⟨a, b, c, d⟩, ⟨a', b', c', d'⟩ =>
    .app (.app (.app (.app (.refl MacroFile.mk) (sameFns a a')) (sameStructs b b')) (.dec c c'))
      (.list (.pair .dec Tmpl.same) d d')

/-- The features of the derive macro: `serde`, `std_deprecation_warning` and `proc-macro-crate`. -/
def featureNames (s w p : Bool) : List String :=
  (if s then ["serde"] else []) ++ ((if w then ["std_deprecation_warning"] else []) ++
    if p then ["proc-macro-crate"] else [])

/-- The functions of the derive macro with these features. -/
def textFns (s w p : Bool) : List ((String × String) × FnDecl) :=
  DeriveRs.fns.take 11 ++ [(("crate", "enum_set_type_impl"),
    match s, p with
    | false, false => DeriveRs.crate_enum_set_type_impl
    | true, false => DeriveRs.crate_enum_set_type_impl_serde
    | false, true => DeriveRs.crate_enum_set_type_impl_path
    | true, true => DeriveRs.crate_enum_set_type_impl_serde_path),
   (("crate", "derive_enum_set_type"), DeriveRs.crate_derive_enum_set_type),
   (("crate", "derive_enum_set_type_0"),
    if w then DeriveRs.crate_derive_enum_set_type_0_std else DeriveRs.crate_derive_enum_set_type_0)]

/-- The `quote!`s from the i-th up to the j-th. -/
def tmplsFrom (i j : Nat) : List (String × Tmpl) := (DeriveRs.tmpls.take j).drop i

/-- The `quote!`s of the derive macro with these features, in the order of the text. -/
def textTmpls (s p : Bool) : List (String × Tmpl) :=
  tmplsFrom 0 1 ++ ((if p then tmplsFrom 57 59 else tmplsFrom 1 2) ++ (tmplsFrom 2 5 ++
    ((if s then tmplsFrom 30 31 else []) ++ (tmplsFrom 5 14 ++
    ((if s then tmplsFrom 31 57 else tmplsFrom 14 15) ++ tmplsFrom 15 30)))))

def textFile (s w p : Bool) : MacroFile := ⟨textFns s w p, DeriveRs.structs, DeriveRs.enums, textTmpls s p⟩

/-- The names that `Src/DeriveRs.lean` has for the `quote!`s that begin in these lines; those for serde have numbers. -/
def quoteNames : List (Nat × String) :=
  [(324, "t0"), (334, "p0"), (336, "p1"), (342, "t1"), (346, "t2"), (347, "t3"), (348, "t4"), (353, "t5"), (354, "t6"),
   (355, "t7"), (356, "t8"), (357, "t9"), (358, "t10"), (377, "t11"), (382, "t12"), (384, "t13"), (647,
   "t14"), (652, "t15"), (662, "t16"), (683, "t17"), (712, "t18"), (714, "t19"), (718, "t20"), (720,
   "t21"), (742, "t22"), (749, "t23"), (759, "t24"), (761, "t25"), (764, "t26"), (826, "t27"), (910,
   "t28"), (923, "t29")]

def deriveToks : List Tok := Lex.lexFrom 1 .code (DeriveRs.chars.map (·.map Char.toNat))

theorem deriveToks_eq : deriveToks = DeriveRs.toks := by decide +kernel

/-- The tokens parse to this file. -/
def Parses (s w p : Bool) : Prop :=
  (Same.option MacroFile.same (parseMacroToks (featureNames s w p) quoteNames DeriveRs.toks)
    (some (textFile s w p))).isSome = true

instance (s w p : Bool) : Decidable (Parses s w p) := inferInstanceAs (Decidable (_ = true))

theorem parses_plain : Parses false false false := by decide +kernel

end Enumset.Src
