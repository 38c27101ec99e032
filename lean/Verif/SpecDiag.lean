import Verif.Spec
/-!
# Specification: what can be wrong with the input of the derive macro

Used by property C54 only.
-/
set_option autoImplicit false

namespace Enumset

/-- What can be wrong with a variant. -/
inductive VariantProblem where
  | duplicateName
  | hasFields
  | notU32
  | negative
  | notLiteral
  | overLimit
  | duplicateDiscriminant
  deriving DecidableEq, Repr

/-- Variant number `i` of `vs` has the problem. -/
def VariantProblem.holds (vs : List Variant) (i : Nat) : VariantProblem → Prop
  | .duplicateName => ∃ j v w, j < i ∧ vs[j]? = some v ∧ vs[i]? = some w ∧ v.ident = w.ident
  | .hasFields => ∃ v, vs[i]? = some v ∧ v.unit = false
  | .notU32 => ∃ v n, vs[i]? = some v ∧ v.discriminant = some (.lit n) ∧ 2 ^ 32 ≤ n
  | .negative => ∃ v x, vs[i]? = some v ∧ v.discriminant = some (.neg x)
  | .notLiteral => ∃ v x, vs[i]? = some v ∧ v.discriminant = some (.other x)
  | .overLimit => ∃ d, (rustcDiscriminants vs)[i]? = some d ∧ 0xFFFFFFBF < d
  | .duplicateDiscriminant => ∃ j d, j < i ∧
      (rustcDiscriminants vs)[j]? = some d ∧ (rustcDiscriminants vs)[i]? = some d

/-- Where the message should point to, and what it should say. -/
def VariantProblem.error (i : Nat) : VariantProblem → DeriveErr
  | .duplicateName => .msg (.variant i) "Duplicated variant name."
  | .hasFields => .msg (.variant i) "`#[derive(EnumSetType)]` can only be used on fieldless enums."
  | .notU32 => .msg (.discriminant i) "Enum discriminants must fit into `u32`."
  | .negative => .msg (.discriminant i) "Enum discriminants must not be negative."
  | .notLiteral => .msg (.variant i) "Enum discriminants must be literal expressions."
  | .overLimit => .msg (.variant i) "Maximum discriminant allowed is `0xFFFFFFBF`."
  | .duplicateDiscriminant => .msg (.variant i) "Duplicated enum discriminant."

/-- The order in which the problems of one variant are reported. -/
def VariantProblem.check : VariantProblem → Nat
  | .duplicateName => 0
  | .hasFields => 1
  | .notU32 | .negative | .notLiteral => 2
  | .overLimit => 3
  | .duplicateDiscriminant => 4

/-- What can be wrong with the input. -/
inductive Problem where
  | generics
  | notEnum
  /-- the `i`-th `#[repr]` attribute is not a single identifier -/
  | reprSyntax (i : Nat)
  /-- the `i`-th `#[repr]` attribute is an unsupported identifier -/
  | reprAttr (i : Nat) (s : String)
  | unknownRepr (s : String)
  | unknownSerializeRepr (s : String)
  | variant (i : Nat) (k : VariantProblem)
  /-- variant `i` has the largest discriminant, and it does not fit `repr` -/
  | reprTooSmall (i : Nat)
  /-- variant `i` has the largest discriminant, and it does not fit `serialize_repr` -/
  | serializeReprTooSmall (i : Nat)
  deriving DecidableEq, Repr

/-- Variant `i` has the largest discriminant of all, and it is at least `w`. -/
def LargestNotBelow (vs : List Variant) (i w : Nat) : Prop :=
  ∃ d : Int, (rustcDiscriminants vs)[i]? = some d ∧ (w : Int) ≤ d ∧ ∀ e ∈ rustcDiscriminants vs, e ≤ d

/-- The input has the problem. -/
def Problem.holds (inp : DeriveInput) : Problem → Prop
  | .generics => inp.hasGenerics = true
  | .notEnum => inp.isEnum = false
  | .reprSyntax i => inp.reprAttrs[i]? = some none
  | .reprAttr i s => inp.reprAttrs[i]? = some (some s) ∧
      s ∉ ["C", "Rust", "u8", "u16", "u32", "u64", "u128", "usize",
        "i8", "i16", "i32", "i64", "i128", "isize"]
  | .unknownRepr s => inp.attrs.repr = some s ∧ s ∉ ["u8", "u16", "u32", "u64", "u128", "array"]
  | .unknownSerializeRepr s => inp.attrs.serialize_repr = some s ∧
      s ∉ ["u8", "u16", "u32", "u64", "u128", "list", "map", "array"]
  | .variant i k => k.holds inp.variants i
  | .reprTooSmall i => ∃ s w, inp.attrs.repr = some s ∧ intWidth s = some w ∧
      LargestNotBelow inp.variants i w
  | .serializeReprTooSmall i => inp.attrs.serialize_as_list = false ∧
      inp.attrs.serialize_as_map = false ∧ ∃ s w, inp.attrs.serialize_repr = some s ∧
      intWidth s = some w ∧ LargestNotBelow inp.variants i w

/-- Where the message should point to, and what it should say. -/
def Problem.error : Problem → DeriveErr
  | .generics => .msg .generics
      "`#[derive(EnumSetType)]` cannot be used on enums with type parameters."
  | .notEnum => .msg .item "`#[derive(EnumSetType)]` may only be used on enums"
  | .reprSyntax i => .parse i
  | .reprAttr i s => .msg (.reprAttr i) s!"`#[repr({s})]` cannot be used on enumset variants."
  | .unknownRepr s => .msg .repr s!"`{s}` is not a valid internal enumset representation."
  | .unknownSerializeRepr s => .msg .serializeRepr
      s!"`{s}` is not a valid serialized representation."
  | .variant i k => k.error i
  | .reprTooSmall i => .msg (.variant i) "`repr` is too small to contain the largest discriminant."
  | .serializeReprTooSmall i => .msg (.variant i)
      "`serialize_repr` is too small to contain the largest discriminant."

/-- The order in which problems are reported: by stage, … -/
def Problem.stage : Problem → Nat
  | .generics => 0
  | .notEnum => 1
  | .reprSyntax _ | .reprAttr _ _ => 2
  | .unknownRepr _ => 3
  | .unknownSerializeRepr _ => 4
  | .variant _ _ => 5
  | .reprTooSmall _ => 6
  | .serializeReprTooSmall _ => 7
/-- … within a stage in the order of the source, … -/
def Problem.position : Problem → Nat
  | .reprSyntax i | .reprAttr i _ | .variant i _ => i
  | _ => 0
/-- … and for one variant in a fixed order. -/
def Problem.check : Problem → Nat
  | .variant _ k => k.check
  | _ => 0

/-- `p` is reported rather than `q`. -/
def Problem.before (p q : Problem) : Prop :=
  p.stage < q.stage ∨ p.stage = q.stage ∧
    (p.position < q.position ∨ p.position = q.position ∧ p.check < q.check)

end Enumset
