import Verif.Src.Link
import Verif.Src.Gen
import Verif.Src.SerdeLib
/-!
# The generated code as a program

The items that the derive macro returns, linked with the three source files.
-/
set_option autoImplicit false

namespace Enumset.Src

/-! ### items -/

/-- The name of a type, without arguments. -/
def Ty.head : Ty → String
  | .name s _ => s
  | _ => "?"

/-- The functions of an `impl` block inside of a function. -/
def innerFns (ty : String) : List Item → List ((String × String) × FnDecl)
  | [] => []
  | .fn f d :: is => ((ty, f), d) :: innerFns ty is
  | _ :: is => innerFns ty is

/-- The functions of an `impl` block for the type `ty`, and those in items inside of the functions, which
the parser puts behind the function.  There are two functions `eq` of the enum; that of
`PartialEq<EnumSet<T>>` is called `eq_set`. -/
def implFns (targs : List Ty) (ty : String) : List Item → List ((String × String) × FnDecl)
  | [] => []
  | .fn f d :: is => ((ty, if f = "eq" ∧ targs.isEmpty = false then "eq_set" else f), d) :: implFns targs ty is
  | .impl _ _ t js :: is => innerFns t.head js ++ implFns targs ty is
  | _ :: is => implFns targs ty is

/-- The functions of a program, by type and name. -/
def itemFns : List Item → List ((String × String) × FnDecl)
  | [] => []
  | .impl _ targs ty is :: r => implFns targs ty.head is ++ itemFns r
  | .fn f d :: r => (("crate", f), d) :: itemFns r
  | _ :: r => itemFns r

/-- The structs inside of an `impl` block. -/
def implStructs : List Item → List String
  | [] => []
  | .struct s :: r => s :: implStructs r
  | _ :: r => implStructs r

/-- The structs of a program; they have no fields. -/
def itemStructs : List Item → List String
  | [] => []
  | .struct s :: r => s :: itemStructs r
  | .impl _ _ _ is :: r => implStructs is ++ itemStructs r
  | _ :: r => itemStructs r

/-- The traits a program implements, with their arguments, and for which type. -/
def itemTraits : List Item → List (String × List Ty × Ty)
  | [] => []
  | .impl tr targs ty _ :: r => if tr = "" then itemTraits r else (tr, targs, ty) :: itemTraits r
  | _ :: r => itemTraits r

/-- An associated type in an `impl` block. -/
def implType (x : String) : List Item → Option Ty
  | [] => none
  | .type y t :: r => if x = y then some t else implType x r
  | _ :: r => implType x r

/-- The associated type `x` of the implementation of a trait for the enum. -/
def assocType (tr x : String) : List Item → Option Ty
  | [] => none
  | .impl tr' _ _ is :: r => if tr = tr' then implType x is else assocType tr x r
  | _ :: r => assocType tr x r

/-- The numbers among the arguments of a type, by the name of the parameter. -/
def numParams {H : Type} : List String → List Ty → Env H
  | x :: xs, .num n :: ts => (x, .int .usize n) :: numParams xs ts
  | _ :: xs, _ :: ts => numParams xs ts
  | _, _ => []

/-- The values of the const parameters of a struct type. -/
def Ty.params {H : Type} : Ty → Env H
  | .name s args =>
    match structDecl s with
    | some d => numParams d.gens args
    | none => []
  | _ => []

/-! ### the enum -/

/-- What rustc knows about the enum `T` with `n` variants: their names and discriminants, how many bytes
a value occupies, and what reading a number of an integer type as a value of the enum gives. -/
structure EnumDef (n : Nat) where
  name : Fin n → String
  discr : Fin n → Nat
  size : Nat
  read : NumTy → Nat → Res (Fin n)

/-- `E` is the enum that the item declares: rustc numbers the variants (`rustcDiscriminants`). -/
structure EnumDef.Of {n : Nat} (E : EnumDef n) (inp : DeriveInput) : Prop where
  count : n = inp.variants.length
  name : ∀ i, (inp.variants[i.val]?).map (·.ident) = some (E.name i)
  discr : ∀ i, (rustcDiscriminants inp.variants)[i.val]? = some (E.discr i : Int)

/-- The enum as seen by the interpreter: its variants (functions of `enum T`, so that they do not collide
with the functions of `impl T`), its discriminants, its size, and reading a number as the enum. -/
def EnumDef.fn {n : Nat} (E : EnumDef n) (ty f : String) : Option (Fn (Fin n)) :=
  if ty = "enum T" then
    ((List.finRange n).find? fun i => E.name i == f).map fun i _ _ _ => .ok (.host "T" i, [])
  else if ty = "T" ∧ f = "discriminant" then some fun _ _ args =>
    match args with
    | [.host _ i] => .ok (.lit (E.discr i), [])
    | _ => .ub
  else if ty = "size_of" ∧ f = "enum T" then some fun _ _ _ => .ok (.int .usize E.size, [])
  else if ty = "transmute" ∧ f = "enum T" then some fun _ _ args =>
    match args with
    | [.int t x] => E.read t x >>= fun i => .ok (.host "T" i, [])
    | _ => .ub
  else none

/-! ### linking -/

/-- The generated items, the enum they are for, how many rounds a loop runs at most, and the serializer or
deserializer they are used with. -/
structure Gen [Target] (n : Nat) where
  items : List Item
  enum : EnumDef n
  fuel : Nat
  lib : SerdeLib n

section
variable [Platform] {n : Nat} (G : Gen n)

/-- `<T as EnumSetTypePrivate>::Repr` -/
def Gen.repr : Ty := (assocType "EnumSetTypePrivate" "Repr" G.items).getD (.tuple [])

/-- The three source files, used at the enum. -/
def Gen.prog (base : String → String → Option (Fn (Fin n))) : Prog (Fin n) where
  base := base
  fuel := G.fuel
  alias s := if s = "T::Repr" then G.repr.head else s
  params := G.repr.params

/-- The context of the generated functions of a type. -/
def Gen.ctx (self : String) (fns : String → String → Option (Fn (Fin n))) : Ctx (Fin n) where
  fuel := G.fuel
  self := self
  alias s := if s = "T" then "enum T" else if s = "T::Repr" then G.repr.head else s
  ty s := NumTy.ofName (if s = "Self::Repr" ∨ s = "T::Repr" then G.repr.head else s)
  structs s :=
    match structDecl s with
    | some d => some d
    | none => if (itemStructs G.items).contains s then some ⟨[], [], []⟩ else none
  fns := fns

/-- Variables of the generated function `f` that are not its parameters: the const parameters of `T::Repr`,
which the functions for serde need. -/
def Gen.extra (f : String) : Env (Fin n) :=
  if f = "serialize" ∨ f = "deserialize" ∨ f = "visit_seq" then G.repr.params else []

/-- The generated functions, which call each other and those of the three files at most `k` deep. -/
def Gen.base : Nat → String → String → Option (Fn (Fin n))
  | 0, ty, f => G.enum.fn ty f
  | k + 1, ty, f =>
    match G.enum.fn ty f with
    | some fn => some fn
    | none =>
      match (itemFns G.items).lookup (ty, f) with
      | some d => some (d.fn (G.ctx ty ((G.prog (Gen.base k)).link k)) (G.extra f))
      | none => G.lib.fn ((G.prog (Gen.base k)).link k) ty f

/-- The generated functions and the three source files. -/
def Gen.toProg (k : Nat) : Prog (Fin n) := G.prog (G.base k)

end
end Enumset.Src
