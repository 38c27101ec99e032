import Verif.Src.Sem
import Verif.Src.PrimitiveRs
import Verif.Src.ArrayRs
import Verif.Src.SetRs
/-!
# The source files as a program

Which function a name stands for.  A function of the three files is run in a context in which the
functions it calls are linked at one level less; calls never nest deeper than a few levels, and the
theorems hold for every number of levels that is large enough.  `base` are functions that are not in
the three files.
-/
set_option autoImplicit false

namespace Enumset.Src

variable {H : Type}

/-- The invocation of `prim!` for an integer type (primitive.rs:262-266). -/
def invocationOf (t : NumTy) : Option (List (String × Expr)) :=
  PrimitiveRs.file.invocations.find? fun inv =>
    match inv.lookup "$name" with
    | some (.var s) => s == NumTy.name t
    | _ => false

/-- The macro arguments that are numbers, as variables. -/
def litArgs : List (String × Expr) → Env H
  | [] => []
  | (x, .lit n) :: r => (x, .lit n) :: litArgs r
  | _ :: r => litArgs r

/-- A program: the three files and what they need besides.
* `base`: functions that are not in the three files;
* `fuel`: how many rounds a loop runs at most;
* `alias`: the types that associated types such as `T::Repr` stand for, for the enum type `T` the
  functions of set.rs are used at;
* `params`: the const parameters of the type that `T::Repr` stands for. -/
structure Prog (H : Type) where
  base : String → String → Option (Fn H)
  fuel : Nat
  alias : String → String
  params : Env H

/-- Variables of the function bodies of a type that are not parameters of the function or the `impl`:
the macro arguments of `prim!`, and for set.rs the const parameters of `T::Repr`. -/
def Prog.extra (P : Prog H) (ty : String) : Env H :=
  match NumTy.ofName ty with
  | some t =>
    match invocationOf t with
    | some inv => litArgs inv
    | none => []
  | none => if ty = "EnumSet" ∨ ty = "EnumSetIter" then P.params else []

/-- `impl<T> From<T> for T` and `impl<T, U: From<T>> Into<U> for T` of `core`, at `EnumSet`. -/
def EnumSet_into : FnDecl where
  implGens := []
  gens := []
  params := [("self", .name "Self" [])]
  ret := .name "Self" []
  body := [.tail (.var "self")]

/-- `impl<T, U: From<T>> Into<U> for T` of `core`, from the enum type `T` to `EnumSet`. -/
def T_into : FnDecl where
  implGens := []
  gens := []
  params := [("self", .name "Self" [])]
  ret := .name "EnumSet" []
  body := [.tail (.pcall "EnumSet" "from" [] [.var "self"])]

/-- `impl<I: Iterator> IntoIterator for I` of `core`, at `EnumSetIter`. -/
def EnumSetIter_into_iter : FnDecl where
  implGens := []
  gens := []
  params := [("self", .name "Self" [])]
  ret := .name "Self" []
  body := [.tail (.var "self")]

/-- The implementations of `core` that apply to every type: `From<U> for U`, `Into<U>` by `From`, and
`IntoIterator` for iterators.  `T` is the enum type. -/
def blanket : List ((String × String) × FnDecl) :=
  [(("EnumSet", "into"), EnumSet_into),
   (("T", "into"), T_into),
   (("EnumSetIter", "into_iter"), EnumSetIter_into_iter)]

/-- The function `f` of the type `ty`. -/
def fnDecl (ty f : String) : Option FnDecl :=
  match NumTy.ofName ty with
  | some t =>
    match invocationOf t with
    | some _ => PrimitiveRs.file.fns.lookup ("$name", f)
    | none => none
  | none =>
    (PrimitiveRs.file.fns ++ (ArrayRs.file.fns ++ (SetRs.file.fns ++ blanket))).lookup (ty, f)

/-- The struct `s`. -/
def structDecl (s : String) : Option StructDecl :=
  (PrimitiveRs.file.structs ++ (ArrayRs.file.structs ++ SetRs.file.structs)).lookup s

/-- Whether a struct derives a trait. -/
def derives (s tr : String) : Bool :=
  match structDecl s with
  | some d => d.derives.contains tr
  | none => false

/-- A function that is not written in the three files: a derived one, or one of the surroundings. -/
def Prog.other (P : Prog H) (ty f : String) : Option (Fn H) :=
  match derivedFn derives ty f with
  | some fn => some fn
  | none => P.base ty f

/-- The context of the functions of a type. -/
def Prog.ctx (P : Prog H) (self : String) (fns : String → String → Option (Fn H)) : Ctx H where
  fuel := P.fuel
  self := self
  alias := P.alias
  ty s := if s = "$name" ∨ s = "Self" then NumTy.ofName self else NumTy.ofName s
  structs := structDecl
  fns := fns

/-- The functions, linked `k` levels deep. -/
def Prog.link [Platform] (P : Prog H) : Nat → String → String → Option (Fn H)
  | 0, ty, f => P.other ty f
  | k + 1, ty, f =>
    match fnDecl ty f with
    | some d => some (d.fn (P.ctx ty (P.link k)) (P.extra ty))
    | none => P.other ty f

/-- Call a function: its result and the new values of its `&mut` arguments. -/
def Prog.call [Platform] (P : Prog H) (k : Nat) (ty f : String) (caller : Env H)
    (consts args : List (Val H)) : Res (Val H × List (Nat × Val H)) :=
  need (P.link k ty f) >>= fun fn => fn caller consts args

end Enumset.Src
