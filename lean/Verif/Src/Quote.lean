import Verif.Src.Sem
/-!
# `quote!`

The meaning of the interpolations `#x` and the repetitions `#( … )*` in the content of a `quote!`.
The content has been parsed (`Verif/Src/Parse.lean`) with the interpolations as variables, types and names
called `#x`; here they are replaced by what is interpolated.

Simplification: the spans of identifiers and other tokens are not kept.
-/
set_option autoImplicit false

namespace Enumset.Src

/-- What is interpolated, by name. -/
abbrev Sub := List (String × Val Code)

/-- The value that is repeated, in the `i`-th round. -/
def Sub.at (σ : Sub) (i : Nat) (x : String) : List (String × Val Code) :=
  match lookup x σ with
  | some (.arr l) =>
    match l[i]? with
    | some v => [(x, v)]
    | none => []
  | _ => []

/-- How often `#( … )*` is repeated for each interpolation in it that is a list. -/
def Sub.lengths (σ : Sub) : List String → List Nat
  | [] => []
  | x :: xs =>
    match lookup x σ with
    | some (.arr l) => l.length :: σ.lengths xs
    | _ => σ.lengths xs

/-- The rounds of `#( … )*`: the interpolations that are lists take their values in turn, until the
shortest list ends. -/
def Sub.rows (σ : Sub) (xs : List String) : List Sub :=
  match σ.lengths xs with
  | [] => []
  | n :: ns => (List.range (ns.foldl min n)).map fun i => xs.flatMap (σ.at i) ++ σ

/-! ### `ToTokens` -/

/-- An interpolated name: an identifier, or a type that is a path.  The arguments of the type are left out, as
everywhere in paths; they are inferred. -/
def Sub.name (σ : Sub) (x : String) : String :=
  match lookup x σ with
  | some (.struct "Ident" [("0", .str s)]) => s
  | some (.host _ (.ty (.name s _))) => s
  | _ => x

/-- An interpolated type. -/
def toTy : Val Code → Ty
  | .struct "Ident" [("0", .str s)] => .name s []
  | .int _ n => .num n
  | .host _ (.ty t) => t
  | _ => .tuple []

/-- An interpolated expression.  An integer is written with its type as the suffix.  A span, which
only `quote_spanned!` interpolates, is written as its name and number. -/
def toExpr : Val Code → Expr
  | .struct "Ident" [("0", .str s)] => .var s
  | .struct "Literal" [("0", .lit n)] => .lit n
  | .struct "Span" [("0", .str s), ("1", .lit n)] => .tuple [.str s, .lit n]
  | .int t n => .int t n
  | .str s => .str s
  | .host _ (.expr e) => e
  | _ => .tuple []

/-- An interpolated pattern. -/
def toPat : Val Code → Pat
  | .struct "Ident" [("0", .str s)] => .var s
  | .int t n => .int t n
  | _ => .wild

/-- Interpolated statements. -/
def toStmts : Val Code → List Stmt
  | .host _ (.stmts ss) => ss
  | .host _ (.expr e) => [.tail e]
  | _ => []

/-- Interpolated items. -/
def toItems : Val Code → List Item
  | .host _ (.items is) => is
  | _ => []

/-! ### substitution -/

mutual
def Ty.subst : Ty → Sub → Ty
  | .name s [], σ =>
    match lookup s σ with
    | .some v => toTy v
    | .none => .name s []
  | .name s (a :: as), σ => .name (σ.name s) (Ty.substs (a :: as) σ)
  | .ref t, σ => .ref (Ty.subst t σ)
  | .refMut t, σ => .refMut (Ty.subst t σ)
  | .arr t n, σ => .arr (Ty.subst t σ) (σ.name n)
  | .slice t, σ => .slice (Ty.subst t σ)
  | .tuple ts, σ => .tuple (Ty.substs ts σ)
  | .ptr t, σ => .ptr (Ty.subst t σ)
  | .num n, _ => .num n
def Ty.substs : List Ty → Sub → List Ty
  | [], _ => []
  | t :: ts, σ => Ty.subst t σ :: Ty.substs ts σ
end

mutual
def Pat.subst : Pat → Sub → Pat
  | .var x, σ =>
    match lookup x σ with
    | .some v => toPat v
    | .none => .var x
  | .wild, _ => .wild
  | .tup ps, σ => .tup (Pat.substs ps σ)
  | .some p, σ => .some (Pat.subst p σ)
  | .none, _ => .none
  | .lit n, _ => .lit n
  | .int t n, _ => .int t n
  | .str s, _ => .str s
  | .ok p, σ => .ok (Pat.subst p σ)
  | .err p, σ => .err (Pat.subst p σ)
  | .variant ty item fs ps, σ => .variant (σ.name ty) (σ.name item) fs (Pat.substs ps σ)
  | .struct n fs ps, σ => .struct (σ.name n) fs (Pat.substs ps σ)
  | .or ps, σ => .or (Pat.substs ps σ)
def Pat.substs : List Pat → Sub → List Pat
  | [], _ => []
  | p :: ps, σ => Pat.subst p σ :: Pat.substs ps σ
end

/-- The rounds of a repetition, or one round for anything else. -/
def Expr.rows : Expr → Sub → List Sub
  | .rep xs _, σ => σ.rows xs
  | _, σ => [σ]
/-- The same for an arm. -/
def Arm.rows : Arm → Sub → List Sub
  | .rep xs _, σ => σ.rows xs
  | _, σ => [σ]
/-- The same for a statement. -/
def Stmt.rows : Stmt → Sub → List Sub
  | .rep xs _, σ => σ.rows xs
  | _, σ => [σ]

mutual
def Expr.subst : Expr → Sub → Expr
  | .var x, σ =>
    match lookup x σ with
    | .some v => toExpr v
    | .none => .var x
  | .lit n, _ => .lit n
  | .bool b, _ => .bool b
  | .str s, _ => .str s
  | .path ty item, σ => .path (σ.name ty) (σ.name item)
  | .field e f, σ => .field (Expr.subst e σ) (σ.name f)
  | .index e i, σ => .index (Expr.subst e σ) (Expr.subst i σ)
  | .sliceTo e k, σ => .sliceTo (Expr.subst e σ) (Expr.subst k σ)
  | .un op e, σ => .un op (Expr.subst e σ)
  | .bin op a b, σ => .bin op (Expr.subst a σ) (Expr.subst b σ)
  | .and a b, σ => .and (Expr.subst a σ) (Expr.subst b σ)
  | .or a b, σ => .or (Expr.subst a σ) (Expr.subst b σ)
  | .cast e t, σ => .cast (Expr.subst e σ) (t.subst σ)
  | .assign p e, σ => .assign (Expr.subst p σ) (Expr.subst e σ)
  | .assignOp op p e, σ => .assignOp op (Expr.subst p σ) (Expr.subst e σ)
  | .none, _ => .none
  | .some e, σ => .some (Expr.subst e σ)
  | .ok e, σ => .ok (Expr.subst e σ)
  | .ctor n e, σ => .ctor (σ.name n) (Expr.subst e σ)
  | .call f as, σ => .call (σ.name f) (Expr.substs as σ)
  | .pcall ty f cs as, σ => .pcall (σ.name ty) (σ.name f) (cs.map σ.name) (Expr.substs as σ)
  | .mcall e m cs as, σ => .mcall (Expr.subst e σ) (σ.name m) (cs.map σ.name) (Expr.substs as σ)
  | .mclosure e m p b, σ => .mclosure (Expr.subst e σ) m (p.subst σ) (Expr.subst b σ)
  | .fold e i p q b, σ => .fold (Expr.subst e σ) (Expr.subst i σ) (p.subst σ) (q.subst σ) (Expr.subst b σ)
  | .mapCtor e n, σ => .mapCtor (Expr.subst e σ) (σ.name n)
  | .sum e, σ => .sum (Expr.subst e σ)
  | .tryIntoOk e, σ => .tryIntoOk (Expr.subst e σ)
  | .struct n fs es, σ => .struct (σ.name n) fs (Expr.substs es σ)
  | .repeat e n, σ => .repeat (Expr.subst e σ) (Expr.subst n σ)
  | .tuple es, σ => .tuple (Expr.substs es σ)
  | .ite c t e, σ => .ite (Expr.subst c σ) (Expr.subst t σ) (Expr.subst e σ)
  | .ifLet p s t e, σ => .ifLet (p.subst σ) (Expr.subst s σ) (Expr.subst t σ) (Expr.subst e σ)
  | .block ss, σ => .block (Stmt.substs ss σ)
  | .ret e, σ => .ret (Expr.subst e σ)
  | .brk, _ => .brk
  | .while c b, σ => .while (Expr.subst c σ) (Expr.subst b σ)
  | .whileLet p e b, σ => .whileLet (p.subst σ) (Expr.subst e σ) (Expr.subst b σ)
  | .for p e b, σ => .for (p.subst σ) (Expr.subst e σ) (Expr.subst b σ)
  | .range a b, σ => .range (Expr.subst a σ) (Expr.subst b σ)
  | .try e, σ => .try (Expr.subst e σ)
  | .int t n, _ => .int t n
  | .match s arms, σ => .match (Expr.subst s σ) (Arm.substs arms σ)
  | .err e, σ => .err (Expr.subst e σ)
  | .array es, σ => .array (Expr.substs es σ)
  | .rep _ e, σ => Expr.subst e σ
  | .format ps es, σ => .format ps (Expr.substs es σ)
  | .mapOr e d p b, σ => .mapOr (Expr.subst e σ) (Expr.subst d σ) (p.subst σ) (Expr.subst b σ)
  | .panic e, σ => .panic (Expr.subst e σ)
  | .stringify x, σ => .stringify (σ.name x)
  | .sizeOf t, σ => .sizeOf (t.subst σ)
def Expr.substs : List Expr → Sub → List Expr
  | [], _ => []
  | e :: es, σ => (e.rows σ).map (fun σ => Expr.subst e σ) ++ Expr.substs es σ
def Arm.subst : Arm → Sub → Arm
  | .mk p g b, σ => .mk (p.subst σ) (Expr.subst g σ) (Expr.subst b σ)
  | .rep _ a, σ => Arm.subst a σ
def Arm.substs : List Arm → Sub → List Arm
  | [], _ => []
  | a :: as, σ => (a.rows σ).map (fun σ => Arm.subst a σ) ++ Arm.substs as σ
def Stmt.subst : Stmt → Sub → List Stmt
  | .let p t e, σ => [.let (p.subst σ) (t.map (·.subst σ)) (Expr.subst e σ)]
  | .semi e, σ => [.semi (Expr.subst e σ)]
  | .tail e, σ => [.tail (Expr.subst e σ)]
  | .hole x, σ =>
    match lookup x σ with
    | .some v => toStmts v
    | .none => [.hole x]
  | .rep _ s, σ => Stmt.subst s σ
  | .attr a e, σ => [.attr a (Expr.subst e σ)]
  | .spanned sp ss, σ => [.spanned (Expr.subst sp σ) (Stmt.substs ss σ)]
def Stmt.substs : List Stmt → Sub → List Stmt
  | [], _ => []
  | s :: ss, σ => (s.rows σ).flatMap (fun σ => Stmt.subst s σ) ++ Stmt.substs ss σ
end

def FnDecl.subst (d : FnDecl) (σ : Sub) : FnDecl where
  implGens := d.implGens
  gens := d.gens
  params := d.params.map fun p => (p.1, p.2.subst σ)
  ret := d.ret.subst σ
  body := Stmt.substs d.body σ

mutual
def Item.subst : Item → Sub → List Item
  | .fn f d, σ => [.fn f (d.subst σ)]
  | .type n t, σ => [.type n (t.subst σ)]
  | .impl tr as t is, σ => [.impl tr (as.map (·.subst σ)) (t.subst σ) (Item.substs is σ)]
  | .struct n, _ => [.struct n]
  | .hole x, σ =>
    match lookup x σ with
    | .some v => toItems v
    | .none => [.hole x]
def Item.substs : List Item → Sub → List Item
  | [], _ => []
  | i :: is, σ => Item.subst i σ ++ Item.substs is σ
end

def Code.subst : Code → Sub → Code
  | .expr e, σ => .expr (e.subst σ)
  | .ty t, σ => .ty (t.subst σ)
  | .items is, σ => .items (Item.substs is σ)
  | .stmts ss, σ => .stmts (Stmt.substs ss σ)

/-- `quote! { … }` -/
def Tmpl.quote (t : Tmpl) (args : List (Val Code)) : Val Code :=
  .host "TokenStream" (t.code.subst (t.holes.zip args))

end Enumset.Src
