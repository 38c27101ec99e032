import Verif.Repr
/-!
# Syntax of a fragment of Rust

The fragment in which `enumset/src/repr/primitive.rs`, `enumset/src/repr/array.rs`,
`enumset/src/set.rs` and `enumset_derive/src/lib.rs` are written.  The files `Verif/Src/*Rs.lean`
contain these files as terms of the types below; `Verif/Props/SrcParse.lean` proves that their text parses to
these terms.  The meaning of the terms is defined in `Verif/Src/Sem.lean`.

The derive macro writes programs, so there is syntax for the content of `quote!`: an interpolated
`#x` is a variable, a type or a name called `#x`, and a repetition `#( … )*` is a node `rep`.
-/
set_option autoImplicit false

namespace Enumset.Src

/-- Types, as far as the meaning of an expression depends on them. -/
inductive Ty where
  /-- a path, `u64`, `Self`, `Option<Self>`, `ArrayRepr<N>` -/
  | name (s : String) (args : List Ty)
  /-- `&T` -/
  | ref (t : Ty)
  /-- `&mut T` -/
  | refMut (t : Ty)
  /-- `[T; n]` -/
  | arr (t : Ty) (n : String)
  /-- `[T]` -/
  | slice (t : Ty)
  | tuple (ts : List Ty)
  /-- `*const T` -/
  | ptr (t : Ty)
  /-- a number, as a const argument -/
  | num (n : Nat)

inductive UnOp where
  | not | deref | ref | refMut

inductive BinOp where
  | add | sub | mul | div | rem | band | bor | bxor | shl | shr
  | eq | ne | lt | le | gt | ge

inductive Pat where
  /-- a variable, `mut` or not -/
  | var (x : String)
  | wild
  | tup (ps : List Pat)
  /-- `Some(p)` -/
  | some (p : Pat)
  /-- `None` -/
  | none
  /-- an integer -/
  | lit (n : Nat)
  /-- an integer with a suffix -/
  | int (t : NumTy) (n : Nat)
  | str (s : String)
  /-- `Ok(p)` -/
  | ok (p : Pat)
  /-- `Err(p)` -/
  | err (p : Pat)
  /-- a variant, `Ty::V`, `Ty::V(p, …)`: the fields are `0`, `1`, … -/
  | variant (ty item : String) (fields : List String) (ps : List Pat)
  /-- `S { f: p, .. }` -/
  | struct (name : String) (fields : List String) (ps : List Pat)
  /-- `p | q` -/
  | or (ps : List Pat)

mutual
inductive Expr where
  /-- a variable, a const parameter or a macro parameter -/
  | var (x : String)
  /-- an integer literal without suffix -/
  | lit (n : Nat)
  | bool (b : Bool)
  | str (s : String)
  /-- `Ty::item` -/
  | path (ty item : String)
  | field (e : Expr) (f : String)
  | index (e i : Expr)
  /-- `e[..k]` -/
  | sliceTo (e k : Expr)
  | un (op : UnOp) (e : Expr)
  | bin (op : BinOp) (a b : Expr)
  /-- `a && b` -/
  | and (a b : Expr)
  /-- `a || b` -/
  | or (a b : Expr)
  /-- `e as T` -/
  | cast (e : Expr) (t : Ty)
  /-- `p = e` -/
  | assign (p e : Expr)
  /-- `p op= e` -/
  | assignOp (op : BinOp) (p e : Expr)
  /-- `None` -/
  | none
  /-- `Some(e)` -/
  | some (e : Expr)
  /-- `Ok(e)` -/
  | ok (e : Expr)
  /-- a tuple struct, `ArrayRepr(x)`, `ArrayRepr::<O>(x)`; the type arguments are dropped -/
  | ctor (name : String) (e : Expr)
  /-- `f(args)` -/
  | call (f : String) (args : List Expr)
  /-- `Ty::f::<consts>(args)` -/
  | pcall (ty f : String) (consts : List String) (args : List Expr)
  /-- `e.m::<consts>(args)` -/
  | mcall (e : Expr) (m : String) (consts : List String) (args : List Expr)
  /-- `e.m(|p| body)` -/
  | mclosure (e : Expr) (m : String) (p : Pat) (body : Expr)
  /-- `e.fold(init, |p, q| body)` -/
  | fold (e init : Expr) (p q : Pat) (body : Expr)
  /-- `e.map(S)` for a tuple struct `S` -/
  | mapCtor (e : Expr) (name : String)
  /-- `e.sum()` -/
  | sum (e : Expr)
  /-- `e.try_into().ok()` -/
  | tryIntoOk (e : Expr)
  /-- `S { f: e, … }` -/
  | struct (name : String) (fields : List String) (es : List Expr)
  /-- `[e; n]`, `vec![e; n]` -/
  | repeat (e n : Expr)
  | tuple (es : List Expr)
  | ite (c t e : Expr)
  /-- `if let p = s { t } else { e }` -/
  | ifLet (p : Pat) (s t e : Expr)
  | block (ss : List Stmt)
  | ret (e : Expr)
  | brk
  | while (c body : Expr)
  /-- `while let p = e { body }` -/
  | whileLet (p : Pat) (e body : Expr)
  /-- `for p in e { body }` -/
  | for (p : Pat) (e body : Expr)
  /-- `a..b` -/
  | range (a b : Expr)
  /-- `e?` -/
  | try (e : Expr)
  /-- an integer literal with a suffix -/
  | int (t : NumTy) (n : Nat)
  | match (s : Expr) (arms : List Arm)
  /-- `Err(e)` -/
  | err (e : Expr)
  /-- `[e, …]`, `vec![e, …]` -/
  | array (es : List Expr)
  /-- `#( e ),*` in `quote!`; `xs` are the interpolations in it -/
  | rep (xs : List String) (e : Expr)
  /-- `format!("a{}b", e, …)`, `concat!(e, …)` -/
  | format (parts : List String) (es : List Expr)
  /-- `e.map_or(d, |p| b)` -/
  | mapOr (e d : Expr) (p : Pat) (b : Expr)
  /-- `panic!(e)` -/
  | panic (e : Expr)
  /-- `stringify!(x)` -/
  | stringify (x : String)
  /-- `core::mem::size_of::<T>()` -/
  | sizeOf (t : Ty)

/-- An arm of a `match`. -/
inductive Arm where
  /-- `p if guard => body`; the guard is `true` if there is none -/
  | mk (p : Pat) (guard body : Expr)
  /-- `#( … )*` in `quote!` -/
  | rep (xs : List String) (a : Arm)

inductive Stmt where
  /-- `let p: t = e;`.  Where the text has no type but the type inferred by rustc matters, it is
  supplied by the parser (`Verif/Src/Parse.lean`) -/
  | let (p : Pat) (t : Option Ty) (e : Expr)
  /-- `e;` -/
  | semi (e : Expr)
  /-- `e` at the end of a block -/
  | tail (e : Expr)
  /-- `#x` in `quote!` -/
  | hole (x : String)
  /-- `#( … )*` in `quote!` -/
  | rep (xs : List String) (s : Stmt)
  /-- the attribute `#[a(note = e)]` of the statement after it -/
  | attr (a : String) (e : Expr)
  /-- a block written by `quote_spanned!` at the place `sp` -/
  | spanned (sp : Expr) (ss : List Stmt)
end

/-- A function.  A constant is a function without parameters. -/
structure FnDecl where
  /-- parameters of the `impl` and of the function: const parameters and storage types -/
  implGens : List String
  gens : List String
  params : List (String × Ty)
  ret : Ty
  body : List Stmt

/-- A struct; the field of a tuple struct is `0`.  `derives` are the traits in `#[derive(…)]`. -/
structure StructDecl where
  gens : List String
  fields : List (String × Ty)
  derives : List String

/-- A source file: its functions, by type and name; its structs; and the invocations of the macro its
functions are in: the arguments, by macro parameter. -/
structure File where
  fns : List ((String × String) × FnDecl)
  structs : List (String × StructDecl)
  invocations : List (List (String × Expr))

/-- An item of a program that is written by a macro. -/
inductive Item where
  | fn (name : String) (d : FnDecl)
  /-- an associated type -/
  | type (name : String) (t : Ty)
  /-- `impl Trait<targs> for ty { … }`; the trait is empty if there is none -/
  | impl (trait : String) (targs : List Ty) (ty : Ty) (items : List Item)
  /-- a struct without fields -/
  | struct (name : String)
  /-- `#x` in `quote!` -/
  | hole (x : String)

/-- A piece of a program. -/
inductive Code where
  | expr (e : Expr)
  | ty (t : Ty)
  | items (is : List Item)
  | stmts (ss : List Stmt)

/-- The content of a `quote!` and the interpolations in it. -/
structure Tmpl where
  holes : List String
  code : Code

end Enumset.Src
