import Verif.Src.Quote
/-!
# `macro_rules!`

The meaning of `macro_rules!` definitions: which arm a call selects, what the fragments of its pattern
stand for, and the expansion.  The matcher is the one of rustc (`rustc_expand::mbe::macro_parser`): it reads
the tokens of the call once from left to right and follows all ways in which they may fit the pattern.

Simplifications: the only fragments are `$x:path`, and such a fragment is one token; repetitions are not
nested; a token tree in brackets is a token like any other, no pattern of the file has one; what is
written by a macro and is no fragment is parsed before the macro is expanded.
-/
set_option autoImplicit false

namespace Enumset.Src

/-- A token of a macro call. -/
inductive MTok where
  /-- something that parses as a path -/
  | path (e : Expr)
  /-- any other token -/
  | punct (s : String)

/-- A part of a pattern. -/
inductive MAtom where
  /-- a token -/
  | tok (s : String)
  /-- `$x:path` -/
  | path (x : String)

/-- How often a part of a pattern is repeated. -/
inductive MRep where
  /-- `*` -/
  | star
  /-- `?` -/
  | opt

/-- A part of a pattern, or `again`: a repetition of which a round is over. -/
inductive MPat where
  | atom (a : MAtom)
  /-- `$( … ) sep *` or `$( … )?` -/
  | rep (as : List MAtom) (sep : Option String) (op : MRep)
  | again (as : List MAtom) (sep : Option String) (op : MRep)

/-- A token in the arguments of a macro call that an arm writes. -/
inductive MArg where
  | tok (s : String)
  /-- `$x` -/
  | var (x : String)

/-- The arguments of a macro call that an arm writes. -/
inductive MArgs where
  | one (a : MArg)
  /-- `$( … )*` -/
  | rep (as : List MArg)

/-- What an arm writes. -/
inductive MBody where
  /-- an expression -/
  | code (t : Tmpl)
  /-- `$crate::m!(args)` -/
  | call (m : String) (args : List MArgs)

/-- An arm. -/
structure MArm where
  lhs : List MPat
  rhs : MBody

/-! ### matching -/

/-- One way to match what has been read: the rest of the pattern, and what the fragments stand for. -/
structure MThread where
  rest : List MPat
  binds : List (String × Expr)

/-- The ways to go on from a place in a pattern: they begin with a token or a fragment, or are at the end. -/
def MPat.starts : List MPat → List (List MPat)
  | [] => [[]]
  | .atom a :: r => [.atom a :: r]
  | .rep as sep op :: r => MPat.starts r ++ [as.map .atom ++ .again as sep op :: r]
  | .again as sep .star :: r =>
    MPat.starts r ++ [(sep.toList.map fun s => .atom (.tok s)) ++ (as.map .atom ++ .again as sep .star :: r)]
  | .again _ _ .opt :: r => MPat.starts r

/-- Go on with the rest of a pattern. -/
def threads (binds : List (String × Expr)) (r : List MPat) : List MThread :=
  (MPat.starts r).map fun r => ⟨r, binds⟩

/-- Read a token that is no path. -/
def MThread.punct (s : String) : MThread → List MThread
  | ⟨.atom (.tok s') :: r, b⟩ => if s = s' then threads b r else []
  | _ => []

/-- Read a path. -/
def MThread.path (e : Expr) : MThread → List (List MThread)
  | ⟨.atom (.path x) :: r, b⟩ => [threads (b ++ [(x, e)]) r]
  | _ => []

/-- Whether all of the pattern is matched. -/
def MThread.done : MThread → Bool
  | ⟨[], _⟩ => true
  | _ => false

/-- The result of matching. -/
inductive MMatch where
  | ok (binds : List (String × Expr))
  /-- the arm does not match -/
  | fail
  /-- the macro is ambiguous, which is an error -/
  | error

/-- Match the tokens of a call. -/
def matchToks : List MTok → List MThread → MMatch
  | [], ths =>
    match ths.filter MThread.done with
    | [] => .fail
    | [th] => .ok th.binds
    | _ => .error
  | .punct s :: ts, ths => matchToks ts (ths.flatMap (MThread.punct s))
  | .path e :: ts, ths =>
    match ths.flatMap (MThread.path e) with
    | [] => .fail
    | [ths] => matchToks ts ths
    | _ => .error

/-- The first arm that matches. -/
def selectArm : List MArm → List MTok → Option (MArm × List (String × Expr))
  | [], _ => none
  | a :: as, ts =>
    match matchToks ts (threads [] a.lhs) with
    | .ok b => some (a, b)
    | .fail => selectArm as ts
    | .error => none

/-! ### expansion -/

/-- The fragments in a pattern, and whether they are in a repetition. -/
def MPat.frags : List MPat → List (String × Bool)
  | [] => []
  | .atom (.path x) :: r => (x, false) :: MPat.frags r
  | .rep as _ _ :: r =>
    (as.filterMap fun | .path x => some (x, true) | .tok _ => none) ++ MPat.frags r
  | _ :: r => MPat.frags r

/-- The paths that a fragment stands for. -/
def valuesOf (x : String) : List (String × Expr) → List Expr
  | [] => []
  | (y, e) :: b => if x = y then e :: valuesOf x b else valuesOf x b

/-- What is written for a fragment: a list if it is in a repetition. -/
def fragVal (b : List (String × Expr)) : String × Bool → String × Val Code
  | (x, true) => ("#" ++ x, .arr ((valuesOf x b).map fun e => .host "path" (.expr e)))
  | (x, false) =>
    ("#" ++ x, match valuesOf x b with
      | e :: _ => .host "path" (.expr e)
      | [] => .unit)

/-- The arguments an arm writes. -/
def MArg.inst (σ : Sub) : MArg → List MTok
  | .tok s => [.punct s]
  | .var x =>
    match lookup ("#" ++ x) σ with
    | some v => [.path (toExpr v)]
    | none => []

/-- The same, with repetitions. -/
def MArgs.inst (σ : Sub) : MArgs → List MTok
  | .one a => a.inst σ
  | .rep as =>
    (σ.rows (as.filterMap fun | .var x => some ("#" ++ x) | .tok _ => none)).flatMap fun σ =>
      as.flatMap (·.inst σ)

/-- The expansion of a call of the macro `m`, if it has one.  Macros call macros at most `fuel` deep; the
`recursion_limit` of rustc is 128. -/
def expandMacro (ms : List (String × List MArm)) : Nat → String → List MTok → Option Expr
  | 0, _, _ => none
  | fuel + 1, m, ts =>
    match ms.lookup m with
    | none => none
    | some arms =>
      match selectArm arms ts with
      | none => none
      | some (arm, b) =>
        let σ := (MPat.frags arm.lhs).map (fragVal b)
        match arm.rhs with
        | .code t => some (toExpr (.host "path" (t.code.subst σ)))
        | .call m args => expandMacro ms fuel m (args.flatMap (·.inst σ))

end Enumset.Src
