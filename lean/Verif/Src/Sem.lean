import Verif.Src.Syntax
/-!
# Meaning of the fragment of Rust

An interpreter for `Verif/Src/Syntax.lean`.  It is independent of the model: it knows integers,
arrays, options, structs, loops, method calls and `&mut` arguments, but nothing about enum sets.

* Values are copied; a `&mut` argument is copied in and copied back after the call (no two references
  to the same place are ever alive in the fragment).
* A program that does not make sense (a missing variable, operands of different types, a `match`
  without a matching arm) has the outcome `ub`; the theorems of `Props/Src*.lean` show that this does
  not happen.
* Which of several panics of one expression is reported may differ from Rust: `p op= e` reads `p`
  before it evaluates `e`.
* `while`, and `for` over an iterator given by a `next` method, run for at most `fuel` rounds and are
  `diverge` after that.
* Methods are looked up by the type of the receiver; the integer methods of `core` come first, as
  inherent methods do in Rust.
-/
set_option autoImplicit false

namespace Enumset.Src

/-- Name of an integer type. -/
def NumTy.name : NumTy → String
  | .u8 => "u8"
  | .u16 => "u16"
  | .u32 => "u32"
  | .u64 => "u64"
  | .u128 => "u128"
  | .usize => "usize"

/-- The integer type of a given name. -/
def NumTy.ofName : String → Option NumTy
  | "u8" => some .u8
  | "u16" => some .u16
  | "u32" => some .u32
  | "u64" => some .u64
  | "u128" => some .u128
  | "usize" => some .usize
  | _ => none

/-- Values.  `H` are the values of types that are not defined in the fragment. -/
inductive Val (H : Type) where
  | unit
  | bool (b : Bool)
  | int (t : NumTy) (n : Nat)
  /-- an integer whose type is not determined yet: it takes the type of the other operand -/
  | lit (n : Nat)
  | str (s : String)
  /-- arrays, slices, ranges, and iterators over these -/
  | arr (xs : List (Val H))
  | tup (xs : List (Val H))
  | struct (name : String) (fields : List (String × Val H))
  /-- a variant of an enum; its fields are `0`, `1`, … -/
  | enum (ty variant : String) (fields : List (String × Val H))
  | none
  | some (v : Val H)
  | ok (v : Val H)
  | err (v : Val H)
  /-- an integer type, as the value of a type parameter -/
  | ty (t : NumTy)
  /-- a value of a type `ty` that is not defined in the fragment -/
  | host (ty : String) (h : H)

/-- Variables in scope, innermost first. -/
abbrev Env (H : Type) := List (String × Val H)

/-- What is known about the type of an expression from its context. -/
inductive Exp where
  | any
  | int (t : NumTy)
  | opt (e : Exp)
  | arr (e : Exp)
  /-- a generic struct and its argument -/
  | app (name : String) (e : Exp)

/-- Outcome of an expression: a value, `return` or `break`. -/
inductive Out (H : Type) where
  | val (v : Val H) (env : Env H)
  | ret (v : Val H) (env : Env H)
  | brk (env : Env H)

/-- A function, given the variables of the caller (from which const parameters are taken that are not
determined otherwise), the explicit const arguments and the arguments.  It returns the result and the
final values of the `&mut` parameters, by position. -/
abbrev Fn (H : Type) :=
  Env H → List (Val H) → List (Val H) → Res (Val H × List (Nat × Val H))

/-- The surroundings of a function body. -/
structure Ctx (H : Type) where
  fuel : Nat
  /-- the type `Self` -/
  self : String
  /-- the types associated types stand for -/
  alias : String → String
  /-- integer types, among them the macro parameter `$name` -/
  ty : String → Option NumTy
  structs : String → Option StructDecl
  /-- functions and constants, by type and name -/
  fns : String → String → Option (Fn H)

variable {H : Type}

/-- Run the rest of the computation with the value. -/
def Out.andThen (r : Res (Out H)) (f : Val H → Env H → Res (Out H)) : Res (Out H) :=
  match r with
  | .ok (.val v env) => f v env
  | .ok o => .ok o
  | .panic p => .panic p
  | .ub => .ub
  | .diverge => .diverge

/-- Branch on a condition. -/
def cond (v : Val H) (a b : Res (Out H)) : Res (Out H) :=
  match v with
  | .bool true => a
  | .bool false => b
  | _ => .ub

/-- A value computed without changing variables. -/
def Out.pure (r : Res (Val H)) (env : Env H) : Res (Out H) := r >>= fun v => .ok (.val v env)

/-- Leave a block: forget the variables declared in it. -/
def Out.restore (n : Nat) (r : Res (Out H)) : Res (Out H) :=
  r >>= fun
    | .val v env => .ok (.val v (env.drop (env.length - n)))
    | .ret v env => .ok (.ret v (env.drop (env.length - n)))
    | .brk env => .ok (.brk (env.drop (env.length - n)))

/-! ### variables, fields, indices -/

def lookup (x : String) : List (String × Val H) → Option (Val H)
  | [] => none
  | (y, v) :: r => if x = y then some v else lookup x r

def update (x : String) (v : Val H) : List (String × Val H) → List (String × Val H)
  | [] => []
  | (y, w) :: r => if x = y then (y, v) :: r else (y, w) :: update x v r

/-- Something that has to be there. -/
def need {α : Type} : Option α → Res α
  | some a => .ok a
  | none => .ub

def asIndex : Val H → Res Nat
  | .int .usize k => .ok k
  | .lit k => .ok k
  | _ => .ub

/-- A step from a place to a place inside it. -/
inductive Proj where
  | field (f : String)
  | index (i : Nat)
  | to (k : Nat)

/-- Read a part of a value. -/
def Proj.get : Proj → Val H → Res (Val H)
  | .field f, .struct _ fs => need (lookup f fs)
  | .index i, .arr xs => idxL xs i
  | .to k, .arr xs => if k ≤ xs.length then .ok (.arr (xs.take k)) else .panic .index
  | _, _ => .ub

/-- What the type of a value says about another one of the same type. -/
def Val.exp : Val H → Exp
  | .int t _ => .int t
  | _ => .any

/-- An integer literal gets the type its context asks for. -/
def Exp.adopt : Exp → Val H → Val H
  | .int t, .lit n => .int t n
  | _, v => v

/-- Write a part of a value. -/
def Proj.set : Proj → Val H → Val H → Res (Val H)
  | .field f, .struct n fs, v => need (lookup f fs) >>= fun old =>
    .ok (.struct n (update f (old.exp.adopt v) fs))
  | .index i, .arr xs, v => idxL xs i >>= fun old => .ok (.arr (xs.set i (old.exp.adopt v)))
  | .to k, .arr xs, .arr ys =>
    if k ≤ xs.length then .ok (.arr (ys ++ xs.drop k)) else .panic .index
  | _, _, _ => .ub

/-- Read at a path inside a value. -/
def getAt : List Proj → Val H → Res (Val H)
  | [], v => .ok v
  | p :: ps, v => p.get v >>= getAt ps

/-- Write at a path inside a value. -/
def setAt : List Proj → Val H → Val H → Res (Val H)
  | [], w, v => .ok (w.exp.adopt v)
  | [p], w, v => p.set w v
  | p :: ps, w, v => p.get w >>= fun x => setAt ps x v >>= fun x => p.set w x

/-- Write to a variable, or to a part of it. -/
def writeAt (x : String) (ps : List Proj) (v : Val H) (env : Env H) : Res (Env H) :=
  need (lookup x env) >>= fun w => setAt ps w v >>= fun w => .ok (update x w env)

/-- Call a function. -/
def Ctx.call (C : Ctx H) (ty f : String) (env : Env H) (consts args : List (Val H)) :
    Res (Val H × List (Nat × Val H)) :=
  need (C.fns ty f) >>= fun fn => fn env consts args

/-! ### operators -/

/-- The type of a value, for the lookup of methods. -/
def Val.tag : Val H → String
  | .int t _ => NumTy.name t
  | .struct n _ => n
  | .enum n _ _ => n
  | .host s _ => s
  | .str _ => "str"
  | .arr _ => "array"
  | .bool _ => "bool"
  | .some _ => "Option"
  | .none => "Option"
  | _ => "?"

/-- The method that implements an operator. -/
def BinOp.method : BinOp → String
  | .add => "add" | .sub => "sub" | .mul => "mul" | .div => "div" | .rem => "rem"
  | .band => "bitand" | .bor => "bitor" | .bxor => "bitxor" | .shl => "shl" | .shr => "shr"
  | .eq => "eq" | .ne => "ne" | .lt => "lt" | .le => "le" | .gt => "gt" | .ge => "ge"

/-- `a op b` at the integer type `t`. -/
def arith [Platform] (op : BinOp) (t : NumTy) (a b : Nat) : Res (Val H) :=
  match op with
  | .add => addW t.bits a b >>= fun n => .ok (.int t n)
  | .sub => subW t.bits a b >>= fun n => .ok (.int t n)
  | .mul => mulW t.bits a b >>= fun n => .ok (.int t n)
  | .div => if b = 0 then .panic (.explicit "attempt to divide by zero") else .ok (.int t (a / b))
  | .rem => if b = 0 then .panic (.explicit "attempt to calculate the remainder with a divisor of zero")
      else .ok (.int t (a % b))
  | .band => .ok (.int t (a &&& b))
  | .bor => .ok (.int t (a ||| b))
  | .bxor => .ok (.int t (a ^^^ b))
  | .shl => if b < t.bits then .ok (.int t ((a <<< b) % 2 ^ t.bits))
      else onOverflow (.int t ((a <<< (b % t.bits)) % 2 ^ t.bits))
  | .shr => if b < t.bits then .ok (.int t (a >>> b)) else onOverflow (.int t (a >>> (b % t.bits)))
  | .eq => .ok (.bool (decide (a = b)))
  | .ne => .ok (.bool (decide (a ≠ b)))
  | .lt => .ok (.bool (decide (a < b)))
  | .le => .ok (.bool (decide (a ≤ b)))
  | .gt => .ok (.bool (decide (a > b)))
  | .ge => .ok (.bool (decide (a ≥ b)))

/-- Comparison of two literals. -/
def litCmp (op : BinOp) (a b : Nat) : Res (Val H) :=
  match op with
  | .eq => .ok (.bool (decide (a = b)))
  | .ne => .ok (.bool (decide (a ≠ b)))
  | .lt => .ok (.bool (decide (a < b)))
  | .le => .ok (.bool (decide (a ≤ b)))
  | .gt => .ok (.bool (decide (a > b)))
  | .ge => .ok (.bool (decide (a ≥ b)))
  | _ => .ub

/-- Shifts take the type of the left operand. -/
def BinOp.isShift : BinOp → Bool
  | .shl => true
  | .shr => true
  | _ => false

/-- An operator of a type with its own implementation. -/
def opFn (C : Ctx H) (op : BinOp) (a b : Val H) : Res (Val H) :=
  match op with
  | .ne => C.call a.tag "eq" [] [] [a, b] >>= fun
    | (.bool r, _) => .ok (.bool !r)
    | _ => .ub
  | op => C.call a.tag op.method [] [] [a, b] >>= fun r => .ok r.1

/-- `a op b`, for all operators but `&&` and `||`. -/
def binVal [Platform] (C : Ctx H) (op : BinOp) : Val H → Val H → Res (Val H)
  | .int t a, .int t' b => if t = t' ∨ op.isShift = true then arith op t a b else .ub
  | .int t a, .lit b => arith op t a b
  | .lit a, .int t b => if op.isShift then .ub else arith op t a b
  | .lit a, .lit b => litCmp op a b
  | a, b => opFn C op a b

/-- The new value of `a` after `a op= b`: structs have their own implementation. -/
def assignVal [Platform] (C : Ctx H) (op : BinOp) (a b : Val H) : Res (Val H) :=
  match a with
  | .struct n fs => C.call n (op.method ++ "_assign") [] [] [.struct n fs, b] >>= fun r => need (r.2.lookup 0)
  | a => binVal C op a b

/-- `!a` -/
def notVal [Target] (C : Ctx H) : Val H → Res (Val H)
  | .bool b => .ok (.bool !b)
  | .int t n => .ok (.int t (2 ^ t.bits - 1 - n))
  | a => C.call a.tag "not" [] [] [a] >>= fun r => .ok r.1

/-- `a as t`; of an enum, its discriminant. -/
def castVal [Target] (C : Ctx H) (t : NumTy) : Val H → Res (Val H)
  | .int _ n => .ok (.int t (castW t.bits n))
  | .lit n => .ok (.int t (castW t.bits n))
  | .host s h => C.call s "discriminant" [] [] [.host s h] >>= fun
    | (.lit n, _) => .ok (.int t (castW t.bits n))
    | _ => .ub
  | _ => .ub

/-! ### methods of `core` -/

/-- Names of the methods of integers, arrays and options that take no closure. -/
def intrinsics : List String :=
  ["count_ones", "leading_zeros", "trailing_zeros", "len", "iter", "into_iter", "rev",
   "copy_from_slice", "expect"]

/-- Methods of integers, arrays and options that take no closure; `none` if there is no such method. -/
def intrinsic [Platform] (m : String) (recv : Val H) (args : List (Val H)) :
    Option (Res (Val H × List (Nat × Val H))) :=
  if intrinsics.contains m then
    match recv, m, args with
    | .int t n, "count_ones", [] => some (.ok (.int .u32 (countOnes (BitVec.ofNat t.bits n)), []))
    | .int t n, "leading_zeros", [] =>
      some (.ok (.int .u32 (leadingZeros (BitVec.ofNat t.bits n)), []))
    | .int t n, "trailing_zeros", [] =>
      some (.ok (.int .u32 (trailingZeros (BitVec.ofNat t.bits n)), []))
    | .arr xs, "len", [] => some (.ok (.int .usize xs.length, []))
    | .arr xs, "iter", [] => some (.ok (.arr xs, []))
    | .arr xs, "into_iter", [] => some (.ok (.arr xs, []))
    | .arr xs, "rev", [] => some (.ok (.arr xs.reverse, []))
    | .arr xs, "copy_from_slice", [.arr ys] =>
      some (if xs.length = ys.length then .ok (.unit, [(0, .arr ys)]) else .panic .sliceLen)
    | .some v, "expect", [.str _] => some (.ok (v, []))
    | .none, "expect", [.str msg] => some (.panic (.expect msg))
    | _, _, _ => none
  else none

/-- `v.try_into().ok()` -/
def tryIntoOk [Target] (e : Exp) (v : Val H) : Res (Val H) :=
  match e, v with
  | .opt (.int t), .int _ n => .ok (if n < 2 ^ t.bits then .some (.int t n) else .none)
  | _, _ => .ub

/-- `iter.sum()` for items of an integer type. -/
def sumInts [Platform] (t : NumTy) : List (Val H) → Nat → Res (Val H)
  | [], acc => .ok (.int t acc)
  | .int t' n :: r, acc =>
    if t' = t then addW t.bits acc n >>= fun acc => sumInts t r acc else .ub
  | _ :: _, _ => .ub

/-- `iter.sum()` -/
def sumVal [Platform] (e : Exp) (v : Val H) : Res (Val H) :=
  match e, v with
  | .int t, .arr xs => sumInts t xs 0
  | _, _ => .ub

/-! ### types and patterns -/

mutual
/-- What a type says about a value of it. -/
def Ctx.exp (C : Ctx H) : Ty → Exp
  | .name s args =>
    match C.ty s with
    | some t => .int t
    | none =>
      match Ctx.expArg C args with
      | none => .any
      | some e => if s = "Option" then .opt e else if s = "Vec" then .arr e else .app s e
  | .ref t => Ctx.exp C t
  | .refMut t => Ctx.exp C t
  | .arr t _ => .arr (Ctx.exp C t)
  | .slice t => .arr (Ctx.exp C t)
  | .tuple _ => .any
  | .ptr _ => .any
  | .num _ => .any
/-- The first type argument. -/
def Ctx.expArg (C : Ctx H) : List Ty → Option Exp
  | [] => none
  | t :: _ => some (Ctx.exp C t)
end

/-- What is known about a field of a struct, given what is known about the struct. -/
def StructDecl.exp (d : StructDecl) (C : Ctx H) (e : Exp) (f : String) : Exp :=
  match d.fields.lookup f with
  | some (.name g []) =>
    if d.gens.contains g then
      match e with
      | .app _ e => e
      | _ => .any
    else C.exp (.name g [])
  | some t => C.exp t
  | none => .any

mutual
/-- Bind the variables of a pattern. -/
def bindPat : Pat → Val H → Env H → Res (Env H)
  | .var x, v, env => .ok ((x, v) :: env)
  | .wild, _, env => .ok env
  | .tup ps, .tup vs, env => bindPats ps vs env
  | .tup _, _, _ => .ub
  | .some p, .some v, env => bindPat p v env
  | .some _, _, _ => .ub
  | .none, _, _ => .ub
  | .lit _, _, _ => .ub
  | .int _ _, _, _ => .ub
  | .str _, _, _ => .ub
  | .ok _, _, _ => .ub
  | .err _, _, _ => .ub
  | .variant _ _ _ _, _, _ => .ub
  | .struct _ _ _, _, _ => .ub
  | .or _, _, _ => .ub
/-- Bind the variables of several patterns. -/
def bindPats : List Pat → List (Val H) → Env H → Res (Env H)
  | [], [], env => .ok env
  | p :: ps, v :: vs, env => bindPat p v env >>= fun env => bindPats ps vs env
  | _, _, _ => .ub
end

/-- Whether a pattern of `if let` matches. -/
def matches? : Pat → Val H → Res Bool
  | .some _, .some _ => .ok true
  | .some _, .none => .ok false
  | _, _ => .ub

mutual
/-- Match a value against a pattern and bind the variables of the pattern. -/
def matchPat : Pat → Val H → Env H → Option (Env H)
  | .var x, v, env => some ((x, v) :: env)
  | .wild, _, env => some env
  | .tup ps, v, env => match v with
    | .tup vs => matchPats ps vs env
    | _ => none
  | .some p, v, env => match v with
    | .some v => matchPat p v env
    | _ => none
  | .none, v, env => match v with
    | .none => some env
    | _ => none
  | .lit n, v, env => match v with
    | .int _ m => if n = m then some env else none
    | .lit m => if n = m then some env else none
    | _ => none
  | .int t n, v, env => match v with
    | .int u m => if t = u ∧ n = m then some env else none
    | _ => none
  | .str s, v, env => match v with
    | .str s' => if s = s' then some env else none
    | _ => none
  | .ok p, v, env => match v with
    | .ok v => matchPat p v env
    | _ => none
  | .err p, v, env => match v with
    | .err v => matchPat p v env
    | _ => none
  | .variant ty item fs ps, v, env => match v with
    | .enum ty' item' vs => if ty = ty' ∧ item = item' then matchFields ps fs vs env else none
    | _ => none
  | .struct n fs ps, v, env => match v with
    | .struct n' vs => if n = n' then matchFields ps fs vs env else none
    | _ => none
  | .or ps, v, env => matchAny ps v env
/-- Match several values, in order. -/
def matchPats : List Pat → List (Val H) → Env H → Option (Env H)
  | [], vs, env => match vs with
    | [] => some env
    | _ :: _ => none
  | p :: ps, vs, env => match vs with
    | [] => none
    | v :: vs => match matchPat p v env with
      | some env => matchPats ps vs env
      | none => none
/-- Match fields. -/
def matchFields : List Pat → List String → List (String × Val H) → Env H → Option (Env H)
  | [], _, _, env => some env
  | p :: ps, fs, vs, env => match fs with
    | [] => none
    | f :: fs => match lookup f vs with
      | none => none
      | some v => match matchPat p v env with
        | some env => matchFields ps fs vs env
        | none => none
/-- Match the first pattern that fits. -/
def matchAny : List Pat → Val H → Env H → Option (Env H)
  | [], _, _ => none
  | p :: ps, v, env => match matchPat p v env with
    | some env => some env
    | none => matchAny ps v env
end

/-- The text of `format!`; the arguments are strings and identifiers. -/
def formatVal : List String → List (Val H) → Res String
  | [], _ => .ub
  | p :: ps, vs => match vs with
    | [] => match ps with
      | [] => .ok p
      | _ :: _ => .ub
    | v :: vs => match v with
      | .str s => formatVal ps vs >>= fun r => .ok (p ++ (s ++ r))
      | .struct "Ident" [("0", .str s)] => formatVal ps vs >>= fun r => .ok (p ++ (s ++ r))
      | _ => .ub

/-! ### loops -/

/-- `for` over the items of an array or a range -/
def forItems (f : Val H → Env H → Res (Out H)) : List (Val H) → Env H → Res (Out H)
  | [], env => .ok (.val .unit env)
  | x :: xs, env => f x env >>= fun
    | .val _ env => forItems f xs env
    | .brk env => .ok (.val .unit env)
    | .ret v env => .ok (.ret v env)

/-- `for` over an iterator given by its `next` -/
def forNext (next : Fn H) (f : Val H → Env H → Res (Out H)) : Nat → Val H → Env H → Res (Out H)
  | 0, _, _ => .diverge
  | fuel + 1, it, env => next env [] [it] >>= fun
    | (.none, _) => .ok (.val .unit env)
    | (.some x, [(0, it)]) => f x env >>= fun
      | .val _ env => forNext next f fuel it env
      | .brk env => .ok (.val .unit env)
      | .ret v env => .ok (.ret v env)
    | _ => .ub

/-- `while c { body }` -/
def whileLoop (c body : Env H → Res (Out H)) : Nat → Env H → Res (Out H)
  | 0, _ => .diverge
  | fuel + 1, env => c env >>= fun
    | .val (.bool true) env => body env >>= fun
      | .val _ env => whileLoop c body fuel env
      | .brk env => .ok (.val .unit env)
      | .ret v env => .ok (.ret v env)
    | .val (.bool false) env => .ok (.val .unit env)
    | _ => .ub

/-- `while let p = e { body }` -/
def whileLet (p : Pat) (e : Env H → Res (Out H)) (body : Env H → Res (Out H)) : Nat → Env H → Res (Out H)
  | 0, _ => .diverge
  | fuel + 1, env => e env >>= fun
    | .val v env => matches? p v >>= fun
      | true => Out.restore env.length (bindPat p v env >>= body) >>= fun
        | .val _ env => whileLet p e body fuel env
        | .brk env => .ok (.val .unit env)
        | .ret v env => .ok (.ret v env)
      | false => .ok (.val .unit env)
    | .ret v env => .ok (.ret v env)
    | .brk _ => .ub

/-- `iter.map(f)`, run to the end -/
def mapItems (f : Val H → Env H → Res (Out H)) : List (Val H) → Env H → Res (Out H)
  | [], env => .ok (.val (.arr []) env)
  | x :: xs, env => Out.andThen (f x env) fun v env =>
    Out.andThen (mapItems f xs env) fun
      | .arr vs, env => .ok (.val (.arr (v :: vs)) env)
      | _, _ => .ub

/-- `iter.all(f)` -/
def allItems (f : Val H → Env H → Res (Out H)) : List (Val H) → Env H → Res (Out H)
  | [], env => .ok (.val (.bool true) env)
  | x :: xs, env => Out.andThen (f x env) fun v env =>
    cond v (allItems f xs env) (.ok (.val (.bool false) env))

/-- `iter.fold(acc, f)` -/
def foldItems (f : Val H → Val H → Env H → Res (Out H)) :
    List (Val H) → Val H → Env H → Res (Out H)
  | [], acc, env => .ok (.val acc env)
  | x :: xs, acc, env => Out.andThen (f acc x env) fun acc env => foldItems f xs acc env

/-- `iter.fold(acc, f)` for an iterator given by its `next` -/
def foldNext (next : Fn H) (f : Val H → Val H → Env H → Res (Out H)) :
    Nat → Val H → Val H → Env H → Res (Out H)
  | 0, _, _, _ => .diverge
  | fuel + 1, it, acc, env => next env [] [it] >>= fun
    | (.none, _) => .ok (.val acc env)
    | (.some x, [(0, it)]) => Out.andThen (f acc x env) fun acc env => foldNext next f fuel it acc env
    | _ => .ub

/-- `v?` -/
def tryVal : Val H → Env H → Res (Out H)
  | .ok v, env => .ok (.val v env)
  | .err v, env => .ok (.ret (.err v) env)
  | _, _ => .ub

/-- Run `f` on the items of an array, a range or an iterator. -/
def iterate (C : Ctx H) (f : Val H → Env H → Res (Out H)) (v : Val H) (env : Env H) : Res (Out H) :=
  match v with
  | .arr xs => forItems f xs env
  | v => forNext (C.call v.tag "next") f C.fuel v env

/-- `v.fold(acc, f)` -/
def foldVal (C : Ctx H) (f : Val H → Val H → Env H → Res (Out H)) (v acc : Val H) (env : Env H) :
    Res (Out H) :=
  match v with
  | .arr xs => foldItems f xs acc env
  | v => foldNext (C.call v.tag "next") f C.fuel v acc env

/-- Methods that take a closure. -/
def withClosure (C : Ctx H) (m : String) (v : Val H) (f : Exp → Val H → Env H → Res (Out H))
    (e : Exp) (env : Env H) : Res (Out H) :=
  match m, v with
  | "map", .some v => Out.andThen (f .any v env) fun v env => .ok (.val (.some v) env)
  | "map", .none => .ok (.val .none env)
  | "map", .arr xs => mapItems (f .any) xs env
  | "and_then", .some v => f e v env
  | "and_then", .none => .ok (.val .none env)
  | "unwrap_or_else", .ok v => .ok (.val v env)
  | "unwrap_or_else", .err v => f e v env
  | "all", .arr xs => allItems (f .any) xs env
  | "for_each", v => iterate C (f .any) v env
  | _, _ => .ub

/-! ### expressions -/

/-- Copy a `&mut` argument `a` back to its place; a temporary is dropped. -/
def writeBack (a : Expr) (p : Unit → Res (String × List Proj)) (v : Val H) (env : Env H) :
    Res (Env H) :=
  match a with
  | .call _ _ => .ok env
  | .pcall _ _ _ _ => .ok env
  | .mcall _ _ _ _ => .ok env
  | _ => p () >>= fun (x, ps) => writeAt x ps v env

/-- The type a name stands for: `Self`, a type parameter, a struct, or else an associated type. -/
def Ctx.tyName (C : Ctx H) (env : Env H) (s : String) : String :=
  if s = "Self" then C.self
  else match lookup s env with
    | some (.ty t) => NumTy.name t
    | _ =>
      match C.structs s with
      | some _ => s
      | none => C.alias s

/-- `*(p as *const t)`: a cast of a pointer to a pointer of another type reads the value at that type.
Which values this is possible for is given by the surroundings (`transmute`, by type). -/
def castPtr (C : Ctx H) (env : Env H) (t : Ty) (v : Val H) : Res (Val H) :=
  match t with
  | .ptr (.name s _) =>
    if s = "_" then .ok v else C.call "transmute" (C.tyName env s) env [] [v] >>= fun r => .ok r.1
  | _ => .ub

/-- `size_of::<t>()`, given by the surroundings unless `t` is an integer type. -/
def sizeOfTy [Target] (C : Ctx H) (env : Env H) (t : Ty) : Res (Val H) :=
  match t with
  | .name s _ =>
    match C.ty s with
    | some t => .ok (.int .usize (t.bits / 8))
    | none => C.call "size_of" (C.tyName env s) env [] [] >>= fun r => .ok r.1
  | _ => .ub

/-- Values of explicit const arguments. -/
def constArgs (env : Env H) : List String → Res (List (Val H))
  | [] => .ok []
  | c :: cs => need (lookup c env) >>= fun v => constArgs env cs >>= fun vs => .ok (v :: vs)

/-- A method call: a method of `core` or else a function of the type of the receiver. -/
def method [Platform] (C : Ctx H) (m : String) (consts : List String) (v : Val H) (vs : List (Val H))
    (env : Env H) : Res (Val H × List (Nat × Val H)) :=
  match intrinsic m v vs with
  | some r => r
  | none => constArgs env consts >>= fun cs => C.call v.tag m env cs (v :: vs)

mutual
/-- Evaluate an expression. -/
def eval [Platform] (C : Ctx H) : Expr → Exp → Env H → Res (Out H)
  | .var x, e, env => Out.pure (need (lookup x env) >>= fun v => .ok (e.adopt v)) env
  | .lit n, e, env => .ok (.val (e.adopt (.lit n)) env)
  | .bool b, _, env => .ok (.val (.bool b) env)
  | .str s, _, env => .ok (.val (.str s) env)
  | .path t c, _, env => C.call (C.tyName env t) c env [] [] >>= fun r => .ok (.val r.1 env)
  | .field a f, _, env => Out.andThen (eval C a .any env) fun v env =>
      Out.pure ((Proj.field f).get v) env
  | .index a i, _, env => Out.andThen (eval C a .any env) fun v env =>
      Out.andThen (eval C i .any env) fun i env =>
        Out.pure (asIndex i >>= fun i => (Proj.index i).get v) env
  | .sliceTo a k, _, env => Out.andThen (eval C a .any env) fun v env =>
      Out.andThen (eval C k .any env) fun k env =>
        Out.pure (asIndex k >>= fun k => (Proj.to k).get v) env
  | .un .not a, e, env => Out.andThen (eval C a e env) fun v env => Out.pure (notVal C v) env
  | .un _ a, e, env => eval C a e env
  | .and a b, _, env => Out.andThen (eval C a .any env) fun v env =>
      cond v (eval C b .any env) (.ok (.val (.bool false) env))
  | .or a b, _, env => Out.andThen (eval C a .any env) fun v env =>
      cond v (.ok (.val (.bool true) env)) (eval C b .any env)
  | .bin op a b, e, env =>
      Out.andThen (eval C a (match op with
        | .eq | .ne | .lt | .le | .gt | .ge => .any
        | _ => e) env) fun v env =>
      Out.andThen (eval C b (if op.isShift then .any else v.exp) env) fun w env =>
        Out.pure (binVal C op v w) env
  | .cast a t, _, env => Out.andThen (eval C a .any env) fun v env =>
      match C.exp t with
      | .int t => Out.pure (castVal C t v) env
      | _ => Out.pure (castPtr C env t v) env
  | .assign p a, _, env => Out.andThen (eval C a .any env) fun v env =>
      place C p env >>= fun (x, ps) => writeAt x ps v env >>= fun env => .ok (.val .unit env)
  | .assignOp op p a, _, env => place C p env >>= fun (x, ps) =>
      need (lookup x env) >>= fun w => getAt ps w >>= fun old =>
      Out.andThen (eval C a old.exp env) fun v env =>
        assignVal C op old v >>= fun v => writeAt x ps v env >>= fun env => .ok (.val .unit env)
  | .none, _, env => .ok (.val .none env)
  | .some a, e, env =>
      Out.andThen (eval C a (match e with | .opt e => e | _ => .any) env) fun v env =>
        .ok (.val (.some v) env)
  | .ok a, _, env => Out.andThen (eval C a .any env) fun v env => .ok (.val (.ok v) env)
  | .ctor n a, e, env => need (C.structs (C.tyName env n)) >>= fun d =>
      Out.andThen (eval C a (d.exp C e "0") env) fun v env =>
        .ok (.val (.struct (C.tyName env n) [("0", v)]) env)
  | .call f args, _, env => evalArgs C args [] env fun vs env =>
      C.call C.self f env [] vs >>= fun r =>
      writeBacks C 0 args r.2 env >>= fun env => .ok (.val r.1 env)
  | .pcall t f consts args, _, env => evalArgs C args [] env fun vs env =>
      constArgs env consts >>= fun cs =>
      C.call (match vs with
        | v :: _ => if t = "EnumSetTypeRepr" then v.tag else C.tyName env t
        | [] => C.tyName env t) f env cs vs >>= fun r =>
      writeBacks C 0 args r.2 env >>= fun env => .ok (.val r.1 env)
  | .mcall a m consts args, _, env => Out.andThen (eval C a .any env) fun v env =>
      evalArgs C args [] env fun vs env =>
      method C m consts v vs env >>= fun r =>
      (match r.2.lookup 0 with
        | some v => writeBack a (fun _ => place C a env) v env
        | none => .ok env) >>= fun env =>
      writeBacks C 1 args r.2 env >>= fun env => .ok (.val r.1 env)
  | .mclosure a m p b, e, env => Out.andThen (eval C a .any env) fun v env =>
      withClosure C m v (fun e v env => Out.restore env.length
          (bindPat p v env >>= fun env => eval C b e env)) e env
  | .fold a i p q b, _, env => Out.andThen (eval C a .any env) fun v env =>
      Out.andThen (eval C i .any env) fun acc env =>
      foldVal C (fun acc v env => Out.restore env.length
        (bindPat p acc env >>= fun env => bindPat q v env >>= fun env => eval C b .any env)) v acc env
  | .mapCtor a f, _, env => Out.andThen (eval C a .any env) fun
      | .some v, env => .ok (.val (.some (.struct (C.tyName env f) [("0", v)])) env)
      | .none, env => .ok (.val .none env)
      | _, _ => .ub
  | .sum a, e, env => Out.andThen (eval C a .any env) fun v env => Out.pure (sumVal e v) env
  | .tryIntoOk a, e, env => Out.andThen (eval C a .any env) fun v env =>
      Out.pure (tryIntoOk e v) env
  | .struct n fs es, e, env => need (C.structs (C.tyName env n)) >>= fun d =>
      evalArgs C es (fs.map (d.exp C e)) env fun vs env =>
      .ok (.val (.struct (C.tyName env n) (fs.zip vs)) env)
  | .repeat a k, e, env =>
      Out.andThen (eval C a (match e with | .arr e => e | _ => .any) env) fun v env =>
      Out.andThen (eval C k .any env) fun k env =>
        Out.pure (asIndex k >>= fun k => .ok (.arr (List.replicate k v))) env
  | .tuple [], _, env => .ok (.val .unit env)
  | .tuple es, _, env => evalArgs C es [] env fun vs env => .ok (.val (.tup vs) env)
  | .ite c a b, e, env => Out.andThen (eval C c .any env) fun v env =>
      cond v (eval C a e env) (eval C b e env)
  | .ifLet p s a b, e, env => Out.andThen (eval C s .any env) fun v env =>
      matches? p v >>= fun
        | true => Out.restore env.length (bindPat p v env >>= fun env => eval C a e env)
        | false => eval C b e env
  | .block ss, e, env => Out.restore env.length (evalStmts C ss e env)
  | .ret a, _, env => Out.andThen (eval C a .any env) fun v env => .ok (.ret v env)
  | .brk, _, env => .ok (.brk env)
  | .while c b, _, env => whileLoop (fun env => eval C c .any env) (fun env => eval C b .any env)
      C.fuel env
  | .whileLet p a b, _, env => whileLet p (fun env => eval C a .any env) (fun env => eval C b .any env)
      C.fuel env
  | .for p s b, _, env => Out.andThen (eval C s .any env) fun v env =>
      iterate C (fun v env => Out.restore env.length
        (bindPat p v env >>= fun env => eval C b .any env)) v env
  | .range a b, _, env => Out.andThen (eval C a .any env) fun v env =>
      Out.andThen (eval C b .any env) fun w env => Out.pure (do
        let x ← asIndex v
        let y ← asIndex w
        pure (.arr ((range x y).map (.int .usize)))) env
  | .try a, _, env => Out.andThen (eval C a .any env) tryVal
  | .int t n, _, env => .ok (.val (.int t n) env)
  | .match s arms, e, env => Out.andThen (eval C s .any env) fun v env => evalArms C arms v e env
  | .err a, _, env => Out.andThen (eval C a .any env) fun v env => .ok (.val (.err v) env)
  | .array es, e, env =>
      evalArgs C es (List.replicate es.length (match e with | .arr e => e | _ => .any)) env
        fun vs env => .ok (.val (.arr vs) env)
  | .rep _ _, _, _ => .ub
  | .format ps es, _, env => evalArgs C es [] env fun vs env =>
      Out.pure (formatVal ps vs >>= fun s => .ok (.str s)) env
  | .mapOr a d p b, e, env => Out.andThen (eval C a .any env) fun v env =>
      Out.andThen (eval C d e env) fun d env =>
        match v with
        | .some v => Out.restore env.length (bindPat p v env >>= fun env => eval C b e env)
        | .none => .ok (.val d env)
        | _ => .ub
  | .panic a, _, env => Out.andThen (eval C a .any env) fun v _ =>
      match v with
      | .str s => .panic (.explicit s)
      | _ => .ub
  | .stringify x, _, env => .ok (.val (.str x) env)
  | .sizeOf t, _, env => Out.pure (sizeOfTy C env t) env
/-- Evaluate a `match`: the first arm whose pattern and guard fit. -/
def evalArms [Platform] (C : Ctx H) : List Arm → Val H → Exp → Env H → Res (Out H)
  | [], _, _, _ => .ub
  | .rep _ _ :: _, _, _, _ => .ub
  | .mk p g b :: as, v, e, env =>
      match matchPat p v env with
      | none => evalArms C as v e env
      | some env' => Out.andThen (eval C g .any env') fun c env' =>
          cond c (Out.restore env.length (eval C b e env')) (evalArms C as v e env)
/-- Evaluate arguments from left to right, with what is known about their types. -/
def evalArgs [Platform] (C : Ctx H) : List Expr → List Exp → Env H →
    (List (Val H) → Env H → Res (Out H)) → Res (Out H)
  | [], _, env, k => k [] env
  | a :: as, es, env, k =>
      Out.andThen (eval C a (match es with | e :: _ => e | [] => .any) env) fun v env =>
      evalArgs C as es.tail env fun vs env => k (v :: vs) env
/-- Evaluate the statements of a block. -/
def evalStmts [Platform] (C : Ctx H) : List Stmt → Exp → Env H → Res (Out H)
  | [], _, env => .ok (.val .unit env)
  | .let p t a :: ss, e, env =>
      Out.andThen (eval C a (match t with | some t => C.exp t | none => .any) env) fun v env =>
        bindPat p v env >>= fun env => evalStmts C ss e env
  | .semi a :: ss, e, env => Out.andThen (eval C a .any env) fun _ env => evalStmts C ss e env
  | .tail a :: _, e, env => eval C a e env
  | .hole _ :: _, _, _ => .ub
  | .rep _ _ :: _, _, _ => .ub
  | .attr _ _ :: ss, e, env => evalStmts C ss e env
  | .spanned _ ss :: r, e, env =>
      Out.andThen (Out.restore env.length (evalStmts C ss .any env)) fun _ env => evalStmts C r e env
/-- Evaluate a place expression: a variable and a path into it. -/
def place [Platform] (C : Ctx H) : Expr → Env H → Res (String × List Proj)
  | .var x, _ => .ok (x, [])
  | .field a f, env => place C a env >>= fun (x, ps) => .ok (x, ps ++ [.field f])
  | .index a i, env => place C a env >>= fun (x, ps) => eval C i .any env >>= fun
      | .val i _ => asIndex i >>= fun i => .ok (x, ps ++ [.index i])
      | _ => .ub
  | .sliceTo a k, env => place C a env >>= fun (x, ps) => eval C k .any env >>= fun
      | .val k _ => asIndex k >>= fun k => .ok (x, ps ++ [.to k])
      | _ => .ub
  | .un _ a, env => place C a env
  | _, _ => .ub
/-- Copy `&mut` arguments back; `i` is the position of the first argument. -/
def writeBacks [Platform] (C : Ctx H) : Nat → List Expr → List (Nat × Val H) → Env H → Res (Env H)
  | _, [], _, env => .ok env
  | i, a :: as, outs, env =>
      (match outs.lookup i with
        | some v => writeBack a (fun _ => place C a env) v env
        | none => .ok env) >>= fun env =>
      writeBacks C (i + 1) as outs env
end

/-! ### comparison -/

mutual
/-- `==` of integers, arrays, and structs that derive `PartialEq` -/
def eqVal (derives : String → Bool) : Val H → Val H → Res Bool
  | .int t a, .int t' b => if t = t' then .ok (decide (a = b)) else .ub
  | .arr xs, .arr ys => eqVals derives xs ys
  | .struct n fs, .struct m gs => if n = m ∧ derives n = true then eqFields derives fs gs else .ub
  | _, _ => .ub
/-- The same for items, in order. -/
def eqVals (derives : String → Bool) : List (Val H) → List (Val H) → Res Bool
  | [], [] => .ok true
  | x :: xs, y :: ys => eqVal derives x y >>= fun r => if r then eqVals derives xs ys else .ok false
  | _, _ => .ok false
/-- The same for fields, in order. -/
def eqFields (derives : String → Bool) :
    List (String × Val H) → List (String × Val H) → Res Bool
  | [], [] => .ok true
  | (_, x) :: xs, (_, y) :: ys =>
    eqVal derives x y >>= fun r => if r then eqFields derives xs ys else .ok false
  | _, _ => .ub
end

mutual
/-- `cmp` of integers, arrays, and structs that derive `Ord` (or `PartialOrd`) -/
def cmpVal (derives : String → Bool) : Val H → Val H → Res Ordering
  | .int t a, .int t' b => if t = t' then .ok (compare a b) else .ub
  | .arr xs, .arr ys => cmpVals derives xs ys
  | .struct n fs, .struct m gs => if n = m ∧ derives n = true then cmpFields derives fs gs else .ub
  | _, _ => .ub
/-- The same for items, lexicographically. -/
def cmpVals (derives : String → Bool) : List (Val H) → List (Val H) → Res Ordering
  | [], [] => .ok .eq
  | [], _ :: _ => .ok .lt
  | _ :: _, [] => .ok .gt
  | x :: xs, y :: ys => cmpVal derives x y >>= fun
    | .eq => cmpVals derives xs ys
    | o => .ok o
/-- The same for fields, lexicographically. -/
def cmpFields (derives : String → Bool) :
    List (String × Val H) → List (String × Val H) → Res Ordering
  | [], [] => .ok .eq
  | (_, x) :: xs, (_, y) :: ys => cmpVal derives x y >>= fun
    | .eq => cmpFields derives xs ys
    | o => .ok o
  | _, _ => .ub
end

/-- `Ordering` as a value. -/
def ordering : Ordering → Val H
  | .lt => .struct "Less" []
  | .eq => .struct "Equal" []
  | .gt => .struct "Greater" []

/-- `PartialEq::eq`, `Ord::cmp` and `PartialOrd::partial_cmp` of the integer types and of structs that
derive them. -/
def derivedFn (derives : String → String → Bool) (ty f : String) : Option (Fn H) :=
  let has tr := (NumTy.ofName ty).isSome || derives ty tr
  match f with
  | "eq" => if has "PartialEq" then some fun _ _ args =>
      match args with
      | [a, b] => eqVal (derives · "PartialEq") a b >>= fun r => .ok (.bool r, [])
      | _ => .ub
    else none
  | "cmp" => if has "Ord" then some fun _ _ args =>
      match args with
      | [a, b] => cmpVal (derives · "Ord") a b >>= fun r => .ok (ordering r, [])
      | _ => .ub
    else none
  | "partial_cmp" => if has "PartialOrd" then some fun _ _ args =>
      match args with
      | [a, b] => cmpVal (derives · "PartialOrd") a b >>= fun r => .ok (.some (ordering r), [])
      | _ => .ub
    else none
  | _ => none

/-! ### functions -/

/-- The value of the parameter of a generic struct, from its first field: the length of the array, or
the type of the integer. -/
def Val.gen : Val H → Option (Val H)
  | .arr xs => Option.some (.int .usize xs.length)
  | .int t _ => Option.some (.ty t)
  | _ => Option.none

/-- Find the value of a const or type parameter from an argument. -/
def inferGen (impl : Bool) (g : String) : Ty → Val H → Option (Val H)
  | .ref t, v => inferGen impl g t v
  | .refMut t, v => inferGen impl g t v
  | .arr _ n, .arr xs => if n = g then some (.int .usize xs.length) else none
  | .name s args, .struct _ ((_, v) :: _) =>
    if (s = "Self" && impl) || (match args with | [.name a []] => a = g | _ => false) then
      v.gen
    else none
  | _, _ => none

/-- The same, from all the arguments. -/
def inferGens (impl : Bool) (g : String) : List (String × Ty) → List (Val H) → Option (Val H)
  | (_, t) :: ps, v :: vs =>
    match inferGen impl g t v with
    | some w => some w
    | none => inferGens impl g ps vs
  | _, _ => none

/-- Values of the const and type parameters: explicit, from the arguments, or else those of the
caller. -/
def bindGens (impl : Bool) (caller : Env H) (ps : List (String × Ty)) (vs : List (Val H)) :
    List String → List (Val H) → Env H
  | [], _ => []
  | g :: gs, c :: cs => (g, c) :: bindGens impl caller ps vs gs cs
  | g :: gs, [] =>
    match inferGens impl g ps vs with
    | some v => (g, v) :: bindGens impl caller ps vs gs []
    | none =>
      match lookup g caller with
      | some v => (g, v) :: bindGens impl caller ps vs gs []
      | none => bindGens impl caller ps vs gs []

/-- Bind the parameters. -/
def bindParams : List (String × Ty) → List (Val H) → Option (Env H)
  | [], [] => some []
  | (x, _) :: ps, v :: vs => (bindParams ps vs).map ((x, v) :: ·)
  | _, _ => none

/-- The final values of the `&mut` parameters; `i` is the position of the first parameter. -/
def mutVals : Nat → List (String × Ty) → Env H → List (Nat × Val H)
  | i, (_, .refMut _) :: ps, (_, v) :: vs => (i, v) :: mutVals (i + 1) ps vs
  | i, _ :: ps, _ :: vs => mutVals (i + 1) ps vs
  | _, _, _ => []

/-- The meaning of a function; `extra` are further variables its body sees. -/
def FnDecl.fn [Platform] (C : Ctx H) (extra : Env H) (d : FnDecl) : Fn H := fun caller consts args =>
  need (bindParams d.params args) >>= fun params =>
  let env := params ++ (bindGens false caller d.params args d.gens consts ++
    (bindGens true caller d.params args d.implGens [] ++ extra))
  evalStmts C d.body (C.exp d.ret) env >>= fun
  | .val v env' => .ok (v, mutVals 0 d.params (env'.drop (env'.length - env.length)))
  | .ret v env' => .ok (v, mutVals 0 d.params (env'.drop (env'.length - env.length)))
  | .brk _ => .ub

section
-- derive the equations here, once
attribute [local simp] eval evalArgs evalArms evalStmts place writeBacks bindPat bindPats matchPat matchPats
  matchFields matchAny Ctx.exp Ctx.expArg
end

end Enumset.Src
