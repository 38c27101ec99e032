import Verif.Src.Lex
import Verif.Src.MacroRules
/-!
# A parser

It reads the sources of the crate and of its derive macro, as far as they are modelled, and builds the terms
of `Verif/Src/Syntax.lean`.

What it leaves out, as it has no influence on what the code does: `use`, visibility, lifetimes, `unsafe`, bounds
and `where`, attributes other than `derive` and `cfg`, type aliases, and the arguments in `Ty::<A>::f` if they are
not those of the last name.

What is not in the text and is added here:
* `hints`: the types rustc infers for some `let`s without a type;
* `overloads`: names for functions of the same name in different impls for the same type;
* `calls`: which of these a call refers to.

In the derive macro, the content of every `quote!` is parsed too, and becomes a template with holes `#x`; the
`quote!` itself becomes a call of `quote::tN`.  A path to a crate in front of a name (`#core::ops::`) is dropped.

The functions take a record `Rec` of the parsers for what is nested in the thing they parse; `parser n` ties the
knot for things that are nested at most `n` deep.
-/
set_option autoImplicit false

namespace Enumset.Src.Parse

/-! ### the state -/

/-- What does not change. -/
structure Config where
  /-- the features that are on; `none` if `cfg` is not looked at -/
  features : Option (List String) := none
  /-- the free functions of the file -/
  free : List String := []
  /-- the fields of a type that implements `Deref` -/
  derefs : List String := []
  /-- names of `quote!`s that are known already, by the line they begin in -/
  known : List (Nat × String) := []
  /-- the names of the other ones begin with this -/
  letter : String := "t"

structure St where
  cfg : Config
  toks : List Tok
  selfTy : String := ""
  trait : String := ""
  fn : String := ""
  implGens : List String := []
  /-- in a `quote!`: the interpolations -/
  holes : Option (List String) := none
  /-- unit structs -/
  units : List String := []
  /-- in a `quote!`: the items inside of functions -/
  nested : List Item := []
  /-- the names of the `quote!`s that were not known -/
  named : List (Nat × String) := []
  tmpls : List (String × Tmpl) := []
  fns : List ((String × String) × FnDecl) := []
  structs : List (String × StructDecl) := []
  enums : List (String × List String) := []
  invocations : List (List (String × Expr)) := []
  macros : List (String × List Tok × List Tok) := []

def P (α : Type) : Type := St → Option (α × St)

instance : Monad P where
  pure a := fun s => some (a, s)
  bind x f := fun s => match x s with
    | some (a, s) => f a s
    | none => none

def fail {α : Type} : P α := fun _ => none

def get : P St := fun s => some (s, s)

def modify (f : St → St) : P Unit := fun s => some ((), f s)

/-- `x`, and if it fails `y` -/
def orElse {α : Type} (x y : P α) : P α := fun s => match x s with
  | some r => some r
  | none => y s

/-! ### tokens -/

def tokAt : Nat → List Tok → Tok
  | _, [] => ⟨.eof, [], 0⟩
  | 0, t :: _ => t
  | n + 1, _ :: ts => tokAt n ts

def chars (s : String) : List Nat := s.toList.map Char.toNat

def isTok (x : String) (t : Tok) : Bool :=
  match t.kind with
  | .str | .eof => false
  | _ => Lex.same t.chars (chars x)

/-- the entry of a table for a token -/
def tokLookup {α : Type} (t : Tok) : List (String × α) → Option α
  | [] => none
  | (x, a) :: r => bif isTok x t then some a else tokLookup t r

/-- the next token, or the `k`th after it -/
def peek (k : Nat := 0) : P Tok := fun s => some (tokAt k s.toks, s)

def is (x : String) (k : Nat := 0) : P Bool := fun s => some (isTok x (tokAt k s.toks), s)

def isIn (xs : List String) (k : Nat := 0) : P Bool :=
  fun s => some (xs.any (isTok · (tokAt k s.toks)), s)

def isKind (k : Kind) (n : Nat := 0) : P Bool := fun s => some ((tokAt n s.toks).kind == k, s)

def next : P Tok := fun s => match s.toks with
  | [] => none
  | t :: ts => some (t, { s with toks := ts })

def eat (x : String) : P Bool := fun s => match s.toks with
  | [] => some (false, s)
  | t :: ts => bif isTok x t then some (true, { s with toks := ts }) else some (false, s)

def want (x : String) : P Unit := do
  if ← eat x then pure () else fail

def wantAll : List String → P Unit
  | [] => pure ()
  | x :: xs => do
    want x
    wantAll xs

def ident : P String := do
  let t ← next
  match t.kind with
  | .id => pure t.text
  | _ => fail

def firstIs (f : Nat → Bool) (s : String) : Bool := match chars s with
  | [] => false
  | c :: _ => f c

def upper (s : String) : Bool := firstIs Lex.isUpper s

def lower (s : String) : Bool := firstIs Lex.isLower s

/-- a property of the first character of a token -/
def tokFirst (f : Nat → Bool) (t : Tok) : Bool := match t.chars with
  | [] => false
  | c :: _ => f c

/-- an interpolation -/
def tokHole (t : Tok) : Bool := tokFirst (Nat.beq 35) t

/-- an interpolation -/
def isHole (s : String) : Bool := firstIs (Nat.beq 35) s

def isWord (s : String) : Bool := (chars s).all Lex.isWord

/-- Split a token `>>`, `>=`, `&&`, … after its first character. -/
def split : P Unit := fun s => match s.toks with
  | ⟨.p, x, l⟩ :: ts => match x with
    | c :: d :: cs =>
      bif Nat.beq c 62 || Nat.beq c 60 || Nat.beq c 38 || Nat.beq c 124 then
        some ((), { s with toks := ⟨.p, [c], l⟩ :: ⟨.p, d :: cs, l⟩ :: ts })
      else some ((), s)
    | _ => some ((), s)
  | _ => some ((), s)

/-- What is before the bracket that closes the `d`th one, and what is after it. -/
def closing (op cl : String) : Nat → List Tok → Option (List Tok × List Tok)
  | _, [] => none
  | d, t :: ts =>
    bif isTok cl t then match d with
      | 0 => some ([], ts)
      | d + 1 => match closing op cl d ts with
        | some (x, r) => some (t :: x, r)
        | none => none
    else match closing op cl (bif isTok op t then d + 1 else d) ts with
      | some (x, r) => some (t :: x, r)
      | none => none

/-- the content of brackets -/
def group : P (List Tok) := do
  let t ← next
  let s ← get
  match (bif isTok "(" t then closing "(" ")" 0 s.toks
      else bif isTok "[" t then closing "[" "]" 0 s.toks
      else closing "{" "}" 0 s.toks) with
  | some (x, r) =>
    modify fun s => { s with toks := r }
    pure x
  | none => fail

/-- `p` until there is a `close` -/
def untilTok {α : Type} (close : String) (p : P α) : Nat → P (List α)
  | 0 => fail
  | n + 1 => do
    if ← eat close then pure []
    else do
      let a ← p
      let as ← untilTok close p n
      pure (a :: as)

/-- `p` to the end -/
def untilEnd {α : Type} (p : P α) : Nat → P (List α)
  | 0 => fail
  | n + 1 => do
    if ← isKind .eof then pure []
    else do
      let a ← p
      let as ← untilEnd p n
      pure (a :: as)

/-- `p` and then maybe a comma -/
def comma {α : Type} (p : P α) : P α := do
  let a ← p
  let _ ← eat ","
  pure a

/-- a bound for the length of lists -/
def len : Nat := 10000

def list {α : Type} (close : String) (p : P α) : P (List α) := untilTok close (comma p) len

/-- `p` on other tokens, all of which it reads -/
def within {α : Type} (ts : List Tok) (p : P α) : P α := do
  let s ← get
  modify fun s => { s with toks := ts }
  let a ← p
  if ← isKind .eof then
    modify fun s' => { s' with toks := s.toks }
    pure a
  else fail

/-- skip to after the next `x` -/
def skipTo (x : String) : Nat → P Unit
  | 0 => fail
  | n + 1 => do
    if ← eat x then pure ()
    else if ← isIn ["(", "[", "{"] then do
      let _ ← group
      skipTo x n
    else do
      let _ ← next
      skipTo x n

/-- note an interpolation -/
def hole (x : String) : P Unit := modify fun s => match s.holes with
  | some hs => bif hs.contains x then s else { s with holes := some (hs ++ [x]) }
  | none => s

/-- in a `quote!` -/
def inQuote : P Bool := do
  let s ← get
  pure s.holes.isSome

/-- holes that are paths to a crate -/
def crates : List String := ["#enumset", "#core", "#internal", "#serde"]

/-- without the names of modules in front -/
def dropModules : List String → List String
  | [] => []
  | [x] => [x]
  | x :: y :: r => bif lower x then dropModules (y :: r) else x :: y :: r

def join : List String → String
  | [] => ""
  | [x] => x
  | x :: xs => x ++ "::" ++ join xs

def holeLast (segs : List String) : P (List String) := do
  match segs.getLast? with
  | some x => if isHole x then hole x else pure ()
  | none => pure ()
  pure segs

/-- drop the path to a crate in front of a name -/
def localPath (segs : List String) : P (List String) := do
  if ← inQuote then
    match segs with
    | x :: r =>
      if crates.contains x then holeLast (dropModules r)
      else if isHole x then
        match r with
        | ["Repr"] => holeLast [x ++ "::Repr"]
        | _ => do
          hole x
          holeLast segs
      else holeLast segs
    | [] => pure segs
  else pure segs

/-! ### attributes -/

def cfgHolds (features : List String) : List String → Bool
  | ["cfg", "(", "feature", "=", x, ")"] => features.contains x
  | ["cfg", "(", "not", "(", "feature", "=", x, ")", ")"] => !features.contains x
  | _ => true

/-- the contents of the attributes -/
def attrs : Nat → P (List (List Tok))
  | 0 => fail
  | n + 1 => do
    if (← is "#") && (← isIn ["[", "!"] 1) then do
      let _ ← next
      let _ ← eat "!"
      let a ← group
      let as ← attrs n
      pure (a :: as)
    else pure []

/-- whether the features that are on are those that attributes ask for -/
def enabled (as : List (List Tok)) : P Bool := do
  let s ← get
  match s.cfg.features with
  | some fs => pure (as.all fun a => cfgHolds fs (a.map (·.text)))
  | none => pure true

def derived (as : List (List Tok)) : List String :=
  as.flatMap fun a => match a with
    | t :: r => if isTok "derive" t then (r.filter (·.kind == .id)).map (·.text) else []
    | [] => []

/-- the attributes `a(k = #x)` -/
def holeAttrs : List Tok → List (String × String)
  | a :: b :: k :: e :: x :: r =>
    bif isTok "(" b && isTok "=" e && tokHole x then (a.text, x.text) :: holeAttrs (b :: k :: e :: x :: r)
    else holeAttrs (b :: k :: e :: x :: r)
  | _ => []

/-! ### tables -/

def u (s : String) : Ty := .name s []

/-- The types rustc infers for `let`s without a type. -/
def hints : List ((String × String × String) × Ty) :=
  [(("ArrayRepr", "leading_zeros", "accum"), u "u32"),
   (("ArrayRepr", "trailing_zeros", "accum"), u "u32"),
   (("ArrayRepr", "to_u64_array", "array"), .arr (u "u64") "O"),
   (("ArrayRepr", "to_u128", "hi"), u "u128"),
   (("ArrayIter", "new", "new"), .arr (.name "PrimitiveIter" [u "u64"]) "N"),
   (("ArrayIter", "size_hint", "sum"), u "usize"),
   (("$name", "to_u64_array", "array"), .arr (u "u64") "O"),
   (("EnumSet", "to_vec", "vec"), .name "Vec" [u "u64"]),
   (("EnumSetInfo", "variant_map", "vec"), .name "Vec" [u "u64"]),
   (("Visitor", "visit_seq", "accum"), .arr (u "u64") "N"),
   (("Visitor", "visit_seq", "i"), u "usize"),
   (("__EnumSetConstHelper", "const_union", "i"), u "usize"),
   (("__EnumSetConstHelper", "const_intersection", "i"), u "usize"),
   (("__EnumSetConstHelper", "const_symmetric_difference", "i"), u "usize"),
   (("__EnumSetConstHelper", "const_complement", "i"), u "usize")]

/-- Names for functions of the same name, by type, trait and function. -/
def overloads : List ((String × String × String) × String) :=
  [(("EnumSet", "PartialEq<T>", "eq"), "eq_variant"),
   (("EnumSet", "Debug", "fmt"), "fmt_debug"),
   (("EnumSet", "Display", "fmt"), "fmt_display"),
   (("EnumSet", "Extend<T>", "extend"), "extend_variants"),
   (("EnumSet", "Extend<EnumSet<T>>", "extend"), "extend_sets"),
   (("EnumSet", "FromIterator<T>", "from_iter"), "from_iter_variants"),
   (("EnumSet", "FromIterator<EnumSet<T>>", "from_iter"), "from_iter_sets"),
   (("EnumSet", "Sum", "sum"), "sum_sets"),
   (("EnumSet", "Sum<&'aEnumSet<T>>", "sum"), "sum_set_refs"),
   (("EnumSet", "Sum<T>", "sum"), "sum_variants"),
   (("EnumSet", "Sum<&'aT>", "sum"), "sum_variant_refs")]

/-- Which function a method call refers to, by the type and the trait it is in and the method. -/
def calls : List ((String × String × String) × String) :=
  [(("EnumSet", "FromIterator<T>", "extend"), "extend_variants"),
   (("EnumSet", "FromIterator<EnumSet<T>>", "extend"), "extend_sets")]

/-- Methods whose type arguments are kept, as a part of the name. -/
def typed : List String := ["next_element", "next_entry"]

def numTy : String → Option NumTy
  | "u8" => some .u8
  | "u16" => some .u16
  | "u32" => some .u32
  | "u64" => some .u64
  | "u128" => some .u128
  | "usize" => some .usize
  | _ => none

def decimal : Nat → List Nat → Nat × List Nat
  | n, [] => (n, [])
  | n, c :: cs =>
    bif Nat.beq c 95 then decimal n cs
    else bif Lex.isDigit c then decimal (n * 10 + (c - 48)) cs
    else (n, c :: cs)

def hexadecimal : Nat → List Nat → Nat
  | n, [] => n
  | n, c :: cs =>
    bif Nat.beq c 95 then hexadecimal n cs
    else bif Lex.isDigit c then hexadecimal (n * 16 + (c - 48)) cs
    else bif Lex.isUpper c then hexadecimal (n * 16 + (c - 55)) cs
    else hexadecimal (n * 16 + (c - 87)) cs

/-- the value and the suffix of a number -/
def intLit (s : String) : Nat × Option NumTy :=
  match chars s with
  | 48 :: 120 :: cs => (hexadecimal 0 cs, none)
  | cs => match decimal 0 cs with
    | (n, r) => (n, numTy (Lex.string r))

/-! ### the parsers for what is nested -/

structure Rec where
  ty : P Ty
  pathTy : P (String × List Ty)
  pat : P Pat
  expr : Bool → P Expr
  unary : Bool → P Expr
  ifExpr : P Expr
  arm : P Arm
  stmts : P (List Stmt)
  items : P Unit
  tItem : P (List Item)

/-! ### types -/

/-- the rest of the arguments of a type, after the `<` -/
def tyArgs (r : Rec) : Nat → P (List Ty)
  | 0 => fail
  | n + 1 => do
    split
    if ← eat ">" then pure []
    else if ← isKind .life then do
      let _ ← next
      let _ ← eat ","
      tyArgs r n
    else if (← isKind .id) && (← is "=" 1) then do
      let _ ← next
      let _ ← next
      let _ ← r.ty
      let _ ← eat ","
      tyArgs r n
    else do
      let t ← comma r.ty
      let ts ← tyArgs r n
      pure (t :: ts)

/-- a path in a type: its names, and the arguments of the last name that has some -/
def pathSegs (r : Rec) (args : List Ty) : Nat → P (List String × List Ty)
  | 0 => fail
  | n + 1 => do
    let x ← ident
    let args ← (do
      if ← isIn ["<", "<<"] then do
        split
        want "<"
        tyArgs r len
      else pure args)
    if (← is "::") && (← isKind .id 1) then do
      let _ ← next
      let (xs, args) ← pathSegs r args n
      pure (x :: xs, args)
    else pure ([x], args)

/-- a path in a type: its text and the type arguments of its last segment -/
def pathTy (r : Rec) : P (String × List Ty) := do
  if ← eat "<" then do
    let (q, _) ← r.pathTy
    (do if ← eat "as" then do
          let _ ← r.pathTy
          pure ()
        else pure ())
    split
    want ">"
    if ← eat "::" then do
      let (xs, args) ← pathSegs r [] len
      let segs ← localPath (q :: xs)
      pure (join segs, args)
    else pure (q, [])
  else do
    let _ ← eat "::"
    let (xs, args) ← pathSegs r [] len
    let segs ← localPath xs
    pure (join segs, args)

/-- bounds `A + 'b + …` -/
def bounds (r : Rec) : Nat → P (List Ty)
  | 0 => fail
  | n + 1 => do
    let b ← (do
      if ← isKind .life then do
        let _ ← next
        pure []
      else do
        let t ← r.ty
        pure [t])
    if ← eat "+" then do
      let bs ← bounds r n
      pure (b ++ bs)
    else pure b

def ty (r : Rec) : P Ty := do
  split
  if ← eat "&" then do
    (do if ← isKind .life then do
          let _ ← next
          pure ()
        else pure ())
    if ← eat "mut" then do
      let t ← r.ty
      pure (.refMut t)
    else do
      let t ← r.ty
      pure (.ref t)
  else if ← eat "*" then do
    (do if ← eat "const" then pure () else want "mut")
    let t ← r.ty
    pure (.ptr t)
  else if ← eat "{" then do
    let t ← r.ty
    want "}"
    pure t
  else if ← eat "impl" then do
    let bs ← bounds r len
    match bs with
    | t :: _ => pure t
    | [] => fail
  else if ← eat "[" then do
    let t ← r.ty
    if ← eat ";" then do
      let n ← next
      want "]"
      pure (.arr t n.text)
    else do
      want "]"
      pure (.slice t)
  else if ← eat "(" then do
    let ts ← list ")" r.ty
    pure (.tuple ts)
  else do
    let (x, args) ← pathTy r
    pure (.name x args)

def isReprBound : Ty → Bool
  | .name "EnumSetTypeRepr" [] => true
  | _ => false

/-- `<const N: usize, T: Bound>` after the `<`: the names of the const parameters and of the type parameters
that are storage types; the other type parameters have no influence on what the code does -/
def genericsRest (r : Rec) : Nat → P (List String)
  | 0 => fail
  | n + 1 => do
    split
    if ← eat ">" then pure []
    else do
      let life ← isKind .life
      let const ← eat "const"
      let g ← next
      let bs ← (do if ← eat ":" then bounds r len else pure [])
      let _ ← eat ","
      let gs ← genericsRest r n
      pure (if !life && (const || bs.any isReprBound) then g.text :: gs else gs)

def generics (r : Rec) : P (List String) := do
  if ← eat "<" then genericsRest r len else pure []

/-! ### patterns -/

def pathRest : Nat → P (List String)
  | 0 => fail
  | n + 1 => do
    if ← eat "::" then do
      let x ← ident
      let xs ← pathRest n
      pure (x :: xs)
    else pure []

/-- the last two names -/
def lastTwo : List String → Option (String × String)
  | [] => none
  | [_] => none
  | [x, y] => some (x, y)
  | _ :: y :: z :: r => lastTwo (y :: z :: r)

def digits : List String := ["0", "1", "2", "3", "4", "5", "6", "7", "8", "9"]

/-- the rest of `S { f: p, .. }` -/
def fieldPats (r : Rec) : Nat → P (List (String × Pat))
  | 0 => fail
  | n + 1 => do
    if ← eat "}" then pure []
    else if ← eat ".." then fieldPats r n
    else do
      let f ← ident
      let p ← (do if ← eat ":" then r.pat else pure (.var f))
      let _ ← eat ","
      let ps ← fieldPats r n
      pure ((f, p) :: ps)

def parens {α : Type} (p : P α) : P α := do
  want "("
  let a ← p
  want ")"
  pure a

def pat (r : Rec) : P Pat := do
  let _ ← eat "mut"
  if ← eat "(" then do
    let ps ← list ")" r.pat
    pure (.tup ps)
  else do
    let t ← next
    match t.kind with
    | .int => match intLit t.text with
      | (n, some t) => pure (.int t n)
      | (n, none) => pure (.lit n)
    | .str => pure (.str t.text)
    | .id => do
      if isTok "_" t then pure .wild
      else do
        let xs ← pathRest len
        let segs ← localPath (t.text :: xs)
        match segs with
        | ["Some"] => do
          let p ← parens r.pat
          pure (.some p)
        | ["None"] => pure .none
        | ["Ok"] => do
          let p ← parens r.pat
          pure (.ok p)
        | ["Err"] => do
          let p ← parens r.pat
          pure (.err p)
        | _ => do
          if ← eat "(" then do
            let ps ← list ")" r.pat
            match lastTwo segs with
            | some (x, y) => pure (.variant x y (digits.take ps.length) ps)
            | none => fail
          else if (← is "{") && upper (join segs) then do
            let _ ← next
            let fs ← fieldPats r len
            pure (.struct (join segs) (fs.map (·.1)) (fs.map (·.2)))
          else match lastTwo segs with
            | some (x, y) => pure (.variant x y [] [])
            | none => pure (.var (join segs))
    | _ => fail

/-- the rest of `p | q | …` -/
def patsRest (r : Rec) : Nat → P (List Pat)
  | 0 => fail
  | n + 1 => do
    if ← eat "|" then do
      let p ← pat r
      let ps ← patsRest r n
      pure (p :: ps)
    else pure []

def patOr (r : Rec) : P Pat := do
  let _ ← eat "|"
  let p ← pat r
  let ps ← patsRest r len
  match ps with
  | [] => pure p
  | _ => pure (.or (p :: ps))

/-! ### repetitions and `match` -/

/-- `#( … )*`: the interpolations in it, and what it repeats -/
def rep {α : Type} (p : P α) : P (List String × α) := do
  want "#"
  let ts ← group
  let s ← get
  modify fun s => { s with holes := some [] }
  let a ← within ts (comma p)
  want "*"
  let s' ← get
  let xs := s'.holes.getD []
  modify fun s' => { s' with holes := s.holes }
  let rec note : List String → P Unit
    | [] => pure ()
    | x :: xs => do
      hole x
      note xs
  note xs
  pure (xs, a)

def isRep : P Bool := do
  pure ((← is "#") && (← is "(" 1))

def block (r : Rec) : P Expr := do
  let ss ← r.stmts
  pure (.block ss)

def arm (r : Rec) : P Arm := do
  if ← isRep then do
    let (xs, a) ← rep r.arm
    pure (.rep xs a)
  else do
    let p ← patOr r
    let g ← (do if ← eat "if" then r.expr true else pure (.bool true))
    want "=>"
    let b ← (do if ← is "{" then block r else r.expr true)
    let _ ← eat ","
    pure (.mk p g b)

def matchExpr (r : Rec) : P Expr := do
  want "match"
  let s ← r.expr false
  want "{"
  let as ← untilTok "}" (arm r) len
  pure (.match s as)

/-! ### expressions -/

def args (r : Rec) : P (List Expr) := do
  want "("
  list ")" (r.expr true)

def one (r : Rec) : P Expr := do
  let es ← args r
  match es with
  | [e] => pure e
  | _ => fail

/-- the rest of `::<A, { B }>` -/
def turbofishRest : Nat → P (List String)
  | 0 => fail
  | n + 1 => do
    split
    if ← eat ">" then pure []
    else do
      let b ← eat "{"
      let c ← next
      (do if b then want "}" else pure ())
      let _ ← eat ","
      let cs ← turbofishRest n
      pure (c.text :: cs)

/-- `::<A, B>`: the names -/
def turbofish : P (List String) := do
  if (← is "::") && (← is "<" 1) then do
    let _ ← next
    let _ ← next
    turbofishRest len
  else pure []

def closure (r : Rec) : P (List Pat × Expr) := do
  if ← eat "||" then do
    let e ← r.expr true
    pure ([], e)
  else do
    want "|"
    let ps ← list "|" r.pat
    let e ← r.expr true
    pure (ps, e)

/-- the elements of an array after the bracket -/
def elements (r : Rec) : Nat → P (List Expr)
  | 0 => fail
  | n + 1 => do
    if ← eat "]" then pure []
    else if ← isRep then do
      let (xs, e) ← rep (r.expr true)
      let es ← elements r n
      pure (.rep xs e :: es)
    else do
      let e ← r.expr true
      if ← eat ";" then do
        let k ← r.expr true
        want "]"
        pure [.repeat e k]
      else do
        let _ ← eat ","
        let es ← elements r n
        pure (e :: es)

def array (r : Rec) : P Expr := do
  let es ← elements r len
  match es with
  | [.repeat e k] => pure (.repeat e k)
  | _ => pure (.array es)

/-- the name before, the name from a `#` on, and the rest -/
def splitHole : List Nat → List Nat × List Nat × List Nat
  | [] => ([], [], [])
  | c :: cs =>
    bif Nat.beq c 35 then match Lex.span Lex.isWord cs with
      | (x, r) => ([], x, r)
    else match splitHole cs with
      | (p, x, r) => (c :: p, x, r)

/-- The value of an interpolation: of a variable, or of a name with a variable in it. -/
def holeArg (x : String) : Expr :=
  match splitHole (chars x) with
  | ([], v, []) => .var (Lex.string v)
  | (p, v, r) => .pcall "Ident" "paste" []
      [.format [Lex.string p, Lex.string r] [.var (Lex.string v)], .pcall "Span" "call_site" [] []]

/-- the content of a `quote!`: `#` and a name are one token -/
def quoteToks : List Tok → List Tok
  | a :: b :: r =>
    bif isTok "#" a && b.kind == .id then ⟨.id, 35 :: b.chars, a.line⟩ :: quoteToks r
    else a :: quoteToks (b :: r)
  | ts => ts

/-- to parse other code: what has been read so far is kept aside -/
def fresh (s : St) : St := { cfg := s.cfg, toks := [], units := s.units, macros := s.macros }

/-- the content of a `quote!`, in the first way in which it can be parsed -/
def template (r : Rec) (spanned : Bool) (ts : List Tok) : P Tmpl := do
  let s ← get
  let all (p : P Code) : P Tmpl := do
    modify fun s => { fresh s with holes := some [] }
    let c ← within ts p
    let s' ← get
    pure ⟨s'.holes.getD [], c⟩
  let items : P Code := do
    let is ← untilEnd (do
      let _ ← attrs len
      r.tItem) len
    pure (.items is.flatten)
  let statement : P Code := do
    let e ← r.expr true
    pure (.stmts [.semi e])
  let expr : P Code := do
    let e ← r.expr true
    pure (.expr e)
  let t ← (do
    if spanned then all (do
      let ss ← r.stmts
      pure (.stmts ss))
    else if isTok "if" (tokAt 0 ts) then all statement
    else if isTok "<<" (tokAt 0 ts) then all expr
    else orElse (all items) (orElse (all (do
      let t ← r.ty
      pure (.ty t))) (all expr)))
  let s' ← get
  modify fun _ => { s with units := s'.units }
  pure t

/-- `quote!` and `quote_spanned!`, after the `!` -/
def quote (r : Rec) (spanned : Bool) : P Expr := do
  let t ← peek
  let ts ← group
  match spanned, quoteToks (if spanned then ts.drop 2 else ts) with
  | false, [x] =>
    if tokHole x then pure (holeArg x.text)
    else do
      let c ← template r false [x]
      finish t.line c
  | false, ts => do
    let c ← template r false ts
    finish t.line c
  | true, ts' => do
    let sp := "#" ++ (tokAt 0 ts).text
    let c ← template r true ts'
    match c.code with
    | .stmts ss => finish t.line ⟨sp :: c.holes, .stmts [.spanned (.var sp) ss]⟩
    | _ => fail
where
  /-- name a template -/
  finish (line : Nat) (c : Tmpl) : P Expr := do
    let s ← get
    let name ← (do
      match s.cfg.known.lookup line with
      | some x => pure x
      | none => do
        let x := s.cfg.letter ++ toString s.named.length
        modify fun s => { s with named := s.named ++ [(line, x)] }
        pure x)
    modify fun s => { s with tmpls := s.tmpls ++ [(name, c)] }
    pure (.pcall "quote" name [] (c.holes.map holeArg))

/-- the parts of a format string between the `{}` -/
def formatParts : List Nat → List Nat → List String
  | acc, [] => [Lex.string acc.reverse]
  | acc, 123 :: 125 :: cs => Lex.string acc.reverse :: formatParts [] cs
  | acc, c :: cs => formatParts (c :: acc) cs

def macroExpr (r : Rec) (m : String) : P Expr := do
  want "!"
  match m with
  | "vec" => do
    want "["
    array r
  | "quote" => quote r false
  | "quote_spanned" => quote r true
  | "format" => do
    want "("
    let t ← next
    let _ ← eat ","
    let es ← list ")" (r.expr true)
    pure (.format (formatParts [] t.chars) es)
  | "concat" => do
    let es ← args r
    pure (.format ("" :: es.map fun _ => "") es)
  | "stringify" => do
    let x ← parens ident
    hole x
    pure (.stringify x)
  | "write" => do
    want "("
    let f ← r.expr true
    want ","
    let s ← r.expr true
    match s with
    | .var x => if isHole x then hole x else pure ()
    | _ => pure ()
    want ")"
    pure (.mcall f "write_fmt" [] [s])
  -- expanded, without a conversion between types of token streams
  | "parse_macro_input" => do
    let x ← one r
    pure (.match (.pcall "syn" "parse" [] [x]) [.mk (.ok (.var "data")) (.bool true) (.var "data"),
      .mk (.err (.var "err")) (.bool true) (.ret (.mcall (.var "err") "to_compile_error" [] []))])
  | "panic" => do
    let e ← one r
    pure (.panic e)
  | "unreachable" => do
    let es ← args r
    match es with
    | [] => pure (.panic (.str "internal error: entered unreachable code"))
    | _ => fail
  | _ => fail

/-- the fields of a struct expression, after the `{` -/
def fields (r : Rec) : P (List (String × Expr)) := list "}" (do
  let x ← ident
  let e ← (do if ← eat ":" then r.expr true else pure (.var x))
  pure (x, e))

/-- the names of a path in an expression, and the arguments of the last one -/
def exprSegs (cs : List String) : Nat → P (List String × List String)
  | 0 => fail
  | n + 1 => do
    if ← eat "::" then do
      let x ← ident
      let cs ← turbofish
      let (xs, cs) ← exprSegs cs n
      pure (x :: xs, cs)
    else pure ([], cs)

/-- skip to after the next `x` -/
def skipOver (x : String) : Nat → P Unit
  | 0 => fail
  | n + 1 => do
    let t ← next
    if isTok x t then pure () else skipOver x n

/-- a path and what it is applied to -/
def pathEnd (r : Rec) (st : Bool) (segs cs : List String) : P Expr := do
  let segs ← localPath segs
  let ty := join segs.dropLast
  match segs.getLast? with
  | none => fail
  | some f =>
    if ← is "(" then
      match f with
      | "Some" => do
        let e ← one r
        pure (.some e)
      | "Ok" => do
        let e ← one r
        pure (.ok e)
      | "Err" => do
        let e ← one r
        pure (.err e)
      | _ =>
        match segs with
        | [_] =>
          if upper f then do
            let e ← one r
            pure (.ctor f e)
          else do
            let es ← args r
            let s ← get
            if s.cfg.free.contains f then pure (.pcall "crate" f [] es) else pure (.call f es)
        | _ => do
          let es ← args r
          pure (.pcall ty f cs es)
    else if st && (← is "{") && upper f then do
      let _ ← next
      let fs ← fields r
      pure (.struct (join segs) (fs.map (·.1)) (fs.map (·.2)))
    else
      match segs with
      | [_] => do
        let s ← get
        if f == "None" then pure .none
        else if s.units.contains f then pure (.struct f [] [])
        else pure (.var f)
      | _ => pure (.path ty f)

def pathExpr (r : Rec) (st : Bool) : P Expr := do
  split
  if ← eat "<" then do
    let (q, _) ← pathTy r
    want "as"
    let _ ← pathTy r
    split
    want ">"
    want "::"
    let x ← ident
    let cs ← turbofish
    let (xs, cs) ← exprSegs cs len
    pathEnd r st (q :: x :: xs) cs
  else do
    let x ← ident
    if (← is "!") && (← isIn ["(", "{", "["] 1) then macroExpr r x
    else if x == "size_of" || (← inQuote) && crates.contains x && (← is "size_of" 3) then do
      skipOver "<" len
      let t ← r.ty
      wantAll [">", "(", ")"]
      pure (.sizeOf t)
    else do
      let cs ← turbofish
      let (xs, cs) ← exprSegs cs len
      match (x :: xs).getLast? with
      | some "vec" =>
        if ← eat "!" then do
          want "["
          array r
        else pathEnd r st (x :: xs) cs
      | _ => pathEnd r st (x :: xs) cs

def orEmpty (p : P Expr) : P Expr := do
  if ← eat "else" then p else pure (.block [])

def ifExpr (r : Rec) : P Expr := do
  want "if"
  let els : P Expr := orEmpty (do if ← is "if" then r.ifExpr else block r)
  if ← eat "let" then do
    let p ← r.pat
    want "="
    let s ← r.expr false
    let t ← block r
    let e ← els
    match p with
    | .some (.var x) =>
      if isWord x then pure (.ifLet p s t e)
      else pure (.match s [.mk p (.bool true) t, .mk .wild (.bool true) e])
    | _ => pure (.match s [.mk p (.bool true) t, .mk .wild (.bool true) e])
  else do
    let c ← r.expr false
    let t ← block r
    let e ← els
    pure (.ite c t e)

/-- the rest of `(a, b)`: the elements, and whether there is a comma after the last one -/
def tupleRest (r : Rec) (c : Bool) : Nat → P (List Expr × Bool)
  | 0 => fail
  | n + 1 => do
    if ← eat ")" then pure ([], c)
    else do
      let e ← r.expr true
      let c ← eat ","
      let (es, c) ← tupleRest r c n
      pure (e :: es, c)

def primary (r : Rec) (st : Bool) : P Expr := do
  let t ← peek
  match t.kind with
  | .int => do
    let _ ← next
    match intLit t.text with
    | (n, some t) => pure (.int t n)
    | (n, none) => pure (.lit n)
  | .str => do
    let _ ← next
    pure (.str t.text)
  | .id =>
    if isTok "match" t then matchExpr r
    else if isTok "unsafe" t then do
      let _ ← next
      block r
    else if isTok "if" t then ifExpr r
    else if isTok "while" t then do
      let _ ← next
      if ← eat "let" then do
        let p ← r.pat
        want "="
        let c ← r.expr false
        let b ← block r
        pure (.whileLet p c b)
      else do
        let c ← r.expr false
        let b ← block r
        pure (.while c b)
    else if isTok "for" t then do
      let _ ← next
      let p ← r.pat
      want "in"
      let e ← r.expr false
      let b ← block r
      if ← inQuote then pure (.for p (.mcall e "into_iter" [] []) b) else pure (.for p e b)
    else if isTok "return" t then do
      let _ ← next
      let e ← r.expr st
      pure (.ret e)
    else if isTok "break" t then do
      let _ ← next
      pure .brk
    else if isTok "true" t then do
      let _ ← next
      pure (.bool true)
    else if isTok "false" t then do
      let _ ← next
      pure (.bool false)
    else pathExpr r st
  | _ =>
    if isTok "(" t then do
      let _ ← next
      let (es, c) ← tupleRest r false len
      match es, c with
      | [e], false => pure e
      | _, _ => pure (.tuple es)
    else if isTok "[" t then do
      let _ ← next
      array r
    else if isTok "{" t then block r
    else pathExpr r st

/-- `a.m::<cs>(es)` -/
def mcall (a : Expr) (m : String) (cs : List String) (es : List Expr) : P Expr := do
  let s ← get
  match a, m, es with
  | _, "sum", [] => pure (.sum a)
  | .mcall e "try_into" [] [], "ok", [] => pure (.tryIntoOk e)
  | _, _, _ => do
    let m := (calls.lookup (s.selfTy, s.trait, m)).getD m
    if typed.contains m then do
      let m := m ++ "::<" ++ ", ".intercalate cs ++ ">"
      (do if (chars m).any (Nat.beq 35) then hole m else pure ())
      pure (.mcall a m [] es)
    else
      match s.holes, cs with
      | some _, [c] =>
        if isHole c then do
          hole c
          pure (.block [.let (.var "{const}") (some (u "usize")) (.var c), .tail (.mcall a m ["{const}"] es)])
        else pure (.mcall a m cs es)
      | _, _ => pure (.mcall a m cs es)

/-- the arguments of a method, after the `(` -/
def method (r : Rec) (a : Expr) (m : String) (cs : List String) : P Expr := do
  if ← isIn ["|", "||"] then do
    let (ps, b) ← closure r
    let _ ← eat ","
    want ")"
    match ps with
    | [p] => pure (.mclosure a m p b)
    | _ => fail
  else if m == "map" && (← isKind .id) && tokFirst Lex.isUpper (← peek) && (← is ")" 1) then do
    let n ← next
    want ")"
    pure (.mapCtor a n.text)
  else if m == "map_or" then do
    let d ← comma (r.expr true)
    let (ps, b) ← closure r
    want ")"
    match ps with
    | [p] => pure (.mapOr a d p b)
    | _ => fail
  else if m == "fold" then do
    let d ← comma (r.expr true)
    let (ps, b) ← closure r
    want ")"
    match ps with
    | [p, q] => pure (.fold a d p q b)
    | _ => fail
  else do
    let es ← list ")" (r.expr true)
    mcall a m cs es

def postfixRest (r : Rec) (a : Expr) : Nat → P Expr
  | 0 => fail
  | n + 1 => do
    if ← eat "?" then postfixRest r (.try a) n
    else if ← eat "[" then do
      if ← eat ".." then do
        let e ← r.expr true
        want "]"
        postfixRest r (.sliceTo a e) n
      else do
        let e ← r.expr true
        want "]"
        postfixRest r (.index a e) n
    else if ← eat "." then do
      let t ← next
      match t.kind with
      | .int => postfixRest r (.field a t.text) n
      | .id => do
        let cs ← turbofish
        if ← eat "(" then do
          let e ← method r a t.text cs
          postfixRest r e n
        else postfixRest r (.field a t.text) n
      | _ => fail
    else pure a

def unary (r : Rec) (st : Bool) : P Expr := do
  (do if ← is "&&" then split else pure ())
  if ← eat "!" then do
    let a ← r.unary st
    pure (.un .not a)
  else if ← eat "*" then do
    let a ← r.unary st
    let s ← get
    match a with
    | .field _ f =>
      if s.cfg.derefs.contains f then pure (.mcall a "deref" [] []) else pure (.un .deref a)
    | _ => pure (.un .deref a)
  else if ← eat "&" then
    if ← eat "mut" then do
      let a ← r.unary st
      pure (.un .refMut a)
    else do
      let a ← r.unary st
      pure (.un .ref a)
  else do
    let a ← primary r st
    postfixRest r a len

def castRest (r : Rec) (a : Expr) : Nat → P Expr
  | 0 => fail
  | n + 1 => do
    if ← eat "as" then do
      let t ← r.ty
      castRest r (.cast a t) n
    else pure a

/-- the binary operators, from the weakest to the strongest -/
def binOps : List (List (String × (Expr → Expr → Expr))) :=
  [[("||", .or)], [("&&", .and)],
   [("==", .bin .eq), ("!=", .bin .ne), ("<", .bin .lt), (">", .bin .gt), ("<=", .bin .le), (">=", .bin .ge)],
   [("|", .bin .bor)], [("^", .bin .bxor)], [("&", .bin .band)], [("<<", .bin .shl), (">>", .bin .shr)],
   [("+", .bin .add), ("-", .bin .sub)], [("*", .bin .mul), ("/", .bin .div), ("%", .bin .rem)]]

def binRest (ops : List (String × (Expr → Expr → Expr))) (p : P Expr) (a : Expr) : Nat → P Expr
  | 0 => fail
  | n + 1 => do
    let t ← peek
    match t.kind with
    | .p => match tokLookup t ops with
      | some op => do
        let _ ← next
        let b ← p
        binRest ops p (op a b) n
      | none => pure a
    | _ => pure a

def binary (r : Rec) (st : Bool) : List (List (String × (Expr → Expr → Expr))) → P Expr
  | [] => do
    let a ← unary r st
    castRest r a len
  | ops :: rest => do
    let a ← binary r st rest
    binRest ops (binary r st rest) a len

def assignOps : List (String × BinOp) :=
  [("+=", .add), ("-=", .sub), ("*=", .mul), ("/=", .div), ("%=", .rem), ("&=", .band), ("|=", .bor),
   ("^=", .bxor), ("<<=", .shl), (">>=", .shr)]

/-- an expression; `st`: struct expressions are allowed -/
def expr (r : Rec) (st : Bool) : P Expr := do
  let a ← binary r st binOps
  let a ← (do
    if (← is "..") && !(← isIn ["]", ")"] 1) then do
      let _ ← next
      let b ← binary r st binOps
      pure (.range a b)
    else pure a)
  if ← eat "=" then do
    let b ← r.expr st
    pure (.assign a b)
  else do
    let t ← peek
    match t.kind with
    | .p => match tokLookup t assignOps with
      | some op => do
        let _ ← next
        let b ← r.expr st
        pure (.assignOp op a b)
      | none => pure a
    | _ => pure a

/-! ### statements -/

/-- `const X: t = e;` in a block -/
def constStmt (r : Rec) : P Stmt := do
  want "const"
  let x ← ident
  (do if isHole x then hole x else pure ())
  want ":"
  let t ← r.ty
  want "="
  let e ← r.expr true
  want ";"
  pure (.let (.var x) (some t) e)

/-- the type of a `let` without a type -/
def hint (s : St) (x : String) (e : Expr) : Option Ty :=
  match hints.lookup (s.selfTy, s.fn, x), e with
  | some (.arr _ _), .pcall .. => none
  | h, _ => h

/-- `let p: t = e;` or `const X: t = e;`, in a repetition also with attributes -/
def letStmt (r : Rec) : P Stmt := do
  let _ ← attrs len
  if ← is "const" then constStmt r
  else do
    want "let"
    let p ← r.pat
    let t ← (do
      if ← eat ":" then do
        let t ← r.ty
        pure (some t)
      else pure none)
    want "="
    let e ← r.expr true
    want ";"
    let s ← get
    match p, t with
    | .var x, none => pure (.let p (hint s x e) e)
    | _, _ => pure (.let p t e)

def skipStmt : P Unit := do
  if ← is "{" then do
    let _ ← group
    pure ()
  else skipTo ";" len

/-- a statement, wherever it is -/
def alone (x : Stmt) : P (List Stmt × List Stmt) := pure ([x], [x])

/-- the statements up to the `}`; an expression without `;` is a `.tail` if nothing follows (that is not left out) -/
def stmtsRest (r : Rec) : Nat → P (List Stmt)
  | 0 => fail
  | n + 1 => do
    if ← eat "}" then pure []
    else if ← eat ";" then stmtsRest r n
    else do
      let as ← attrs len
      if ← enabled as then do
        let q ← inQuote
        let hs := if q then as.flatMap holeAttrs else []
        let rec note : List (String × String) → P Unit
          | [] => pure ()
          | x :: xs => do
            hole x.2
            note xs
        note hs
        let (ss, last) ← (do
          if ← isRep then do
            let (xs, x) ← rep (letStmt r)
            alone (.rep xs x)
          else if q && (← isKind .id) && tokHole (← peek) && ((← is "}" 1) || (← isKind .id 1)) then do
            let x ← ident
            hole x
            alone (.hole x)
          else if ← eat "use" then do
            skipTo ";" len
            pure ([], [])
          else if q && (← isIn ["struct", "impl"]) then do
            let s ← get
            let is ← r.tItem
            modify fun s' => { s' with nested := s'.nested ++ is, selfTy := s.selfTy, fn := s.fn }
            pure ([], [])
          else if ← is "const" then do
            let x ← constStmt r
            alone x
          else if ← is "let" then do
            let x ← letStmt r
            alone x
          else do
            let b ← isIn ["if", "for", "while", "{", "unsafe", "match"]
            let e ← (if b then primary r true else r.expr true)
            if ← eat ";" then alone (.semi e)
            else if ← is "}" then alone (.tail e)
            else if b then pure ([.semi e], [.tail e])
            else fail)
        let rest ← stmtsRest r n
        pure (hs.map (fun x => .attr x.1 (.var x.2)) ++ (if rest.isEmpty then last else ss) ++ rest)
      else do
        skipStmt
        stmtsRest r n

def stmts (r : Rec) : P (List Stmt) := do
  want "{"
  stmtsRest r len

/-! ### items -/

/-- a parameter of a function -/
def param (r : Rec) : P (String × Ty) := do
  if (← is "&") && ((← is "self" 1) || (← is "self" 2)) then do
    let _ ← next
    let m ← eat "mut"
    want "self"
    pure ("self", if m then .refMut (u "Self") else .ref (u "Self"))
  else do
    let _ ← eat "mut"
    let x ← ident
    if x == "self" then pure (x, u "Self")
    else do
      want ":"
      let t ← r.ty
      pure (x, t)

/-- the parameters and the type of a function -/
def signature (r : Rec) : P (List (String × Ty) × Ty) := do
  want "("
  let ps ← list ")" (param r)
  let t ← (do if ← eat "->" then r.ty else pure (.tuple []))
  pure (ps, t)

/-- skip `const`, `unsafe` and `pub` -/
def qualifiers : Nat → P Unit
  | 0 => fail
  | n + 1 => do
    if ← isIn ["const", "unsafe", "pub"] then do
      let _ ← next
      qualifiers n
    else pure ()

/-- skip to the next `{` -/
def skipToBrace : Nat → P Unit
  | 0 => fail
  | n + 1 => do
    if ← is "{" then pure ()
    else do
      let _ ← next
      skipToBrace n

/-- `const X: t = e;` -/
def constItem (r : Rec) : P (String × FnDecl) := do
  want "const"
  let x ← ident
  want ":"
  let t ← r.ty
  want "="
  let e ← r.expr true
  want ";"
  pure (x, ⟨[], [], [], t, [.tail e]⟩)

/-- an item of a template -/
def tItem (r : Rec) : P (List Item) := do
  let t ← peek
  let q := t.kind == .id && tokHole t
  if q then do
    let _ ← next
    if ← is "struct" then pure []
    else do
      hole t.text
      pure [.hole t.text]
  else if (← is "const") && (← is "_" 1) then do
    wantAll ["const", "_", ":", "(", ")", "=", "{"]
    let is ← untilTok "}" (do
      let _ ← attrs len
      r.tItem) len
    want ";"
    pure is.flatten
  else if (← is "const") && !(← isIn ["fn", "unsafe"] 1) then do
    let (x, d) ← constItem r
    pure [.fn x d]
  else if ← eat "type" then do
    let x ← ident
    want "="
    let t ← r.ty
    want ";"
    pure [.type x t]
  else if ← eat "struct" then do
    let x ← ident
    want ";"
    modify fun s => { s with units := s.units ++ [x] }
    pure [.struct x]
  else do
    qualifiers len
    if ← eat "impl" then do
      let _ ← generics r
      let (n, targs) ← pathTy r
      let (tr, targs, n, as) ← (do
        if ← eat "for" then do
          let (m, as) ← pathTy r
          pure (n, targs, m, as)
        else pure ("", [], n, targs))
      modify fun s => { s with selfTy := n }
      want "{"
      let is ← untilTok "}" (do
        let _ ← attrs len
        r.tItem) len
      pure [.impl tr targs (.name n as) is.flatten]
    else do
      want "fn"
      let x ← ident
      let gens ← generics r
      let (ps, t) ← signature r
      (do if ← eat "where" then skipToBrace len else pure ())
      let s ← get
      modify fun s => { s with fn := x, nested := [] }
      let b ← r.stmts
      let s' ← get
      modify fun s' => { s' with nested := s.nested }
      pure (.fn x ⟨[], gens, ps, t, b⟩ :: s'.nested)

/-- note a function -/
def emit (name : String) (d : FnDecl) : P Unit := modify fun s =>
  let ty := if s.selfTy == "" then (if s.cfg.features.isSome then "crate" else "$name") else s.selfTy
  let name := (overloads.lookup (ty, s.trait, name)).getD name
  { s with fns := s.fns ++ [((ty, name), { d with implGens := s.implGens })] }

/-- the tokens between commas -/
def splitCommas : List Tok → List (List Tok)
  | [] => [[]]
  | t :: ts => bif isTok "," t then [] :: splitCommas ts
    else match splitCommas ts with
      | x :: xs => (t :: x) :: xs
      | [] => [[t]]

/-- the parameters of a macro -/
def macroParams (ts : List Tok) : List String :=
  (ts.filter fun t => t.kind == .id && tokFirst (Nat.beq 36) t).map (·.text)

/-- the arguments of the calls `m!( … ); …` -/
def innerCalls : Nat → P (List (List Tok))
  | 0 => fail
  | n + 1 => do
    if ← isKind .eof then pure []
    else do
      let _ ← ident
      want "!"
      let a ← group
      want ";"
      let as ← innerCalls n
      pure (a :: as)

/-- without the `$(` and `)*` around what is repeated; the stack says for every `(` whether it is one of `$(` -/
def unrepeat : List Bool → List Tok → List Tok
  | _, [] => []
  | st, [t] => bif isTok ")" t && st.headD false then [] else [t]
  | st, t :: t' :: ts =>
    bif isTok "$" t && isTok "(" t' then unrepeat (true :: st) ts
    else bif isTok ")" t && st.headD false then unrepeat st.tail ts
    else bif isTok ")" t then t :: unrepeat st.tail (t' :: ts)
    else bif isTok "(" t then t :: unrepeat (false :: st) (t' :: ts)
    else t :: unrepeat st (t' :: ts)

/-- the items of other tokens; only functions and structs are kept -/
def itemsOf (r : Rec) (ts : List Tok) : P Unit := do
  let s ← get
  modify fun s => { fresh s with fns := s.fns, structs := s.structs }
  within ts r.items
  let s' ← get
  modify fun _ => { s with fns := s'.fns, structs := s'.structs }

def itemsOfAll (r : Rec) : List (List Tok) → P Unit
  | [] => pure ()
  | ts :: tss => do
    itemsOf r ts
    itemsOfAll r tss

def exprsOf (r : Rec) : List (List Tok) → P (List Expr)
  | [] => pure []
  | ts :: tss => do
    let e ← within ts (r.expr true)
    let es ← exprsOf r tss
    pure (e :: es)

/-- A macro call.  If the macro is for a list of calls `m!( … );`, its body is parsed for each of them.
Otherwise it is parsed once, with the parameters as variables, and the arguments of the calls are noted. -/
def invoke (r : Rec) (pat body ts : List Tok) : P Unit := do
  let par := macroParams pat
  if pat.any (isTok "(") then do
    let cs ← within ts (innerCalls len)
    let body := unrepeat [] body
    itemsOfAll r (cs.map fun c =>
      let sub := par.zip (c.filter fun t => !isTok "," t)
      body.map fun t => match t.kind, tokLookup t sub with
        | .id, some a => { a with line := t.line }
        | _, _ => t)
  else do
    let es ← exprsOf r (splitCommas ts)
    let s ← get
    (do if s.invocations.isEmpty then itemsOf r body else pure ())
    modify fun s => { s with invocations := s.invocations ++ [par.zip es] }

/-- the rest of the fields of a tuple struct -/
def tupleFields (r : Rec) : P (List Ty) := list ")" (do
  let _ ← eat "pub"
  r.ty)

def namedFields (r : Rec) : P (List (String × Ty)) := list "}" (do
  let _ ← attrs len
  let _ ← eat "pub"
  let f ← ident
  want ":"
  let t ← r.ty
  pure (f, t))

def variants : P (List String) := list "}" (do
  let _ ← attrs len
  let x ← ident
  (do if ← is "(" then do
        let _ ← group
        pure ()
      else pure ())
  pure x)

/-- the text of the tokens up to a `for` -/
def textToFor : List Tok → String
  | [] => ""
  | t :: ts => bif isTok "for" t then "" else t.text ++ textToFor ts

def item (r : Rec) (derives : List String) : P Unit := do
  (do if ← eat "pub" then
        if ← is "(" then do
          let _ ← group
          pure ()
        else pure ()
      else pure ())
  if ← eat "use" then skipTo ";" len
  else if (← is "const") && (← is "_" 1) then do
    wantAll ["const", "_", ":", "(", ")", "=", "{"]
    r.items
    want "}"
    want ";"
  else if (← is "const") && !(← isIn ["fn", "unsafe"] 1) then do
    let (x, d) ← constItem r
    emit x d
  else if ← isIn ["type", "extern"] then skipTo ";" len
  else if ← eat "enum" then do
    let x ← ident
    want "{"
    let vs ← variants
    modify fun s => { s with enums := s.enums ++ [(x, vs)] }
  else if ← eat "struct" then do
    let x ← ident
    let gens ← generics r
    let fs ← (do
      if ← eat "(" then do
        let ts ← tupleFields r
        want ";"
        pure (digits.zip ts)
      else do
        want "{"
        namedFields r)
    modify fun s => { s with structs := s.structs ++ [(x, ⟨gens, fs, derives⟩)] }
  else if ← eat "impl" then do
    let gens ← generics r
    let s ← get
    let (n, _) ← pathTy r
    let (tr, n) ← (do
      if ← eat "for" then do
        let (m, _) ← pathTy r
        pure (textToFor s.toks, m)
      else pure ("", n))
    modify fun s => { s with selfTy := n, trait := tr, implGens := gens }
    want "{"
    r.items
    want "}"
    modify fun s => { s with selfTy := "", trait := "", implGens := [] }
  else if ← eat "macro_rules" then do
    want "!"
    let x ← ident
    want "{"
    let pat ← group
    want "=>"
    let body ← group
    let _ ← eat ";"
    want "}"
    modify fun s => { s with macros := s.macros ++ [(x, pat, body)] }
  else do
    let t ← peek
    let s ← get
    match (if t.kind == .id then tokLookup t s.macros else none) with
    | some (pat, body) => do
      let _ ← next
      want "!"
      let ts ← group
      let _ ← eat ";"
      invoke r pat body ts
    | none => do
      qualifiers len
      want "fn"
      let x ← ident
      modify fun s => { s with fn := x }
      let gens ← generics r
      let (ps, t) ← signature r
      let b ← r.stmts
      emit x ⟨[], gens, ps, t, b⟩
      modify fun s => { s with fn := "" }

/-- the items up to a `}` or the end -/
def itemsRest (r : Rec) : Nat → P Unit
  | 0 => fail
  | n + 1 => do
    let as ← attrs len
    if (← isKind .eof) || (← is "}") then pure ()
    else do
      let on ← enabled as
      let s ← get
      item r (derived as)
      (if on then pure () else modify fun s' => { s' with fns := s.fns, structs := s.structs })
      itemsRest r n

/-! ### all of it -/

def parser : Nat → Rec
  | 0 => ⟨fail, fail, fail, fun _ => fail, fun _ => fail, fail, fail, fail, fail, fail⟩
  | n + 1 =>
    { ty := ty (parser n), pathTy := pathTy (parser n), pat := pat (parser n), expr := expr (parser n)
      unary := unary (parser n), ifExpr := ifExpr (parser n), arm := arm (parser n), stmts := stmts (parser n)
      items := itemsRest (parser n) len, tItem := tItem (parser n) }

/-- Parse all tokens. -/
def run (cfg : Config) (ts : List Tok) : Option St :=
  match (parser 100).items { cfg, toks := ts } with
  | some (_, s) => match s.toks with
    | [] => some s
    | _ => none
  | none => none

/-- A source file of the crate. -/
def parseFile (text : List String) : Option File :=
  (run {} (lex text)).map fun s => { fns := s.fns, structs := s.structs, invocations := s.invocations }

/-- An expression. -/
def parseExpr (text : List String) : Option Expr :=
  ((within (lex text) ((parser 100).expr true)) { cfg := {}, toks := [] }).map (·.1)

/-! ### the derive macro -/

/-- The free functions: a `fn` outside of braces. -/
def freeFns : Nat → List Tok → List String
  | d, t :: t' :: ts =>
    bif isTok "{" t then freeFns (d + 1) (t' :: ts)
    else bif isTok "}" t then freeFns (d - 1) (t' :: ts)
    else bif isTok "fn" t && Nat.beq d 0 then t'.text :: freeFns d (t' :: ts)
    else freeFns d (t' :: ts)
  | _, _ => []

/-- The fields whose type implements `Deref`: `x: SpannedValue<…>`. -/
def derefFields : List Tok → List String
  | x :: c :: t :: ts =>
    bif isTok "SpannedValue" t && isTok ":" c then x.text :: derefFields (c :: t :: ts)
    else derefFields (c :: t :: ts)
  | _ => []

/-- A source file of a derive macro. -/
structure MacroFile where
  fns : List ((String × String) × FnDecl)
  structs : List (String × StructDecl)
  enums : List (String × List String)
  tmpls : List (String × Tmpl)

def macroConfig (features : List String) (ts : List Tok) : Config :=
  { features := some features, free := freeFns 0 ts, derefs := derefFields ts }

def St.macroFile (s : St) : MacroFile :=
  { fns := s.fns, structs := s.structs, enums := s.enums, tmpls := s.tmpls }

/-- The source file of a derive macro, with these features.  `names`: what the `quote!`s that begin in these lines are
called; the others get numbers. -/
def parseMacroToks (features : List String) (names : List (Nat × String)) (ts : List Tok) : Option MacroFile :=
  (run { macroConfig features ts with known := names, letter := "s" } ts).map St.macroFile

def parseMacro (features : List String) (names : List (Nat × String)) (text : List String) : Option MacroFile :=
  parseMacroToks features names (lex text)

/-! ### `macro_rules!` -/

/-- without the first character -/
def dropFirst (t : Tok) : String := Lex.string t.chars.tail

def isParam (t : Tok) : Bool := t.kind == .id && tokFirst (Nat.beq 36) t

/-- a part of a pattern without repetitions -/
def mAtoms : Nat → P (List MAtom)
  | 0 => fail
  | n + 1 => do
    if ← isKind .eof then pure []
    else do
      let t ← next
      if isParam t then do
        wantAll [":", "path"]
        let as ← mAtoms n
        pure (.path (dropFirst t) :: as)
      else do
        let as ← mAtoms n
        pure (.tok t.text :: as)

def mPattern : Nat → P (List MPat)
  | 0 => fail
  | n + 1 => do
    if ← isKind .eof then pure []
    else if ← eat "$" then do
      let g ← group
      let as ← within g (mAtoms len)
      let sep ← (do
        if ← isIn ["*", "?"] then pure none
        else do
          let t ← next
          pure (some t.text))
      let op ← next
      let op ← (if isTok "*" op then pure MRep.star
        else if isTok "?" op then pure MRep.opt
        else fail)
      let ps ← mPattern n
      pure (.rep as sep op :: ps)
    else do
      let t ← next
      let a ← (do
        if isParam t then do
          wantAll [":", "path"]
          pure (MAtom.path (dropFirst t))
        else pure (MAtom.tok t.text))
      let ps ← mPattern n
      pure (.atom a :: ps)

def mArg (t : Tok) : MArg := if isParam t then .var (dropFirst t) else .tok t.text

def mArgs : Nat → P (List MArgs)
  | 0 => fail
  | n + 1 => do
    if ← isKind .eof then pure []
    else if ← eat "$" then do
      let g ← group
      want "*"
      let as ← mArgs n
      pure (.rep (g.map mArg) :: as)
    else do
      let t ← next
      let as ← mArgs n
      pure (.one (mArg t) :: as)

/-- the variables bound by a `let` -/
def bound : List Tok → List String
  | t :: x :: ts => bif isTok "let" t then x.text :: bound (x :: ts) else bound (x :: ts)
  | _ => []

/-- The body of an arm: `$` becomes `#`, and a variable bound by the macro is not one of the caller (hygiene). -/
def mToks (own : List String) (dot : Bool) : List Tok → List Tok
  | [] => []
  | t :: ts =>
    let x := if isTok "$" t then [35]
      else if isParam t then 35 :: t.chars.tail
      else if t.kind == .id && own.any (isTok · t) && !dot then chars "m:" ++ t.chars
      else t.chars
    { t with chars := x } :: mToks own (isTok "." t) ts

def mBody (r : Rec) (ts : List Tok) : P MBody := do
  if isTok "$crate" (tokAt 0 ts) && isTok "!" (tokAt 3 ts) then
    within ts (do
      wantAll ["$crate", "::"]
      let x ← ident
      want "!"
      let g ← group
      let as ← within g (mArgs len)
      pure (.call x as))
  else do
    modify fun s => { s with holes := some [] }
    let e ← within (mToks (bound ts) false ts) (r.expr true)
    let s ← get
    modify fun s => { s with holes := none }
    pure (.code ⟨s.holes.getD [], .expr e⟩)

def mArm (r : Rec) : P MArm := do
  let pat ← group
  let lhs ← within pat (mPattern len)
  want "=>"
  let body ← group
  let rhs ← mBody r body
  let _ ← eat ";"
  pure ⟨lhs, rhs⟩

/-- all `macro_rules!` -/
def mRules (r : Rec) : Nat → P (List (String × List MArm))
  | 0 => fail
  | n + 1 => do
    if ← isKind .eof then pure []
    else if ← eat "macro_rules" then do
      want "!"
      let x ← ident
      let g ← group
      let as ← within g (untilEnd (mArm r) len)
      let ms ← mRules r n
      pure ((x, as) :: ms)
    else do
      let _ ← next
      mRules r n

/-- The `macro_rules!` of a source file. -/
def parseRules (text : List String) : Option (List (String × List MArm)) :=
  (mRules (parser 100) len { cfg := {}, toks := lex text }).map (·.1)

end Enumset.Src.Parse
