import Verif.Src.Syntax
/-!
# Tokens

A lexer for the Rust the sources are written in.  The text of a file is the list of its lines.

Simplifications: there are no raw strings, no byte strings, no floating point numbers and no nested block
comments; an escape in a string is `\"`, `\n`, `\\` or a `\` at the end of a line.  A `$` in front of a name
belongs to the name.
-/
set_option autoImplicit false

namespace Enumset.Src

inductive Kind where
  | id | int | str | life | chr | p
  /-- there is no token -/
  | eof
  deriving DecidableEq

/-- A token: the characters of a string are those of its value. -/
structure Tok where
  kind : Kind
  chars : List Nat
  line : Nat
  deriving DecidableEq

namespace Lex

/-! The characters of a line are numbers here. -/

def isDigit (c : Nat) : Bool := Nat.ble 48 c && Nat.ble c 57

def isUpper (c : Nat) : Bool := Nat.ble 65 c && Nat.ble c 90

def isLower (c : Nat) : Bool := Nat.ble 97 c && Nat.ble c 122

/-- the first character of a name -/
def isStart (c : Nat) : Bool := isLower c || isUpper c || Nat.beq c 95

def isWord (c : Nat) : Bool := isStart c || isDigit c

def isSpace (c : Nat) : Bool := Nat.beq c 32 || Nat.ble c 13

def string (cs : List Nat) : String := String.ofList (cs.map Char.ofNat)

def same : List Nat → List Nat → Bool
  | [], [] => true
  | c :: cs, d :: ds => bif Nat.beq c d then same cs ds else false
  | _, _ => false

/-- the longest prefix with a property, and the rest -/
def span (f : Nat → Bool) : List Nat → List Nat × List Nat
  | [] => ([], [])
  | c :: cs => bif f c then (match span f cs with | (x, r) => (c :: x, r)) else ([], c :: cs)

/-- Tokens of more than one character that are no names, longer ones first:
`<<= >>= ..= :: -> => == != <= >= && || += -= *= /= %= &= |= ^= << >> ..` -/
def puncts : List (List Nat) :=
  [[60, 60, 61], [62, 62, 61], [46, 46, 61], [58, 58], [45, 62], [61, 62], [61, 61], [33, 61], [60, 61],
    [62, 61], [38, 38], [124, 124], [43, 61], [45, 61], [42, 61], [47, 61], [37, 61], [38, 61], [124, 61],
    [94, 61], [60, 60], [62, 62], [46, 46]]

/-- the rest of a list after a prefix -/
def after : List Nat → List Nat → Option (List Nat)
  | [], cs => some cs
  | _ :: _, [] => none
  | p :: ps, c :: cs => bif Nat.beq p c then after ps cs else none

def punct (c : Nat) (cs : List Nat) : List (List Nat) → List Nat × List Nat
  | [] => ([c], cs)
  | p :: ps => match after p (c :: cs) with
    | some r => (p, r)
    | none => punct c cs ps

/-- Where the end of a line is. -/
inductive Mode where
  | code
  /-- in `/* … */` -/
  | comment
  /-- in a string that begins in line `line`: the characters read, the last one first, and whether spaces are
  skipped -/
  | str (acc : List Nat) (line : Nat) (skip : Bool)

/-- The rest of a string: the characters and the rest of the line, or the string goes on. -/
def quoted (acc : List Nat) : List Nat → (List Nat × List Nat) ⊕ (List Nat × Bool)
  | [] => .inr (10 :: acc, false)
  | c :: cs =>
    bif Nat.beq c 34 then .inl (acc.reverse, cs)
    else bif Nat.beq c 92 then
      match cs with
      | [] => .inr (acc, true)
      | d :: cs => quoted ((bif Nat.beq d 110 then 10 else d) :: acc) cs
    else quoted (c :: acc) cs

/-- The rest of a line after the end of a comment. -/
def endComment : List Nat → Option (List Nat)
  | [] => none
  | c :: cs => match after [42, 47] (c :: cs) with
    | some r => some r
    | none => endComment cs

/-- The token at the beginning of a line that does not begin with a space, a name or a number. -/
def special (c : Nat) (cs : List Nat) : Kind × List Nat × List Nat :=
  bif Nat.beq c 39 then
    match cs with
    | d :: e :: r => bif Nat.beq e 39 then (.chr, [d], r)
      else match span isWord cs with
        | (x, r) => (.life, c :: x, r)
    | _ => (.p, [c], cs)
  else bif Nat.beq c 36 then
    match span isWord cs with
    | ([], r) => (.p, [c], r)
    | (x, r) => (.id, c :: x, r)
  else (.p, punct c cs puncts)

/-- The tokens of the rest of a line. -/
def code (line : Nat) : Nat → List Nat → List Tok × Mode
  | 0, _ => ([], .code)
  | _ + 1, [] => ([], .code)
  | n + 1, c :: cs =>
    bif isSpace c then code line n cs
    else bif Nat.beq c 34 then match quoted [] cs with
      | .inr (acc, skip) => ([], .str acc line skip)
      | .inl (x, r) => match code line n r with
        | (ts, m) => (⟨.str, x, line⟩ :: ts, m)
    else match after [47, 47] (c :: cs), after [47, 42] (c :: cs) with
      | some _, _ => ([], .code)
      | none, some r => match endComment r with
        | some r => code line n r
        | none => ([], .comment)
      | none, none =>
        match bif isStart c then (Kind.id, span isWord (c :: cs))
          else bif isDigit c then (Kind.int, span isWord (c :: cs))
          else special c cs with
        | (k, x, r) => match code line n r with
          | (ts, m) => (⟨k, x, line⟩ :: ts, m)

/-- The tokens of a line. -/
def lexLine (line : Nat) (cs : List Nat) : Mode → List Tok × Mode
  | .code => code line 1000 cs
  | .comment => match endComment cs with
    | some r => code line 1000 r
    | none => ([], .comment)
  | .str acc l skip => match quoted acc (bif skip then (span isSpace cs).2 else cs) with
    | .inl (x, r) => match code line 1000 r with
      | (ts, m) => (⟨.str, x, l⟩ :: ts, m)
    | .inr (acc, skip) => ([], .str acc l skip)

def lexFrom : Nat → Mode → List (List Nat) → List Tok
  | _, _, [] => []
  | n, m, l :: ls => match lexLine n l m with
    | (ts, m) => ts ++ lexFrom (n + 1) m ls

end Lex

/-- the text of a token -/
def Tok.text (t : Tok) : String := Lex.string t.chars

/-- The tokens of a text. -/
def lex (text : List String) : List Tok :=
  Lex.lexFrom 1 .code (text.map fun l => l.toList.map Char.toNat)

end Enumset.Src
