import Verif.Src.Link
import Verif.SerdeIO
/-!
# Libraries, as seen by the interpreter

What the generated code and set.rs call of serde and of `core`, for an arbitrary serializer, deserializer, formatter,
hasher and iterator.  Their states, results and errors are values of the interpreter.

* `ser: S` is a struct `Serializer` with the state.  What it returns at the end is a pair of the result (or
  error) and the final state.
* `de: D` is a struct `Deserializer` with the state.  `deserialize_seq` either fails, with an error that may mention
  what the visitor expects, or calls `visit_seq` of the visitor once and returns what that returns, possibly with
  another error or an error of its own in the end (`SerdeLib.after`).  To find out what the visitor expects, it calls
  `expecting` of the visitor with a formatter that keeps what is written, a struct `Message`.
* `write!(f, s)`, for a literal `s` without arguments, writes `s`.
* `next_element` and `next_entry` have their type arguments in the name.
* An iterator of the caller is a struct `UserIter` with the state.
* `f: &mut Formatter` and `state: &mut H` are structs `Formatter` and `Hasher` with the state.  `fmt` of the enum is
  the `Debug` or the `Display` of the caller; the state of the formatter can say which.
* `hash` of an integer calls the `write_…` of its type; `hash` of an array of `u64` calls `write_length_prefix` and
  `write`; `#[derive(Hash)]` calls `hash` of the fields.
-/
set_option autoImplicit false

namespace Enumset.Src

/-- A serializer, a deserializer, a formatter, a hasher and an iterator. -/
structure SerdeLib [Target] (n : Nat) where
  ser : Serializer (Fin n) (Val (Fin n)) (Val (Fin n)) (Val (Fin n))
  /-- `<t as Deserialize>::deserialize(de)` for an integer type -/
  deNum : (t : NumTy) → Val (Fin n) → Except (Val (Fin n)) (BitVec t.bits)
  /-- `de.deserialize_seq(visitor)` up to the call of the visitor -/
  deSeq : Val (Fin n) → Except (Val (Fin n)) (Val (Fin n))
  /-- `de.deserialize_map(visitor)` up to the call of the visitor -/
  deMap : Val (Fin n) → Except (Val (Fin n)) (Val (Fin n))
  /-- `seq.next_element::<T>()` -/
  nextVariant : Access (Val (Fin n)) (Fin n) (Val (Fin n))
  /-- `seq.next_element::<u64>()` -/
  nextWord : Access (Val (Fin n)) U64 (Val (Fin n))
  /-- `map.next_entry::<T, bool>()` -/
  nextEntry : Access (Val (Fin n)) (Fin n × Bool) (Val (Fin n))
  /-- `D::Error::custom(s)` -/
  custom : String → Val (Fin n)
  /-- the error of `deSeq` or `deMap`, given what the visitor expects -/
  expected : Val (Fin n) → String → Val (Fin n) := fun e _ => e
  /-- an error of `deserialize_seq` and `deserialize_map` after the visitor returned a set, if any.  What the visitor
  leaves unread is determined by the state in the beginning. -/
  deEnd : Val (Fin n) → Option (Val (Fin n)) := fun _ => none
  /-- what `deserialize_seq` and `deserialize_map` make of an error, such as adding where it occurred -/
  deErr : Val (Fin n) → Val (Fin n) → Val (Fin n) := fun _ e => e
  /-- `f.write_str(s)`: whether it succeeds, and the new state -/
  write_str : Val (Fin n) → String → Bool × Val (Fin n) := fun st _ => (true, st)
  /-- `Debug::fmt(&v, f)` or `Display::fmt(&v, f)` for a variant: whether it succeeds, and the new state -/
  fmtVariant : Fin n → Val (Fin n) → Bool × Val (Fin n) := fun _ st => (true, st)
  /-- a call on the hasher -/
  hashWrite : HashWrite → Val (Fin n) → Val (Fin n) := fun _ st => st
  /-- `next` of an iterator of the caller, given the variables of the function that calls it: the item, and the new
  state -/
  next : Env (Fin n) → Val (Fin n) → Res (Option (Val (Fin n)) × Val (Fin n)) := fun _ _ => .ub

section
variable {H : Type}

/-- A `fmt::Result`. -/
def fmtResult (ok : Bool) : Val H := if ok then .ok .unit else .err .unit

/-- What the serializer returns at the end. -/
def serEnd (r : Except (Val H) (Val H) × Val H) : Val H :=
  match r with
  | (.ok o, st) => .ok (.tup [o, st])
  | (.error e, st) => .err (.tup [e, st])

/-- What `serialize_seq` and `serialize_map` return. -/
def serBegin (ty : String) (r : Except (Val H) Unit × Val H) : Val H :=
  match r with
  | (.ok _, st) => .ok (.struct ty [("0", st)])
  | (.error e, st) => .err (.tup [e, st])

/-- What `serialize_element` and `serialize_entry` return, and the new state. -/
def serStep (ty : String) (r : Except (Val H) Unit × Val H) : Val H × List (Nat × Val H) :=
  match r with
  | (.ok _, st) => (.ok .unit, [(0, .struct ty [("0", st)])])
  | (.error e, st) => (.err (.tup [e, st]), [(0, .struct ty [("0", st)])])

/-- What `next_element` and `next_entry` return, and the new state. -/
def accessStep {α : Type} (ty : String) (f : α → Val H) (r : Except (Val H) (Option α) × Val H) :
    Val H × List (Nat × Val H) :=
  match r with
  | (.ok (some a), st) => (.ok (.some (f a)), [(0, .struct ty [("0", st)])])
  | (.ok none, st) => (.ok .none, [(0, .struct ty [("0", st)])])
  | (.error e, st) => (.err e, [(0, .struct ty [("0", st)])])

/-- A slice of `u64`. -/
def wordsOf : List (Val H) → Option (List U64)
  | [] => some []
  | .int .u64 x :: xs => (wordsOf xs).map (BitVec.ofNat 64 x :: ·)
  | _ :: _ => none

mutual
/-- The calls that `hash` makes on the hasher.  `has` says which structs derive `Hash`. -/
def hashVal [Target] (has : String → Bool) : Val H → Res (List HashWrite)
  | .int t x => .ok [.int t.bits x]
  | .arr xs =>
    match wordsOf xs with
    | some ws => .ok [.lenPrefix xs.length, .words ws]
    | none => .ub
  | .struct s fs => if has s then hashFields has fs else .ub
  | _ => .ub
def hashFields [Target] (has : String → Bool) : List (String × Val H) → Res (List HashWrite)
  | [] => .ok []
  | (_, v) :: fs => hashVal has v >>= fun a => hashFields has fs >>= fun b => .ok (a ++ b)
end

end

/-- What `deserialize_seq` and `deserialize_map` return, given the state in the beginning and what the visitor returned. -/
def SerdeLib.after [Target] {n : Nat} (L : SerdeLib n) (st : Val (Fin n)) : Val (Fin n) → Val (Fin n)
  | .ok v =>
    match L.deEnd st with
    | none => .ok v
    | some e => .err e
  | .err e => .err (L.deErr st e)
  | v => v

/-- A formatter that keeps what is written. -/
def message {H : Type} (s : String) : Val H := .struct "Message" [("0", .str s)]

/-- The error of `deserialize_seq` and `deserialize_map` when they do not call the visitor; `r` is what `expecting`
returns. -/
def SerdeLib.fails [Target] {n : Nat} (L : SerdeLib n) (st e : Val (Fin n)) :
    Val (Fin n) × List (Nat × Val (Fin n)) → Res (Val (Fin n) × List (Nat × Val (Fin n)))
  | (_, [(1, .struct "Message" [("0", .str s)])]) => .ok (.err (L.deErr st (L.expected e s)), [])
  | _ => .ub

/-- The functions of the libraries.  `fns` are the functions of the program, among them those of the visitor. -/
def SerdeLib.fn [Target] {n : Nat} (L : SerdeLib n) (fns : String → String → Option (Fn (Fin n)))
    (ty f : String) : Option (Fn (Fin n)) :=
  match ty, f with
  | "Serialize", "serialize" => some fun _ _ args =>
    match args with
    | [.int t x, .struct "Serializer" [("0", st)]] =>
      .ok (serEnd (L.ser.serialize_num t (BitVec.ofNat t.bits x) st), [])
    | [.arr xs, .struct "Serializer" [("0", st)]] =>
      need (wordsOf xs) >>= fun ws => .ok (serEnd (L.ser.serialize_words ws st), [])
    | _ => .ub
  | "Serializer", "serialize_seq" => some fun _ _ args =>
    match args with
    | [.struct "Serializer" [("0", st)], .some (.int .usize k)] =>
      .ok (serBegin "SerializeSeq" (L.ser.serialize_seq (some k) st), [])
    | _ => .ub
  | "SerializeSeq", "serialize_element" => some fun _ _ args =>
    match args with
    | [.struct "SerializeSeq" [("0", st)], .host "T" v] =>
      .ok (serStep "SerializeSeq" (L.ser.serialize_element v st))
    | _ => .ub
  | "SerializeSeq", "end" => some fun _ _ args =>
    match args with
    | [.struct "SerializeSeq" [("0", st)]] => .ok (serEnd (L.ser.seq_end st), [])
    | _ => .ub
  | "Serializer", "serialize_map" => some fun _ _ args =>
    match args with
    | [.struct "Serializer" [("0", st)], .some (.int .usize k)] =>
      .ok (serBegin "SerializeMap" (L.ser.serialize_map (some k) st), [])
    | _ => .ub
  | "SerializeMap", "serialize_entry" => some fun _ _ args =>
    match args with
    | [.struct "SerializeMap" [("0", st)], .host "T" v, .bool b] =>
      .ok (serStep "SerializeMap" (L.ser.serialize_entry v b st))
    | _ => .ub
  | "SerializeMap", "end" => some fun _ _ args =>
    match args with
    | [.struct "SerializeMap" [("0", st)]] => .ok (serEnd (L.ser.map_end st), [])
    | _ => .ub
  | "Deserializer", "deserialize_seq" => some fun env _ args =>
    match args with
    | [.struct "Deserializer" [("0", st)], v] =>
      match L.deSeq st with
      | .error e => need (fns v.tag "expecting") >>= fun fn => fn env [] [v, message ""] >>= L.fails st e
      | .ok st' => need (fns v.tag "visit_seq") >>= fun fn =>
        fn env [] [v, .struct "SeqAccess" [("0", st')]] >>= fun r => .ok (L.after st r.1, [])
    | _ => .ub
  | "Deserializer", "deserialize_map" => some fun env _ args =>
    match args with
    | [.struct "Deserializer" [("0", st)], v] =>
      match L.deMap st with
      | .error e => need (fns v.tag "expecting") >>= fun fn => fn env [] [v, message ""] >>= L.fails st e
      | .ok st' => need (fns v.tag "visit_map") >>= fun fn =>
        fn env [] [v, .struct "MapAccess" [("0", st')]] >>= fun r => .ok (L.after st r.1, [])
    | _ => .ub
  | "SeqAccess", "next_element::<T>" => some fun _ _ args =>
    match args with
    | [.struct "SeqAccess" [("0", st)]] => .ok (accessStep "SeqAccess" (.host "T") (L.nextVariant st))
    | _ => .ub
  | "SeqAccess", "next_element::<u64>" => some fun _ _ args =>
    match args with
    | [.struct "SeqAccess" [("0", st)]] =>
      .ok (accessStep "SeqAccess" (fun x => .int .u64 x.toNat) (L.nextWord st))
    | _ => .ub
  | "MapAccess", "next_entry::<T, bool>" => some fun _ _ args =>
    match args with
    | [.struct "MapAccess" [("0", st)]] =>
      .ok (accessStep "MapAccess" (fun x => .tup [.host "T" x.1, .bool x.2]) (L.nextEntry st))
    | _ => .ub
  | "D::Error", "custom" => some fun _ _ args =>
    match args with
    | [.str s] => .ok (L.custom s, [])
    | _ => .ub
  | "Formatter", "write_str" => some fun _ _ args =>
    match args with
    | [.struct "Formatter" [("0", st)], .str s] =>
      .ok (fmtResult (L.write_str st s).1, [(0, .struct "Formatter" [("0", (L.write_str st s).2)])])
    | _ => .ub
  | "Message", "write_fmt" => some fun _ _ args =>
    match args with
    | [.struct "Message" [("0", .str s)], .str s'] => .ok (.ok .unit, [(0, message (s ++ s'))])
    | _ => .ub
  | "T", "fmt" => some fun _ _ args =>
    match args with
    | [.host "T" v, .struct "Formatter" [("0", st)]] =>
      .ok (fmtResult (L.fmtVariant v st).1, [(1, .struct "Formatter" [("0", (L.fmtVariant v st).2)])])
    | _ => .ub
  | "UserIter", "into_iter" => some fun _ _ args =>
    match args with
    | [it] => .ok (it, [])
    | _ => .ub
  | "UserIter", "next" => some fun env _ args =>
    match args with
    | [.struct "UserIter" [("0", st)]] => L.next env st >>= fun r =>
      .ok (match r.1 with
        | some v => .some v
        | none => .none, [(0, .struct "UserIter" [("0", r.2)])])
    | _ => .ub
  | _, "hash" => some fun _ _ args =>
    match args with
    | [v, .struct "Hasher" [("0", st)]] => hashVal (derives · "Hash") v >>= fun ws =>
      .ok (.unit, [(1, .struct "Hasher" [("0", ws.foldl (fun st w => L.hashWrite w st) st)])])
    | _ => .ub
  | t, "deserialize" => (NumTy.ofName t).map fun t _ _ args =>
    match args with
    | [.struct "Deserializer" [("0", st)]] =>
      match L.deNum t st with
      | .ok x => .ok (.ok (.int t x.toNat), [])
      | .error e => .ok (.err e, [])
    | _ => .ub
  | _, _ => none

end Enumset.Src
