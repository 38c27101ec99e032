import Verif.SpecGen
import Verif.SpecSerde
import Verif.SpecMachine
import Verif.Src.SerdeLib
/-!
# Histories of calls that serialize and deserialize

The commands of SpecGen.lean, and commands that hand a set to a serializer or ask a deserializer for one.  The
serializer and the deserializer are arbitrary (`SerdeLib`): any call of theirs may fail, also after everything has
been read, and a sequence may go on after it ended or never end.  `serdeAnswers` says what a history prints, on mathematical sets;
`Prog.runSerde` runs the text.  `Hist.serialized` (SpecMachine.lean) says what a set is serialized as, and
`Hist.Data.read` what data means.
-/
set_option autoImplicit false

namespace Enumset.Src
open Hist

/-- Commands; `r` and `a` are numbers of variables, `st` is the state of the serializer or deserializer. -/
inductive SerdeCmd (n : Nat) where
  | gen (c : GenCmd n)
  /-- `a.serialize(ser)` -/
  | serialize (a : Nat) (st : Val (Fin n))
  /-- `EnumSet::deserialize(de)`; if it succeeds, `r` is set to the result -/
  | deserialize (r : Nat) (st : Val (Fin n))

/-- Answers: of a command of SpecGen.lean; what `serialize` returns; the error `deserialize` returns, if any. -/
inductive SerdeAns (n : Nat) where
  | gen (a : Ans n)
  | serialized (v : Val (Fin n))
  | deserialized (e : Option (Val (Fin n)))

/-- Read a sequence to its end; `fuel` is the number of items after which we give up. -/
def readAll {E α σ : Type} (next : Access E α σ) : Nat → σ → Res (Except E (List α))
  | 0, _ => .diverge
  | fuel + 1, st =>
    match next st with
    | (.error e, _) => .ok (.error e)
    | (.ok none, _) => .ok (.ok [])
    | (.ok (some x), st) => readAll next fuel st >>= fun r => .ok (r.map (x :: ·))

/-- Read at most `k` items of a sequence. -/
def readUpTo {E α σ : Type} (next : Access E α σ) : Nat → σ → Except E (List α × σ)
  | 0, st => .ok ([], st)
  | k + 1, st =>
    match next st with
    | (.error e, _) => .error e
    | (.ok none, st) => .ok ([], st)
    | (.ok (some x), st) => (readUpTo next k st).map fun r => (x :: r.1, r.2)

section
variable [Target] {n : Nat} (L : SerdeLib n) (fuel : Nat) (lay : Layout) (d : Fin n → Nat)

/-! ### on mathematical sets -/

/-- The answer of the serializer to what it is handed. -/
def handOver (st : Val (Fin n)) : Obs n → Res (Val (Fin n))
  | .data none (.int t x) => .ok (serEnd ((SerValue.int t x).handTo L.ser st))
  | .data (some len) (.seq vs) => .ok (serEnd ((SerValue.seq len vs).handTo L.ser st))
  | .data (some len) (.map es) => .ok (serEnd ((SerValue.map len es).handTo L.ser st))
  | .data none (.words ws) => .ok (serEnd ((SerValue.words ws).handTo L.ser st))
  | _ => .ub

/-- What the deserializer gives: data in the form that the layout asks for, or an error.  Words beyond those of the
storage are read and dropped.  If the deserializer refuses to give data of this form, it is told what was expected;
`T` is the name of the enum. -/
def fetch (st : Val (Fin n)) : Res (Except (Val (Fin n)) (Data n)) :=
  match lay.format with
  | .int w =>
    match numOfWidth w with
    | some t => .ok ((L.deNum t st).map (.int t))
    | none => .ub
  | .list =>
    match L.deSeq st with
    | .error e => .ok (.error (L.expected e "a list of T"))
    | .ok st => readAll L.nextVariant fuel st >>= fun r => .ok (r.map .seq)
  | .map =>
    match L.deMap st with
    | .error e => .ok (.error (L.expected e "a map from T to bool"))
    | .ok st => readAll L.nextEntry fuel st >>= fun r => .ok (r.map .map)
  | .array =>
    match L.deSeq st with
    | .error e => .ok (.error (L.expected e "a list of u64"))
    | .ok st =>
      match readUpTo L.nextWord lay.storage.words st with
      | .error e => .ok (.error e)
      | .ok (ws, st) => readAll L.nextWord fuel st >>= fun r => .ok (r.map fun _ => .words ws)

/-- The error that is returned for an error of the deserializer: one that occurs while a list, a map or an array is
read goes through `deserialize_seq` or `deserialize_map`. -/
def errorOf (st e : Val (Fin n)) : Val (Fin n) :=
  match lay.format with
  | .int _ => e
  | _ => L.deErr st e

/-- An error of the deserializer after a set has been read. -/
def endOf (st : Val (Fin n)) : Option (Val (Fin n)) :=
  match lay.format with
  | .int _ => none
  | _ => L.deEnd st

/-- A command, on mathematical sets. -/
def SerdeCmd.sem (σ : Nat → Fin n → Bool) : SerdeCmd n → Res (SerdeAns n × (Nat → Fin n → Bool))
  | .gen c => .ok (.gen (c.sem d σ).1, (c.sem d σ).2)
  | .serialize a st => handOver L st (serialized d lay (σ a)) >>= fun v => .ok (.serialized v, σ)
  | .deserialize r st => fetch L fuel lay st >>= fun
    | .error e => .ok (.deserialized (some (errorOf L lay st e)), σ)
    | .ok x =>
      match x.read d lay false with
      | .set A =>
        match endOf L lay st with
        | none => .ok (.deserialized none, upd σ r A)
        | some e => .ok (.deserialized (some e), σ)
      | .refused _ => .ok (.deserialized (some (errorOf L lay st (L.custom "enumset contains unknown bits"))), σ)
      | .panic p => .panic p
      | .unavailable => .ub

/-- What a history prints. -/
def serdeAnswers : List (SerdeCmd n) → (Nat → Fin n → Bool) → Res (List (SerdeAns n))
  | [], _ => .ok []
  | c :: cs, σ => c.sem L fuel lay d σ >>= fun x => serdeAnswers cs x.2 >>= fun l => .ok (x.1 :: l)
end

/-- Whether the command compiles. -/
def SerdeCmd.Allowed {n : Nat} (attrs : EnumsetAttrs) : SerdeCmd n → Prop
  | .gen c => c.Allowed attrs
  | _ => True

/-! ### on the text -/
section
variable [Platform] {n : Nat} (P : Prog (Fin n)) (k : Nat)

/-- A command, run on the text. -/
def Prog.stepSerde (ρ : Nat → Val (Fin n)) : SerdeCmd n → Res (SerdeAns n × (Nat → Val (Fin n)))
  | .gen c => P.stepGen k ρ c >>= fun x => .ok (.gen x.1, x.2)
  | .serialize a st => P.getOf k "EnumSet" "serialize" [ρ a, .struct "Serializer" [("0", st)]] >>= fun v =>
      .ok (.serialized v, ρ)
  | .deserialize r st => P.getOf k "EnumSet" "deserialize" [.struct "Deserializer" [("0", st)]] >>= fun
    | .ok x => .ok (.deserialized none, upd ρ r x)
    | .err e => .ok (.deserialized (some e), ρ)
    | _ => .ub

/-- A history, run on the text from given values of the variables. -/
def Prog.runSerdeFrom : List (SerdeCmd n) → (Nat → Val (Fin n)) → Res (List (SerdeAns n))
  | [], _ => .ok []
  | c :: cs, ρ => P.stepSerde k ρ c >>= fun x => Prog.runSerdeFrom cs x.2 >>= fun l => .ok (x.1 :: l)

/-- A history, run on the text; all variables start as `EnumSet::new()`. -/
def Prog.runSerde (cs : List (SerdeCmd n)) : Res (List (SerdeAns n)) :=
  P.get k "new" [] >>= fun x => P.runSerdeFrom k cs fun _ => x

end
end Enumset.Src
