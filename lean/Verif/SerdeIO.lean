import Verif.Serde
/-!
# The generated serde code talking to a serializer or deserializer

`Serde.lean` models serialization by the value that is handed over and deserialization by a finite
stream of items.  Here the same code (`enumset_derive/src/lib.rs:429-644`) is modelled call by call
against an arbitrary serializer, any call of which may fail, and an arbitrary `SeqAccess`/`MapAccess`,
which may fail, go on after it has returned `None`, or never end.  Citations `lib.rs` are to
`enumset_derive/src/lib.rs`.
-/
set_option autoImplicit false

namespace Enumset

/-- The calls of a `serde::Serializer`, and of the `SerializeSeq`/`SerializeMap` it returns, that the
generated code makes.  `σ` is everything the calls can change; each call gives `Ok` or an error. -/
structure Serializer [Target] (V Ok E σ : Type) where
  /-- `Serialize::serialize(&value, ser)` for an unsigned integer -/
  serialize_num : (n : NumTy) → BitVec n.bits → σ → Except E Ok × σ
  /-- `ser.serialize_seq(len)` -/
  serialize_seq : Option Nat → σ → Except E Unit × σ
  /-- `seq.serialize_element(&bit)` -/
  serialize_element : V → σ → Except E Unit × σ
  /-- `seq.end()` -/
  seq_end : σ → Except E Ok × σ
  /-- `ser.serialize_map(len)` -/
  serialize_map : Option Nat → σ → Except E Unit × σ
  /-- `map.serialize_entry(&bit, &present)` -/
  serialize_entry : V → Bool → σ → Except E Unit × σ
  /-- `map.end()` -/
  map_end : σ → Except E Ok × σ
  /-- `Serialize::serialize(&array[..end], ser)` for a slice of `u64` -/
  serialize_words : List U64 → σ → Except E Ok × σ

/-- A `SeqAccess` or `MapAccess`: what `next_element`/`next_entry` returns, and the state after it. -/
abbrev Access (E α σ : Type) := σ → Except E (Option α) × σ

namespace Serde

/-- `r?` followed by the rest of the function. -/
def andThen {E α β σ : Type} (r : Except E α × σ) (k : σ → Res (Except E β × σ)) :
    Res (Except E β × σ) :=
  match r with
  | (.error e, st) => .ok (.error e, st)
  | (.ok _, st) => k st

variable [Platform] {T : EnumSetType} {E Ok σ : Type}

/-- lib.rs:456-462 -/
def serializeIntTo (k : Serializer T.Val Ok E σ) (n : NumTy) (set : EnumSet T) (st : σ) :
    Res (Except E Ok × σ) := do
  let value ← EnumSetTypeRepr.to_num n set.priv_repr
  pure (k.serialize_num n value st)

/-- lib.rs:483-486: `for bit in set { seq.serialize_element(&bit)?; } seq.end()` -/
def seqLoop (k : Serializer T.Val Ok E σ) : Nat → EnumSetIter T → σ → Res (Except E Ok × σ)
  | 0, _, _ => .diverge
  | fuel + 1, it, st => do
    let (r, it) ← EnumSetIter.next it
    match r with
    | none => pure (k.seq_end st)
    | some bit => andThen (k.serialize_element bit st) fun st => seqLoop k fuel it st
/-- lib.rs:478-487 -/
def serializeListTo (k : Serializer T.Val Ok E σ) (set : EnumSet T) (st : σ) :
    Res (Except E Ok × σ) := do
  let n ← set.len
  andThen (k.serialize_seq (some n) st) fun st => do
    let it ← set.iter
    seqLoop k (EnumSetIter.fuel T) it st

/-- lib.rs:523-526: `for bit in set { map.serialize_entry(&bit, &true)?; } map.end()` -/
def entryLoop (k : Serializer T.Val Ok E σ) : Nat → EnumSetIter T → σ → Res (Except E Ok × σ)
  | 0, _, _ => .diverge
  | fuel + 1, it, st => do
    let (r, it) ← EnumSetIter.next it
    match r with
    | none => pure (k.map_end st)
    | some bit => andThen (k.serialize_entry bit true st) fun st => entryLoop k fuel it st
/-- lib.rs:518-527 -/
def serializeMapTo (k : Serializer T.Val Ok E σ) (set : EnumSet T) (st : σ) :
    Res (Except E Ok × σ) := do
  let n ← set.len
  andThen (k.serialize_map (some n) st) fun st => do
    let it ← set.iter
    entryLoop k (EnumSetIter.fuel T) it st

/-- lib.rs:588-605 -/
def serializeArrayTo (k : Serializer T.Val Ok E σ) (set : EnumSet T) (st : σ) :
    Res (Except E Ok × σ) := do
  let array ← EnumSet.as_array (EnumSetTypeRepr.PREFERRED_ARRAY_LEN T.Repr) set
  let stop ← trimLoop array
  let ws ← slicePrefix array stop
  pure (k.serialize_words ws st)

/-- set.rs:433-438, lib.rs:433: `serde::Serialize::serialize(&set, ser)` -/
def serializeTo (k : Serializer T.Val Ok E σ) (set : EnumSet T) (st : σ) : Res (Except E Ok × σ) :=
  match T.serde with
  | .u8 => serializeIntTo k .u8 set st
  | .u16 => serializeIntTo k .u16 set st
  | .u32 => serializeIntTo k .u32 set st
  | .u64 => serializeIntTo k .u64 set st
  | .u128 => serializeIntTo k .u128 set st
  | .list => serializeListTo k set st
  | .map => serializeMapTo k set st
  | .array => serializeArrayTo k set st

/-! `fuel` bounds the number of calls of `next_element`/`next_entry`; running out of it is
`diverge`. -/

/-- lib.rs:505-508: the loop of `visit_seq` for lists -/
def listLoopFrom (next : Access E T.Val σ) : Nat → EnumSet T → σ →
    Res (Except (DeError E) (EnumSet T) × σ)
  | 0, _, _ => .diverge
  | fuel + 1, accum, st =>
    match next st with
    | (.error e, st) => .ok (.error (.de e), st)
    | (.ok none, st) => .ok (.ok accum, st)
    | (.ok (some val), st) => do
      let accum ← EnumSet.bitor_assign accum (.val val)
      listLoopFrom next fuel accum st
/-- lib.rs:499-509 -/
def visitList (next : Access E T.Val σ) (fuel : Nat) (st : σ) :
    Res (Except (DeError E) (EnumSet T) × σ) :=
  listLoopFrom next fuel EnumSet.new st

/-- lib.rs:545-552: the loop of `visit_map` -/
def mapLoopFrom (next : Access E (T.Val × Bool) σ) : Nat → EnumSet T → σ →
    Res (Except (DeError E) (EnumSet T) × σ)
  | 0, _, _ => .diverge
  | fuel + 1, accum, st =>
    match next st with
    | (.error e, st) => .ok (.error (.de e), st)
    | (.ok none, st) => .ok (.ok accum, st)
    | (.ok (some (val, is_present)), st) =>
      if is_present then do
        let accum ← EnumSet.bitor_assign accum (.val val)
        mapLoopFrom next fuel accum st
      else mapLoopFrom next fuel accum st
/-- lib.rs:539-553 -/
def visitMap (next : Access E (T.Val × Bool) σ) (fuel : Nat) (st : σ) :
    Res (Except (DeError E) (EnumSet T) × σ) :=
  mapLoopFrom next fuel EnumSet.new st

/-- lib.rs:624-632: fill `accum`; the remaining fuel is part of the result -/
def fillLoopFrom {P : Nat} (next : Access E U64 σ) : Nat → Vector U64 P → Nat → σ →
    Res (Except (DeError E) (Vector U64 P × Nat) × σ)
  | 0, _, _, _ => .diverge
  | fuel + 1, accum, i, st =>
    match next st with
    | (.error e, st) => .ok (.error (.de e), st)
    | (.ok none, st) => .ok (.ok (accum, fuel), st)
    | (.ok (some val), st) => do
      let accum ← setV accum i val
      let i ← addW usizeBits i 1
      if i = P then pure (.ok (accum, fuel), st) else fillLoopFrom next fuel accum i st

/-- lib.rs:633-635 without `serialize_deny_unknown` -/
def drainLoopFrom (next : Access E U64 σ) : Nat → σ → Res (Except (DeError E) Unit × σ)
  | 0, _ => .diverge
  | fuel + 1, st =>
    match next st with
    | (.error e, st) => .ok (.error (.de e), st)
    | (.ok none, st) => .ok (.ok (), st)
    | (.ok (some _), st) => drainLoopFrom next fuel st

/-- lib.rs:617-638, the variant without `serialize_deny_unknown` -/
def visitArray (next : Access E U64 σ) (fuel : Nat) (st : σ) :
    Res (Except (DeError E) (EnumSet T) × σ) := do
  let accum : Vector U64 (EnumSetTypeRepr.PREFERRED_ARRAY_LEN T.Repr) := Vector.replicate _ 0
  match ← fillLoopFrom next fuel accum 0 st with
  | (.error e, st) => pure (.error e, st)
  | (.ok (accum, fuel), st) =>
    match ← drainLoopFrom next fuel st with
    | (.error e, st) => pure (.error e, st)
    | (.ok (), st) => do
      let s ← EnumSet.from_array _ accum
      pure (.ok s, st)

end Serde

end Enumset
