import Verif.Set
/-!
# The generated serde code (`enumset_derive/src/lib.rs:429-644`, set.rs:433-445)

Serialization is the value handed to the serializer, deserialization a function of what the
deserializer yields.

Simplifications: errors of the *serializer*, and sequences that go on after `None` or never end, are
left to `SerdeIO.lean`, which models the same code call by call; a deserializer that answers a
`deserialize_seq`/`deserialize_map` request with something else is an error inside serde and not
modelled; `Serialize`/`Deserialize` of the variants (list and map representations) is the user's own
impl, which either yields a variant or an error.
-/
set_option autoImplicit false

namespace Enumset

/-- The integer representations among the serialized ones, as the type (de)serialized. -/
def SerdeRepr.numTy : SerdeRepr → Option NumTy
  | .u8 => some .u8
  | .u16 => some .u16
  | .u32 => some .u32
  | .u64 => some .u64
  | .u128 => some .u128
  | .list | .map | .array => none

/-- What is handed to the serializer. -/
inductive SerValue [Target] (V : Type) where
  /-- `serialize_u8` … `serialize_u128` -/
  | int (n : NumTy) (x : BitVec n.bits)
  /-- `serialize_seq(Some(len))`, the elements (variants), `end` -/
  | seq (len : Nat) (elems : List V)
  /-- `serialize_map(Some(len))`, the entries, `end` -/
  | map (len : Nat) (entries : List (V × Bool))
  /-- a slice of `u64` -/
  | words (ws : List U64)

/-- What a deserializer can yield: its value or an error, and for sequences the items in order, each
of which may be an error. -/
inductive DeInput [Target] (V E : Type) where
  | int (n : NumTy) (x : Except E (BitVec n.bits))
  | seq (items : List (Except E V))
  | map (items : List (Except E (V × Bool)))
  | words (items : List (Except E U64))

/-- The error a deserialization ends with. -/
inductive DeError (E : Type) where
  /-- an error of the deserializer -/
  | de (e : E)
  /-- `D::Error::custom("enumset contains unknown bits")` (lib.rs:448, 569, 577) -/
  | unknownBits
  deriving DecidableEq, Repr

namespace Serde

variable [Platform] {T : EnumSetType} {E : Type}

/-- Whether rustc accepts the generated serde code.

* integer representation: the check `value & !#all_variants != 0` (lib.rs:445) mixes the integer
  type of `value` with the tokens `#all_variants`; these are an integer literal or an `ArrayRepr`
  expression (lib.rs:361-379), in the latter case the operator does not exist (repr/array.rs only has
  `ArrayRepr & ArrayRepr`).
* array representation with `serialize_deny_unknown`: in lib.rs:573-580 the two arms of the `match`
  have types `EnumSet<T>` and `Result<_, _>`, and `D::Error` (lib.rs:569, 577) names a generic
  parameter of the enclosing function from inside a nested `impl`.
* everything else is well typed. -/
def compiles (T : EnumSetType) : Bool :=
  match T.deny, T.serde with
  | false, _ => true
  | true, .list | true, .map => true
  | true, .array => false
  | true, .u8 | true, .u16 | true, .u32 | true, .u64 | true, .u128 => T.allLit.isSome

/-- lib.rs:456-462 -/
def serializeInt (n : NumTy) (set : EnumSet T) : Res (SerValue T.Val) := do
  let value ← EnumSetTypeRepr.to_num n set.priv_repr
  pure (.int n value)

/-- lib.rs:463-472.  The check of lib.rs:443-454 is present if `deny`; it is only compiled for types
whose mask is an integer literal (`compiles`), used at the type of `value`. -/
def deserializeInt (n : NumTy) (input : Except E (BitVec n.bits)) :
    Res (Except (DeError E) (EnumSet T)) :=
  match input with
  | .error e => .ok (.error (.de e))
  | .ok value =>
    if T.deny ∧ (value &&& ~~~ (BitVec.ofNat n.bits (T.allLit.getD 0))) ≠ 0 then
      .ok (.error .unknownBits)
    else do
      let value ← EnumSetTypeRepr.from_num n value
      let r ← EnumSetTypeRepr.bitand value T.ALL_BITS
      pure (.ok ⟨r⟩)

/-- lib.rs:478-487; `for bit in set { seq.serialize_element(&bit)?; }` -/
def serializeList (set : EnumSet T) : Res (SerValue T.Val) := do
  let n ← set.len
  let it ← set.iter
  let elems ← EnumSetIter.forLoop (EnumSetIter.fuel T) it [] fun bit acc => .ok (acc ++ [bit])
  pure (.seq n elems)

/-- The loop of lib.rs:505-507 -/
def listLoop : List (Except E T.Val) → EnumSet T → Res (Except (DeError E) (EnumSet T))
  | [], accum => .ok (.ok accum)
  | .error e :: _, _ => .ok (.error (.de e))
  | .ok val :: items, accum => do
    let accum ← EnumSet.bitor_assign accum (.val val)
    listLoop items accum
/-- lib.rs:488-512 -/
def deserializeList (items : List (Except E T.Val)) : Res (Except (DeError E) (EnumSet T)) :=
  listLoop items EnumSet.new

/-- lib.rs:518-527 -/
def serializeMap (set : EnumSet T) : Res (SerValue T.Val) := do
  let n ← set.len
  let it ← set.iter
  let entries ← EnumSetIter.forLoop (EnumSetIter.fuel T) it []
    fun bit acc => .ok (acc ++ [(bit, true)])
  pure (.map n entries)

/-- The loop of lib.rs:545-551 -/
def mapLoop : List (Except E (T.Val × Bool)) → EnumSet T →
    Res (Except (DeError E) (EnumSet T))
  | [], accum => .ok (.ok accum)
  | .error e :: _, _ => .ok (.error (.de e))
  | .ok (val, is_present) :: items, accum =>
    if is_present then do
      let accum ← EnumSet.bitor_assign accum (.val val)
      mapLoop items accum
    else mapLoop items accum
/-- lib.rs:528-556 -/
def deserializeMap (items : List (Except E (T.Val × Bool))) :
    Res (Except (DeError E) (EnumSet T)) :=
  mapLoop items EnumSet.new

/-- lib.rs:595-601: the number of words that are serialized -/
def trimLoop {P : Nat} (array : Vector U64 P) : Res Nat := do
  -- `for i in (0..array.len()).rev() { if array[i] != 0 { break; } end = i + 1; }`
  let r ← forEachRet (ρ := Nat) (range 0 P).reverse P fun i stop => do
    let x ← idxV array i
    if x ≠ 0 then pure (.ret stop)
    else do
      let stop ← addW usizeBits i 1
      pure (.next stop)
  match r with
  | .ret stop => pure stop
  | .next stop => pure stop

/-- `&array[..stop]` -/
def slicePrefix {P : Nat} (array : Vector U64 P) (stop : Nat) : Res (List U64) :=
  if stop ≤ P then .ok (array.toList.take stop) else .panic .index

/-- lib.rs:588-605 -/
def serializeArray (set : EnumSet T) : Res (SerValue T.Val) := do
  let array ← EnumSet.as_array (EnumSetTypeRepr.PREFERRED_ARRAY_LEN T.Repr) set
  let stop ← trimLoop array
  let ws ← slicePrefix array stop
  pure (.words ws)

/-- lib.rs:624-632: fill `accum`; returns it and what is left of the sequence -/
def fillLoop {P : Nat} : List (Except E U64) → Vector U64 P → Nat →
    Res (Except (DeError E) (Vector U64 P × List (Except E U64)))
  | [], accum, _ => .ok (.ok (accum, []))
  | .error e :: _, _, _ => .ok (.error (.de e))
  | .ok val :: items, accum, i => do
    let accum ← setV accum i val
    let i ← addW usizeBits i 1
    if i = P then pure (.ok (accum, items)) else fillLoop items accum i

/-- lib.rs:633-635 without `serialize_deny_unknown` (with it, lib.rs:564-581 does not compile) -/
def drainLoop : List (Except E U64) → Except (DeError E) Unit
  | [] => .ok ()
  | .error e :: _ => .error (.de e)
  | .ok _ :: items => drainLoop items

/-- lib.rs:606-641, the variant without `serialize_deny_unknown` (lib.rs:582-586) -/
def deserializeArray (items : List (Except E U64)) : Res (Except (DeError E) (EnumSet T)) := do
  let accum : Vector U64 (EnumSetTypeRepr.PREFERRED_ARRAY_LEN T.Repr) := Vector.replicate _ 0
  match ← fillLoop items accum 0 with
  | .error e => pure (.error e)
  | .ok (accum, items) =>
    match drainLoop items with
    | .error e => pure (.error e)
    | .ok () => do
      let s ← EnumSet.from_array _ accum
      pure (.ok s)

/-- set.rs:433-438, lib.rs:433 -/
def serialize (set : EnumSet T) : Res (SerValue T.Val) :=
  match T.serde with
  | .u8 => serializeInt .u8 set
  | .u16 => serializeInt .u16 set
  | .u32 => serializeInt .u32 set
  | .u64 => serializeInt .u64 set
  | .u128 => serializeInt .u128 set
  | .list => serializeList set
  | .map => serializeMap set
  | .array => serializeArray set

/-- set.rs:440-445, lib.rs:433.  The generated code asks the deserializer for the form it expects;
`none`: the deserializer yields another form, which serde reports as an error. -/
def deserialize (input : DeInput T.Val E) : Option (Res (Except (DeError E) (EnumSet T))) :=
  match T.serde, input with
  | .u8, .int .u8 x => some (deserializeInt .u8 x)
  | .u16, .int .u16 x => some (deserializeInt .u16 x)
  | .u32, .int .u32 x => some (deserializeInt .u32 x)
  | .u64, .int .u64 x => some (deserializeInt .u64 x)
  | .u128, .int .u128 x => some (deserializeInt .u128 x)
  | .list, .seq items => some (deserializeList items)
  | .map, .map items => some (deserializeMap items)
  | .array, .words items => some (deserializeArray items)
  | _, _ => none

/-- Reading back what a lossless format wrote. -/
def SerValue.read : SerValue T.Val → DeInput T.Val E
  | .int n x => .int n (.ok x)
  | .seq _ es => .seq (es.map .ok)
  | .map _ es => .map (es.map .ok)
  | .words ws => .words (ws.map .ok)

end Serde

end Enumset
