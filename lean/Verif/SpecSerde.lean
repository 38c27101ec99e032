import Verif.SerdeIO
/-!
# Specification vocabulary: talking to serializers and deserializers
-/
set_option autoImplicit false

namespace Enumset

/-- Run calls one after the other, up to and including the first that fails; after the last one
run `fin`. -/
def callAll {E Ok σ : Type} (fin : σ → Except E Ok × σ) :
    List (σ → Except E Unit × σ) → σ → Except E Ok × σ
  | [], st => fin st
  | c :: cs, st => match c st with
    | (.error e, st) => (.error e, st)
    | (.ok (), st) => callAll fin cs st

/-- Hand a value to a serializer: the calls serde prescribes for it, up to the first that fails. -/
def SerValue.handTo [Target] {V E Ok σ : Type} (k : Serializer V Ok E σ) :
    SerValue V → σ → Except E Ok × σ
  | .int n x => k.serialize_num n x
  | .seq len es => callAll k.seq_end (k.serialize_seq (some len) :: es.map k.serialize_element)
  | .map len es => callAll k.map_end
      (k.serialize_map (some len) :: es.map fun x => k.serialize_entry x.1 x.2)
  | .words ws => k.serialize_words ws

/-- Calling `next` again and again from state `st` yields the items `xs` and then leaves `st'`. -/
inductive Yields {E α σ : Type} (next : Access E α σ) : σ → List α → σ → Prop where
  | nil (st : σ) : Yields next st [] st
  | cons {st st₁ st₂ : σ} {x : α} {xs : List α} :
      next st = (.ok (some x), st₁) → Yields next st₁ xs st₂ → Yields next st (x :: xs) st₂

/-- The sequence never ends: it yields any number of items. -/
def Endless {E α σ : Type} (next : Access E α σ) (st : σ) : Prop :=
  ∀ n, ∃ (xs : List α) (st' : σ), xs.length = n ∧ Yields next st xs st'

end Enumset
