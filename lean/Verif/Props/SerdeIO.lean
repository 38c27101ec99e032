import Verif.SpecSerde
import Verif.Props.Serde
/-!
# Properties C48, C49: arbitrary serializers and deserializers

`Serializer` and `Access` (`SerdeIO.lean`) are arbitrary: every call may fail, may change the state in
any way, and a sequence may go on after `None` or never end.
-/
set_option autoImplicit false
set_option linter.unusedSectionVars false

namespace Enumset

open EnumSetTypeRepr (PREFERRED_ARRAY_LEN)

section helpers

variable [Platform] {T : EnumSetType} {E Ok σ : Type}

theorem WF.seqLoop_ok (W : WF T) (k : Serializer T.Val Ok E σ) (L : List T.Val) :
    ∀ (fuel : Nat) (it : EnumSetIter T) (st : σ), W.ItRep it L → L.length < fuel →
      Serde.seqLoop k fuel it st = .ok (callAll k.seq_end (L.map k.serialize_element) st) := by
  induction L with
  | nil =>
    intro fuel it st h hf
    obtain ⟨fuel, rfl⟩ : ∃ k, fuel = k + 1 := ⟨fuel - 1, by simp at hf; omega⟩
    obtain ⟨it', e, -⟩ := W.next_nil h
    simp [Serde.seqLoop, e, callAll]
  | cons v L ih =>
    intro fuel it st h hf
    obtain ⟨fuel, rfl⟩ : ∃ k, fuel = k + 1 := ⟨fuel - 1, by simp at hf; omega⟩
    obtain ⟨it', e, h'⟩ := W.next_cons h
    have ih' := fun st => ih fuel it' st h' (by simp at hf; omega)
    simp only [Serde.seqLoop, e, Res.ok_bind, ih', List.map_cons, callAll, Serde.andThen]
    rcases k.serialize_element v st with ⟨_ | _, st'⟩ <;> rfl

theorem WF.entryLoop_ok (W : WF T) (k : Serializer T.Val Ok E σ) (L : List T.Val) :
    ∀ (fuel : Nat) (it : EnumSetIter T) (st : σ), W.ItRep it L → L.length < fuel →
      Serde.entryLoop k fuel it st =
        .ok (callAll k.map_end (L.map fun v => k.serialize_entry v true) st) := by
  induction L with
  | nil =>
    intro fuel it st h hf
    obtain ⟨fuel, rfl⟩ : ∃ k, fuel = k + 1 := ⟨fuel - 1, by simp at hf; omega⟩
    obtain ⟨it', e, -⟩ := W.next_nil h
    simp [Serde.entryLoop, e, callAll]
  | cons v L ih =>
    intro fuel it st h hf
    obtain ⟨fuel, rfl⟩ : ∃ k, fuel = k + 1 := ⟨fuel - 1, by simp at hf; omega⟩
    obtain ⟨it', e, h'⟩ := W.next_cons h
    have ih' := fun st => ih fuel it' st h' (by simp at hf; omega)
    simp only [Serde.entryLoop, e, Res.ok_bind, ih', List.map_cons, callAll, Serde.andThen]
    rcases k.serialize_entry v true st with ⟨_ | _, st'⟩ <;> rfl

theorem WF.serializeTo_ok (W : WF T) {s : EnumSet T} (hs : W.Clean s) {v : SerValue T.Val}
    (hv : Serde.serialize s = .ok v) (k : Serializer T.Val Ok E σ) (st : σ) :
    Serde.serializeTo k s st = .ok (v.handTo k st) := by
  have hint : ∀ n, Serde.serializeInt n s = .ok v →
      Serde.serializeIntTo k n s st = .ok (v.handTo k st) := by
    intro n h
    unfold Serde.serializeInt at h
    unfold Serde.serializeIntTo
    obtain ⟨x, e, -⟩ := W.lawful.to_num_ok n s.priv_repr
    rw [e, Res.ok_bind] at h ⊢
    cases h
    rfl
  unfold Serde.serialize at hv
  unfold Serde.serializeTo
  cases hr : T.serde <;> rw [hr] at hv <;> simp only at hv ⊢
  case list =>
    rw [W.serializeList_ok hs] at hv
    cases hv
    obtain ⟨it, e, hit⟩ := W.iter_ok s hs
    unfold Serde.serializeListTo
    simp only [W.len_ok hs, Res.ok_bind, e, W.seqLoop_ok k _ _ _ _ hit (W.fuel_ok _ hit.2.1),
      SerValue.handTo, callAll, Serde.andThen]
    rcases k.serialize_seq _ st with ⟨_ | _, st'⟩ <;> rfl
  case map =>
    rw [W.serializeMap_ok hs] at hv
    cases hv
    obtain ⟨it, e, hit⟩ := W.iter_ok s hs
    unfold Serde.serializeMapTo
    simp only [W.len_ok hs, Res.ok_bind, e, W.entryLoop_ok k _ _ _ _ hit (W.fuel_ok _ hit.2.1),
      SerValue.handTo, callAll, Serde.andThen, List.map_map]
    rcases k.serialize_map _ st with ⟨_ | _, st'⟩ <;> rfl
  case array =>
    obtain ⟨x, stop, e, ea, -, et, hle, -⟩ := W.serializeArray_ok s
    rw [e] at hv
    cases hv
    unfold Serde.serializeArrayTo
    rw [ea, Res.ok_bind, et, Res.ok_bind]
    unfold Serde.slicePrefix
    rw [if_pos hle]
    rfl
  all_goals exact hint _ hv

end helpers

/-! ## C48 Serialization to an arbitrary serializer -/

/-- Serializing makes exactly the calls for the serialized value (`Serde.serialize`, described by
C36–C38 and C46), in order, stops at the first call that fails and returns its error. -/
theorem C48_serializer [Platform] {inp : DeriveInput} {T : EnumSetType} (hT : derive inp = .ok T)
    (hfit : Fits T) {s : EnumSet T} (hs : Safe s) :
    ∃ v, Serde.serialize s = .ok v ∧ ∀ {Ok E σ : Type} (k : Serializer T.Val Ok E σ) (st : σ),
      Serde.serializeTo k s st = .ok (v.handTo k st) := by
  obtain ⟨W⟩ := wf_of_derive hT hfit
  have hc := W.clean_of_safe hs
  have : ∃ v, Serde.serialize s = .ok v := by
    unfold Serde.serialize
    cases hr : T.serde <;> simp only
    case list => exact ⟨_, W.serializeList_ok hc⟩
    case map => exact ⟨_, W.serializeMap_ok hc⟩
    case array => obtain ⟨x, stop, e, -⟩ := W.serializeArray_ok s; exact ⟨_, e⟩
    all_goals
      obtain ⟨x, e, -⟩ := W.serializeInt_ok _ s
      exact ⟨_, e⟩
  obtain ⟨v, hv⟩ := this
  exact ⟨v, hv, fun k st => W.serializeTo_ok hc hv k st⟩

namespace Ex

/-- A serializer that writes a log and fails when the log has reached the given length. -/
def logger [Target] (V : Type) (f : V → String) (limit : Nat) :
    Serializer V Unit String (List String) :=
  let put := fun x l => if l.length < limit then (.ok (), l ++ [x]) else (.error "full", l)
  { serialize_num := fun _ x => put s!"{x.toNat}"
    serialize_seq := fun n => put s!"[{n.getD 0}"
    serialize_element := fun v => put (f v)
    seq_end := put "]"
    serialize_map := fun n => put s!"\{{n.getD 0}"
    serialize_entry := fun v b => put s!"{f v}:{b}"
    map_end := put "}"
    serialize_words := fun ws => put s!"{ws.length}" }

end Ex

open scoped Ex in
example := C48_serializer Ex.hS1 Ex.fitS1 Ex.safe_s1AC
open scoped Ex in
example : Serde.serializeTo (Ex.logger _ (fun v => s!"{v.val}") 9) Ex.s1AC [] =
    .ok (.ok (), ["[2", "0", "2", "]"]) := rfl
open scoped Ex in
example : Serde.serializeTo (Ex.logger _ (fun v => s!"{v.val}") 2) Ex.s1AC [] =
    .ok (.error "full", ["[2", "0"]) := rfl

/-! ## C49 Deserialization from an arbitrary sequence

`visitList`, `visitMap`, `visitArray` are the generated visitors; `fuel` bounds the number of calls
they may make.  `Yields next st xs st'` says that from state `st` the sequence yields the items `xs` and
is then in state `st'`. -/

section helpers

variable [Platform] {T : EnumSetType} {E σ : Type}

theorem listLoopFrom_eq {next : Access E T.Val σ} {st st₁ : σ} {vs : List T.Val}
    (hy : Yields next st vs st₁) : ∀ (fuel : Nat), vs.length ≤ fuel → ∀ (acc : EnumSet T),
    Serde.listLoopFrom next fuel acc st = (do
      let acc ← forEach vs acc fun v acc => EnumSet.bitor_assign acc (.val v)
      Serde.listLoopFrom next (fuel - vs.length) acc st₁) := by
  induction hy with
  | nil st => intro fuel _ acc; rfl
  | cons h hy ih =>
    intro fuel hf acc
    obtain ⟨fuel, rfl⟩ : ∃ k, fuel = k + 1 := ⟨fuel - 1, by simp at hf; omega⟩
    simp only [Serde.listLoopFrom, h, forEach]
    cases hb : acc.bitor_assign (.val _) with
    | ok acc' =>
      simp only [Res.ok_bind]
      rw [ih fuel (by simp at hf; omega)]
      simp
    | panic p => rfl
    | ub => rfl
    | diverge => rfl

theorem mapLoopFrom_eq {next : Access E (T.Val × Bool) σ} {st st₁ : σ} {es : List (T.Val × Bool)}
    (hy : Yields next st es st₁) : ∀ (fuel : Nat), es.length ≤ fuel → ∀ (acc : EnumSet T),
    Serde.mapLoopFrom next fuel acc st = (do
      let acc ← forEach es acc fun x acc =>
        if x.2 then EnumSet.bitor_assign acc (.val x.1) else .ok acc
      Serde.mapLoopFrom next (fuel - es.length) acc st₁) := by
  induction hy with
  | nil st => intro fuel _ acc; rfl
  | @cons _ _ _ x _ h hy ih =>
    intro fuel hf acc
    obtain ⟨fuel, rfl⟩ : ∃ k, fuel = k + 1 := ⟨fuel - 1, by simp at hf; omega⟩
    obtain ⟨v, b⟩ := x
    simp only [Serde.mapLoopFrom, h, forEach]
    cases b with
    | false =>
      simp only [Bool.false_eq_true, if_false, Res.ok_bind]
      rw [ih fuel (by simp at hf; omega)]
      simp
    | true =>
      simp only [if_true]
      cases hb : acc.bitor_assign (.val v) with
      | ok acc' =>
        simp only [Res.ok_bind]
        rw [ih fuel (by simp at hf; omega)]
        simp
      | panic p => rfl
      | ub => rfl
      | diverge => rfl

theorem listLoop_forEach (vs : List T.Val) (acc : EnumSet T) :
    Serde.listLoop (E := E) (vs.map .ok) acc = (do
      let acc ← forEach vs acc fun v acc => EnumSet.bitor_assign acc (.val v)
      pure (.ok acc)) := by
  induction vs generalizing acc with
  | nil => rfl
  | cons v vs ih =>
    simp only [List.map_cons, Serde.listLoop, forEach]
    cases hb : acc.bitor_assign (.val v) with
    | ok acc' => simp only [Res.ok_bind]; rw [ih]
    | panic p => rfl
    | ub => rfl
    | diverge => rfl

theorem mapLoop_forEach (es : List (T.Val × Bool)) (acc : EnumSet T) :
    Serde.mapLoop (E := E) (es.map .ok) acc = (do
      let acc ← forEach es acc fun x acc =>
        if x.2 then EnumSet.bitor_assign acc (.val x.1) else .ok acc
      pure (.ok acc)) := by
  induction es generalizing acc with
  | nil => rfl
  | cons x es ih =>
    obtain ⟨v, b⟩ := x
    simp only [List.map_cons, Serde.mapLoop, forEach]
    cases b with
    | false => simp only [Bool.false_eq_true, if_false, Res.ok_bind]; rw [ih]
    | true =>
      simp only [if_true]
      cases hb : acc.bitor_assign (.val v) with
      | ok acc' => simp only [Res.ok_bind]; rw [ih]
      | panic p => rfl
      | ub => rfl
      | diverge => rfl

theorem fillLoopFrom_eq {P : Nat} {next : Access E U64 σ} {st st₁ : σ} {ws : List U64}
    (hy : Yields next st ws st₁) : ∀ (fuel : Nat), ws.length ≤ fuel →
    ∀ (acc : Vector U64 P) (i : Nat), i < P → i + ws.length ≤ P → P < 2 ^ usizeBits →
    ∃ acc' : Vector U64 P,
      (∀ k (h : k < P), acc'[k] = if i ≤ k ∧ k - i < ws.length then ws.getD (k - i) 0 else acc[k]) ∧
      (i + ws.length < P → Serde.fillLoopFrom next fuel acc i st =
        Serde.fillLoopFrom next (fuel - ws.length) acc' (i + ws.length) st₁) ∧
      (i + ws.length = P → Serde.fillLoopFrom next fuel acc i st =
        .ok (.ok (acc', fuel - ws.length), st₁)) := by
  induction hy with
  | nil st =>
    intro fuel _ acc i hi hl hP
    exact ⟨acc, by simp, fun _ => rfl, fun h => by simp at h; omega⟩
  | @cons st stB _ w ws h hy ih =>
    intro fuel hf acc i hi hl hP
    obtain ⟨fuel, rfl⟩ : ∃ k, fuel = k + 1 := ⟨fuel - 1, by simp at hf; omega⟩
    have hset : setV acc i w = .ok (acc.set i w) := by simp [setV, hi]
    have hadd : addW usizeBits i 1 = .ok (i + 1) := by
      unfold addW; rw [if_pos (by omega)]
    simp only [List.length_cons] at hl hf ⊢
    have step : Serde.fillLoopFrom next (fuel + 1) acc i st =
        if i + 1 = P then .ok (.ok (acc.set i w, fuel), stB)
        else Serde.fillLoopFrom next fuel (acc.set i w) (i + 1) stB := by
      simp only [Serde.fillLoopFrom, h, hset, Res.ok_bind, hadd]
      rfl
    by_cases hlast : i + 1 = P
    · have hnil : ws = [] := by
        apply List.eq_nil_of_length_eq_zero; omega
      subst hnil
      cases hy
      refine ⟨acc.set i w, ?_, ?_, ?_⟩
      · intro k hk
        rw [Vector.getElem_set]
        by_cases e : i = k
        · subst e; simp
        · rw [if_neg e, if_neg (by simp; omega)]
      · intro h; simp at h; omega
      · intro _
        rw [step, if_pos hlast]
        simp
    · obtain ⟨acc', h1, h2, h3⟩ := ih fuel (by omega) (acc.set i w) (i + 1) (by omega) (by omega) hP
      refine ⟨acc', ?_, ?_, ?_⟩
      · intro k hk
        rw [h1 k hk]
        by_cases e : i = k
        · subst e
          rw [if_neg (by omega), if_pos (by omega), Vector.getElem_set]
          simp
        · by_cases hc : i + 1 ≤ k ∧ k - (i + 1) < ws.length
          · rw [if_pos hc, if_pos (by omega)]
            have : k - i = (k - (i + 1)) + 1 := by omega
            rw [this]
            rfl
          · rw [if_neg hc, if_neg (by omega), Vector.getElem_set, if_neg e]
      · intro hlt
        rw [step, if_neg hlast, h2 (by omega), Nat.add_sub_add_right,
          show i + 1 + ws.length = i + (ws.length + 1) by omega]
      · intro heq
        rw [step, if_neg hlast, h3 (by omega), Nat.add_sub_add_right]

theorem Yields.split {α : Type} {next : Access E α σ} {st st' : σ} {a b : List α}
    (h : Yields next st (a ++ b) st') : ∃ stm, Yields next st a stm ∧ Yields next stm b st' := by
  induction a generalizing st with
  | nil => exact ⟨st, .nil st, h⟩
  | cons x a ih =>
    cases h with
    | cons e h =>
      obtain ⟨stm, h1, h2⟩ := ih h
      exact ⟨stm, .cons e h1, h2⟩

theorem drainLoopFrom_eq {next : Access E U64 σ} {st st₁ : σ} {ws : List U64}
    (hy : Yields next st ws st₁) : ∀ (fuel : Nat), ws.length ≤ fuel →
    Serde.drainLoopFrom next fuel st = Serde.drainLoopFrom next (fuel - ws.length) st₁ := by
  induction hy with
  | nil st => intro fuel _; rfl
  | cons h hy ih =>
    intro fuel hf
    obtain ⟨fuel, rfl⟩ : ∃ k, fuel = k + 1 := ⟨fuel - 1, by simp at hf; omega⟩
    simp only [Serde.drainLoopFrom, h]
    rw [ih fuel (by simp at hf; omega)]
    simp

end helpers

/-- A computation that is followed by another and returns has returned itself. -/
theorem Res.of_bind_ok {α β : Type} {r : Res α} {f : α → Res β} {b : β} (h : (r >>= f) = .ok b) :
    ∃ a, r = .ok a ∧ f a = .ok b := by
  cases r with
  | ok a => exact ⟨a, rfl, h⟩
  | panic p => cases h
  | ub => cases h
  | diverge => cases h

/-- Lists: items are collected until the sequence ends (then the set of the items is returned) or
fails (then the error is).  Nothing is read after that. -/
theorem C49_list [Platform] {inp : DeriveInput} {T : EnumSetType} (hT : derive inp = .ok T)
    (hfit : Fits T) {E σ : Type} (next : Access E T.Val σ) {st st₁ st₂ : σ} {vs : List T.Val}
    (hy : Yields next st vs st₁) {fuel : Nat} (hf : vs.length < fuel) :
    (next st₁ = (.ok none, st₂) → ∃ s : EnumSet T,
      Serde.visitList next fuel st = .ok (.ok s, st₂) ∧ Members s fun v => decide (v ∈ vs)) ∧
    (∀ e, next st₁ = (.error e, st₂) →
      Serde.visitList (T := T) next fuel st = .ok (.error (.de e), st₂)) := by
  obtain ⟨W⟩ := wf_of_derive hT hfit
  obtain ⟨s, e, h⟩ := W.deserializeList_ok (E := E) vs
  unfold Serde.deserializeList at e
  rw [listLoop_forEach] at e
  obtain ⟨acc, hacc, e⟩ := Res.of_bind_ok e
  cases e
  have hl := listLoopFrom_eq hy fuel (by omega) EnumSet.new
  obtain ⟨k, hk⟩ : ∃ k, fuel - vs.length = k + 1 := ⟨fuel - vs.length - 1, by omega⟩
  rw [hacc, Res.ok_bind, hk] at hl
  unfold Serde.visitList
  rw [hl]
  constructor
  · intro hn
    refine ⟨s, by simp only [Serde.listLoopFrom, hn], W.members_of_bits fun v => ?_⟩
    rw [Bool.eq_iff_iff, h, decide_eq_true_iff]
    constructor
    · rintro ⟨u, hu, he⟩; rwa [← W.discr_inj he]
    · intro hv; exact ⟨v, hv, rfl⟩
  · intro e hn
    simp only [Serde.listLoopFrom, hn]

namespace Ex

/-- A sequence that gives the listed answers and then ends; it may go on after `None`. -/
def script {α : Type} : Access String α (List (Except String (Option α)))
  | [] => (.ok none, [])
  | x :: xs => (x, xs)

end Ex

open scoped Ex in
example := (C49_list Ex.hS1 Ex.fitS1 Ex.script
  (st := [.ok (some ⟨2, by decide⟩), .ok none, .ok (some ⟨0, by decide⟩)])
  (.cons rfl (.nil _)) (fuel := 7) (by decide)).1 rfl
open scoped Ex in
example := (C49_list Ex.hS1 Ex.fitS1 Ex.script
  (st := [.ok (some ⟨2, by decide⟩), .error "bad"]) (.cons rfl (.nil _)) (fuel := 7) (by decide)).2
  "bad" rfl

/-- Maps: the keys mapped to `true` are collected. -/
theorem C49_map [Platform] {inp : DeriveInput} {T : EnumSetType} (hT : derive inp = .ok T)
    (hfit : Fits T) {E σ : Type} (next : Access E (T.Val × Bool) σ) {st st₁ st₂ : σ}
    {es : List (T.Val × Bool)} (hy : Yields next st es st₁) {fuel : Nat} (hf : es.length < fuel) :
    (next st₁ = (.ok none, st₂) → ∃ s : EnumSet T,
      Serde.visitMap next fuel st = .ok (.ok s, st₂) ∧ Members s fun v => decide ((v, true) ∈ es)) ∧
    (∀ e, next st₁ = (.error e, st₂) →
      Serde.visitMap (T := T) next fuel st = .ok (.error (.de e), st₂)) := by
  obtain ⟨W⟩ := wf_of_derive hT hfit
  obtain ⟨s, e, h⟩ := W.deserializeMap_ok (E := E) es
  unfold Serde.deserializeMap at e
  rw [mapLoop_forEach] at e
  obtain ⟨acc, hacc, e⟩ := Res.of_bind_ok e
  cases e
  have hl := mapLoopFrom_eq hy fuel (by omega) EnumSet.new
  obtain ⟨k, hk⟩ : ∃ k, fuel - es.length = k + 1 := ⟨fuel - es.length - 1, by omega⟩
  rw [hacc, Res.ok_bind, hk] at hl
  unfold Serde.visitMap
  rw [hl]
  constructor
  · intro hn
    refine ⟨s, by simp only [Serde.mapLoopFrom, hn], W.members_of_bits fun v => ?_⟩
    rw [Bool.eq_iff_iff, h, decide_eq_true_iff]
    constructor
    · rintro ⟨u, hu, he⟩; rwa [← W.discr_inj he]
    · intro hv; exact ⟨v, hv, rfl⟩
  · intro e hn
    simp only [Serde.mapLoopFrom, hn]

open scoped Ex in
example := (C49_map Ex.hS2 Ex.fitS2 Ex.script
  (st := [.ok (some (⟨2, by decide⟩, true)), .ok (some (⟨0, by decide⟩, false)), .ok none])
  (.cons rfl (.cons rfl (.nil _))) (fuel := 7) (by decide)).1 rfl

/-- Arrays: the sequence first yields `ws` and then either has filled the `N` words of the storage, or
ended early.  Then it is read to its (next) end, ignoring the words `ws'`.  The words `ws` give the
set; unknown bits in them panic. -/
theorem C49_array [Platform] {inp : DeriveInput} {T : EnumSetType} (hT : derive inp = .ok T)
    (hfit : Fits T) {E σ : Type} (next : Access E U64 σ) {st st₁ st₂ st₃ st₄ : σ}
    {ws ws' : List U64} (hy : Yields next st ws st₁)
    (hmid : (ws.length = (storageOf inp).words ∧ st₂ = st₁) ∨
      (ws.length < (storageOf inp).words ∧ next st₁ = (.ok none, st₂)))
    (hy' : Yields next st₂ ws' st₃) {fuel : Nat} (hf : ws.length + ws'.length + 1 < fuel) :
    (next st₃ = (.ok none, st₄) → OnlyVariants T (wbit ws) → ∃ s : EnumSet T,
      Serde.visitArray next fuel st = .ok (.ok s, st₄) ∧ Members s fun v => wbit ws (T.discr v)) ∧
    (next st₃ = (.ok none, st₄) → ¬ OnlyVariants T (wbit ws) →
      Serde.visitArray (T := T) next fuel st = .panic (.expect "Bitset contains invalid variants.")) ∧
    (∀ e, next st₃ = (.error e, st₄) →
      Serde.visitArray (T := T) next fuel st = .ok (.error (.de e), st₄)) := by
  obtain ⟨W⟩ := wf_of_derive hT hfit
  have F := serde_facts hT
  rw [← F.pref] at hmid
  obtain ⟨acc, h1, h2, h3⟩ := fillLoopFrom_eq (P := PREFERRED_ARRAY_LEN T.Repr) hy fuel (by omega)
    (Vector.replicate _ 0) 0 W.pref_pos (by omega) W.pref_lt
  have hacc : acc = WF.padded _ ws := by
    apply Vector.ext
    intro k hk
    rw [h1 k hk]
    unfold WF.padded
    simp only [Vector.getElem_ofFn, Nat.zero_le, Nat.sub_zero, true_and, Vector.getElem_replicate]
    by_cases hc : k < ws.length
    · rw [if_pos hc]
    · rw [if_neg hc]
      simp [List.getD, hc]
  obtain ⟨fuel', hfill, hfuel'⟩ : ∃ fuel', Serde.fillLoopFrom next fuel
      (Vector.replicate (PREFERRED_ARRAY_LEN T.Repr) 0) 0 st = .ok (.ok (acc, fuel'), st₂) ∧
      ws'.length < fuel' := by
    rcases hmid with ⟨hl, rfl⟩ | ⟨hl, hn⟩
    · exact ⟨_, h3 (by omega), by omega⟩
    · obtain ⟨k, hk⟩ : ∃ k, fuel - ws.length = k + 1 := ⟨fuel - ws.length - 1, by omega⟩
      refine ⟨k, ?_, by omega⟩
      rw [h2 (by omega), hk]
      simp only [Serde.fillLoopFrom, hn]
  obtain ⟨k, hk⟩ : ∃ k, fuel' - ws'.length = k + 1 := ⟨fuel' - ws'.length - 1, by omega⟩
  have hdrain := drainLoopFrom_eq hy' fuel' (by omega)
  rw [hk] at hdrain
  have hbits : wbit (WF.padded (PREFERRED_ARRAY_LEN T.Repr) ws).toList = wbit ws := by
    funext i
    rw [WF.wbit_padded]
    by_cases hi : i < 64 * PREFERRED_ARRAY_LEN T.Repr
    · rw [decide_eq_true hi, Bool.true_and]
    · have : wbit ws i = false := by
        unfold wbit
        rw [List.getD, List.getElem?_eq_none (by omega)]
        simp
      rw [this, Bool.and_false]
  obtain ⟨t1, t2⟩ := W.try_from_array_ok _ (WF.padded (PREFERRED_ARRAY_LEN T.Repr) ws)
  rw [hbits] at t1 t2
  unfold Serde.visitArray
  simp only [hfill, Res.ok_bind, hdrain, hacc]
  refine ⟨fun hn hw => ?_, fun hn hw => ?_, fun e hn => ?_⟩
  · obtain ⟨s, e, hs⟩ := t1 hw
    refine ⟨s, ?_, W.members_of_bits fun v => hs _⟩
    simp only [Serde.drainLoopFrom, hn, Res.ok_bind]
    unfold EnumSet.from_array
    rw [e]
    rfl
  · simp only [Serde.drainLoopFrom, hn, Res.ok_bind]
    unfold EnumSet.from_array
    rw [t2 hw]
    rfl
  · simp only [Serde.drainLoopFrom, hn, Res.ok_bind]
    rfl

open scoped Ex in
/-- one word, `None`, then another word that is ignored -/
example := (C49_array Ex.hL Ex.fitL Ex.script
  (st := [.ok (some 1#64), .ok none, .ok (some 77#64), .ok none]) (.cons rfl (.nil _))
  (.inr ⟨by decide, rfl⟩) (.cons rfl (.nil _)) (fuel := 9) (by decide)).1 rfl (by
    intro i hi
    by_cases h : i < 64
    · exact ⟨Ex.lA, (by decide +kernel : ∀ i, i < 64 → wbit [1#64] i = true → Ex.L.discr Ex.lA = i)
        i h hi⟩
    · unfold wbit at hi
      rw [List.getD, List.getElem?_eq_none (by simp; omega)] at hi
      simp at hi)

/-- Arrays: an error while the words of the storage are read is returned. -/
theorem C49_array_error [Platform] {inp : DeriveInput} {T : EnumSetType} (hT : derive inp = .ok T)
    (hfit : Fits T) {E σ : Type} (next : Access E U64 σ) {st st₁ st₂ : σ}
    {ws : List U64} (hy : Yields next st ws st₁) (hl : ws.length < (storageOf inp).words)
    {e : E} (he : next st₁ = (.error e, st₂)) {fuel : Nat} (hf : ws.length < fuel) :
    Serde.visitArray (T := T) next fuel st = .ok (.error (.de e), st₂) := by
  obtain ⟨W⟩ := wf_of_derive hT hfit
  have F := serde_facts hT
  rw [← F.pref] at hl
  obtain ⟨acc, h1, h2, -⟩ := fillLoopFrom_eq (P := PREFERRED_ARRAY_LEN T.Repr) hy fuel (by omega)
    (Vector.replicate _ 0) 0 W.pref_pos (by omega) W.pref_lt
  obtain ⟨k, hk⟩ : ∃ k, fuel - ws.length = k + 1 := ⟨fuel - ws.length - 1, by omega⟩
  unfold Serde.visitArray
  simp only
  rw [h2 (by omega), hk]
  simp only [Serde.fillLoopFrom, he, Res.ok_bind]
  rfl

open scoped Ex in
example := C49_array_error Ex.hL Ex.fitL Ex.script
  (st := [.ok (some 1#64), .error "bad"]) (.cons rfl (.nil _)) (by decide) rfl (fuel := 5) (by decide)

/-- A sequence that never ends is read for ever: no number of calls is enough, for lists, maps and
arrays alike. -/
theorem C49_endless [Platform] {inp : DeriveInput} {T : EnumSetType} (hT : derive inp = .ok T)
    (hfit : Fits T) {E σ : Type} :
    (∀ (next : Access E T.Val σ) (st : σ), Endless next st → ∀ fuel,
      Serde.visitList (T := T) next fuel st = .diverge) ∧
    (∀ (next : Access E (T.Val × Bool) σ) (st : σ), Endless next st → ∀ fuel,
      Serde.visitMap (T := T) next fuel st = .diverge) ∧
    (∀ (next : Access E U64 σ) (st : σ), Endless next st → ∀ fuel,
      Serde.visitArray (T := T) next fuel st = .diverge) := by
  obtain ⟨W⟩ := wf_of_derive hT hfit
  refine ⟨fun next st h fuel => ?_, fun next st h fuel => ?_, fun next st h fuel => ?_⟩
  · obtain ⟨vs, st', hl, hy⟩ := h fuel
    obtain ⟨s, e, -⟩ := W.deserializeList_ok (E := E) vs
    unfold Serde.deserializeList at e
    rw [listLoop_forEach] at e
    obtain ⟨acc, hacc, -⟩ := Res.of_bind_ok e
    unfold Serde.visitList
    rw [listLoopFrom_eq hy fuel (by omega), hacc, Res.ok_bind, hl, Nat.sub_self]
    rfl
  · obtain ⟨es, st', hl, hy⟩ := h fuel
    obtain ⟨s, e, -⟩ := W.deserializeMap_ok (E := E) es
    unfold Serde.deserializeMap at e
    rw [mapLoop_forEach] at e
    obtain ⟨acc, hacc, -⟩ := Res.of_bind_ok e
    unfold Serde.visitMap
    rw [mapLoopFrom_eq hy fuel (by omega), hacc, Res.ok_bind, hl, Nat.sub_self]
    rfl
  · by_cases hlt : fuel < PREFERRED_ARRAY_LEN T.Repr
    · obtain ⟨ws, st', hl, hy⟩ := h fuel
      obtain ⟨acc, h1, h2, -⟩ := fillLoopFrom_eq (P := PREFERRED_ARRAY_LEN T.Repr) hy fuel (by omega)
        (Vector.replicate _ 0) 0 W.pref_pos (by omega) W.pref_lt
      unfold Serde.visitArray
      simp only
      rw [h2 (by omega), hl, Nat.sub_self]
      rfl
    · obtain ⟨ws, st', hl, hy⟩ := h fuel
      obtain ⟨stm, hy1, hy2⟩ : ∃ stm, Yields next st (ws.take (PREFERRED_ARRAY_LEN T.Repr)) stm ∧
          Yields next stm (ws.drop (PREFERRED_ARRAY_LEN T.Repr)) st' := by
        apply Yields.split
        rwa [List.take_append_drop]
      have hlt' : (ws.take (PREFERRED_ARRAY_LEN T.Repr)).length = PREFERRED_ARRAY_LEN T.Repr := by
        rw [List.length_take]; omega
      obtain ⟨acc, h1, -, h3⟩ := fillLoopFrom_eq (P := PREFERRED_ARRAY_LEN T.Repr) hy1 fuel (by omega)
        (Vector.replicate _ 0) 0 W.pref_pos (by omega) W.pref_lt
      unfold Serde.visitArray
      simp only
      rw [h3 (by omega), Res.ok_bind]
      simp only
      rw [drainLoopFrom_eq hy2 _ (by rw [List.length_drop]; omega)]
      have : fuel - (ws.take (PREFERRED_ARRAY_LEN T.Repr)).length -
          (ws.drop (PREFERRED_ARRAY_LEN T.Repr)).length = 0 := by
        rw [List.length_drop]; omega
      rw [this]
      rfl

open scoped Ex in
/-- the sequence 0, 0, 0, … -/
example : Serde.visitArray (T := Ex.L) (E := String) (fun (_ : Unit) => (.ok (some 0#64), ())) 1000 () =
    .diverge := by
  refine (C49_endless Ex.hL Ex.fitL).2.2 _ _ (fun n => ⟨List.replicate n 0, (), by simp, ?_⟩) _
  induction n with
  | zero => exact .nil _
  | succ n ih => exact .cons rfl ih

end Enumset
