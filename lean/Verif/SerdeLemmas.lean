import Verif.IterLemmas
import Verif.ConvLemmas
import Verif.Serde
/-!
# Helper lemmas: the generated serde code
-/
set_option autoImplicit false
set_option linter.unusedSectionVars false

namespace Enumset

open EnumSetTypeRepr (WIDTH PREFERRED_ARRAY_LEN)

variable [Platform] {T : EnumSetType}

theorem supported_numTy {r : SerdeRepr} {n : NumTy} (h : r.numTy = some n) :
    r.supported_variants = some n.bits := by
  cases r <;> simp only [SerdeRepr.numTy, Option.some.injEq, reduceCtorEq] at h <;> subst h <;> rfl

namespace WF

variable (W : WF T) {E : Type}
include W

/-! ### integers -/

theorem bit_lt_bw {s : EnumSet T} (hs : W.Clean s) {i : Nat} (h : W.bit s i = true) :
    i < T.BIT_WIDTH := by
  obtain ⟨v, rfl⟩ := hs i h
  exact W.discr_lt v

theorem serializeInt_ok (n : NumTy) (s : EnumSet T) : ∃ x, Serde.serializeInt n s = .ok (.int n x) ∧
    ∀ i, x.getLsbD i = (decide (i < n.bits) && W.bit s i) := by
  obtain ⟨x, e, hx⟩ := W.lawful.to_num_ok n s.priv_repr
  exact ⟨x, by unfold Serde.serializeInt; rw [e]; rfl, hx⟩

theorem deserializeInt_keep (n : NumTy) (x : BitVec n.bits)
    (h : ¬ (T.deny = true ∧ (x &&& ~~~ (BitVec.ofNat n.bits (T.allLit.getD 0))) ≠ 0)) :
    ∃ s : EnumSet T, Serde.deserializeInt (E := E) n (.ok x) = .ok (.ok s) ∧
      ∀ i, W.bit s i = (x.getLsbD i && W.bit EnumSet.ALL_REPR i) := by
  obtain ⟨r, e, hr⟩ := W.lawful.from_num_ok n x
  obtain ⟨r', e', hr'⟩ := W.lawful.bitand_ok r T.ALL_BITS
  refine ⟨⟨r'⟩, ?_, W.mask_trunc r r' _ hr hr'⟩
  unfold Serde.deserializeInt
  simp only
  rw [if_neg h, e, Res.ok_bind, e']
  rfl

theorem deserializeInt_clean (n : NumTy) (x : Except E (BitVec n.bits)) {s : EnumSet T}
    (h : Serde.deserializeInt n x = .ok (.ok s)) : W.Clean s := by
  cases x with
  | error e => injection h with h; injection h
  | ok x =>
    by_cases hd : T.deny = true ∧ (x &&& ~~~ (BitVec.ofNat n.bits (T.allLit.getD 0))) ≠ 0
    · unfold Serde.deserializeInt at h
      simp only at h
      rw [if_pos hd] at h
      injection h with h
      injection h
    · obtain ⟨s', e, hs⟩ := W.deserializeInt_keep (E := E) n x hd
      rw [e] at h
      injection h with h
      injection h with h
      subst h
      intro i hi
      rw [hs] at hi
      simp only [Bool.and_eq_true] at hi
      exact (W.bit_all i).mp hi.2

/-- The check of `serialize_deny_unknown` finds exactly the unknown bits. -/
theorem unknown_iff (n : NumTy) (x : BitVec n.bits) {lit : Nat} (hl : T.allLit = some lit) :
    (x &&& ~~~ (BitVec.ofNat n.bits (T.allLit.getD 0))) ≠ 0 ↔ ¬ OnlyVariants T x.getLsbD := by
  have key : (x &&& ~~~ (BitVec.ofNat n.bits (T.allLit.getD 0))) = 0 ↔
      OnlyVariants T x.getLsbD := by
    have hb : ∀ i, (x &&& ~~~ (BitVec.ofNat n.bits (T.allLit.getD 0))).getLsbD i =
        (x.getLsbD i && !W.bit EnumSet.ALL_REPR i) := by
      intro i
      rw [BitVec.getLsbD_and, BitVec.getLsbD_not, BitVec.getLsbD_ofNat, hl, Option.getD_some,
        W.lit_ok lit hl i]
      by_cases hi : i < n.bits
      · simp [hi]; rfl
      · rw [BitVec.getLsbD_of_ge x i (by omega)]; simp
    constructor
    · intro h i hi
      have := hb i
      rw [h, hi] at this
      apply (W.bit_all i).mp
      cases hw : W.bit EnumSet.ALL_REPR i with
      | true => rfl
      | false =>
        rw [hw] at this
        have h0 : (0 : BitVec n.bits).getLsbD i = false := BitVec.getLsbD_zero
        rw [h0] at this
        cases this
    · intro h
      apply BitVec.eq_of_getLsbD_eq
      intro i _
      rw [hb]
      have h0 : (0 : BitVec n.bits).getLsbD i = false := BitVec.getLsbD_zero
      rw [h0]
      cases hx : x.getLsbD i with
      | false => rfl
      | true => rw [(W.bit_all i).mpr (h i hx)]; rfl
  rw [← key]

/-! ### lists and maps -/

theorem serializeList_ok {s : EnumSet T} (hs : W.Clean s) :
    Serde.serializeList s =
      .ok (.seq (ascList T (W.mem s)).length (ascList T (W.mem s))) := by
  unfold Serde.serializeList
  obtain ⟨it, e, hit⟩ := W.iter_ok s hs
  rw [W.len_ok hs, Res.ok_bind, e, Res.ok_bind,
    W.forLoop_ok _ _ _ _ _ hit (W.fuel_ok _ hit.2.1), forEach_push]
  rfl

omit W in
theorem forEach_push_map {α β : Type} (g : α → β) (L : List α) (acc : List β) :
    forEach L acc (fun v acc => .ok (acc ++ [g v])) = .ok (acc ++ L.map g) := by
  induction L generalizing acc with
  | nil => simp [forEach]
  | cons v L ih => simp [forEach, ih]

theorem serializeMap_ok {s : EnumSet T} (hs : W.Clean s) :
    Serde.serializeMap s =
      .ok (.map (ascList T (W.mem s)).length ((ascList T (W.mem s)).map fun v => (v, true))) := by
  unfold Serde.serializeMap
  obtain ⟨it, e, hit⟩ := W.iter_ok s hs
  rw [W.len_ok hs, Res.ok_bind, e, Res.ok_bind,
    W.forLoop_ok _ _ _ _ _ hit (W.fuel_ok _ hit.2.1), forEach_push_map (fun v => (v, true))]
  rfl

theorem bitor_val_ok (s : EnumSet T) (v : T.Val) : ∃ s', s.bitor_assign (.val v) = .ok s' ∧
    ∀ i, W.bit s' i = (W.bit s i || decide (i = T.discr v)) := W.bitor_ok s (.val v)

theorem listLoop_ok (vs : List T.Val) (acc : EnumSet T) : ∃ s,
    (∀ rest : List (Except E T.Val),
      Serde.listLoop (vs.map .ok ++ rest) acc = Serde.listLoop rest s) ∧
    ∀ i, W.bit s i = true ↔ W.bit acc i = true ∨ ∃ v ∈ vs, T.discr v = i := by
  induction vs generalizing acc with
  | nil => exact ⟨acc, fun _ => rfl, by simp⟩
  | cons v vs ih =>
    obtain ⟨s1, e1, h1⟩ := W.bitor_val_ok acc v
    obtain ⟨s2, e2, h2⟩ := ih s1
    refine ⟨s2, ?_, ?_⟩
    · intro rest
      rw [List.map_cons, List.cons_append, Serde.listLoop, e1, Res.ok_bind, e2]
    · intro i
      rw [h2, h1]
      simp only [Bool.or_eq_true, decide_eq_true_eq, List.mem_cons]
      constructor
      · rintro ((h | h) | ⟨u, hu, rfl⟩)
        · exact .inl h
        · exact .inr ⟨v, .inl rfl, h.symm⟩
        · exact .inr ⟨u, .inr hu, rfl⟩
      · rintro (h | ⟨u, rfl | hu, rfl⟩)
        · exact .inl (.inl h)
        · exact .inl (.inr rfl)
        · exact .inr ⟨u, hu, rfl⟩

theorem mapLoop_ok (es : List (T.Val × Bool)) (acc : EnumSet T) : ∃ s,
    (∀ rest : List (Except E (T.Val × Bool)),
      Serde.mapLoop (es.map .ok ++ rest) acc = Serde.mapLoop rest s) ∧
    ∀ i, W.bit s i = true ↔ W.bit acc i = true ∨ ∃ v, (v, true) ∈ es ∧ T.discr v = i := by
  induction es generalizing acc with
  | nil => exact ⟨acc, fun _ => rfl, by simp⟩
  | cons x es ih =>
    obtain ⟨v, b⟩ := x
    cases b with
    | false =>
      obtain ⟨s2, e2, h2⟩ := ih acc
      refine ⟨s2, ?_, ?_⟩
      · intro rest
        rw [List.map_cons, List.cons_append, Serde.mapLoop]
        simp only [Bool.false_eq_true, if_false]
        rw [e2]
      · intro i
        rw [h2]
        simp
    | true =>
      obtain ⟨s1, e1, h1⟩ := W.bitor_val_ok acc v
      obtain ⟨s2, e2, h2⟩ := ih s1
      refine ⟨s2, ?_, ?_⟩
      · intro rest
        rw [List.map_cons, List.cons_append, Serde.mapLoop]
        simp only [if_true]
        rw [e1, Res.ok_bind, e2]
      · intro i
        rw [h2, h1]
        simp only [Bool.or_eq_true, decide_eq_true_eq, List.mem_cons, Prod.mk.injEq, and_true]
        constructor
        · rintro ((h | h) | ⟨u, hu, rfl⟩)
          · exact .inl h
          · exact .inr ⟨v, .inl rfl, h.symm⟩
          · exact .inr ⟨u, .inr hu, rfl⟩
        · rintro (h | ⟨u, rfl | hu, rfl⟩)
          · exact .inl (.inl h)
          · exact .inl (.inr rfl)
          · exact .inr ⟨u, hu, rfl⟩

omit W in
/-- A stream either has only good items or a first bad one. -/
theorem stream_cases {α : Type} (items : List (Except E α)) :
    (∃ vs : List α, items = vs.map .ok) ∨
      ∃ (vs : List α) (e : E) (rest : List (Except E α)), items = vs.map .ok ++ .error e :: rest := by
  induction items with
  | nil => exact .inl ⟨[], rfl⟩
  | cons x items ih =>
    cases x with
    | error e => exact .inr ⟨[], e, items, rfl⟩
    | ok v =>
      rcases ih with ⟨vs, rfl⟩ | ⟨vs, e, rest, rfl⟩
      · exact .inl ⟨v :: vs, rfl⟩
      · exact .inr ⟨v :: vs, e, rest, rfl⟩

theorem deserializeList_ok (vs : List T.Val) : ∃ s : EnumSet T,
    Serde.deserializeList (E := E) (vs.map .ok) = .ok (.ok s) ∧
    ∀ i, W.bit s i = true ↔ ∃ v ∈ vs, T.discr v = i := by
  obtain ⟨s, e, h⟩ := W.listLoop_ok (E := E) vs EnumSet.new
  refine ⟨s, ?_, ?_⟩
  · have := e []
    rw [List.append_nil] at this
    exact this
  · intro i
    rw [h, show W.bit EnumSet.new i = false from W.bit_empty i]
    simp

theorem deserializeList_err (vs : List T.Val) (e : E) (rest : List (Except E T.Val)) :
    Serde.deserializeList (vs.map .ok ++ .error e :: rest) = .ok (.error (.de e)) := by
  obtain ⟨s, e', -⟩ := W.listLoop_ok (E := E) vs EnumSet.new
  exact e' _

theorem deserializeMap_ok (es : List (T.Val × Bool)) : ∃ s : EnumSet T,
    Serde.deserializeMap (E := E) (es.map .ok) = .ok (.ok s) ∧
    ∀ i, W.bit s i = true ↔ ∃ v, (v, true) ∈ es ∧ T.discr v = i := by
  obtain ⟨s, e, h⟩ := W.mapLoop_ok (E := E) es EnumSet.new
  refine ⟨s, ?_, ?_⟩
  · have := e []
    rw [List.append_nil] at this
    exact this
  · intro i
    rw [h, show W.bit EnumSet.new i = false from W.bit_empty i]
    simp

theorem deserializeMap_err (es : List (T.Val × Bool)) (e : E)
    (rest : List (Except E (T.Val × Bool))) :
    Serde.deserializeMap (es.map .ok ++ .error e :: rest) = .ok (.error (.de e)) := by
  obtain ⟨s, e', -⟩ := W.mapLoop_ok (E := E) es EnumSet.new
  exact e' _

/-! ### arrays -/

theorem pref_pos : 0 < PREFERRED_ARRAY_LEN T.Repr := by
  have := W.lawful.width_pos
  have := W.lawful.width_le
  omega

omit W in
/-- What `trimLoop` computes: one more than the number of words up to the last one that is not zero (but
at most all words), or 1 if all words are zero. -/
theorem trimLoop_exact {P : Nat} (hP : P < 2 ^ usizeBits) (a : Vector U64 P) : ∃ stop,
    Serde.trimLoop a = .ok stop ∧
    ((∃ h, ∃ hh : h < P, a[h] ≠ 0 ∧ (∀ k (hk : k < P), h < k → a[k] = 0) ∧
      stop = min P (h + 2)) ∨
     ((∀ k (hk : k < P), a[k] = 0) ∧ stop = min P 1)) := by
  -- generalise over the part already scanned
  let f : Nat → Nat → Res (Flow Nat Nat) := fun i stop => do
    let x ← idxV a i
    if x ≠ 0 then pure (.ret stop)
    else do
      let stop ← addW usizeBits i 1
      pure (.next stop)
  have key : ∀ m, m ≤ P → ∀ stop, stop = min P (m + 1) → (∀ k (h : k < P), m ≤ k → a[k] = 0) →
      ∃ stop', (forEachRet (ρ := Nat) (List.range m).reverse stop f = .ok (.ret stop') ∨
          forEachRet (ρ := Nat) (List.range m).reverse stop f = .ok (.next stop')) ∧
        ((∃ h, ∃ hh : h < P, a[h] ≠ 0 ∧ (∀ k (hk : k < P), h < k → a[k] = 0) ∧
          stop' = min P (h + 2)) ∨
         ((∀ k (hk : k < P), a[k] = 0) ∧ stop' = min P 1)) := by
    intro m
    induction m with
    | zero =>
      intro _ stop hs hz
      exact ⟨stop, .inr rfl, .inr ⟨fun k hk => hz k hk (by omega), hs⟩⟩
    | succ m ih =>
      intro hm stop hs hz
      have hrev : (List.range (m + 1)).reverse = m :: (List.range m).reverse := by
        rw [List.range_succ, List.reverse_append]; rfl
      rw [hrev]
      by_cases hx : a[m] = 0
      · have hf : f m stop = .ok (.next (m + 1)) := by
          simp only [f, idxV, dif_pos (show m < P by omega), Res.ok_bind]
          rw [if_neg (by simpa using hx)]
          simp only [addW]
          rw [if_pos (by omega)]
          rfl
        obtain ⟨stop', e, h⟩ := ih (by omega) (m + 1) (by omega) (by
          intro k hk hmk
          by_cases e : k = m
          · subst e; exact hx
          · exact hz k hk (by omega))
        refine ⟨stop', ?_, h⟩
        simp only [forEachRet, hf, Res.ok_bind]
        exact e
      · have hf : f m stop = .ok (.ret stop) := by
          simp only [f, idxV, dif_pos (show m < P by omega), Res.ok_bind]
          rw [if_pos (by simpa using hx)]
          rfl
        refine ⟨stop, .inl ?_, .inl ⟨m, by omega, hx, fun k hk hmk => hz k hk (by omega), by omega⟩⟩
        simp only [forEachRet, hf, Res.ok_bind]
  obtain ⟨stop, e, h⟩ := key P (by omega) P (by omega) (fun k hk hk' => by omega)
  refine ⟨stop, ?_, h⟩
  · unfold Serde.trimLoop
    have hr : range 0 P = List.range P := by
      unfold range
      rw [List.range_eq_range']
      rfl
    rw [hr]
    rcases e with e | e
    · change (forEachRet (ρ := Nat) (List.range P).reverse P f >>= _) = _
      rw [e]; rfl
    · change (forEachRet (ρ := Nat) (List.range P).reverse P f >>= _) = _
      rw [e]; rfl

omit W in
/-- What `trimLoop` computes: `stop` such that only zero words are cut off, and at most one zero word
too many is kept. -/
theorem trimLoop_ok {P : Nat} (hP : P < 2 ^ usizeBits) (a : Vector U64 P) : ∃ stop,
    Serde.trimLoop a = .ok stop ∧ stop ≤ P ∧
    (∀ k (h : k < P), stop ≤ k → a[k] = 0) ∧
    (0 < P → 0 < stop) ∧
    (∀ k (h : k < P), k + 1 < stop → (∀ j (hj : j < P), k < j → a[j] = 0) → a[k] ≠ 0) := by
  obtain ⟨stop, e, h⟩ := trimLoop_exact hP a
  refine ⟨stop, e, ?_⟩
  rcases h with ⟨h, hh, hx, hz, rfl⟩ | ⟨hz, rfl⟩
  · refine ⟨by omega, fun k hk hk' => hz k hk (by omega), by omega, ?_⟩
    intro k hk hk' hz'
    by_cases e : h = k
    · subst e; exact hx
    · exact absurd (hz' h hh (by omega)) hx
  · exact ⟨by omega, fun k hk _ => hz k hk, by omega, fun k hk hk' => by omega⟩

/-- The serialized words: a prefix of the full array form. -/
theorem serializeArray_ok (s : EnumSet T) : ∃ (x : Vector U64 (PREFERRED_ARRAY_LEN T.Repr)) (stop : Nat),
    Serde.serializeArray s = .ok (.words (x.toList.take stop)) ∧
    s.as_array _ = .ok x ∧ (∀ i, wbit x.toList i = W.bit s i) ∧ Serde.trimLoop x = .ok stop ∧
    stop ≤ PREFERRED_ARRAY_LEN T.Repr ∧
    (∀ i, wbit (x.toList.take stop) i = W.bit s i) := by
  obtain ⟨x, e, hx⟩ := (W.try_as_array_ok (PREFERRED_ARRAY_LEN T.Repr) s).1 (by
    intro i hi
    exact Nat.lt_of_lt_of_le (W.lawful.bit_lt hi) W.lawful.width_le)
  have ea : s.as_array _ = .ok x := by unfold EnumSet.as_array; rw [e]; rfl
  obtain ⟨stop, et, hle, hz, -⟩ := trimLoop_ok W.pref_lt x
  refine ⟨x, stop, ?_, ea, hx, et, hle, ?_⟩
  · unfold Serde.serializeArray
    rw [ea, Res.ok_bind, et, Res.ok_bind]
    unfold Serde.slicePrefix
    rw [if_pos hle]
    rfl
  · intro i
    rw [← hx i]
    unfold wbit
    simp only [List.getD]
    by_cases hk : i / 64 < stop
    · rw [List.getElem?_take_of_lt hk]
    · rw [List.getElem?_take_eq_none (by omega)]
      by_cases hk2 : i / 64 < PREFERRED_ARRAY_LEN T.Repr
      · have := hz (i / 64) hk2 (by omega)
        rw [List.getElem?_eq_getElem (by simpa using hk2)]
        simp [this]
      · rw [List.getElem?_eq_none (by simp; omega)]

omit W in
theorem drainLoop_ok (ws : List U64) : Serde.drainLoop (E := E) (ws.map .ok) = .ok () := by
  induction ws with
  | nil => rfl
  | cons w ws ih => exact ih

omit W in
theorem drainLoop_err (ws : List U64) (e : E) (rest : List (Except E U64)) :
    Serde.drainLoop (ws.map .ok ++ .error e :: rest) = .error (.de e) := by
  induction ws with
  | nil => rfl
  | cons w ws ih => exact ih

omit W in
/-- `fillLoop` from index `i` writes the words and stops when the array is full. -/
theorem fillLoop_ok {P : Nat} (hP : P < 2 ^ usizeBits) (ws : List U64) :
    ∀ (acc : Vector U64 P) (i : Nat), i < P → ∃ acc' : Vector U64 P,
      (∀ k (h : k < P), acc'[k] = if i ≤ k ∧ k - i < ws.length then ws.getD (k - i) 0 else acc[k]) ∧
      (ws.length < P - i → ∀ tail : List (Except E U64),
        (tail = [] → Serde.fillLoop (ws.map .ok ++ tail) acc i = .ok (.ok (acc', []))) ∧
        (∀ e rest, tail = .error e :: rest →
          Serde.fillLoop (ws.map .ok ++ tail) acc i = .ok (.error (.de e)))) ∧
      (P - i ≤ ws.length → ∀ tail : List (Except E U64),
        Serde.fillLoop (ws.map .ok ++ tail) acc i =
          .ok (.ok (acc', (ws.drop (P - i)).map .ok ++ tail))) := by
  induction ws with
  | nil =>
    intro acc i hi
    refine ⟨acc, by simp, ?_, ?_⟩
    · intro _ tail
      refine ⟨?_, ?_⟩
      · rintro rfl; rfl
      · rintro e rest rfl; rfl
    · intro h; simp at h; omega
  | cons w ws ih =>
    intro acc i hi
    have hset : setV acc i w = .ok (acc.set i w) := by simp [setV, hi]
    have hadd : addW usizeBits i 1 = .ok (i + 1) := by
      unfold addW; rw [if_pos (by omega)]
    by_cases hlast : i + 1 = P
    · refine ⟨acc.set i w, ?_, ?_, ?_⟩
      · intro k hk
        rw [Vector.getElem_set]
        by_cases e : i = k
        · subst e; simp
        · rw [if_neg e, if_neg (by omega)]
      · intro h; simp at h; omega
      · intro _ tail
        rw [List.map_cons, List.cons_append, Serde.fillLoop, hset, Res.ok_bind, hadd, Res.ok_bind,
          if_pos hlast]
        have : P - i = 1 := by omega
        rw [this]
        rfl
    · obtain ⟨acc', h1, h2, h3⟩ := ih (acc.set i w) (i + 1) (by omega)
      have step : ∀ tail : List (Except E U64),
          Serde.fillLoop (((w :: ws).map .ok) ++ tail) acc i =
            Serde.fillLoop (ws.map .ok ++ tail) (acc.set i w) (i + 1) := by
        intro tail
        rw [List.map_cons, List.cons_append, Serde.fillLoop, hset, Res.ok_bind, hadd, Res.ok_bind,
          if_neg hlast]
      refine ⟨acc', ?_, ?_, ?_⟩
      · intro k hk
        rw [h1 k hk]
        by_cases e : i = k
        · subst e
          rw [if_neg (by omega), if_pos (by simp), Vector.getElem_set]
          simp
        · by_cases hc : i + 1 ≤ k ∧ k - (i + 1) < ws.length
          · rw [if_pos hc, if_pos (by simp; omega)]
            have : k - i = (k - (i + 1)) + 1 := by omega
            rw [this]
            rfl
          · rw [if_neg hc, if_neg (by simp; omega), Vector.getElem_set, if_neg e]
      · intro hl tail
        rw [step]
        exact h2 (by simp at hl; omega) tail
      · intro hl tail
        rw [step, h3 (by simp at hl; omega)]
        have : P - i = (P - (i + 1)) + 1 := by omega
        rw [this]
        rfl

/-- The first `P` words, padded with zeros. -/
def padded (P : Nat) (ws : List U64) : Vector U64 P := Vector.ofFn fun i => ws.getD i.val 0

omit W in
theorem wbit_padded (P : Nat) (ws : List U64) (i : Nat) :
    wbit (padded P ws).toList i = (decide (i < 64 * P) && wbit ws i) := by
  unfold wbit padded
  simp only [List.getD, Vector.toList_ofFn]
  by_cases h : i / 64 < P
  · have : i < 64 * P := by omega
    simp [h, this]
  · have : ¬ i < 64 * P := by omega
    simp [h, this]

omit W in
theorem fill_padded {P : Nat} (hP : P < 2 ^ usizeBits) (h0 : 0 < P) (ws : List U64) :
    (ws.length < P → Serde.fillLoop (E := E) (ws.map .ok) (Vector.replicate P 0) 0 =
      .ok (.ok (padded P ws, []))) ∧
    (ws.length < P → ∀ e rest,
      Serde.fillLoop (E := E) (ws.map .ok ++ .error e :: rest) (Vector.replicate P 0) 0 =
      .ok (.error (.de e))) ∧
    (P ≤ ws.length → ∀ tail, Serde.fillLoop (E := E) (ws.map .ok ++ tail) (Vector.replicate P 0) 0 =
      .ok (.ok (padded P ws, (ws.drop P).map .ok ++ tail))) := by
  obtain ⟨acc', h1, h2, h3⟩ := fillLoop_ok (E := E) hP ws (Vector.replicate P 0) 0 h0
  have e : acc' = padded P ws := by
    apply Vector.ext
    intro k hk
    rw [h1 k hk]
    unfold padded
    simp only [Vector.getElem_ofFn, Nat.zero_le, Nat.sub_zero, true_and, Vector.getElem_replicate]
    by_cases hc : k < ws.length
    · rw [if_pos hc]
    · rw [if_neg hc]
      simp [List.getD, hc]
  subst e
  refine ⟨?_, ?_, ?_⟩
  · intro hl
    have := (h2 (by omega) []).1 rfl
    rwa [List.append_nil] at this
  · intro hl e rest
    exact (h2 (by omega) _).2 e rest rfl
  · intro hl tail
    exact h3 (by omega) tail

/-- Deserializing words is `from_array` of the first words. -/
theorem deserializeArray_eq (ws : List U64) :
    Serde.deserializeArray (T := T) (E := E) (ws.map .ok) =
      (do let s ← EnumSet.from_array _ (padded (PREFERRED_ARRAY_LEN T.Repr) ws); pure (.ok s)) := by
  obtain ⟨h1, -, h3⟩ := fill_padded (E := E) W.pref_lt W.pref_pos ws
  unfold Serde.deserializeArray
  simp only
  by_cases hl : ws.length < PREFERRED_ARRAY_LEN T.Repr
  · rw [h1 hl]
    rfl
  · have := h3 (by omega) []
    rw [List.append_nil, List.append_nil] at this
    rw [this]
    simp only [Res.ok_bind, drainLoop_ok]

theorem deserializeArray_err (ws : List U64) (e : E) (rest : List (Except E U64)) :
    Serde.deserializeArray (T := T) (ws.map .ok ++ .error e :: rest) = .ok (.error (.de e)) := by
  obtain ⟨-, h2, h3⟩ := fill_padded (E := E) W.pref_lt W.pref_pos ws
  unfold Serde.deserializeArray
  simp only
  by_cases hl : ws.length < PREFERRED_ARRAY_LEN T.Repr
  · rw [h2 hl]
    rfl
  · rw [h3 (by omega)]
    simp only [Res.ok_bind, drainLoop_err]
    rfl

/-- Bits of the words that the array has no room for are dropped; any other unknown bit makes the
call panic. -/
theorem deserializeArray_ok (ws : List U64) :
    (OnlyVariants T (wbit (padded (PREFERRED_ARRAY_LEN T.Repr) ws).toList) → ∃ s : EnumSet T,
      Serde.deserializeArray (E := E) (ws.map .ok) = .ok (.ok s) ∧ 
      ∀ i, W.bit s i = (decide (i < 64 * PREFERRED_ARRAY_LEN T.Repr) && wbit ws i)) ∧
    (¬ OnlyVariants T (wbit (padded (PREFERRED_ARRAY_LEN T.Repr) ws).toList) →
      Serde.deserializeArray (T := T) (E := E) (ws.map .ok) =
        .panic (.expect "Bitset contains invalid variants.")) := by
  obtain ⟨h1, h2⟩ := W.try_from_array_ok _ (padded (PREFERRED_ARRAY_LEN T.Repr) ws)
  rw [W.deserializeArray_eq]
  unfold EnumSet.from_array
  constructor
  · intro h
    obtain ⟨s, e, hs⟩ := h1 h
    refine ⟨s, by rw [e]; rfl, ?_⟩
    intro i
    rw [hs, wbit_padded]
  · intro h
    rw [h2 h]
    rfl

end WF

end Enumset
