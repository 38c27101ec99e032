import Verif.MachineRefine
/-!
# Properties C01, C28, C45: histories of calls
-/
set_option autoImplicit false
set_option linter.unusedSectionVars false

namespace Enumset

namespace Hist

/-- A history for the variants of the source enum can be run on the derived type. -/
theorem variants_eq [Platform] {inp : DeriveInput} {T : EnumSetType} (hT : derive inp = .ok T) :
    inp.variants.length = T.n := (core_of_derive hT).n_eq.symm

section helpers

variable [Platform] {inp : DeriveInput} {T : EnumSetType}

theorem run_agrees (hT : derive inp = .ok T) (hfit : Fits T) {n : Nat} (h : n = T.n)
    (discr : Fin n → Nat) (hd : ∀ v, discr v = T.discr (toVal h v)) (cs : List (Cmd n)) :
    run (T := T) h cs = .ok (answers discr (layoutOf inp) cs ASt.init) := by
  subst h
  obtain rfl : discr = T.discr := funext hd
  obtain ⟨W⟩ := wf_of_derive hT hfit
  obtain ⟨st, e, R⟩ := init_agrees hT hfit W
  unfold run
  rw [e, Res.ok_bind, runFrom_agrees hT hfit W cs R]

theorem mem_answers {n : Nat} {discr : Fin n → Nat} {lay : Layout} {o : Obs n}
    {cs : List (Cmd n)} {st : ASt n} {i : Nat} (h : (answers discr lay cs st)[i]? = some o) :
    ∃ c st', cs[i]? = some c ∧ o = (c.den discr lay st').1 := by
  induction cs generalizing st i with
  | nil => simp [answers] at h
  | cons c cs ih =>
    cases i with
    | zero =>
      simp only [answers, List.getElem?_cons_zero, Option.some.injEq] at h
      exact ⟨c, st, by simp, h.symm⟩
    | succ i =>
      simp only [answers, List.getElem?_cons_succ] at h
      obtain ⟨c', st', h1, h2⟩ := ih h
      exact ⟨c', st', by simpa using h1, h2⟩

theorem answers_length {n : Nat} {discr : Fin n → Nat} {lay : Layout} (cs : List (Cmd n))
    (st : ASt n) : (answers discr lay cs st).length = cs.length := by
  induction cs generalizing st with
  | nil => rfl
  | cons c cs ih => simp [answers, ih]

theorem answers_append {n : Nat} {discr : Fin n → Nat} {lay : Layout} (cs : List (Cmd n))
    (st : ASt n) : ∃ st', ∀ ds, answers discr lay (cs ++ ds) st =
      answers discr lay cs st ++ answers discr lay ds st' := by
  induction cs generalizing st with
  | nil => exact ⟨st, fun ds => rfl⟩
  | cons c cs ih =>
    obtain ⟨st', h⟩ := ih (c.den discr lay st).2
    exact ⟨st', fun ds => by simp only [List.cons_append, answers, h]⟩

theorem discrOf_eq {inp' : DeriveInput} (hT : derive inp' = .ok T)
    (hv : inp.variants = inp'.variants) (h : inp.variants.length = T.n)
    (v : Fin inp.variants.length) : discrOf inp v = T.discr (toVal h v) := by
  have := (core_of_derive hT).rustc (toVal h v)
  rw [← hv] at this
  unfold discrOf
  rw [List.getD, show (rustcDiscriminants inp.variants)[v.val]? = some _ from this]
  rfl

/-- Every mathematical set is the set of members of a safe set. -/
theorem exists_safe (hT : derive inp = .ok T) (hfit : Fits T) (A : T.Val → Bool) :
    ∃ s : EnumSet T, Safe s ∧ Members s A := by
  obtain ⟨⟨s, e, hs⟩, -, -⟩ := C16_collect hT hfit ((List.finRange T.n).filter A)
    (C43_empty_all hT hfit).1
  refine ⟨s, .from_iter e, members_congr hs fun v => ?_⟩
  rw [Bool.eq_iff_iff, decide_eq_true_iff, List.mem_filter]
  simp

theorem cmp_eq_iff (hT : derive inp = .ok T) (hfit : Fits T) {n : Nat} (h : n = T.n)
    (discr : Fin n → Nat) (hd : ∀ v, discr v = T.discr (toVal h v)) (A B : Fin n → Bool) :
    compared discr (storageOf inp) A B = .eq ↔ ∀ v, A v = B v := by
  subst h
  obtain rfl : discr = T.discr := funext hd
  obtain ⟨a, ha, hA⟩ := exists_safe hT hfit A
  obtain ⟨b, hb, hB⟩ := exists_safe hT hfit B
  rw [← cmp_eq_compared hT hfit ha hb hA hB, (C09_total_order hT hfit a b a).2.1]
  exact (C08_eq_iff hT hfit ha hb hA hB).1

theorem toWords_pad {k l m : Nat} (hkl : k ≤ l) (hm : m < 2 ^ (64 * k)) :
    toWords l m = toWords k m ++ List.replicate (l - k) 0 := by
  apply words_ext
  · simp only [toWords_length, List.length_append, List.length_replicate]; omega
  · intro i
    rw [wbit_append_zeros, toWords_wbit, toWords_wbit]
    by_cases h : i < 64 * k
    · rw [decide_eq_true h, decide_eq_true (by omega)]
    · rw [Nat.testBit_lt_two_pow (Nat.lt_of_lt_of_le hm (Nat.pow_le_pow_right (by decide)
        (Nat.le_of_not_lt h)))]
      simp

theorem mask_words (hT : derive inp = .ok T) {n : Nat} (h : n = T.n)
    (discr : Fin n → Nat) (hd : ∀ v, discr v = T.discr (toVal h v)) (A : Fin n → Bool) :
    mask discr A < 2 ^ (64 * (storageOf inp).words) := by
  rw [mask_lt]
  intro v _
  have := (C31_room hT).1 (toVal h v)
  rw [hd]
  revert this
  cases storageOf inp <;> simp only [Storage.bits, Storage.words] <;> omega

theorem read_panic {n : Nat} {discr : Fin n → Nat} {lay : Layout} {x : Data n} {b : Bool} {q : Panic}
    (h : x.read discr lay b = .panic q) : (∃ ws, x = .words ws) ∧ q = invalidVariants := by
  unfold Data.read at h
  split at h
  · cases hf : lay.format <;> rw [hf] at h <;> cases x <;> simp only at h <;>
      (repeat' split at h) <;> cases h
    exact ⟨⟨_, rfl⟩, rfl⟩
  · cases h

end helpers

/-! ## C01 History refinement -/

/-- Every history of calls on the derived type returns (no undefined behaviour, no divergence, every
panic caught), with exactly the answers of the same history on mathematical sets of variants. -/
theorem C01_history [Platform] {inp : DeriveInput} {T : EnumSetType} (hT : derive inp = .ok T)
    (hfit : Fits T) (cs : List (Cmd inp.variants.length)) :
    run (T := T) (variants_eq hT) cs =
      .ok (answers (discrOf inp) (layoutOf inp) cs ASt.init) :=
  run_agrees hT hfit _ _ (discrOf_eq hT rfl _) cs

/-- The only calls of a history that panic are the checked conversions, with the documented messages,
deserialization of words, with one of these messages (C39), and those whose argument is an iterator
that panics. -/
theorem C01_panics [Platform] {inp : DeriveInput} {T : EnumSetType} (hT : derive inp = .ok T)
    (hfit : Fits T) (cs : List (Cmd inp.variants.length)) :
    ∃ os, run (T := T) (variants_eq hT) cs = .ok os ∧ os.length = cs.length ∧
      ∀ (i : Nat) (o : Obs _) (p : Panic), os[i]? = some o → o.PanicsWith p →
        ∃ c, cs[i]? = some c ∧ (c.CallerPanics p ∨ c.Checked ∧
          (p = .expect "Bitset will not fit into this type." ∨
            p = .expect "Bitset contains invalid variants." ∨
            p = .expect "Bitset will not fit into slice.")) := by
  refine ⟨_, C01_history hT hfit cs, answers_length _ _, ?_⟩
  intro i o p ho hp
  obtain ⟨c, st, hc, rfl⟩ := mem_answers ho
  refine ⟨c, hc, ?_⟩
  cases c with
  | set d e =>
    simp only [Cmd.den] at hp
    cases e with
    | «import» src =>
      refine .inr ⟨trivial, ?_⟩
      simp only [Expr.den] at hp
      cases hk : known (discrOf inp) src.toNat with
      | true => simp [hk, Obs.PanicsWith] at hp
      | false =>
        simp [hk, Obs.PanicsWith] at hp
        exact .inr (.inl hp.symm)
    | _ => simp [Expr.den, Obs.PanicsWith] at hp
  | tryImport d src =>
    simp only [Cmd.den] at hp
    cases hk : known (discrOf inp) src.toNat <;> simp [hk, Obs.PanicsWith] at hp
  | ask q =>
    simp only [Cmd.den] at hp
    cases q with
    | asNum m t a =>
      cases m with
      | checked =>
        refine .inr ⟨trivial, ?_⟩
        simp only [Query.den] at hp
        split at hp
        · simp [Obs.PanicsWith] at hp
        · simp [Obs.PanicsWith] at hp
          exact .inl hp.symm
      | try_ => simp [Query.den, Obs.PanicsWith] at hp
      | truncated => simp [Query.den, Obs.PanicsWith] at hp
    | asArray m O a =>
      cases m with
      | checked =>
        refine .inr ⟨trivial, ?_⟩
        simp only [Query.den] at hp
        split at hp
        · simp [Obs.PanicsWith] at hp
        · simp [Obs.PanicsWith] at hp
          exact .inl hp.symm
      | try_ => simp [Query.den, Obs.PanicsWith] at hp
      | truncated => simp [Query.den, Obs.PanicsWith] at hp
    | copyIntoSlice m a data =>
      cases m with
      | checked =>
        refine .inr ⟨trivial, ?_⟩
        simp only [Query.den] at hp
        split at hp
        · simp [Obs.PanicsWith] at hp
        · simp [Obs.PanicsWith] at hp
          exact .inr (.inr hp.symm)
      | try_ =>
        simp only [Query.den] at hp
        split at hp <;> simp [Obs.PanicsWith] at hp
      | truncated => simp [Query.den, Obs.PanicsWith] at hp
    | serialize a =>
      simp only [Query.den, serialized] at hp
      split at hp
      · split at hp
        · split at hp <;> simp [Obs.PanicsWith] at hp
        · simp [Obs.PanicsWith] at hp
        · simp [Obs.PanicsWith] at hp
        · split at hp <;> simp [Obs.PanicsWith] at hp
      · simp [Obs.PanicsWith] at hp
    | _ => simp [Query.den, Obs.PanicsWith] at hp
  | deserialize d x broken =>
    simp only [Cmd.den] at hp
    cases hr : x.read (discrOf inp) (layoutOf inp) broken with
    | panic q =>
      obtain ⟨⟨ws, rfl⟩, rfl⟩ := read_panic hr
      rw [hr] at hp
      simp [Obs.PanicsWith] at hp
      exact .inr ⟨trivial, .inr (.inl hp.symm)⟩
    | _ => rw [hr] at hp; simp [Obs.PanicsWith] at hp
  | extendFrom d vs q =>
    cases q with
    | none => simp [Cmd.den, Obs.PanicsWith] at hp
    | some q => simp [Cmd.den, Obs.PanicsWith] at hp; exact .inl (by simp [Cmd.CallerPanics, hp])
  | extendSetsFrom d l q =>
    cases q with
    | none => simp [Cmd.den, Obs.PanicsWith] at hp
    | some q => simp [Cmd.den, Obs.PanicsWith] at hp; exact .inl (by simp [Cmd.CallerPanics, hp])
  | _ => simp [Cmd.den, Obs.PanicsWith] at hp

/-! ## C28 Representation independence -/

theorem read_same {n : Nat} [Platform] {discr : Fin n → Nat} {l₁ l₂ : Layout} (h : l₁.SameSerde l₂)
    (x : Data n) (b : Bool) : x.read discr l₁ b = x.read discr l₂ b := by
  obtain ⟨h1, h2, h3, h4⟩ := h
  unfold Data.read
  rw [← h4, ← h1, ← h3]
  cases hf : l₁.format with
  | array => exact absurd hf h2
  | _ => cases x <;> rfl

theorem serialized_same {n : Nat} [Platform] {discr : Fin n → Nat} {l₁ l₂ : Layout}
    (h : l₁.SameSerde l₂) (A : Fin n → Bool) : serialized discr l₁ A = serialized discr l₂ A := by
  obtain ⟨h1, h2, h3, h4⟩ := h
  unfold serialized
  rw [← h4, ← h1]
  cases hf : l₁.format with
  | array => exact absurd hf h2
  | _ => rfl

/-- The same history on the same variants under two sets of attributes (such as two `repr`s): the
answers agree; only `to_vec` may end in a different number of zero words and `cmp` may order unequal
sets differently.  If the history serializes or deserializes, the form must be the same and not an
array of words. -/
theorem C28_history_partial [Platform] {inp₁ inp₂ : DeriveInput} {T₁ T₂ : EnumSetType}
    (h₁ : derive inp₁ = .ok T₁) (h₂ : derive inp₂ = .ok T₂) (fit₁ : Fits T₁) (fit₂ : Fits T₂)
    (hv : inp₁.variants = inp₂.variants) (cs : List (Cmd inp₁.variants.length))
    (hser : (∃ c ∈ cs, c.usesSerde = true) → (layoutOf inp₁).SameSerde (layoutOf inp₂)) :
    ∃ os₁ os₂, run (T := T₁) (variants_eq h₁) cs = .ok os₁ ∧
      run (T := T₂) ((congrArg List.length hv).trans (variants_eq h₂)) cs = .ok os₂ ∧
      os₁.length = cs.length ∧ os₂.length = cs.length ∧
      ∀ (i : Nat) c o₁ o₂, cs[i]? = some c → os₁[i]? = some o₁ → os₂[i]? = some o₂ →
        c.SameAnswer o₁ o₂ := by
  have d₁ := discrOf_eq h₁ rfl (variants_eq h₁)
  have d₂ := discrOf_eq h₂ hv ((congrArg List.length hv).trans (variants_eq h₂))
  refine ⟨_, _, run_agrees h₁ fit₁ _ _ d₁ cs, run_agrees h₂ fit₂ _ _ d₂ cs,
    answers_length _ _, answers_length _ _, ?_⟩
  generalize ASt.init = st
  induction cs generalizing st with
  | nil => intro i c o₁ o₂ h; simp at h
  | cons c cs ih =>
    have hser' : (∃ c ∈ cs, c.usesSerde = true) → (layoutOf inp₁).SameSerde (layoutOf inp₂) :=
      fun ⟨c, hc, h⟩ => hser ⟨c, by simp [hc], h⟩
    have hc1 : c.usesSerde = true → (layoutOf inp₁).SameSerde (layoutOf inp₂) :=
      fun h => hser ⟨c, by simp, h⟩
    have hst : (c.den (discrOf inp₁) (layoutOf inp₁) st).2 =
        (c.den (discrOf inp₁) (layoutOf inp₂) st).2 := by
      cases c with
      | deserialize d x b => simp only [Cmd.den, read_same (hc1 rfl)]
      | _ => rfl
    intro i c' o₁ o₂ hc ho₁ ho₂
    cases i with
    | succ i =>
      simp only [answers, List.getElem?_cons_succ, ← hst] at hc ho₁ ho₂
      exact ih hser' _ i c' o₁ o₂ hc ho₁ ho₂
    | zero =>
      simp only [answers, List.getElem?_cons_zero, Option.some.injEq] at hc ho₁ ho₂
      subst hc ho₁ ho₂
      cases c with
      | ask q =>
        cases q with
        | toVec a =>
          have w₁ := mask_words h₁ _ _ d₁ (st.sets a)
          have w₂ := mask_words h₂ _ _ d₂ (st.sets a)
          simp only [Cmd.SameAnswer, Cmd.den, Query.den]
          rcases Nat.le_total (storageOf inp₁).words (storageOf inp₂).words with h | h
          · exact ⟨_, _, .inl ⟨rfl, congrArg Obs.words (toWords_pad h w₁)⟩⟩
          · exact ⟨_, _, .inr ⟨rfl, congrArg Obs.words (toWords_pad h w₂)⟩⟩
        | cmp a b =>
          simp only [Cmd.SameAnswer, Cmd.den, Query.den]
          exact ⟨_, _, rfl, rfl, (cmp_eq_iff h₁ fit₁ _ _ d₁ _ _).trans
            (cmp_eq_iff h₂ fit₂ _ _ d₂ _ _).symm⟩
        | partialCmp a b =>
          simp only [Cmd.SameAnswer, Cmd.den, Query.den]
          exact ⟨_, _, rfl, rfl, (cmp_eq_iff h₁ fit₁ _ _ d₁ _ _).trans
            (cmp_eq_iff h₂ fit₂ _ _ d₂ _ _).symm⟩
        | serialize a => simp only [Cmd.SameAnswer, Cmd.den, Query.den, serialized_same (hc1 rfl)]
        | _ => rfl
      | deserialize d x b => simp only [Cmd.SameAnswer, Cmd.den, read_same (hc1 rfl)]
      | _ => rfl

/-- Histories without `cmp`, `partial_cmp` and `to_vec` have exactly the same answers. -/
theorem C28_portable [Platform] {inp₁ inp₂ : DeriveInput} {T₁ T₂ : EnumSetType}
    (h₁ : derive inp₁ = .ok T₁) (h₂ : derive inp₂ = .ok T₂) (fit₁ : Fits T₁) (fit₂ : Fits T₂)
    (hv : inp₁.variants = inp₂.variants) (cs : List (Cmd inp₁.variants.length))
    (hc : ∀ c ∈ cs, c.Portable)
    (hser : (∃ c ∈ cs, c.usesSerde = true) → (layoutOf inp₁).SameSerde (layoutOf inp₂)) :
    run (T := T₁) (variants_eq h₁) cs =
      run (T := T₂) ((congrArg List.length hv).trans (variants_eq h₂)) cs := by
  obtain ⟨os₁, os₂, e₁, e₂, l₁, l₂, h⟩ := C28_history_partial h₁ h₂ fit₁ fit₂ hv cs hser
  rw [e₁, e₂]
  congr 1
  apply List.ext_getElem (by omega)
  intro i hi₁ hi₂
  have hi : i < cs.length := by omega
  have := h i cs[i] os₁[i] os₂[i] (by simp [hi]) (by simp [hi₁]) (by simp [hi₂])
  have hp := hc cs[i] (by simp)
  revert this hp
  generalize cs[i] = c
  intro this hp
  cases c with
  | ask q =>
    cases q with
    | toVec a => exact absurd hp (by simp [Cmd.Portable])
    | cmp a b => exact absurd hp (by simp [Cmd.Portable])
    | partialCmp a b => exact absurd hp (by simp [Cmd.Portable])
    | _ => exact this
  | _ => exact this

namespace Ex

/-- `#[enumset(repr = "u128")] enum { A, B = 3, C }` -/
def inpTW : DeriveInput := { Enumset.Ex.inpT with attrs := { repr := some "u128" } }

/-- `let s = EnumSet::new(); s.to_vec()` -/
def csVec [Platform] : List (Cmd 3) := [.set 0 .new, .ask (.toVec 0)]

end Ex

open scoped Enumset.Ex in
/-- The exceptions are needed, although C28 does not mention `to_vec`: for `enum { A, B = 3, C }` the
program `EnumSet::new().to_vec()` returns one word by default and two with `repr = "u128"`. -/
theorem C28_fails : ∃ (T₁ T₂ : EnumSetType) (h₁ : derive Enumset.Ex.inpT = .ok T₁)
    (h₂ : derive Ex.inpTW = .ok T₂),
    run (T := T₁) (variants_eq h₁) Ex.csVec = .ok [.done, .words [0]] ∧
    run (T := T₂) (variants_eq h₂) Ex.csVec = .ok [.done, .words [0, 0]] := by
  refine ⟨_, okOf (derive Ex.inpTW) ⟨_, rfl⟩, Enumset.Ex.hT, okOf_eq _ _, ?_, ?_⟩
  · rfl
  · rfl

namespace Ex

/-- `#[enumset(serialize_repr = "array")] enum { A, B = 3, C }` -/
def inpSA : DeriveInput := { Enumset.Ex.inpT with attrs := { serialize_repr := some "array" } }
/-- `#[enumset(serialize_repr = "array", repr = "u128")] enum { A, B = 3, C }` -/
def inpSAW : DeriveInput :=
  { Enumset.Ex.inpT with attrs := { serialize_repr := some "array", repr := some "u128" } }

/-- `let r = EnumSet::deserialize(…)` where the data is `[1, 1]` -/
def csWords [Platform] : List (Cmd 3) := [.deserialize 0 (.words [1, 1]) false, .ask (.len 0)]

end Ex

open scoped Enumset.Ex in
/-- Deserialization of words depends on the storage: for `enum { A, B = 3, C }` with
`serialize_repr = "array"` the data `[1, 1]` is `{A}` by default and makes deserialization panic with
`repr = "u128"`. -/
theorem C28_words_fails : ∃ (T₁ T₂ : EnumSetType) (h₁ : derive Ex.inpSA = .ok T₁)
    (h₂ : derive Ex.inpSAW = .ok T₂),
    run (T := T₁) (variants_eq h₁) Ex.csWords = .ok [.done, .nat 1] ∧
    run (T := T₂) (variants_eq h₂) Ex.csWords = .ok [.panic invalidVariants, .nat 0] := by
  refine ⟨okOf (derive Ex.inpSA) ⟨_, rfl⟩, okOf (derive Ex.inpSAW) ⟨_, rfl⟩, okOf_eq _ _, okOf_eq _ _,
    ?_, ?_⟩
  · rfl
  · rfl

/-! ## C45 Iterators are snapshots -/

section helpers

variable [Platform] {n : Nat} (discr : Fin n → Nat) (lay : Layout)

theorem onIter_congr {k : Nat} {c : Cmd n} (hc : c.onIter k = true) {st st' : ASt n}
    (h : st.iters k = st'.iters k) :
    (c.den discr lay st).1 = (c.den discr lay st').1 ∧
    (c.den discr lay st).2.iters k = (c.den discr lay st').2.iters k := by
  cases c with
  | ask q =>
    cases q <;> simp [Cmd.onIter] at hc <;> subst hc <;> exact ⟨by simp [Cmd.den, Query.den, h], h⟩
  | _ =>
    simp [Cmd.onIter] at hc <;> subst hc <;>
      exact ⟨by simp [Cmd.den, h], by simp [Cmd.den, ASt.setIter, h]⟩

theorem iters_unchanged {k : Nat} {c : Cmd n} (hc : c.onIter k = false)
    (hr : c.redefines k = false) (st : ASt n) : (c.den discr lay st).2.iters k = st.iters k := by
  cases c with
  | ask q => rfl
  | set d e =>
    simp only [Cmd.den]
    cases e.den discr st <;> rfl
  | tryImport d src =>
    simp only [Cmd.den]
    split <;> rfl
  | insert d v => rfl
  | remove d v => rfl
  | deserialize d x b =>
    simp only [Cmd.den]
    split <;> rfl
  | extendFrom d vs p => rfl
  | extendSetsFrom d l p => rfl
  | _ =>
    simp [Cmd.onIter, Cmd.redefines] at hc hr
    simp [Cmd.den, ASt.setIter]
    intro h
    subst h
    simp_all

theorem answers_filter {k : Nat} (cs : List (Cmd n)) (hr : ∀ c ∈ cs, c.redefines k = false) :
    ∀ {st st' : ASt n}, st.iters k = st'.iters k →
    (((cs.zip (answers discr lay cs st)).filter fun p => p.1.onIter k).map Prod.snd) =
      answers discr lay (cs.filter fun c => c.onIter k) st' := by
  induction cs with
  | nil => intro st st' _; rfl
  | cons c cs ih =>
    intro st st' h
    have hr' : ∀ c ∈ cs, c.redefines k = false := fun c hc => hr c (by simp [hc])
    simp only [answers, List.zip_cons_cons]
    cases hc : c.onIter k with
    | true =>
      obtain ⟨e1, e2⟩ := onIter_congr discr lay hc h
      rw [List.filter_cons_of_pos (by exact hc), List.filter_cons_of_pos (by exact hc),
        List.map_cons, answers, ih hr' e2, e1]
    | false =>
      rw [List.filter_cons_of_neg (by simp [hc]), List.filter_cons_of_neg (by simp [hc])]
      apply ih hr'
      rw [iters_unchanged discr lay hc (hr c (by simp)), h]

theorem answers_rename {k l : Nat} (ops : List (IterCall n)) : ∀ {st st' : ASt n},
    st.iters k = st'.iters l → answers discr lay (ops.map (IterCall.on k)) st =
      answers discr lay (ops.map (IterCall.on l)) st' := by
  induction ops with
  | nil => intro st st' _; rfl
  | cons op ops ih =>
    intro st st' h
    simp only [List.map_cons, answers]
    congr 1
    · cases op <;> simp [IterCall.on, Cmd.den, Query.den, h]
    · apply ih
      cases op <;> simp [IterCall.on, Cmd.den, ASt.setIter, h]

end helpers

/-- After any history `before`, let the program continue with calls `cs`, none of which stores another
iterator in variable `k`.  The answers of the calls on iterator `k` are those they have when all the
other calls of `cs` (changes of the set the iterator came from, calls on other iterators and on clones
of this one, …) are left out. -/
theorem C45_snapshot [Platform] {inp : DeriveInput} {T : EnumSetType} (hT : derive inp = .ok T)
    (hfit : Fits T) (before cs : List (Cmd inp.variants.length)) (k : Nat)
    (hk : ∀ c ∈ cs, c.redefines k = false) :
    ∃ os os₁ os₂, os.length = before.length ∧
      run (T := T) (variants_eq hT) (before ++ cs) = .ok (os ++ os₁) ∧
      run (T := T) (variants_eq hT) (before ++ cs.filter fun c => c.onIter k) = .ok (os ++ os₂) ∧
      ((cs.zip os₁).filter fun p => p.1.onIter k).map Prod.snd = os₂ := by
  obtain ⟨st, h⟩ := answers_append (discr := discrOf inp) (lay := layoutOf inp) before ASt.init
  refine ⟨_, _, _, answers_length (discr := discrOf inp) (lay := layoutOf inp) before ASt.init,
    ?_, ?_, answers_filter (discrOf inp) (layoutOf inp) cs hk (st := st) rfl⟩
  · rw [C01_history hT hfit, h]
  · rw [C01_history hT hfit, h]

/-- What an iterator obtained by `iter()` yields later is the contents of the set when `iter()` was
called, whatever happened to the set in between. -/
theorem C45_contents [Platform] {inp : DeriveInput} {T : EnumSetType} (hT : derive inp = .ok T)
    (hfit : Fits T) (before cs : List (Cmd inp.variants.length)) (k a : Nat)
    (hk : ∀ c ∈ cs, c.redefines k = false ∧ c.onIter k = false) :
    ∃ os os₁ L, os.length = before.length ∧ os₁.length = cs.length ∧
      run (T := T) (variants_eq hT) (before ++ [.iter k a, .ask (.collectVec k)]) =
        .ok (os ++ [.done, .vals L]) ∧
      run (T := T) (variants_eq hT) (before ++ [.iter k a] ++ cs ++ [.ask (.collectVec k)]) =
        .ok (os ++ [.done] ++ os₁ ++ [.vals L]) := by
  obtain ⟨st, h⟩ := answers_append (discr := discrOf inp) (lay := layoutOf inp) before ASt.init
  have key : ∀ (cs : List (Cmd inp.variants.length)) (st : ASt inp.variants.length),
      (∀ c ∈ cs, c.redefines k = false ∧ c.onIter k = false) →
      answers (discrOf inp) (layoutOf inp) (cs ++ [.ask (.collectVec k)]) st =
        answers (discrOf inp) (layoutOf inp) cs st ++ [.vals (st.iters k)] := by
    intro cs
    induction cs with
    | nil => intro st _; rfl
    | cons c cs ih =>
      intro st hk
      simp only [List.cons_append, answers]
      rw [ih _ fun c hc => hk c (by simp [hc]),
        iters_unchanged _ _ (hk c (by simp)).2 (hk c (by simp)).1]
  refine ⟨_, answers (discrOf inp) (layoutOf inp) cs
    ((Cmd.iter k a).den (discrOf inp) (layoutOf inp) st).2,
    ((Cmd.iter k a).den (discrOf inp) (layoutOf inp) st).2.iters k,
    answers_length (discr := discrOf inp) (lay := layoutOf inp) before ASt.init,
    answers_length _ _, ?_, ?_⟩
  · rw [C01_history hT hfit, h]
    rfl
  · rw [C01_history hT hfit, List.append_assoc, List.append_assoc, h, List.singleton_append, answers,
      key _ _ hk]
    simp [Cmd.den, ASt.setIter]

/-- A clone answers every sequence of calls as the original does. -/
theorem C45_clone [Platform] {inp : DeriveInput} {T : EnumSetType} (hT : derive inp = .ok T)
    (hfit : Fits T) (before : List (Cmd inp.variants.length)) (k l : Nat)
    (ops : List (IterCall inp.variants.length)) :
    run (T := T) (variants_eq hT) (before ++ [.cloneIter k l] ++ ops.map (IterCall.on k)) =
    run (T := T) (variants_eq hT) (before ++ [.cloneIter k l] ++ ops.map (IterCall.on l)) := by
  obtain ⟨st, h⟩ := answers_append (discr := discrOf inp) (lay := layoutOf inp) before ASt.init
  rw [C01_history hT hfit, C01_history hT hfit, List.append_assoc, List.append_assoc, h, h]
  simp only [List.singleton_append, answers]
  rw [answers_rename (k := k) (l := l) _ _ ops]
  simp [Cmd.den, ASt.setIter]

namespace Ex

open Enumset.Ex

/-- ```
let mut s0 = EnumSet::new(); s0.insert(C); s0.insert(A); let s1 = EnumSet::all();
let mut i0 = s0.iter(); s0.remove(A); let mut i1 = i0.clone(); i0.next(); i0.next_back();
i0.next(); i1.collect::<Vec<_>>(); let s2 = s1 - s0; s2.len(); s2.as_u64(); s2.as_u128();
s1.try_as_u128(); s1.as_u128(); s0 < s1; EnumSet::from_u8(3); EnumSet::from_u8_truncated(3); …
``` -/
def hist : List (Cmd 3) :=
  [.set 0 .new, .insert 0 2, .insert 0 0, .insert 0 2, .set 1 .all, .iter 0 0, .remove 0 0,
   .cloneIter 1 0, .next 0, .nextBack 0, .next 0, .ask (.collectVec 1),
   .set 2 (.operator .diff 1 (.reg 0)), .ask (.len 2), .ask (.asNum .checked .u64 2),
   .ask (.asNum .checked .u128 2), .ask (.asNum .try_ .u128 1), .ask (.asNum .checked .u128 1),
   .ask (.cmp 0 2), .set 2 (.import (.num .u8 3)), .set 2 (.importTruncated (.num .u8 3)),
   .ask (.toVec 2), .tryImport 3 (.slice [1, 1, 4, 0]), .ask (.isSuperset 3 1)]

/-- The answers of the history above, computed by running the model. -/
example : run (T := L) (variants_eq hL) hist = .ok (show List (Obs 3) from
    [.done, .bool true, .bool true, .bool false, .done, .done, .bool true,
     .done, .val (some 0), .val (some 2), .val none, .vals [0, 2],
     .done, .nat 2, .panic doesNotFitType,
     .nat 18446744073709551617, .optNat none, .panic doesNotFitType,
     .ord .lt, .panic invalidVariants, .done,
     .words [1, 0, 0], .bool true, .bool true]) := by rfl

example := C01_history hL fitL hist

/-- ```
let mut s0 = EnumSet::all(); serialize(s0); s0.remove(B); serialize(s0);
s1 = deserialize([1, 1])?; deserialize([2]); s1.extend(iter that yields C and then panics);
s1 == EnumSet::all(); hash(s0) == hash(s1); s0.partial_cmp(s1); i0 = s1.iter();
i0.find(|v| v != A); i0.rfind(|v| v == A); i0.next();
``` -/
def hist2 : List (Cmd 3) :=
  [.set 0 .all, .ask (.serialize 0), .remove 0 1, .ask (.serialize 0),
   .deserialize 1 (.words [1, 1]) false, .deserialize 0 (.words [2]) false,
   .deserialize 0 (.words [1]) true, .deserialize 0 (.seq [1]) false,
   .extendFrom 1 [2, 0] (some (.explicit "boom")), .set 2 .ALL, .ask (.eq 1 2), .ask (.sameHash 0 1),
   .ask (.partialCmp 0 1), .iter 0 1, .find 0 (· != 0), .rfind 0 (· == 0), .next 0]

/-- The answers of the history above, computed by running the model. -/
example : run (T := L) (variants_eq hL) hist2 = .ok (show List (Obs 3) from
    [.done, .data none (.words [1, 1, 4]), .bool true, .data none (.words [1, 0, 4]),
     .done, .panic invalidVariants,
     .refused false, .unavailable,
     .panic (.explicit "boom"), .done, .bool true, .bool false,
     .ord .lt, .done, .val (some 1), .val none, .val none]) := by rfl

example := C01_history hL fitL hist2
example := C01_panics hT fitT []

/-- `#[enumset(repr = "array")] enum { A, B = 3, C }` -/
def inpTA : DeriveInput := { inpT with attrs := { repr := some "array" } }
def TA : EnumSetType := okOf (derive inpTA) ⟨_, rfl⟩
theorem hTA : derive inpTA = .ok TA := okOf_eq _ _
theorem fitTA : Fits TA := by unfold Fits; decide

/-- Both serialize as `u8`. -/
theorem serde_TTA : (layoutOf inpT).SameSerde (layoutOf inpTA) :=
  ⟨rfl, by decide, rfl, rfl⟩

example (cs : List (Cmd 3)) := C28_history_partial hT hTA fitT fitTA rfl cs fun _ => serde_TTA
example := C28_portable hT hTA fitT fitTA rfl [.set 0 .all, .remove 0 (1 : Fin 3), .ask (.len 0)]
  (by simp [Cmd.Portable]) fun _ => serde_TTA

example := C45_snapshot hL fitL [.set 0 .all, .iter 0 0, .next 0]
  [.remove 0 (1 : Fin 3), .cloneIter 1 0, .next 1, .next 0, .nextBack 1, .nextBack 0] 0 (by decide)
example := C45_contents hL fitL [.set 0 .all] [.remove 0 (1 : Fin 3), .iter 1 0, .next 1] 0 0 (by decide)
example := C45_clone hL fitL [.set 0 .all, .iter 0 0, .next 0] 1 0 [.next, .len, .find (· != (1 : Fin 3)), .nextBack]

end Ex

end Hist

end Enumset
