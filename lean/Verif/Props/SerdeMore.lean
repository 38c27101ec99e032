import Verif.Props.SerdeIO
import Verif.Props.Derive
/-!
# Properties C50–C53: array form, versions of an enum, storages

C51 and C52 are about two enums `inp₁` and `inp₂`, the second of which has (at least) the variants of
the first, with the same discriminants: `f` maps the variants of the first to those of the second.
-/
set_option autoImplicit false
set_option linter.unusedSectionVars false

namespace Enumset

open EnumSetTypeRepr (PREFERRED_ARRAY_LEN)

/-! ## C50 The array form, exactly -/

/-- The empty set is written as one zero word.  Any other set is written with the words up to the one
of its largest variant and, if the storage has one more word, with one (zero) word after it. -/
theorem C50_length [Platform] {inp : DeriveInput} {T : EnumSetType} (hT : derive inp = .ok T)
    (hfit : Fits T) (hf : formatOf inp = .array) {s : EnumSet T} (hs : Safe s) {A : T.Val → Bool}
    (hA : Members s A) :
    ∃ ws, Serde.serialize s = .ok (.words ws) ∧
      ((∀ v, A v = false) → ws = [0]) ∧
      (∀ v, A v = true → (∀ u, A u = true → T.discr u ≤ T.discr v) →
        ws.length = min (storageOf inp).words (T.discr v / 64 + 2)) := by
  obtain ⟨W⟩ := wf_of_derive hT hfit
  have F := serde_facts hT
  obtain ⟨x, stop, e, ea, hx, et, hle, hb⟩ := W.serializeArray_ok s
  obtain ⟨stop', et', hex⟩ := WF.trimLoop_exact W.pref_lt x
  rw [et] at et'
  injection et' with et'
  subst et'
  have hpos := W.pref_pos
  have hword : ∀ k (hk : k < PREFERRED_ARRAY_LEN T.Repr) j, j < 64 →
      x[k].getLsbD j = wbit x.toList (64 * k + j) := by
    intro k hk j hj
    unfold wbit
    rw [show (64 * k + j) / 64 = k by omega, show (64 * k + j) % 64 = j by omega]
    simp [List.getD, hk]
  have hbit : ∀ i, wbit x.toList i = true ↔ ∃ v, T.discr v = i ∧ A v = true := by
    intro i
    rw [hx, W.discrIn hs hA]
    rfl
  refine ⟨x.toList.take stop, ?_, ?_, ?_⟩
  · unfold Serde.serialize
    rw [format_array (F.format.symm.trans hf)]
    exact e
  · intro hz
    have hall : ∀ k (hk : k < PREFERRED_ARRAY_LEN T.Repr), x[k] = 0 := by
      intro k hk
      apply BitVec.eq_of_getLsbD_eq
      intro j hj
      rw [hword k hk j hj]
      have h0 : (0 : U64).getLsbD j = false := BitVec.getLsbD_zero
      rw [h0, ← Bool.not_eq_true, hbit]
      rintro ⟨v, -, hv⟩
      rw [hz v] at hv
      cases hv
    rcases hex with ⟨h, hh, hne, -⟩ | ⟨-, rfl⟩
    · exact absurd (hall h hh) hne
    · rw [Nat.min_eq_right (by omega)]
      apply List.ext_getElem
      · simp; omega
      · intro k h1 h2
        simp only [List.length_cons, List.length_nil] at h2
        have : k = 0 := by omega
        subst this
        simpa using hall 0 hpos
  · intro v hv hmax
    have hlt : T.discr v < 64 * PREFERRED_ARRAY_LEN T.Repr := by
      have := W.discr_lt v
      have := W.bw_le
      have := W.lawful.width_le
      omega
    have hvb := (hbit (T.discr v)).mpr ⟨v, rfl, hv⟩
    have hkv : T.discr v / 64 < PREFERRED_ARRAY_LEN T.Repr := by omega
    have hnz : x[T.discr v / 64] ≠ 0 := by
      intro h0
      have := hword _ hkv (T.discr v % 64) (by omega)
      rw [h0, show 64 * (T.discr v / 64) + T.discr v % 64 = T.discr v by omega, hvb] at this
      have h0 : (0 : U64).getLsbD (T.discr v % 64) = false := BitVec.getLsbD_zero
      rw [h0] at this
      cases this
    rw [← F.pref]
    rcases hex with ⟨h, hh, hne, hz, rfl⟩ | ⟨hz, -⟩
    · have h1 : ¬ h < T.discr v / 64 := fun hlt => hnz (hz _ hkv hlt)
      have h2 : ¬ T.discr v / 64 < h := by
        intro hlt
        apply hne
        apply BitVec.eq_of_getLsbD_eq
        intro j hj
        have h0 : (0 : U64).getLsbD j = false := BitVec.getLsbD_zero
        rw [h0, hword h hh j hj, ← Bool.not_eq_true, hbit]
        rintro ⟨u, hu, hAu⟩
        have := hmax u hAu
        omega
      have : h = T.discr v / 64 := by omega
      subst this
      simp only [List.length_take, Vector.length_toList]
      omega
    · exact absurd (hz _ hkv) hnz

open scoped Ex in
example := C50_length Ex.hL Ex.fitL rfl Ex.safe_rB Ex.mem_rB

/-- Only the first words, as many as the storage has, count: if they have no unknown bit they are the
result, else deserialization panics.  Later words are ignored. -/
theorem C50_reads [Platform] {inp : DeriveInput} {T : EnumSetType} (hT : derive inp = .ok T)
    (hfit : Fits T) (hf : formatOf inp = .array) {E : Type} (ws : List U64) :
    (OnlyVariants T (wbit (ws.take (storageOf inp).words)) →
      ∃ s : EnumSet T, Serde.deserialize (E := E) (.words (ws.map .ok)) = some (.ok (.ok s)) ∧
        Members s fun v => wbit (ws.take (storageOf inp).words) (T.discr v)) ∧
    (¬ OnlyVariants T (wbit (ws.take (storageOf inp).words)) →
      Serde.deserialize (T := T) (E := E) (.words (ws.map .ok)) =
        some (.panic (.expect "Bitset contains invalid variants."))) := by
  have hb : ∀ N i, wbit (ws.take N) i = (decide (i < 64 * N) && wbit ws i) := by
    intro N i
    unfold wbit
    simp only [List.getD]
    by_cases h : i < 64 * N
    · rw [List.getElem?_take_of_lt (by omega), decide_eq_true h, Bool.true_and]
    · rw [List.getElem?_take_eq_none (by omega), decide_eq_false h]
      simp
  have hfun : wbit (ws.take (storageOf inp).words) =
      fun i => decide (i < 64 * (storageOf inp).words) && wbit ws i := funext (hb _)
  constructor
  · intro h
    rw [hfun] at h
    obtain ⟨s, e, hm⟩ := C39_partial hT hfit hf (E := E) ws h
    refine ⟨s, e, ?_⟩
    have hlt : ∀ v, T.discr v < 64 * (storageOf inp).words := by
      obtain ⟨W⟩ := wf_of_derive hT hfit
      intro v
      rw [← (serde_facts hT).pref]
      have := W.discr_lt v
      have := W.bw_le
      have := W.lawful.width_le
      omega
    intro v
    rw [hm v]
    simp only [hb, decide_eq_true (hlt v), Bool.true_and]
  · intro h
    rw [hfun] at h
    exact C39_panics hT hfit hf ws h

open scoped Ex in
example := (C50_reads Ex.hL Ex.fitL rfl (E := String) [3#64]).2 (by
  intro h
  obtain ⟨v, hv⟩ := h 1 (by decide)
  revert v
  decide)

namespace Ex
/-- `enum { A, B = 3, C, D = 9 }` (stored and serialized as `u16`) -/
def inpT' : DeriveInput :=
  { inpT with variants := inpT.variants ++ [{ ident := "D", discriminant := some (.lit 9) }] }
/-- `enum { A, B = 64, C = 130, D = 200 }` (stored as `ArrayRepr<4>`) -/
def inpL' : DeriveInput :=
  { variants := inpL.variants ++ [{ ident := "D", discriminant := some (.lit 200) }] }
/-- `enum { A, B = 3, C, D = 9 }` with `serialize_repr = "list"` or `"map"` -/
def inpS' (f : String) : DeriveInput := { inpT' with attrs := { serialize_repr := some f } }
/-- `enum { A, B = 3, C }` with `repr = "u32"`, serialized as `u8` -/
def inpR32 : DeriveInput := { inpT with attrs := { repr := some "u32" } }
def T' : EnumSetType := okOf (derive inpT') ⟨_, rfl⟩
def L' : EnumSetType := okOf (derive inpL') ⟨_, rfl⟩
def S1' : EnumSetType := okOf (derive (inpS' "list")) ⟨_, rfl⟩
def S2' : EnumSetType := okOf (derive (inpS' "map")) ⟨_, rfl⟩
def R32 : EnumSetType := okOf (derive inpR32) ⟨_, rfl⟩
theorem hT' : derive inpT' = .ok T' := okOf_eq _ _
theorem hL' : derive inpL' = .ok L' := okOf_eq _ _
theorem hS1' : derive (inpS' "list") = .ok S1' := okOf_eq _ _
theorem hS2' : derive (inpS' "map") = .ok S2' := okOf_eq _ _
theorem hR32 : derive inpR32 = .ok R32 := okOf_eq _ _
theorem fitT' : Fits T' := by unfold Fits; decide
theorem fitL' : Fits L' := by unfold Fits; decide
theorem fitS1' : Fits S1' := by unfold Fits; decide
theorem fitS2' : Fits S2' := by unfold Fits; decide
theorem fitR32 : Fits R32 := by unfold Fits; decide
/-- `{A, D}` -/
def sAD : EnumSet T' := ⟨⟨0b1000000001#16⟩⟩
def rAD : EnumSet L' := ⟨⟨#v[1#64, 0#64, 0#64, 256#64]⟩⟩
theorem safe_sAD : Safe sAD := .from_iter (l := [⟨0, by decide⟩, ⟨3, by decide⟩]) rfl
theorem safe_rAD : Safe rAD := .from_iter (l := [⟨0, by decide⟩, ⟨3, by decide⟩]) rfl
theorem mem_sAD : Members sAD fun v => v.val == 0 || v.val == 3 := by unfold Members; decide
theorem mem_rAD : Members rAD fun v => v.val == 0 || v.val == 3 := by unfold Members; decide
end Ex

/-! ## C51 A newer version of the enum reads old data

Adding variants (and so possibly another storage, another integer width, more words) keeps old data
readable, for every format. -/

/-- Integers.  The format may become wider (`n` to `m` bits), as it does by default.
`hc` is needed only with `serialize_deny_unknown` (see C40). -/
theorem C51_int [Platform] {inp₁ inp₂ : DeriveInput} {T₁ T₂ : EnumSetType}
    (hT₁ : derive inp₁ = .ok T₁) (hfit₁ : Fits T₁) (hT₂ : derive inp₂ = .ok T₂) (hfit₂ : Fits T₂)
    {n m : NumTy} (hn : n ≠ .usize) (hm : m ≠ .usize) (hf₁ : formatOf inp₁ = .int n.bits)
    (hf₂ : formatOf inp₂ = .int m.bits) (hnm : n.bits ≤ m.bits) (hc : Serde.compiles T₂ = true)
    (f : T₁.Val → T₂.Val) (hf : ∀ v, T₂.discr (f v) = T₁.discr v)
    {s : EnumSet T₁} (hs : Safe s) {A : T₁.Val → Bool} (hA : Members s A) {E : Type} :
    ∃ x t, Serde.serialize s = .ok (.int n x) ∧
      Serde.deserialize (T := T₂) (E := E) (.int m (.ok (x.setWidth m.bits))) = some (.ok (.ok t)) ∧
      (∀ v, t.contains (f v) = .ok (A v)) ∧ ∀ u, (∀ v, f v ≠ u) → t.contains u = .ok false := by
  obtain ⟨W₁⟩ := wf_of_derive hT₁ hfit₁
  obtain ⟨W₂⟩ := wf_of_derive hT₂ hfit₂
  obtain ⟨x, e, hx⟩ := C36_serialize hT₁ hfit₁ hn hf₁ hs hA
  have hbit : ∀ i, (x.setWidth m.bits).getLsbD i = true ↔ DiscrIn A i := by
    intro i
    rw [BitVec.getLsbD_setWidth, Bool.and_eq_true, hx, decide_eq_true_iff]
    refine ⟨fun h => h.2, fun h => ⟨?_, h⟩⟩
    have : x.getLsbD i = true := (hx i).mpr h
    have := BitVec.lt_of_getLsbD this
    omega
  have honly : OnlyVariants T₂ (x.setWidth m.bits).getLsbD := by
    intro i hi
    obtain ⟨v, rfl, -⟩ := (hbit i).mp hi
    exact ⟨f v, hf v⟩
  have key : ∃ t : EnumSet T₂, Serde.deserialize (E := E) (.int m (.ok (x.setWidth m.bits))) =
      some (.ok (.ok t)) ∧ Members t fun v => (x.setWidth m.bits).getLsbD (T₂.discr v) := by
    cases hd : inp₂.attrs.serialize_deny_unknown with
    | false => exact (C36_default hT₂ hfit₂ hm hf₂ hd).2.1 _
    | true => exact (C36_deny_partial hT₂ hfit₂ hm hf₂ hd hc).1 _ honly
  obtain ⟨t, et, ht⟩ := key
  refine ⟨x, t, e, et, fun v => ?_, fun u hu => ?_⟩
  · rw [ht]
    congr 1
    rw [Bool.eq_iff_iff, hbit, hf]
    constructor
    · rintro ⟨w, hw, h⟩; rwa [← W₁.discr_inj hw]
    · intro h; exact ⟨v, rfl, h⟩
  · rw [ht]
    congr 1
    rw [← Bool.not_eq_true, hbit]
    rintro ⟨w, hw, -⟩
    exact hu w (W₂.discr_inj ((hf w).trans hw))

open scoped Ex in
example := C51_int Ex.hT Ex.fitT Ex.hT' Ex.fitT' (n := .u8) (m := .u16) (by decide) (by decide) rfl
  rfl (by decide) rfl (Fin.castLE (m := 4) (by decide)) (by decide) Ex.safe_sAC Ex.mem_sAC
  (E := String)

/-- Arrays; the number of words may differ. -/
theorem C51_array [Platform] {inp₁ inp₂ : DeriveInput} {T₁ T₂ : EnumSetType}
    (hT₁ : derive inp₁ = .ok T₁) (hfit₁ : Fits T₁) (hT₂ : derive inp₂ = .ok T₂) (hfit₂ : Fits T₂)
    (hf₁ : formatOf inp₁ = .array) (hf₂ : formatOf inp₂ = .array)
    (f : T₁.Val → T₂.Val) (hf : ∀ v, T₂.discr (f v) = T₁.discr v)
    {s : EnumSet T₁} (hs : Safe s) {A : T₁.Val → Bool} (hA : Members s A) {E : Type} :
    ∃ ws t, Serde.serialize s = .ok (.words ws) ∧
      Serde.deserialize (T := T₂) (E := E) (.words (ws.map .ok)) = some (.ok (.ok t)) ∧
      (∀ v, t.contains (f v) = .ok (A v)) ∧ ∀ u, (∀ v, f v ≠ u) → t.contains u = .ok false := by
  obtain ⟨W₁⟩ := wf_of_derive hT₁ hfit₁
  obtain ⟨W₂⟩ := wf_of_derive hT₂ hfit₂
  obtain ⟨full, ws, k, -, e, -, hb, -⟩ := C38_serialize hT₁ hfit₁ hf₁ hs hA
  obtain ⟨t, et, ht⟩ := C39_partial hT₂ hfit₂ hf₂ (E := E) ws (by
    intro i hi
    simp only [Bool.and_eq_true] at hi
    obtain ⟨v, rfl, -⟩ := (hb i).mp hi.2
    exact ⟨f v, hf v⟩)
  refine ⟨ws, t, e, et, fun v => ?_, fun u hu => ?_⟩
  · rw [ht]
    congr 1
    rw [Bool.eq_iff_iff, hb, hf]
    constructor
    · rintro ⟨w, hw, h⟩; rwa [← W₁.discr_inj hw]
    · intro h; exact ⟨v, rfl, h⟩
  · rw [ht]
    congr 1
    rw [← Bool.not_eq_true, hb]
    rintro ⟨w, hw, -⟩
    exact hu w (W₂.discr_inj ((hf w).trans hw))

open scoped Ex in
example := C51_array Ex.hL Ex.fitL Ex.hL' Ex.fitL' rfl rfl (Fin.castLE (m := 4) (by decide))
  (by decide) Ex.safe_rAC Ex.mem_rAC (E := String)

/-- Lists and maps, if the variants' own serialization keeps its meaning (`f`). -/
theorem C51_list_map [Platform] {inp₁ inp₂ : DeriveInput} {T₁ T₂ : EnumSetType}
    (hT₁ : derive inp₁ = .ok T₁) (hfit₁ : Fits T₁) (hT₂ : derive inp₂ = .ok T₂) (hfit₂ : Fits T₂)
    (f : T₁.Val → T₂.Val) (hf : ∀ v, T₂.discr (f v) = T₁.discr v)
    {s : EnumSet T₁} (hs : Safe s) {A : T₁.Val → Bool} (hA : Members s A) {E : Type} :
    (formatOf inp₁ = .list → formatOf inp₂ = .list → ∃ k es t, Serde.serialize s = .ok (.seq k es) ∧
      Serde.deserialize (T := T₂) (E := E) (.seq (es.map fun v => .ok (f v))) = some (.ok (.ok t)) ∧
      (∀ v, t.contains (f v) = .ok (A v)) ∧ ∀ u, (∀ v, f v ≠ u) → t.contains u = .ok false) ∧
    (formatOf inp₁ = .map → formatOf inp₂ = .map → ∃ k es t, Serde.serialize s = .ok (.map k es) ∧
      Serde.deserialize (T := T₂) (E := E) (.map (es.map fun x => .ok (f x.1, x.2))) =
        some (.ok (.ok t)) ∧
      (∀ v, t.contains (f v) = .ok (A v)) ∧ ∀ u, (∀ v, f v ≠ u) → t.contains u = .ok false) := by
  obtain ⟨W₁⟩ := wf_of_derive hT₁ hfit₁
  obtain ⟨W₂⟩ := wf_of_derive hT₂ hfit₂
  have hinj : ∀ u v, f u = f v → u = v := fun u v h => W₁.discr_inj (by rw [← hf, ← hf, h])
  constructor
  · intro hf₁ hf₂
    obtain ⟨t, et, ht⟩ := (C37_deserialize_list hT₂ hfit₂ hf₂ (E := E)
      ((sortedMembers T₁.discr A).map f)).1
    rw [List.map_map] at et
    refine ⟨_, _, t, C37_serialize_list hT₁ hfit₁ hf₁ hs hA, et, fun v => ?_, fun u hu => ?_⟩
    · rw [ht]
      congr 1
      rw [Bool.eq_iff_iff, decide_eq_true_iff, List.mem_map]
      constructor
      · rintro ⟨w, hw, h⟩; rw [← hinj _ _ h]; exact (mem_sortedMembers _ _ _).mp hw
      · intro h; exact ⟨v, (mem_sortedMembers _ _ _).mpr h, rfl⟩
    · rw [ht]
      congr 1
      rw [decide_eq_false_iff_not, List.mem_map]
      rintro ⟨w, -, h⟩
      exact hu w h
  · intro hf₁ hf₂
    obtain ⟨t, et, ht⟩ := (C37_deserialize_map hT₂ hfit₂ hf₂ (E := E)
      ((sortedMembers T₁.discr A).map fun v => (f v, true))).1
    refine ⟨_, _, t, C37_serialize_map hT₁ hfit₁ hf₁ hs hA, ?_, fun v => ?_, fun u hu => ?_⟩
    · rw [List.map_map] at et ⊢
      exact et
    · rw [ht]
      congr 1
      rw [Bool.eq_iff_iff, decide_eq_true_iff, List.mem_map]
      constructor
      · rintro ⟨w, hw, h⟩
        rw [← hinj _ _ (congrArg Prod.fst h)]
        exact (mem_sortedMembers _ _ _).mp hw
      · intro h; exact ⟨v, (mem_sortedMembers _ _ _).mpr h, rfl⟩
    · rw [ht]
      congr 1
      rw [decide_eq_false_iff_not, List.mem_map]
      rintro ⟨w, -, h⟩
      exact hu w (congrArg Prod.fst h)

open scoped Ex in
example := (C51_list_map Ex.hS1 Ex.fitS1 Ex.hS1' Ex.fitS1' (Fin.castLE (m := 4) (by decide))
  (by decide) Ex.safe_s1AC Ex.mem_s1AC (E := String)).1 rfl rfl
open scoped Ex in
example := (C51_list_map Ex.hS2 Ex.fitS2 Ex.hS2' Ex.fitS2' (Fin.castLE (m := 4) (by decide))
  (by decide) Ex.safe_s2AC Ex.mem_s2AC (E := String)).2 rfl rfl

/-! ## C52 An older version of the enum reads new data -/

/-- Integers of the same width.  Without `serialize_deny_unknown` the reader keeps the variants it
knows; with it, it fails exactly if the set has a variant the reader does not know. -/
theorem C52_int [Platform] {inp₁ inp₂ : DeriveInput} {T₁ T₂ : EnumSetType}
    (hT₁ : derive inp₁ = .ok T₁) (hfit₁ : Fits T₁) (hT₂ : derive inp₂ = .ok T₂) (hfit₂ : Fits T₂)
    {n : NumTy} (hn : n ≠ .usize) (hf₁ : formatOf inp₁ = .int n.bits)
    (hf₂ : formatOf inp₂ = .int n.bits) (hc : Serde.compiles T₁ = true)
    (f : T₁.Val → T₂.Val) (hf : ∀ v, T₂.discr (f v) = T₁.discr v)
    {s : EnumSet T₂} (hs : Safe s) {B : T₂.Val → Bool} (hB : Members s B) {E : Type} :
    ∃ x, Serde.serialize s = .ok (.int n x) ∧
      ((inp₁.attrs.serialize_deny_unknown = true ∧ ∃ u, B u = true ∧ ∀ v, f v ≠ u) →
        Serde.deserialize (T := T₁) (E := E) (.int n (.ok x)) = some (.ok (.error .unknownBits))) ∧
      (¬ (inp₁.attrs.serialize_deny_unknown = true ∧ ∃ u, B u = true ∧ ∀ v, f v ≠ u) →
        ∃ t : EnumSet T₁, Serde.deserialize (E := E) (.int n (.ok x)) = some (.ok (.ok t)) ∧
          Members t fun v => B (f v)) := by
  obtain ⟨W₂⟩ := wf_of_derive hT₂ hfit₂
  obtain ⟨x, e, hx⟩ := C36_serialize hT₂ hfit₂ hn hf₂ hs hB
  have hmem : (fun v => x.getLsbD (T₁.discr v)) = fun v => B (f v) := by
    funext v
    rw [Bool.eq_iff_iff, hx, ← hf]
    constructor
    · rintro ⟨w, hw, h⟩; rwa [← W₂.discr_inj hw]
    · intro h; exact ⟨f v, rfl, h⟩
  have honly : OnlyVariants T₁ x.getLsbD ↔ ¬ ∃ u, B u = true ∧ ∀ v, f v ≠ u := by
    constructor
    · intro h ⟨u, hu, hne⟩
      obtain ⟨v, hv⟩ := h (T₂.discr u) ((hx _).mpr ⟨u, rfl, hu⟩)
      exact hne v (W₂.discr_inj ((hf v).trans hv))
    · intro h i hi
      obtain ⟨u, rfl, hu⟩ := (hx i).mp hi
      apply Classical.byContradiction
      intro hne
      refine h ⟨u, hu, fun v hv => hne ⟨v, ?_⟩⟩
      rw [← hf, hv]
  refine ⟨x, e, ?_⟩
  cases hd : inp₁.attrs.serialize_deny_unknown with
  | false =>
    refine ⟨fun h => (nomatch h.1), fun _ => ?_⟩
    obtain ⟨t, et, ht⟩ := (C36_default hT₁ hfit₁ hn hf₁ hd (E := E)).2.1 x
    exact ⟨t, et, by rwa [hmem] at ht⟩
  | true =>
    obtain ⟨h1, h2, -⟩ := C36_deny_partial hT₁ hfit₁ hn hf₁ hd hc (E := E)
    refine ⟨fun h => h2 x fun ho => honly.mp ho h.2, fun h => ?_⟩
    obtain ⟨t, et, ht⟩ := h1 x (honly.mpr fun hu => h ⟨rfl, hu⟩)
    exact ⟨t, et, by rwa [hmem] at ht⟩

open scoped Ex in
/-- `{A, D}` of the new version, read by the old one (`serialize_repr = "u16"`): `{A}` -/
example : ∃ x, Serde.serialize Ex.sAD = .ok (.int .u16 x) ∧
    ∃ t : EnumSet Ex.U, Serde.deserialize (E := String) (.int .u16 (.ok x)) = some (.ok (.ok t)) ∧
      Members t fun v => v.val == 0 := by
  obtain ⟨x, e, -, h⟩ := C52_int Ex.hU Ex.fitU Ex.hT' Ex.fitT' (n := .u16) (by decide) rfl rfl rfl
    (Fin.castLE (m := 4) (by decide)) (by decide) Ex.safe_sAD Ex.mem_sAD (E := String)
  obtain ⟨t, et, ht⟩ := h (by rintro ⟨h, -⟩; cases h)
  exact ⟨x, e, t, et, fun v => (ht v).trans (by revert v; decide)⟩
open scoped Ex in
/-- with `serialize_deny_unknown`: an error -/
example : ∃ x, Serde.serialize Ex.sAD = .ok (.int .u16 x) ∧
    Serde.deserialize (T := Ex.D) (E := String) (.int .u16 (.ok x)) =
      some (.ok (.error .unknownBits)) := by
  obtain ⟨x, e, h, -⟩ := C52_int Ex.hD Ex.fitD Ex.hT' Ex.fitT' (n := .u16) (by decide) rfl rfl rfl
    (Fin.castLE (m := 4) (by decide)) (by decide) Ex.safe_sAD Ex.mem_sAD (E := String)
  refine ⟨x, e, h ⟨rfl, (3 : Fin 4), rfl, ?_⟩⟩
  show ∀ v : Fin 3, Fin.castLE (m := 4) _ v ≠ (3 : Fin 4)
  decide

/-- Arrays: the reader panics exactly if the set has a variant the reader does not know within the
words of its storage; variants beyond them are dropped. -/
theorem C52_array [Platform] {inp₁ inp₂ : DeriveInput} {T₁ T₂ : EnumSetType}
    (hT₁ : derive inp₁ = .ok T₁) (hfit₁ : Fits T₁) (hT₂ : derive inp₂ = .ok T₂) (hfit₂ : Fits T₂)
    (hf₁ : formatOf inp₁ = .array) (hf₂ : formatOf inp₂ = .array)
    (f : T₁.Val → T₂.Val) (hf : ∀ v, T₂.discr (f v) = T₁.discr v)
    {s : EnumSet T₂} (hs : Safe s) {B : T₂.Val → Bool} (hB : Members s B) {E : Type} :
    ∃ ws, Serde.serialize s = .ok (.words ws) ∧
      ((∃ u, B u = true ∧ T₂.discr u < 64 * (storageOf inp₁).words ∧ ∀ v, f v ≠ u) →
        Serde.deserialize (T := T₁) (E := E) (.words (ws.map .ok)) =
          some (.panic (.expect "Bitset contains invalid variants."))) ∧
      ((¬ ∃ u, B u = true ∧ T₂.discr u < 64 * (storageOf inp₁).words ∧ ∀ v, f v ≠ u) →
        ∃ t : EnumSet T₁, Serde.deserialize (E := E) (.words (ws.map .ok)) = some (.ok (.ok t)) ∧
          Members t fun v => B (f v)) := by
  obtain ⟨W₂⟩ := wf_of_derive hT₂ hfit₂
  obtain ⟨full, ws, k, -, e, -, hb, -⟩ := C38_serialize hT₂ hfit₂ hf₂ hs hB
  have hmem : (fun v => wbit ws (T₁.discr v)) = fun v => B (f v) := by
    funext v
    rw [Bool.eq_iff_iff, hb, ← hf]
    constructor
    · rintro ⟨w, hw, h⟩; rwa [← W₂.discr_inj hw]
    · intro h; exact ⟨f v, rfl, h⟩
  have honly : (OnlyVariants T₁ fun i => decide (i < 64 * (storageOf inp₁).words) && wbit ws i) ↔
      ¬ ∃ u, B u = true ∧ T₂.discr u < 64 * (storageOf inp₁).words ∧ ∀ v, f v ≠ u := by
    constructor
    · intro h ⟨u, hu, hlt, hne⟩
      obtain ⟨v, hv⟩ := h (T₂.discr u) (by
        simp only [decide_eq_true hlt, Bool.true_and]
        exact (hb _).mpr ⟨u, rfl, hu⟩)
      exact hne v (W₂.discr_inj ((hf v).trans hv))
    · intro h i hi
      simp only [Bool.and_eq_true, decide_eq_true_iff] at hi
      obtain ⟨u, rfl, hu⟩ := (hb i).mp hi.2
      apply Classical.byContradiction
      intro hne
      refine h ⟨u, hu, hi.1, fun v hv => hne ⟨v, ?_⟩⟩
      rw [← hf, hv]
  refine ⟨ws, e, fun h => C39_panics hT₁ hfit₁ hf₁ ws fun ho => honly.mp ho h, fun h => ?_⟩
  obtain ⟨t, et, ht⟩ := C39_partial hT₁ hfit₁ hf₁ (E := E) ws (honly.mpr h)
  exact ⟨t, et, by rwa [hmem] at ht⟩

open scoped Ex in
/-- `D` is beyond the 192 bits of the old version -/
example : ∃ ws, Serde.serialize Ex.rAD = .ok (.words ws) ∧
    ∃ t : EnumSet Ex.L, Serde.deserialize (E := String) (.words (ws.map .ok)) = some (.ok (.ok t)) ∧
      Members t fun v => v.val == 0 := by
  obtain ⟨ws, e, -, h⟩ := C52_array Ex.hL Ex.fitL Ex.hL' Ex.fitL' rfl rfl
    (Fin.castLE (m := 4) (by decide)) (by decide) Ex.safe_rAD Ex.mem_rAD (E := String)
  obtain ⟨t, et, ht⟩ := h (by
    rintro ⟨(u : Fin 4), h, hlt, hne⟩
    have : u ≠ 3 := by rintro rfl; exact absurd hlt (by decide)
    exact hne ⟨u.val, show u.val < 3 by omega⟩ (Fin.ext rfl))
  exact ⟨ws, e, t, et, fun v => (ht v).trans (by revert v; decide)⟩

/-- A list in which each element is read by `g`: all succeed, or there is a first failure. -/
theorem map_except_split {α β E : Type} (g : α → Except E β) (L : List α) :
    (∃ vs : List β, L.map g = vs.map .ok) ∨
    ∃ (vs : List β) (e : E) (rest : List (Except E β)) (u : α),
      u ∈ L ∧ g u = .error e ∧ L.map g = vs.map .ok ++ .error e :: rest := by
  induction L with
  | nil => exact .inl ⟨[], rfl⟩
  | cons a L ih =>
    cases ha : g a with
    | error e => exact .inr ⟨[], e, L.map g, a, List.mem_cons_self, ha, by simp [ha]⟩
    | ok b =>
      rcases ih with ⟨vs, h⟩ | ⟨vs, e, rest, u, hu, hg, h⟩
      · exact .inl ⟨b :: vs, by simp [ha, h]⟩
      · exact .inr ⟨b :: vs, e, rest, u, List.mem_cons_of_mem _ hu, hg, by simp [ha, h]⟩

/-- Lists and maps: the reader's own deserializer of variants (`g`) knows just its own variants
(`hg`).  Reading fails, with an error of that deserializer, exactly if the set has a variant the reader
does not know. -/
theorem C52_list_map [Platform] {inp₁ inp₂ : DeriveInput} {T₁ T₂ : EnumSetType}
    (hT₁ : derive inp₁ = .ok T₁) (hfit₁ : Fits T₁) (hT₂ : derive inp₂ = .ok T₂) (hfit₂ : Fits T₂)
    (f : T₁.Val → T₂.Val) {E : Type} (g : T₂.Val → Except E T₁.Val)
    (hg : ∀ u v, g u = .ok v ↔ f v = u)
    {s : EnumSet T₂} (hs : Safe s) {B : T₂.Val → Bool} (hB : Members s B) :
    (formatOf inp₁ = .list → formatOf inp₂ = .list → ∃ k es, Serde.serialize s = .ok (.seq k es) ∧
      ((∃ u, B u = true ∧ ∀ v, f v ≠ u) → ∃ u e, B u = true ∧ g u = .error e ∧
        Serde.deserialize (T := T₁) (.seq (es.map g)) = some (.ok (.error (.de e)))) ∧
      ((¬ ∃ u, B u = true ∧ ∀ v, f v ≠ u) → ∃ t : EnumSet T₁,
        Serde.deserialize (.seq (es.map g)) = some (.ok (.ok t)) ∧ Members t fun v => B (f v))) ∧
    (formatOf inp₁ = .map → formatOf inp₂ = .map → ∃ k es, Serde.serialize s = .ok (.map k es) ∧
      ((∃ u, B u = true ∧ ∀ v, f v ≠ u) → ∃ u e, B u = true ∧ g u = .error e ∧
        Serde.deserialize (T := T₁) (.map (es.map fun x => (g x.1).map (·, x.2))) =
          some (.ok (.error (.de e)))) ∧
      ((¬ ∃ u, B u = true ∧ ∀ v, f v ≠ u) → ∃ t : EnumSet T₁,
        Serde.deserialize (.map (es.map fun x => (g x.1).map (·, x.2))) = some (.ok (.ok t)) ∧
          Members t fun v => B (f v))) := by
  have hL := map_except_split g (sortedMembers T₂.discr B)
  have hu : ∀ u e, g u = .error e → ∀ v, f v ≠ u := by
    intro u e h v hv
    rw [← hg, h] at hv
    cases hv
  have hk : ∀ u, (∀ v, f v ≠ u) → ∀ v, g u ≠ .ok v := fun u h v hv => h v ((hg u v).mp hv)
  have hall : ∀ vs : List T₁.Val, (sortedMembers T₂.discr B).map g = vs.map .ok →
      (¬ ∃ u, B u = true ∧ ∀ v, f v ≠ u) ∧
      (fun v => decide (v ∈ vs)) = fun v => B (f v) := by
    intro vs h
    have hm : ∀ x, x ∈ (sortedMembers T₂.discr B).map g ↔ x ∈ vs.map Except.ok := by rw [h]; simp
    simp only [List.mem_map, mem_sortedMembers] at hm
    constructor
    · rintro ⟨u, hu, hne⟩
      obtain ⟨v, -, hv⟩ := (hm (g u)).mp ⟨u, hu, rfl⟩
      exact hk u hne v hv.symm
    · funext v
      rw [Bool.eq_iff_iff, decide_eq_true_iff]
      constructor
      · intro hv
        obtain ⟨u, hu, hgu⟩ := (hm (.ok v)).mpr ⟨v, hv, rfl⟩
        rwa [(hg u v).mp hgu]
      · intro hv
        obtain ⟨w, hw, e⟩ := (hm (.ok v)).mp ⟨f v, hv, (hg _ _).mpr rfl⟩
        cases e
        exact hw
  constructor
  · intro hf₁ hf₂
    refine ⟨_, _, C37_serialize_list hT₂ hfit₂ hf₂ hs hB, ?_⟩
    rcases hL with ⟨vs, h⟩ | ⟨vs, e, rest, u, hmem, hge, h⟩
    · obtain ⟨h1, h2⟩ := hall vs h
      refine ⟨fun hu => absurd hu h1, fun _ => ?_⟩
      obtain ⟨t, et, ht⟩ := (C37_deserialize_list hT₁ hfit₁ hf₁ (E := E) vs).1
      exact ⟨t, by rw [h, et], by rwa [h2] at ht⟩
    · have hBu := (mem_sortedMembers _ _ _).mp hmem
      refine ⟨fun _ => ⟨u, e, hBu, hge, ?_⟩, fun hn => absurd ⟨u, hBu, hu u e hge⟩ hn⟩
      rw [h]
      exact (C37_deserialize_list hT₁ hfit₁ hf₁ vs).2 e rest
  · intro hf₁ hf₂
    refine ⟨_, _, C37_serialize_map hT₂ hfit₂ hf₂ hs hB, ?_⟩
    have hmm : ((sortedMembers T₂.discr B).map fun v => (v, true)).map
        (fun x => (g x.1).map (·, x.2)) =
        ((sortedMembers T₂.discr B).map g).map (Except.map (·, true)) := by
      rw [List.map_map, List.map_map]; rfl
    rw [hmm]
    rcases hL with ⟨vs, h⟩ | ⟨vs, e, rest, u, hmem, hge, h⟩
    · obtain ⟨h1, h2⟩ := hall vs h
      refine ⟨fun hu => absurd hu h1, fun _ => ?_⟩
      obtain ⟨t, et, ht⟩ := (C37_deserialize_map hT₁ hfit₁ hf₁ (E := E) (vs.map (·, true))).1
      refine ⟨t, ?_, fun v => ?_⟩
      · rw [h, List.map_map, ← et, List.map_map]
        rfl
      · rw [ht v]
        have := congrFun h2 v
        simp only at this ⊢
        rw [← this]
        simp
    · have hBu := (mem_sortedMembers _ _ _).mp hmem
      refine ⟨fun _ => ⟨u, e, hBu, hge, ?_⟩, fun hn => absurd ⟨u, hBu, hu u e hge⟩ hn⟩
      have := (C37_deserialize_map hT₁ hfit₁ hf₁ (E := E) (vs.map (·, true))).2 e
        (rest.map (Except.map (·, true)))
      rw [h, ← this, List.map_append, List.map_cons, List.map_map, List.map_map]
      rfl

namespace Ex
/-- how the old version reads the new version's variants -/
def readOld (u : S1'.Val) : Except String S1.Val :=
  if h : u.val < 3 then .ok ⟨u.val, h⟩ else .error "unknown variant"
def s1AD : EnumSet S1' := ⟨⟨0b1000000001#16⟩⟩
theorem safe_s1AD : Safe s1AD := .from_iter (l := [⟨0, by decide⟩, ⟨3, by decide⟩]) rfl
theorem mem_s1AD : Members s1AD fun v => v.val == 0 || v.val == 3 := by unfold Members; decide
end Ex

open scoped Ex in
example : ∃ k es, Serde.serialize Ex.s1AD = .ok (.seq k es) ∧
    Serde.deserialize (T := Ex.S1) (.seq (es.map Ex.readOld)) =
      some (.ok (.error (.de "unknown variant"))) := by
  obtain ⟨k, es, e, h, -⟩ := (C52_list_map Ex.hS1 Ex.fitS1 Ex.hS1' Ex.fitS1'
    (Fin.castLE (m := 4) (by decide)) Ex.readOld (by
      intro u v
      unfold Ex.readOld
      constructor
      · intro h
        split at h <;> cases h
        rfl
      · rintro rfl
        exact dif_pos (show v.val < 3 from v.isLt)) Ex.safe_s1AD Ex.mem_s1AD).1 rfl rfl
  obtain ⟨u, e', -, hge, h⟩ := h ⟨(3 : Fin 4), rfl, by
    show ∀ v : Fin 3, Fin.castLE (m := 4) _ v ≠ (3 : Fin 4)
    decide⟩
  refine ⟨k, es, e, ?_⟩
  rw [h]
  unfold Ex.readOld at hge
  split at hge <;> cases hge
  rfl

/-! ## C53 Serialized data does not depend on the storage -/

/-- The same data, for variants that correspond by `f`; arrays may differ in the number of zero words
at the end. -/
def SameData [Target] {V₁ V₂ : Type} (f : V₁ → V₂) : SerValue V₁ → SerValue V₂ → Prop
  | .int n x, .int m y => n = m ∧ x.toNat = y.toNat
  | .seq k es, .seq l fs => k = l ∧ es.map f = fs
  | .map k es, .map l fs => k = l ∧ (es.map fun e => (f e.1, e.2)) = fs
  | .words ws, .words us => ∀ i, ws.getD i 0 = us.getD i 0
  | _, _ => False

/-- Two enums with the same variants and the same serialization format, but possibly different
`repr`: the same set serializes to the same data. -/
theorem C53_same_data [Platform] {inp₁ inp₂ : DeriveInput} {T₁ T₂ : EnumSetType}
    (hT₁ : derive inp₁ = .ok T₁) (hfit₁ : Fits T₁) (hT₂ : derive inp₂ = .ok T₂) (hfit₂ : Fits T₂)
    (hv : inp₁.variants = inp₂.variants) (hfmt : formatOf inp₁ = formatOf inp₂) :
    ∃ f : T₁.Val → T₂.Val, (∀ v, (f v).val = v.val) ∧
      ∀ (s₁ : EnumSet T₁) (s₂ : EnumSet T₂) (A : T₁.Val → Bool), Safe s₁ → Safe s₂ →
        Members s₁ A → (∀ v, s₂.contains (f v) = .ok (A v)) →
        ∃ d₁ d₂, Serde.serialize s₁ = .ok d₁ ∧ Serde.serialize s₂ = .ok d₂ ∧ SameData f d₁ d₂ := by
  obtain ⟨W₁⟩ := wf_of_derive hT₁ hfit₁
  obtain ⟨W₂⟩ := wf_of_derive hT₂ hfit₂
  have c₁ := core_of_derive hT₁
  have c₂ := core_of_derive hT₂
  have hn : T₁.n = T₂.n := by rw [c₁.n_eq, c₂.n_eq, hv]
  have hd : ∀ v, T₂.discr (Fin.cast hn v) = T₁.discr v := by
    intro v
    have h1 := c₁.rustc v
    have h2 := c₂.rustc (Fin.cast hn v)
    rw [← hv, show (Fin.cast hn v).val = v.val from rfl, h1] at h2
    injection h2 with h2
    omega
  refine ⟨Fin.cast hn, fun v => rfl, ?_⟩
  intro s₁ s₂ A hs₁ hs₂ hA hB
  have hB : Members s₂ fun u => A (Fin.cast hn.symm u) := fun u => hB (Fin.cast hn.symm u)
  have hin : ∀ i, DiscrIn (T := T₂) (fun u => A (Fin.cast hn.symm u)) i ↔ DiscrIn A i := by
    intro i
    constructor
    · rintro ⟨u, rfl, hu⟩
      exact ⟨Fin.cast hn.symm u, (hd _).symm, hu⟩
    · rintro ⟨v, rfl, hv⟩
      exact ⟨Fin.cast hn v, hd v, hv⟩
  have hsorted : (sortedMembers T₁.discr A).map (Fin.cast hn) =
      sortedMembers T₂.discr fun u => A (Fin.cast hn.symm u) := by
    apply W₂.asc_ext
    · have := W₁.sortedMembers_asc A
      unfold Ascending at this ⊢
      rw [List.pairwise_map]
      exact this.imp fun h => by rwa [hd, hd]
    · exact W₂.sortedMembers_asc _
    · intro u
      rw [List.mem_map, mem_sortedMembers]
      constructor
      · rintro ⟨v, hv, rfl⟩; exact (mem_sortedMembers _ _ _).mp hv
      · intro hu; exact ⟨Fin.cast hn.symm u, (mem_sortedMembers _ _ _).mpr hu, rfl⟩
  have hcard : card A = card fun u : T₂.Val => A (Fin.cast hn.symm u) := by
    rw [← length_sortedMembers T₁.discr, ← length_sortedMembers T₂.discr, ← hsorted, List.length_map]
  cases hF : formatOf inp₁ with
  | int w =>
    obtain ⟨n, hne, rfl⟩ : ∃ n : NumTy, n ≠ .usize ∧ w = n.bits := by
      have := (serde_facts hT₁).format
      rw [hF] at this
      cases hr : T₁.serde <;> rw [hr] at this <;> simp [SerdeRepr.format] at this
      · exact ⟨.u8, by decide, this⟩
      · exact ⟨.u16, by decide, this⟩
      · exact ⟨.u32, by decide, this⟩
      · exact ⟨.u64, by decide, this⟩
      · exact ⟨.u128, by decide, this⟩
    obtain ⟨x, e₁, hx⟩ := C36_serialize hT₁ hfit₁ hne hF hs₁ hA
    obtain ⟨y, e₂, hy⟩ := C36_serialize hT₂ hfit₂ hne (hfmt.symm.trans hF) hs₂ hB
    refine ⟨_, _, e₁, e₂, rfl, congrArg BitVec.toNat (BitVec.eq_of_getLsbD_eq fun i _ => ?_)⟩
    rw [Bool.eq_iff_iff, hx, hy, hin]
  | list =>
    refine ⟨_, _, C37_serialize_list hT₁ hfit₁ hF hs₁ hA,
      C37_serialize_list hT₂ hfit₂ (hfmt.symm.trans hF) hs₂ hB, hcard, hsorted⟩
  | map =>
    refine ⟨_, _, C37_serialize_map hT₁ hfit₁ hF hs₁ hA,
      C37_serialize_map hT₂ hfit₂ (hfmt.symm.trans hF) hs₂ hB, hcard, ?_⟩
    rw [← hsorted, List.map_map, List.map_map]
    rfl
  | array =>
    obtain ⟨-, ws, -, -, e₁, -, h₁, -⟩ := C38_serialize hT₁ hfit₁ hF hs₁ hA
    obtain ⟨-, us, -, -, e₂, -, h₂, -⟩ := C38_serialize hT₂ hfit₂ (hfmt.symm.trans hF) hs₂ hB
    refine ⟨_, _, e₁, e₂, fun i => BitVec.eq_of_getLsbD_eq fun j hj => ?_⟩
    have key : wbit ws (64 * i + j) = wbit us (64 * i + j) := by
      rw [Bool.eq_iff_iff, h₁, h₂, hin]
    unfold wbit at key
    rwa [show (64 * i + j) / 64 = i by omega, show (64 * i + j) % 64 = j by omega] at key

open scoped Ex in
example := C53_same_data Ex.hT Ex.fitT Ex.hR32 Ex.fitR32 rfl rfl

end Enumset
