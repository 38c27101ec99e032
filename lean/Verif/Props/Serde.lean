import Verif.StorageLemmas
import Verif.SerdeLemmas
import Verif.Props.Conv
/-!
# Properties C36–C40, C46: serialization

`Serde.serialize s` is what the generated code hands to the serializer (`SerValue`),
`Serde.deserialize i` what it makes of the data `i` (`DeInput`) a deserializer yields: `none` if the
data has a form the generated code does not ask for, else the outcome, which is a set, an error
returned to the caller, or a panic.  `SerValue.read` turns what was serialized into the data a lossless
format yields back.

`Serde.compiles T` says whether the generated code is well typed; C40 shows for which inputs of the
derive macro it is not.
-/
set_option autoImplicit false
set_option linter.unusedSectionVars false

namespace Enumset

open EnumSetTypeRepr (PREFERRED_ARRAY_LEN)

section helpers

variable [Platform] {T : EnumSetType}

theorem numTy_of_format {r : SerdeRepr} {n : NumTy} (hn : n ≠ .usize)
    (h : r.format = .int n.bits) : r.numTy = some n := by
  cases r <;> cases n <;> simp [SerdeRepr.format, NumTy.bits, SerdeRepr.numTy] at h hn ⊢

theorem serialize_num {n : NumTy} (h : T.serde.numTy = some n) (s : EnumSet T) :
    Serde.serialize s = Serde.serializeInt n s := by
  unfold Serde.serialize
  cases hr : T.serde <;> rw [hr] at h <;> simp [SerdeRepr.numTy] at h <;> subst h <;> rfl

theorem deserialize_num {E : Type} {n : NumTy} (h : T.serde.numTy = some n)
    (x : Except E (BitVec n.bits)) :
    Serde.deserialize (T := T) (.int n x) = some (Serde.deserializeInt n x) := by
  unfold Serde.deserialize
  cases hr : T.serde <;> rw [hr] at h <;> simp [SerdeRepr.numTy] at h <;> subst h <;> rfl

theorem format_list {r : SerdeRepr} (h : r.format = .list) : r = .list := by
  cases r <;> simp [SerdeRepr.format] at h ⊢
theorem format_map {r : SerdeRepr} (h : r.format = .map) : r = .map := by
  cases r <;> simp [SerdeRepr.format] at h ⊢
theorem format_array {r : SerdeRepr} (h : r.format = .array) : r = .array := by
  cases r <;> simp [SerdeRepr.format] at h ⊢

/-- What the serde part of a derived type looks like. -/
structure SerdeFacts (inp : DeriveInput) (T : EnumSetType) : Prop where
  format : formatOf inp = T.serde.format
  deny : T.deny = inp.attrs.serialize_deny_unknown
  lit : T.allLit.isSome = true ↔ ∃ w, storageOf inp = .int w
  pref : PREFERRED_ARRAY_LEN T.Repr = (storageOf inp).words

theorem serde_facts {inp : DeriveInput} (hT : derive inp = .ok T) : SerdeFacts inp T := by
  obtain ⟨info, hok, hs, hst, hf⟩ := derive_storage hT
  refine ⟨hf, ?_, ?_, ?_⟩
  · rw [← hok.deny]; cases hs <;> rfl
  · rw [hst]
    cases hs with
    | prim w pal lit hr discr hd hl =>
      rw [primOf_storage hr]
      exact ⟨fun _ => ⟨w, rfl⟩, fun _ => rfl⟩
    | array size hr all discr hd hl =>
      rw [hr]
      constructor
      · intro h; cases h
      · rintro ⟨w, h⟩; cases h
  · rw [hst]
    cases hs with
    | prim w pal lit hr discr hd hl =>
      cases hi : info.internal_repr <;> rw [hi] at hr <;> simp [primOf] at hr <;>
        obtain ⟨rfl, rfl⟩ := hr <;> rfl
    | array size hr all discr hd hl => rw [hr]; rfl

theorem WF.mask_members (W : WF T) {s : EnumSet T} {p : Nat → Bool}
    (h : ∀ i, W.bit s i = (p i && W.bit EnumSet.ALL_REPR i)) : Members s fun v => p (T.discr v) := by
  refine W.members_of_bits fun v => ?_
  rw [h, show W.bit EnumSet.ALL_REPR (T.discr v) = true from W.mem_all v, Bool.and_true]

/-- A clean set whose bits agree with those of a safe set is that set. -/
theorem WF.ext_members (W : WF T) {a b : EnumSet T} (ha : Safe a) (hb : W.Clean b)
    {A : T.Val → Bool} (hA : Members a A) (hB : Members b A) : b = a := by
  apply W.ext
  intro i
  have h1 := W.bit_eq_mem (W.clean_of_safe ha) hA i
  have h2 := W.bit_eq_mem hb hB i
  rw [Bool.eq_iff_iff, h1, h2]

theorem onlyVariants_pad (P : Nat) (ws : List U64) :
    OnlyVariants T (wbit (WF.padded P ws).toList) ↔
      OnlyVariants T fun i => decide (i < 64 * P) && wbit ws i := by
  unfold OnlyVariants
  simp only [WF.wbit_padded]

end helpers

/-! ## C36 Integer serialization

`n` is `u8`, `u16`, `u32`, `u64` or `u128`; `formatOf inp = .int n.bits` says that the set is
serialized as such an integer (by `serialize_repr` or by default). -/

/-- The serialized integer is the bitmask. -/
theorem C36_serialize [Platform] {inp : DeriveInput} {T : EnumSetType} (hT : derive inp = .ok T)
    (hfit : Fits T) {n : NumTy} (hn : n ≠ .usize) (hf : formatOf inp = .int n.bits)
    {s : EnumSet T} (hs : Safe s) {A : T.Val → Bool} (hA : Members s A) :
    ∃ x, Serde.serialize s = .ok (.int n x) ∧ ∀ i, x.getLsbD i = true ↔ DiscrIn A i := by
  obtain ⟨W⟩ := wf_of_derive hT hfit
  have F := serde_facts hT
  have hr := numTy_of_format hn (F.format.symm.trans hf)
  obtain ⟨x, e, hx⟩ := W.serializeInt_ok n s
  refine ⟨x, (serialize_num hr s).trans e, fun i => ?_⟩
  rw [hx, Bool.and_eq_true, decide_eq_true_iff, W.discrIn hs hA]
  refine ⟨fun h => h.2, fun h => ⟨?_, h⟩⟩
  obtain ⟨v, rfl, -⟩ := h
  have := W.discr_lt v
  have := W.serde_fits _ (supported_numTy hr)
  omega

open scoped Ex in
example : ∃ x, Serde.serialize Ex.sAC = .ok (.int .u8 x) ∧
    ∀ i, x.getLsbD i = true ↔ DiscrIn (fun v => v != Ex.tB) i :=
  C36_serialize Ex.hT Ex.fitT (by decide) rfl Ex.safe_sAC Ex.mem_sAC

/-- Without `serialize_deny_unknown` every integer is accepted; unknown bits are dropped, known bits
kept.  An error of the deserializer is passed on. -/
theorem C36_default [Platform] {inp : DeriveInput} {T : EnumSetType} (hT : derive inp = .ok T)
    (hfit : Fits T) {n : NumTy} (hn : n ≠ .usize) (hf : formatOf inp = .int n.bits)
    (hd : inp.attrs.serialize_deny_unknown = false) {E : Type} :
    Serde.compiles T = true ∧
    (∀ x, ∃ s : EnumSet T, Serde.deserialize (E := E) (.int n (.ok x)) = some (.ok (.ok s)) ∧
      Members s fun v => x.getLsbD (T.discr v)) ∧
    (∀ e : E, Serde.deserialize (T := T) (.int n (.error e)) = some (.ok (.error (.de e)))) := by
  obtain ⟨W⟩ := wf_of_derive hT hfit
  have F := serde_facts hT
  have hr := numTy_of_format hn (F.format.symm.trans hf)
  have hdeny : T.deny = false := F.deny.trans hd
  refine ⟨by unfold Serde.compiles; rw [hdeny], ?_, ?_⟩
  · intro x
    obtain ⟨s, e, h⟩ := W.deserializeInt_keep (E := E) n x (by simp [hdeny])
    exact ⟨s, by rw [deserialize_num hr, e], W.mask_members h⟩
  · intro e
    rw [deserialize_num hr]
    rfl

namespace Ex
/-- `enum { A, B = 3, C }` with `serialize_repr = "u16"` -/
def inpU : DeriveInput := { inpT with attrs := { serialize_repr := some "u16" } }
/-- the same with `serialize_deny_unknown` -/
def inpD : DeriveInput :=
  { inpT with attrs := { serialize_repr := some "u16", serialize_deny_unknown := true } }
@[instance_reducible] def U : EnumSetType := okOf (derive inpU) ⟨_, rfl⟩
@[instance_reducible] def D : EnumSetType := okOf (derive inpD) ⟨_, rfl⟩
theorem hU : derive inpU = .ok U := okOf_eq _ _
theorem hD : derive inpD = .ok D := okOf_eq _ _
theorem fitU : Fits U := by unfold Fits; decide
theorem fitD : Fits D := by unfold Fits; decide
end Ex

open scoped Ex in
example := C36_default Ex.hU Ex.fitU (n := .u16) (by decide) rfl rfl (E := String)

/-- With `serialize_deny_unknown` deserialization fails exactly if an unknown bit is set.

Missing from the full property: the hypothesis `hc` (the generated code is well typed) is not
automatic; see `C36_fails` and `C40_compiles`. -/
theorem C36_deny_partial [Platform] {inp : DeriveInput} {T : EnumSetType} (hT : derive inp = .ok T)
    (hfit : Fits T) {n : NumTy} (hn : n ≠ .usize) (hf : formatOf inp = .int n.bits)
    (hd : inp.attrs.serialize_deny_unknown = true) (hc : Serde.compiles T = true) {E : Type} :
    (∀ x, OnlyVariants T x.getLsbD →
      ∃ s : EnumSet T, Serde.deserialize (E := E) (.int n (.ok x)) = some (.ok (.ok s)) ∧
      Members s fun v => x.getLsbD (T.discr v)) ∧
    (∀ x, ¬ OnlyVariants T x.getLsbD →
      Serde.deserialize (T := T) (E := E) (.int n (.ok x)) = some (.ok (.error .unknownBits))) ∧
    (∀ e : E, Serde.deserialize (T := T) (.int n (.error e)) = some (.ok (.error (.de e)))) := by
  obtain ⟨W⟩ := wf_of_derive hT hfit
  have F := serde_facts hT
  have hr := numTy_of_format hn (F.format.symm.trans hf)
  have hdeny : T.deny = true := F.deny.trans hd
  obtain ⟨lit, hl⟩ : ∃ lit, T.allLit = some lit := by
    apply Option.isSome_iff_exists.mp
    unfold Serde.compiles at hc
    rw [hdeny] at hc
    cases h : T.serde <;> rw [h] at hc hr <;> first | exact hc | cases hr | cases hc
  refine ⟨?_, ?_, ?_⟩
  · intro x hx
    have hu := W.unknown_iff n x hl
    obtain ⟨s, e, h⟩ := W.deserializeInt_keep (E := E) n x (by
      rintro ⟨-, h⟩; exact hu.mp h hx)
    exact ⟨s, by rw [deserialize_num hr, e], W.mask_members h⟩
  · intro x hx
    rw [deserialize_num hr]
    unfold Serde.deserializeInt
    simp only
    rw [if_pos ⟨hdeny, (W.unknown_iff n x hl).mpr hx⟩]
  · intro e
    rw [deserialize_num hr]
    rfl

open scoped Ex in
example := C36_deny_partial Ex.hD Ex.fitD (n := .u16) (by decide) rfl rfl rfl (E := String)
open scoped Ex in
example : Serde.deserialize (T := Ex.D) (E := String) (.int .u16 (.ok 0b100010#16)) =
    some (.ok (.error .unknownBits)) := rfl

/-- Deserializing what was serialized gives the set back.

Missing from the full property: the hypothesis `hc`, see `C36_fails`. -/
theorem C36_round_trip_partial [Platform] {inp : DeriveInput} {T : EnumSetType}
    (hT : derive inp = .ok T) (hfit : Fits T) {n : NumTy} (hn : n ≠ .usize)
    (hf : formatOf inp = .int n.bits) (hc : Serde.compiles T = true)
    {s : EnumSet T} (hs : Safe s) {E : Type} :
    ∃ v, Serde.serialize s = .ok v ∧
      Serde.deserialize (E := E) (Serde.SerValue.read v) = some (.ok (.ok s)) := by
  obtain ⟨W⟩ := wf_of_derive hT hfit
  have hA := W.members_self s
  obtain ⟨x, e, hx⟩ := C36_serialize hT hfit hn hf hs hA
  refine ⟨_, e, ?_⟩
  have key : ∃ s', Serde.deserialize (E := E) (.int n (.ok x)) = some (.ok (.ok s')) ∧
      Members s' fun v => x.getLsbD (T.discr v) := by
    cases hd : inp.attrs.serialize_deny_unknown with
    | false => exact (C36_default hT hfit hn hf hd).2.1 x
    | true =>
      refine (C36_deny_partial hT hfit hn hf hd hc).1 x ?_
      intro i hi
      obtain ⟨v, hv, -⟩ := (hx i).mp hi
      exact ⟨v, hv⟩
  obtain ⟨s', e', h'⟩ := key
  have hcl : W.Clean s' := W.clean_of_safe (.deserialize e')
  have : s' = s := by
    apply W.ext_members hs hcl hA
    intro v
    rw [h' v]
    congr 1
    rw [Bool.eq_iff_iff, hx]
    constructor
    · rintro ⟨u, hu, hm⟩
      rwa [← W.discr_inj hu]
    · intro h
      exact ⟨v, rfl, h⟩
  rw [this] at e'
  exact e'

open scoped Ex in
example := C36_round_trip_partial Ex.hT Ex.fitT (n := .u8) (by decide) rfl rfl Ex.safe_sAC
  (E := String)

/-! ## C37 List and map serialization -/

theorem C37_serialize_list [Platform] {inp : DeriveInput} {T : EnumSetType} (hT : derive inp = .ok T)
    (hfit : Fits T) (hf : formatOf inp = .list) {s : EnumSet T} (hs : Safe s) {A : T.Val → Bool}
    (hA : Members s A) :
    Serde.serialize s = .ok (.seq (card A) (sortedMembers T.discr A)) := by
  obtain ⟨W⟩ := wf_of_derive hT hfit
  unfold Serde.serialize
  rw [format_list ((serde_facts hT).format.symm.trans hf)]
  simp only
  rw [W.serializeList_ok (W.clean_of_safe hs), W.mem_funext hA, ← W.sortedMembers_eq,
    length_sortedMembers]

theorem C37_serialize_map [Platform] {inp : DeriveInput} {T : EnumSetType} (hT : derive inp = .ok T)
    (hfit : Fits T) (hf : formatOf inp = .map) {s : EnumSet T} (hs : Safe s) {A : T.Val → Bool}
    (hA : Members s A) :
    Serde.serialize s =
      .ok (.map (card A) ((sortedMembers T.discr A).map fun v => (v, true))) := by
  obtain ⟨W⟩ := wf_of_derive hT hfit
  unfold Serde.serialize
  rw [format_map ((serde_facts hT).format.symm.trans hf)]
  simp only
  rw [W.serializeMap_ok (W.clean_of_safe hs), W.mem_funext hA, ← W.sortedMembers_eq,
    length_sortedMembers]

/-- The set holds exactly the listed variants (`v ∈ vs` mentions neither order nor repetition).  The
first error among the items is passed on, whatever follows it. -/
theorem C37_deserialize_list [Platform] {inp : DeriveInput} {T : EnumSetType}
    (hT : derive inp = .ok T) (hfit : Fits T) (hf : formatOf inp = .list) {E : Type}
    (vs : List T.Val) :
    (∃ s : EnumSet T, Serde.deserialize (E := E) (.seq (vs.map .ok)) = some (.ok (.ok s)) ∧
      Members s fun v => decide (v ∈ vs)) ∧
    (∀ (e : E) rest, Serde.deserialize (T := T) (.seq (vs.map .ok ++ .error e :: rest)) =
      some (.ok (.error (.de e)))) := by
  obtain ⟨W⟩ := wf_of_derive hT hfit
  have hr := format_list ((serde_facts hT).format.symm.trans hf)
  have hd : ∀ items : List (Except E T.Val), Serde.deserialize (.seq items) =
      some (Serde.deserializeList items) := by
    intro items; unfold Serde.deserialize; rw [hr]
  constructor
  · obtain ⟨s, e, h⟩ := W.deserializeList_ok (E := E) vs
    refine ⟨s, by rw [hd, e], W.members_of_bits fun v => ?_⟩
    rw [Bool.eq_iff_iff, h, decide_eq_true_iff]
    constructor
    · rintro ⟨u, hu, e⟩; rwa [← W.discr_inj e]
    · intro h; exact ⟨v, h, rfl⟩
  · intro e rest
    rw [hd, W.deserializeList_err]

theorem C37_deserialize_map [Platform] {inp : DeriveInput} {T : EnumSetType}
    (hT : derive inp = .ok T) (hfit : Fits T) (hf : formatOf inp = .map) {E : Type}
    (es : List (T.Val × Bool)) :
    (∃ s : EnumSet T, Serde.deserialize (E := E) (.map (es.map .ok)) = some (.ok (.ok s)) ∧
      Members s fun v => decide ((v, true) ∈ es)) ∧
    (∀ (e : E) rest, Serde.deserialize (T := T) (.map (es.map .ok ++ .error e :: rest)) =
      some (.ok (.error (.de e)))) := by
  obtain ⟨W⟩ := wf_of_derive hT hfit
  have hr := format_map ((serde_facts hT).format.symm.trans hf)
  have hd : ∀ items : List (Except E (T.Val × Bool)), Serde.deserialize (.map items) =
      some (Serde.deserializeMap items) := by
    intro items; unfold Serde.deserialize; rw [hr]
  constructor
  · obtain ⟨s, e, h⟩ := W.deserializeMap_ok (E := E) es
    refine ⟨s, by rw [hd, e], W.members_of_bits fun v => ?_⟩
    rw [Bool.eq_iff_iff, h, decide_eq_true_iff]
    constructor
    · rintro ⟨u, hu, e⟩; rwa [← W.discr_inj e]
    · intro h; exact ⟨v, h, rfl⟩
  · intro e rest
    rw [hd, W.deserializeMap_err]

/-- Order and repetition of the items do not matter. -/
theorem C37_order [Platform] {inp : DeriveInput} {T : EnumSetType}
    (hT : derive inp = .ok T) (hfit : Fits T) {E : Type} :
    (formatOf inp = .list → ∀ vs ws : List T.Val, (∀ v, v ∈ vs ↔ v ∈ ws) →
      Serde.deserialize (T := T) (E := E) (.seq (vs.map .ok)) =
        Serde.deserialize (T := T) (E := E) (.seq (ws.map .ok))) ∧
    (formatOf inp = .map → ∀ vs ws : List (T.Val × Bool), (∀ v, (v, true) ∈ vs ↔ (v, true) ∈ ws) →
      Serde.deserialize (T := T) (E := E) (.map (vs.map .ok)) =
        Serde.deserialize (T := T) (E := E) (.map (ws.map .ok))) := by
  obtain ⟨W⟩ := wf_of_derive hT hfit
  constructor
  · intro hf vs ws h
    obtain ⟨s, e, hm⟩ := (C37_deserialize_list hT hfit hf (E := E) vs).1
    obtain ⟨s', e', hm'⟩ := (C37_deserialize_list hT hfit hf (E := E) ws).1
    have : s' = s := W.ext_members (.deserialize e) (W.clean_of_safe (.deserialize e')) hm (by
      intro v; rw [hm' v]; simp only [h])
    rw [e, e', this]
  · intro hf vs ws h
    obtain ⟨s, e, hm⟩ := (C37_deserialize_map hT hfit hf (E := E) vs).1
    obtain ⟨s', e', hm'⟩ := (C37_deserialize_map hT hfit hf (E := E) ws).1
    have : s' = s := W.ext_members (.deserialize e) (W.clean_of_safe (.deserialize e')) hm (by
      intro v; rw [hm' v]; simp only [h])
    rw [e, e', this]

theorem C37_round_trip [Platform] {inp : DeriveInput} {T : EnumSetType}
    (hT : derive inp = .ok T) (hfit : Fits T) (hf : formatOf inp = .list ∨ formatOf inp = .map)
    {s : EnumSet T} (hs : Safe s) {E : Type} :
    ∃ v, Serde.serialize s = .ok v ∧
      Serde.deserialize (E := E) (Serde.SerValue.read v) = some (.ok (.ok s)) := by
  obtain ⟨W⟩ := wf_of_derive hT hfit
  have hA := W.members_self s
  rcases hf with hf | hf
  · refine ⟨_, C37_serialize_list hT hfit hf hs hA, ?_⟩
    obtain ⟨s', e, hm⟩ := (C37_deserialize_list hT hfit hf (E := E)
      (sortedMembers T.discr (W.mem s))).1
    have : s' = s := W.ext_members hs (W.clean_of_safe (.deserialize e)) hA (by
      intro v; rw [hm v]; simp only [mem_sortedMembers, Bool.decide_eq_true])
    rw [this] at e
    exact e
  · refine ⟨_, C37_serialize_map hT hfit hf hs hA, ?_⟩
    obtain ⟨s', e, hm⟩ := (C37_deserialize_map hT hfit hf (E := E)
      ((sortedMembers T.discr (W.mem s)).map fun v => (v, true))).1
    have : s' = s := W.ext_members hs (W.clean_of_safe (.deserialize e)) hA (by
      intro v; rw [hm v]; simp [mem_sortedMembers])
    rw [this] at e
    exact e

namespace Ex
/-- `enum { A, B = 3, C }` with `serialize_repr = "list"`, `"map"`, `"array"` -/
def inpS (f : String) : DeriveInput := { inpT with attrs := { serialize_repr := some f } }
@[instance_reducible] def S1 : EnumSetType := okOf (derive (inpS "list")) ⟨_, rfl⟩
@[instance_reducible] def S2 : EnumSetType := okOf (derive (inpS "map")) ⟨_, rfl⟩
@[instance_reducible] def S3 : EnumSetType := okOf (derive (inpS "array")) ⟨_, rfl⟩
theorem hS1 : derive (inpS "list") = .ok S1 := okOf_eq _ _
theorem hS2 : derive (inpS "map") = .ok S2 := okOf_eq _ _
theorem hS3 : derive (inpS "array") = .ok S3 := okOf_eq _ _
theorem fitS1 : Fits S1 := by unfold Fits; decide
theorem fitS2 : Fits S2 := by unfold Fits; decide
theorem fitS3 : Fits S3 := by unfold Fits; decide
/-- `{A, C}` -/
def s1AC : EnumSet S1 := ⟨⟨0b10001#8⟩⟩
def s2AC : EnumSet S2 := ⟨⟨0b10001#8⟩⟩
theorem safe_s1AC : Safe s1AC := .from_iter (l := [⟨0, by decide⟩, ⟨2, by decide⟩]) rfl
theorem safe_s2AC : Safe s2AC := .from_iter (l := [⟨0, by decide⟩, ⟨2, by decide⟩]) rfl
theorem mem_s1AC : Members s1AC fun v => v != ⟨1, by decide⟩ := by unfold Members; decide
theorem mem_s2AC : Members s2AC fun v => v != ⟨1, by decide⟩ := by unfold Members; decide
end Ex

open scoped Ex in
example := C37_serialize_list Ex.hS1 Ex.fitS1 rfl Ex.safe_s1AC Ex.mem_s1AC
open scoped Ex in
example := C37_serialize_map Ex.hS2 Ex.fitS2 rfl Ex.safe_s2AC Ex.mem_s2AC
open scoped Ex in
example := C37_deserialize_list Ex.hS1 Ex.fitS1 rfl (E := String)
  [⟨2, by decide⟩, ⟨0, by decide⟩, ⟨2, by decide⟩]
open scoped Ex in
example := C37_deserialize_map Ex.hS2 Ex.fitS2 rfl (E := String)
  [(⟨2, by decide⟩, false), (⟨0, by decide⟩, true)]
open scoped Ex in
example := (C37_order Ex.hS1 Ex.fitS1 (E := String)).1 rfl
  [⟨2, by decide⟩, ⟨0, by decide⟩, ⟨2, by decide⟩] [⟨0, by decide⟩, ⟨2, by decide⟩] (by decide)
open scoped Ex in
example := C37_round_trip Ex.hS1 Ex.fitS1 (.inl rfl) Ex.safe_s1AC (E := String)
open scoped Ex in
example := C37_round_trip Ex.hS2 Ex.fitS2 (.inr rfl) Ex.safe_s2AC (E := String)

/-! ## C38 Array serialization round trip

`(storageOf inp).words` is the number of 64-bit words of the storage.  With `serialize_deny_unknown`
the generated deserializer does not compile (C40); the statements about `Serde.deserialize` in C38 and
C39 are about the code generated without it. -/

/-- The serialized words are the array form of the set with some zero words cut off at its end (all
but at most one of them). -/
theorem C38_serialize [Platform] {inp : DeriveInput} {T : EnumSetType} (hT : derive inp = .ok T)
    (hfit : Fits T) (hf : formatOf inp = .array) {s : EnumSet T} (hs : Safe s) {A : T.Val → Bool}
    (hA : Members s A) :
    ∃ (full : Vector U64 (storageOf inp).words) (ws : List U64) (k : Nat),
      s.as_array _ = .ok full ∧ Serde.serialize s = .ok (.words ws) ∧
      full.toList = ws ++ List.replicate k 0 ∧ (∀ i, wbit ws i = true ↔ DiscrIn A i) ∧
      ∀ p, ws ≠ p ++ [0, 0] := by
  obtain ⟨W⟩ := wf_of_derive hT hfit
  have F := serde_facts hT
  rw [← F.pref]
  obtain ⟨x, stop, e, ea, -, et, hle, hb⟩ := W.serializeArray_ok s
  obtain ⟨stop', et', -, hz, -, hmin⟩ := WF.trimLoop_ok W.pref_lt x
  rw [et] at et'
  injection et' with et'
  subst et'
  refine ⟨x, x.toList.take stop, PREFERRED_ARRAY_LEN T.Repr - stop, ea, ?_, ?_, ?_, ?_⟩
  · unfold Serde.serialize
    rw [format_array (F.format.symm.trans hf)]
    exact e
  · conv => lhs; rw [← List.take_append_drop stop x.toList]
    congr 1
    apply List.ext_getElem
    · simp
    · intro j h1 h2
      simp only [List.length_drop, Vector.length_toList] at h1
      simp only [List.getElem_drop, List.getElem_replicate, Vector.getElem_toList]
      exact hz _ (by omega) (by omega)
  · intro i
    rw [hb, W.discrIn hs hA]
  · intro p hp
    have hlen : p.length + 2 = stop := by
      have := congrArg List.length hp
      simp at this
      omega
    have hget : ∀ j (hj : j < PREFERRED_ARRAY_LEN T.Repr), j < stop →
        x[j] = (p ++ [0, 0]).getD j 0 := by
      intro j hj hjs
      rw [← hp]
      simp [List.getD, hjs, hj]
    have h0 := hget p.length (by omega) (by omega)
    have h1 := hget (p.length + 1) (by omega) (by omega)
    simp [List.getD] at h0 h1
    refine hmin p.length (by omega) (by omega) ?_ h0
    intro j hj hlt
    by_cases hc : j = p.length + 1
    · subst hc; exact h1
    · exact hz j hj (by omega)

open scoped Ex in
example := C38_serialize Ex.hL Ex.fitL rfl Ex.safe_rB Ex.mem_rB

/-- Any sequence of words whose bits are the discriminants of the members denotes the set, however
many zero words it ends with or lacks. -/
theorem C38_deserialize [Platform] {inp : DeriveInput} {T : EnumSetType} (hT : derive inp = .ok T)
    (hfit : Fits T) (hf : formatOf inp = .array)
    {s : EnumSet T} (hs : Safe s) {A : T.Val → Bool}
    (hA : Members s A) {E : Type} (ws : List U64) (hw : ∀ i, wbit ws i = true ↔ DiscrIn A i) :
    Serde.deserialize (E := E) (.words (ws.map .ok)) = some (.ok (.ok s)) := by
  obtain ⟨W⟩ := wf_of_derive hT hfit
  have F := serde_facts hT
  have hd : Serde.deserialize (T := T) (E := E) (.words (ws.map .ok)) =
      some (Serde.deserializeArray (ws.map .ok)) := by
    unfold Serde.deserialize; rw [format_array (F.format.symm.trans hf)]
  have hlt : ∀ v, T.discr v < 64 * PREFERRED_ARRAY_LEN T.Repr := by
    intro v
    have := W.discr_lt v
    have := W.bw_le
    have := W.lawful.width_le
    omega
  obtain ⟨s', e, h⟩ := (W.deserializeArray_ok (E := E) ws).1 (by
    rw [onlyVariants_pad]
    intro i hi
    simp only [Bool.and_eq_true] at hi
    obtain ⟨v, hv, -⟩ := (hw i).mp hi.2
    exact ⟨v, hv⟩)
  rw [e] at hd
  have : s' = s := by
    apply W.ext_members hs (W.clean_of_safe (.deserialize hd)) hA
    refine W.members_of_bits fun v => ?_
    rw [h, decide_eq_true (hlt v), Bool.true_and, Bool.eq_iff_iff, hw]
    constructor
    · rintro ⟨u, hu, hm⟩; rwa [← W.discr_inj hu]
    · intro h; exact ⟨v, rfl, h⟩
  rw [this] at hd
  exact hd

open scoped Ex in
example : Serde.deserialize (E := String) (.words ([0#64, 1#64].map .ok)) =
    some (.ok (.ok Ex.rB)) := by
  refine C38_deserialize Ex.hL Ex.fitL rfl Ex.safe_rB Ex.mem_rB [0#64, 1#64] ?_
  intro i
  unfold DiscrIn
  by_cases hi : i < 128
  · revert i
    decide +kernel
  · unfold wbit
    rw [List.getD, List.getElem?_eq_none (by simp; omega)]
    simp
    intro hv
    have : Ex.L.discr Ex.lB = 64 := rfl
    omega

theorem C38_round_trip [Platform] {inp : DeriveInput} {T : EnumSetType} (hT : derive inp = .ok T)
    (hfit : Fits T) (hf : formatOf inp = .array)
    {s : EnumSet T} (hs : Safe s) {E : Type} :
    ∃ v, Serde.serialize s = .ok v ∧
      Serde.deserialize (E := E) (Serde.SerValue.read v) = some (.ok (.ok s)) := by
  obtain ⟨W⟩ := wf_of_derive hT hfit
  have hA := W.members_self s
  obtain ⟨full, ws, k, -, e, -, hb, -⟩ := C38_serialize hT hfit hf hs hA
  exact ⟨_, e, C38_deserialize hT hfit hf hs hA ws hb⟩

open scoped Ex in
example := C38_round_trip Ex.hL Ex.fitL rfl Ex.safe_rAC (E := String)

/-- Appending zero words changes nothing. -/
theorem C38_padding [Platform] {inp : DeriveInput} {T : EnumSetType} (hT : derive inp = .ok T)
    (hfit : Fits T) (hf : formatOf inp = .array) {E : Type} (ws : List U64) (k : Nat) :
    Serde.deserialize (T := T) (E := E) (.words ((ws ++ List.replicate k 0).map .ok)) =
      Serde.deserialize (.words (ws.map .ok)) := by
  obtain ⟨W⟩ := wf_of_derive hT hfit
  have F := serde_facts hT
  have hd : ∀ items : List (Except E U64), Serde.deserialize (T := T) (.words items) =
      some (Serde.deserializeArray items) := by
    intro items; unfold Serde.deserialize; rw [format_array (F.format.symm.trans hf)]
  rw [hd, hd, W.deserializeArray_eq, W.deserializeArray_eq]
  have : WF.padded (PREFERRED_ARRAY_LEN T.Repr) (ws ++ List.replicate k 0) =
      WF.padded (PREFERRED_ARRAY_LEN T.Repr) ws := by
    apply wbit_vec_ext
    intro i
    rw [WF.wbit_padded, WF.wbit_padded, wbit_append_zeros]
  rw [this]

open scoped Ex in
example := C38_padding Ex.hL Ex.fitL rfl (E := String) [1#64, 1#64, 1#64, 1#64] 7

/-! ## C39 Array deserialization and unknown bits

The full property, "by default, deserializing an array with unknown bits ignores and removes those
bits", reads

`∀ ws, ∃ s, Serde.deserialize (.words (ws.map .ok)) = some (.ok (.ok s)) ∧
  Members s fun v => wbit ws (T.discr v)`.

It is false (`C39_fails`): the generated code calls the checked `from_array` (lib.rs:583-585), so an
unknown bit within the words of the storage makes deserialization *panic*.  What holds is
`C39_partial` (unknown bits beyond the storage are ignored); `C39_panics` says that all other unknown
bits panic. -/

theorem C39_partial [Platform] {inp : DeriveInput} {T : EnumSetType} (hT : derive inp = .ok T)
    (hfit : Fits T) (hf : formatOf inp = .array) {E : Type} (ws : List U64)
    (hw : OnlyVariants T fun i => decide (i < 64 * (storageOf inp).words) && wbit ws i) :
    ∃ s : EnumSet T, Serde.deserialize (E := E) (.words (ws.map .ok)) = some (.ok (.ok s)) ∧
      Members s fun v => wbit ws (T.discr v) := by
  obtain ⟨W⟩ := wf_of_derive hT hfit
  have F := serde_facts hT
  rw [← F.pref, ← onlyVariants_pad] at hw
  obtain ⟨s, e, h⟩ := (W.deserializeArray_ok (E := E) ws).1 hw
  refine ⟨s, ?_, W.members_of_bits fun v => ?_⟩
  · unfold Serde.deserialize; rw [format_array (F.format.symm.trans hf)]
    simp only
    rw [e]
  · have := W.discr_lt v
    have := W.bw_le
    have := W.lawful.width_le
    rw [h, decide_eq_true (by omega), Bool.true_and]

open scoped Ex in
example := C39_partial Ex.hL Ex.fitL rfl (E := String) [1#64, 1#64, 4#64, 77#64] (by
  intro i hi
  simp only [Bool.and_eq_true, decide_eq_true_iff] at hi
  have h : ∀ i, i < 192 → wbit [1#64, 1#64, 4#64, 77#64] i = true → ∃ v, Ex.L.discr v = i := by
    decide +kernel
  exact h i hi.1 hi.2)

theorem C39_panics [Platform] {inp : DeriveInput} {T : EnumSetType} (hT : derive inp = .ok T)
    (hfit : Fits T) (hf : formatOf inp = .array) {E : Type} (ws : List U64)
    (hw : ¬ OnlyVariants T fun i => decide (i < 64 * (storageOf inp).words) && wbit ws i) :
    Serde.deserialize (T := T) (E := E) (.words (ws.map .ok)) =
      some (.panic (.expect "Bitset contains invalid variants.")) := by
  obtain ⟨W⟩ := wf_of_derive hT hfit
  have F := serde_facts hT
  rw [← F.pref, ← onlyVariants_pad] at hw
  unfold Serde.deserialize; rw [format_array (F.format.symm.trans hf)]
  simp only
  rw [(W.deserializeArray_ok (E := E) ws).2 hw]

open scoped Ex in
example := C39_panics Ex.hL Ex.fitL rfl (E := String) [3#64] (by
  intro h
  obtain ⟨v, hv⟩ := h 1 (by decide)
  revert v
  decide)

/-- The first error among the words is passed on. -/
theorem C39_error [Platform] {inp : DeriveInput} {T : EnumSetType} (hT : derive inp = .ok T)
    (hfit : Fits T) (hf : formatOf inp = .array) {E : Type} (ws : List U64) (e : E)
    (rest : List (Except E U64)) :
    Serde.deserialize (T := T) (.words (ws.map .ok ++ .error e :: rest)) =
      some (.ok (.error (.de e))) := by
  obtain ⟨W⟩ := wf_of_derive hT hfit
  unfold Serde.deserialize; rw [format_array ((serde_facts hT).format.symm.trans hf)]
  simp only
  rw [W.deserializeArray_err]

open scoped Ex in
example := C39_error Ex.hL Ex.fitL rfl [3#64] "eof" []

/-- The full property fails. -/
theorem C39_fails : ∃ (_ : Platform) (inp : DeriveInput) (T : EnumSetType) (ws : List U64),
    derive inp = .ok T ∧ Fits T ∧ formatOf inp = .array ∧
    inp.attrs.serialize_deny_unknown = false ∧
    ¬ ∃ s : EnumSet T, Serde.deserialize (E := Empty) (.words (ws.map .ok)) = some (.ok (.ok s)) := by
  letI := Ex.plat64
  refine ⟨Ex.plat64, Ex.inpS "array", Ex.S3, [2], Ex.hS3, Ex.fitS3, rfl, rfl, ?_⟩
  rintro ⟨s, h⟩
  have : Serde.deserialize (T := Ex.S3) (E := Empty) (.words ([2].map .ok)) =
    some (.panic (.expect "Bitset contains invalid variants.")) := rfl
  rw [this] at h
  injection h with h
  cases h

/-! ## C40 `serialize_deny_unknown`

The full property is `inp.attrs.serialize_deny_unknown = true → Serde.compiles T = true` together with
the enforcement below.  `C40_compiles` says for exactly which inputs the generated code is well typed;
`C40_fails` shows that it is not always, `C40_default` that with all other options left out it is
not for any enum with a discriminant above 63. -/

theorem C40_compiles [Platform] {inp : DeriveInput} {T : EnumSetType} (hT : derive inp = .ok T) :
    Serde.compiles T = true ↔
      inp.attrs.serialize_deny_unknown = false ∨ formatOf inp = .list ∨ formatOf inp = .map ∨
      ((∃ w, formatOf inp = .int w) ∧ ∃ w, storageOf inp = .int w) := by
  have F := serde_facts hT
  rw [← F.lit, F.format, ← F.deny]
  unfold Serde.compiles
  cases T.deny <;> cases T.serde <;> simp [SerdeRepr.format]

open scoped Ex in
example := C40_compiles Ex.hD

theorem C40_default [Platform] {inp : DeriveInput} {T : EnumSetType} (hT : derive inp = .ok T)
    (ha : inp.attrs = { serialize_deny_unknown := true }) :
    Serde.compiles T = true ↔ maxDiscr inp.variants < 64 := by
  rw [C40_compiles hT]
  unfold formatOf storageOf
  rw [ha]
  simp only [Bool.true_eq_false, false_or, Bool.false_eq_true, if_false]
  generalize maxDiscr inp.variants = m
  by_cases h8 : m < 8
  · simp [h8]; omega
  by_cases h16 : m < 16
  · simp [h8, h16]; omega
  by_cases h32 : m < 32
  · simp [h8, h16, h32]; omega
  by_cases h64 : m < 64
  · simp [h8, h16, h32, h64]
  by_cases h128 : m < 128
  · simp [h8, h16, h32, h64, h128]
  simp [h8, h16, h32, h64, h128]

namespace Ex
/-- `enum { A, B = 64, C = 130 }` with `serialize_deny_unknown` -/
def inpLD : DeriveInput := { inpL with attrs := { serialize_deny_unknown := true } }
/-- `enum { A, B = 100 }` with `serialize_deny_unknown` -/
def inpMD : DeriveInput :=
  { variants := [{ ident := "A" }, { ident := "B", discriminant := some (.lit 100) }],
    attrs := { serialize_deny_unknown := true } }
@[instance_reducible] def LD : EnumSetType := okOf (derive inpLD) ⟨_, rfl⟩
@[instance_reducible] def MD : EnumSetType := okOf (derive inpMD) ⟨_, rfl⟩
theorem hLD : derive inpLD = .ok LD := okOf_eq _ _
theorem hMD : derive inpMD = .ok MD := okOf_eq _ _
end Ex

open scoped Ex in
example : Serde.compiles Ex.LD = true ↔ 130 < 64 := C40_default Ex.hLD rfl

/-- Two enums the derive macro accepts for which the generated code does not compile: one serialized
as an array, one serialized as `u128` but stored in an array. -/
theorem C40_fails : ∃ (_ : Platform) (inp₁ inp₂ : DeriveInput) (T₁ T₂ : EnumSetType),
    (derive inp₁ = .ok T₁ ∧ formatOf inp₁ = .array ∧
      inp₁.attrs.serialize_deny_unknown = true ∧ Serde.compiles T₁ = false) ∧
    (derive inp₂ = .ok T₂ ∧ formatOf inp₂ = .int 128 ∧
      inp₂.attrs.serialize_deny_unknown = true ∧ Serde.compiles T₂ = false) := by
  letI := Ex.plat64
  exact ⟨Ex.plat64, Ex.inpLD, Ex.inpMD, Ex.LD, Ex.MD, ⟨Ex.hLD, rfl, rfl, rfl⟩,
    ⟨Ex.hMD, rfl, rfl, rfl⟩⟩

/-- C36 fails for the same reason: an integer format whose code does not compile. -/
theorem C36_fails : ∃ (_ : Platform) (inp : DeriveInput) (T : EnumSetType) (w : Nat),
    derive inp = .ok T ∧ formatOf inp = .int w ∧ Serde.compiles T = false := by
  letI := Ex.plat64
  exact ⟨Ex.plat64, Ex.inpMD, Ex.MD, 128, Ex.hMD, rfl, rfl⟩

/-- Where the generated code compiles, an integer is refused exactly if it has an unknown bit.  (In
the list and map formats there are no bits; an unknown variant is an error of the variant's own
deserializer, passed on by C37.)

Missing from the full property: the hypothesis `hc`. -/
theorem C40_enforced_partial [Platform] {inp : DeriveInput} {T : EnumSetType}
    (hT : derive inp = .ok T) (hfit : Fits T) {n : NumTy} (hn : n ≠ .usize)
    (hf : formatOf inp = .int n.bits) (hd : inp.attrs.serialize_deny_unknown = true)
    (hc : Serde.compiles T = true) {E : Type} (x : BitVec n.bits) :
    (∃ e, Serde.deserialize (T := T) (E := E) (.int n (.ok x)) = some (.ok (.error e))) ↔
      ∃ i, x.getLsbD i = true ∧ ∀ v, T.discr v ≠ i := by
  obtain ⟨h1, h2, -⟩ := C36_deny_partial hT hfit hn hf hd hc (E := E)
  constructor
  · rintro ⟨e, he⟩
    apply Classical.byContradiction
    intro hno
    obtain ⟨s, e', -⟩ := h1 x (by
      intro i hi
      apply Classical.byContradiction
      intro hv
      exact hno ⟨i, hi, fun v hv' => hv ⟨v, hv'⟩⟩)
    rw [he] at e'
    injection e' with e'
    injection e' with e'
    injection e'
  · rintro ⟨i, hi, hv⟩
    refine ⟨_, h2 x ?_⟩
    intro h
    obtain ⟨v, hv'⟩ := h i hi
    exact hv v hv'

open scoped Ex in
example := C40_enforced_partial Ex.hD Ex.fitD (n := .u16) (by decide) rfl rfl rfl (E := String)
  0b100010#16

/-! ## C46 Serialization is canonical -/

theorem C46_canonical [Platform] {inp : DeriveInput} {T : EnumSetType} (hT : derive inp = .ok T)
    (hfit : Fits T) {a b : EnumSet T} (ha : Safe a) (hb : Safe b) :
    Returns (Serde.serialize a) ∧ Returns (Serde.serialize b) ∧
    (Serde.serialize a = Serde.serialize b ↔ a.eq b = true) := by
  obtain ⟨W⟩ := wf_of_derive hT hfit
  have hA := W.members_self a
  have hB := W.members_self b
  have F := serde_facts hT
  rw [W.eq_iff]
  -- it is enough to recover the bits from the serialized data
  have key : (∃ dec : SerValue T.Val → Nat → Prop, ∀ s : EnumSet T, Safe s → ∃ v,
      Serde.serialize s = .ok v ∧ ∀ i, dec v i ↔ DiscrIn (W.mem s) i) →
      Returns (Serde.serialize a) ∧ Returns (Serde.serialize b) ∧
        (Serde.serialize a = Serde.serialize b ↔ a = b) := by
    rintro ⟨dec, h⟩
    obtain ⟨va, ea, da⟩ := h a ha
    obtain ⟨vb, eb, db⟩ := h b hb
    refine ⟨⟨_, ea⟩, ⟨_, eb⟩, ?_, fun h => by rw [h]⟩
    intro h
    rw [ea, eb] at h
    injection h with h
    subst h
    apply W.ext
    intro i
    rw [Bool.eq_iff_iff, W.discrIn ha hA, W.discrIn hb hB, ← da, ← db]
  apply key
  cases hf : formatOf inp with
  | int w =>
    obtain ⟨n, hn, hw⟩ : ∃ n : NumTy, n ≠ .usize ∧ w = n.bits := by
      have := F.format.symm.trans hf
      cases hr : T.serde <;> rw [hr] at this <;> simp [SerdeRepr.format] at this <;> subst this
      · exact ⟨.u8, by decide, rfl⟩
      · exact ⟨.u16, by decide, rfl⟩
      · exact ⟨.u32, by decide, rfl⟩
      · exact ⟨.u64, by decide, rfl⟩
      · exact ⟨.u128, by decide, rfl⟩
    subst hw
    refine ⟨fun v i => match v with | .int _ x => x.getLsbD i = true | _ => False, fun s hs => ?_⟩
    obtain ⟨x, e, h⟩ := C36_serialize hT hfit hn hf hs (W.members_self s)
    exact ⟨_, e, h⟩
  | list =>
    refine ⟨fun v i => match v with | .seq _ l => ∃ u ∈ l, T.discr u = i | _ => False,
      fun s hs => ⟨_, C37_serialize_list hT hfit hf hs (W.members_self s), fun i => ?_⟩⟩
    simp only [mem_sortedMembers, DiscrIn, and_comm]
  | map =>
    refine ⟨fun v i => match v with | .map _ l => ∃ u, (u, true) ∈ l ∧ T.discr u = i | _ => False,
      fun s hs => ⟨_, C37_serialize_map hT hfit hf hs (W.members_self s), fun i => ?_⟩⟩
    simp [mem_sortedMembers, DiscrIn, and_comm]
  | array =>
    refine ⟨fun v i => match v with | .words ws => wbit ws i = true | _ => False, fun s hs => ?_⟩
    obtain ⟨full, ws, k, -, e, -, h, -⟩ := C38_serialize hT hfit hf hs (W.members_self s)
    exact ⟨_, e, h⟩

open scoped Ex in
example := C46_canonical Ex.hL Ex.fitL Ex.safe_rAC Ex.safe_rB
open scoped Ex in
example := C46_canonical Ex.hT Ex.fitT Ex.safe_sAC Ex.safe_sB

end Enumset
