import Verif.Props.Machine
/-!
# Property C42: no overflow, no index panic

Arithmetic overflow, out-of-range shifts and indices, `unreachable_unchecked` and endless loops are
outcomes of the model other than `.ok`; `Returns r` says that the outcome is `.ok`.
-/
set_option autoImplicit false

namespace Enumset

open EnumSetTypeRepr (WIDTH PREFERRED_ARRAY_LEN)

section helpers

theorem Returns.of_ex {α : Type} {r : Res α} {p : α → Prop} (h : ∃ a, r = .ok a ∧ p a) : Returns r := by
  obtain ⟨a, e, -⟩ := h; exact ⟨a, e⟩

theorem Returns.of_ex' {ε α : Type} {r : Res (Except ε α)} {p : α → Prop}
    (h : ∃ a, r = .ok (.ok a) ∧ p a) : Returns r := by
  obtain ⟨a, e, -⟩ := h; exact ⟨_, e⟩

theorem Returns.of_eq {α : Type} {r : Res α} {a : α} (h : r = .ok a) : Returns r := ⟨a, h⟩

theorem Returns.of_cases {α : Type} {r : Res (Option α)} {P : Prop} {q : α → Prop}
    (h : (P → ∃ a, r = .ok (some a) ∧ q a) ∧ (¬ P → r = .ok none)) : Returns r := by
  by_cases hp : P
  · obtain ⟨a, e, -⟩ := h.1 hp; exact ⟨_, e⟩
  · exact ⟨_, h.2 hp⟩

theorem WF.rep_of_safe [Platform] {T : EnumSetType} (W : WF T) {it : EnumSetIter T} (h : SafeIter it) : ∃ L, W.ItRep it L := by
  induction h with
  | iter hs e =>
    obtain ⟨it, e', h⟩ := W.iter_ok _ (W.clean_of_safe hs)
    rw [e] at e'; cases e'
    exact ⟨_, h⟩
  | next _ e ih =>
    obtain ⟨L, h⟩ := ih
    obtain ⟨it, e', h⟩ := W.next_ok h
    rw [e] at e'; cases e'
    exact ⟨_, h⟩
  | next_back _ e ih =>
    obtain ⟨L, h⟩ := ih
    obtain ⟨it, e', h⟩ := W.next_back_ok h
    rw [e] at e'; cases e'
    exact ⟨_, h⟩
  | nth _ e ih =>
    obtain ⟨L, h⟩ := ih
    obtain ⟨it, e', h⟩ := W.nth_ok _ h
    rw [e] at e'; cases e'
    exact ⟨_, h⟩
  | nth_back _ e ih =>
    obtain ⟨L, h⟩ := ih
    obtain ⟨it, e', h⟩ := W.nth_back_ok _ h
    rw [e] at e'; cases e'
    exact ⟨_, h⟩

end helpers

/-! ## C42 No overflow, no index panic -/

/-- Element access, queries, set algebra and comparisons.  (`new`, `empty`, `all`, `clear`, `eq`,
`cmp`, `hash` and the like return in the model by type.) -/
theorem C42_sets [Platform] {inp : DeriveInput} {T : EnumSetType} (hT : derive inp = .ok T)
    (hfit : Fits T) (a b : EnumSet T) (o : Operand T) (u v : T.Val) :
    Returns (a.contains v) ∧ Returns (a.insert v) ∧ Returns (a.remove v) ∧
    Returns (EnumSet.only v : Res (EnumSet T)) ∧ Returns a.len ∧ Returns a.is_empty ∧
    Returns (a.union b) ∧ Returns (a.intersection b) ∧ Returns (a.difference b) ∧
    Returns (a.symmetrical_difference b) ∧ Returns a.complement ∧
    Returns (a.insert_all b) ∧ Returns (a.remove_all b) ∧ Returns o.into ∧
    Returns (a.sub o) ∧ Returns (a.bitand o) ∧ Returns (a.bitor o) ∧ Returns (a.bitxor o) ∧
    Returns (a.sub_assign o) ∧ Returns (a.bitand_assign o) ∧ Returns (a.bitor_assign o) ∧
    Returns (a.bitxor_assign o) ∧ Returns a.not ∧
    Returns (a.is_disjoint b) ∧ Returns (a.is_subset b) ∧ Returns (a.is_superset b) ∧
    Returns (a.eq_val v) ∧ Returns (EnumVal.eq_set v a) ∧ Returns (T.val_eq u v) ∧
    Returns (EnumVal.sub v o) ∧ Returns (EnumVal.bitand v o) ∧ Returns (EnumVal.bitor v o) ∧
    Returns (EnumVal.bitxor v o) ∧ Returns (EnumVal.not v : Res (EnumSet T)) := by
  obtain ⟨W⟩ := wf_of_derive hT hfit
  obtain ⟨s, es, hs⟩ := W.only_set_ok v
  refine ⟨.of_eq (W.contains_ok a v), .of_eq (W.insert_ok a v).choose_spec.1,
    .of_eq (W.remove_ok a v).choose_spec.1, ⟨s, es⟩,
    ?_, .of_ex (W.is_empty_ok a), .of_ex (W.union_set_ok a b), .of_ex (W.intersection_ok a b),
    .of_ex (W.difference_ok a b), .of_ex (W.symmetrical_difference_ok a b),
    .of_ex (W.complement_ok a), .of_ex (W.union_set_ok a b), .of_ex (W.difference_ok a b),
    .of_ex (W.into_set_ok o), .of_ex (W.sub_ok a o), .of_ex (W.bitand_ok a o),
    .of_ex (W.bitor_ok a o), .of_ex (W.bitxor_ok a o), .of_ex (W.sub_ok a o),
    .of_ex (W.bitand_ok a o), .of_ex (W.bitor_ok a o), .of_ex (W.bitxor_ok a o),
    .of_ex (W.complement_ok a), .of_ex (W.is_disjoint_ok a b), .of_ex (W.is_subset_ok a b),
    .of_ex (W.is_superset_ok a b), ?_, ?_, ?_, ?_, ?_, ?_, ?_, ?_⟩
  · unfold EnumSet.len
    rw [W.lawful.count_ones_ok]
    exact ⟨_, rfl⟩
  · unfold EnumSet.eq_val; rw [es]; exact ⟨_, rfl⟩
  · unfold EnumVal.eq_set; rw [es]; exact ⟨_, rfl⟩
  · exact .of_eq (W.val_eq_ok u v)
  · obtain ⟨t, et, -⟩ := W.into_set_ok o
    unfold EnumVal.sub
    rw [es, Res.ok_bind, et]
    exact .of_ex (W.sub_ok s (.set t))
  · obtain ⟨t, et, -⟩ := W.into_set_ok o
    unfold EnumVal.bitand
    rw [es, Res.ok_bind, et]
    exact .of_ex (W.bitand_ok s (.set t))
  · obtain ⟨t, et, -⟩ := W.into_set_ok o
    unfold EnumVal.bitor
    rw [es, Res.ok_bind, et]
    exact .of_ex (W.bitor_ok s (.set t))
  · obtain ⟨t, et, -⟩ := W.into_set_ok o
    unfold EnumVal.bitxor
    rw [es, Res.ok_bind, et]
    exact .of_ex (W.bitxor_ok s (.set t))
  · unfold EnumVal.not
    rw [es]
    exact .of_ex (W.complement_ok s)

open scoped Ex in
example := C42_sets Ex.hL Ex.fitL Ex.rAC Ex.rB (.val Ex.lC) Ex.lA Ex.lB

/-- Building sets from sequences of variants and of sets. -/
theorem C42_collections [Platform] {inp : DeriveInput} {T : EnumSetType} (hT : derive inp = .ok T)
    (hfit : Fits T) (s : EnumSet T) (vs : List T.Val) (l : List (EnumSet T)) :
    Returns (EnumSet.from_iter vs : Res (EnumSet T)) ∧ Returns (s.extend vs) ∧
    Returns (EnumSet.sum vs : Res (EnumSet T)) ∧
    Returns (EnumSet.from_iter_sets l) ∧ Returns (s.extend_sets l) ∧ Returns (EnumSet.sum_sets l) := by
  obtain ⟨W⟩ := wf_of_derive hT hfit
  obtain ⟨h1, h2, h3⟩ := C16_collect hT hfit vs (W.members_self s)
  obtain ⟨h4, h5, h6⟩ := C17_collect_sets hT hfit l s
  exact ⟨.of_ex h1, .of_ex h3, .of_ex h2, .of_ex h4, .of_ex h6, .of_ex h5⟩

open scoped Ex in
example := C42_collections Ex.hL Ex.fitL Ex.rAC [Ex.lB, Ex.lB] [Ex.rB, Ex.rAC]

/-- Iterators, and the functions that use up an iterator. -/
theorem C42_iterators [Platform] {inp : DeriveInput} {T : EnumSetType} (hT : derive inp = .ok T)
    (hfit : Fits T) {s : EnumSet T} (hs : Safe s) {it : EnumSetIter T} (hi : SafeIter it) (k : Nat)
    (t : EnumSet T) :
    Returns s.iter ∧ Returns it.next ∧ Returns it.next_back ∧ Returns (it.nth k) ∧
    Returns (it.nth_back k) ∧ Returns it.size_hint ∧ Returns it.len ∧ Returns it.count ∧
    Returns it.last ∧ Returns it.min_by_discr ∧ Returns it.max_by_discr ∧ Returns it.collectVec ∧
    Returns it.collectVecRev ∧ Returns (EnumSet.collect it) ∧ Returns (t.extend_iter it) := by
  obtain ⟨W⟩ := wf_of_derive hT hfit
  obtain ⟨L, h⟩ := W.rep_of_safe hi
  obtain ⟨p1, p2, -, -, p5, p6⟩ := W.provided h
  have hl : it.len = .ok L.length := by
    unfold EnumSetIter.len
    rw [W.size_hint_ok h, Res.ok_bind]
    simp
  refine ⟨.of_ex (W.iter_ok s (W.clean_of_safe hs)), ?_, ?_, ?_, ?_, .of_eq (W.size_hint_ok h),
    .of_eq hl, .of_eq p1, .of_eq p2, .of_eq p5, .of_eq p6, .of_eq (W.collectVec_ok h),
    .of_eq (W.collectVecRev_ok h), ?_, ?_⟩
  · obtain ⟨_, e, -⟩ := W.next_ok h; exact ⟨_, e⟩
  · obtain ⟨_, e, -⟩ := W.next_back_ok h; exact ⟨_, e⟩
  · obtain ⟨_, e, -⟩ := W.nth_ok k h; exact ⟨_, e⟩
  · obtain ⟨_, e, -⟩ := W.nth_back_ok k h; exact ⟨_, e⟩
  · unfold EnumSet.collect
    rw [W.extend_iter_eq h]
    exact (C42_collections hT hfit _ L []).2.1
  · rw [W.extend_iter_eq h]
    exact (C42_collections hT hfit _ L []).2.1

open scoped Ex in
example (it it' : EnumSetIter Ex.L) (h : Ex.rAC.iter = .ok it) (h' : it.next = .ok (some Ex.lA, it')) :=
  C42_iterators Ex.hL Ex.fitL Ex.safe_rB (.next (.iter Ex.safe_rAC h) h') 3 Ex.rB

/-- The conversions that do not panic by design. -/
theorem C42_conversions [Platform] {inp : DeriveInput} {T : EnumSetType} (hT : derive inp = .ok T)
    (hfit : Fits T) (s : EnumSet T) (r : T.Repr) (n : NumTy) (x : BitVec n.bits) (O : Nat)
    (ws : Vector U64 O) (data : List U64) :
    Returns (EnumSet.try_from_repr r : Res (Option (EnumSet T))) ∧
    Returns (EnumSet.from_repr_truncated r : Res (EnumSet T)) ∧
    Returns (s.try_as_num n) ∧ Returns (s.as_num_truncated n) ∧
    Returns (EnumSet.try_from_num n x : Res (Option (EnumSet T))) ∧
    Returns (EnumSet.from_num_truncated n x : Res (EnumSet T)) ∧
    Returns (EnumSet.from_num_unchecked n x : Res (EnumSet T)) ∧
    Returns (s.try_as_array O) ∧ Returns (s.as_array_truncated O) ∧
    Returns (EnumSet.try_from_array O ws : Res (Option (EnumSet T))) ∧
    Returns (EnumSet.from_array_truncated O ws : Res (EnumSet T)) ∧
    Returns (EnumSet.from_array_unchecked O ws : Res (EnumSet T)) ∧
    Returns s.to_vec ∧ Returns (s.try_copy_into_slice data) ∧
    Returns (s.copy_into_slice_truncated data) ∧
    Returns (EnumSet.try_from_slice data : Res (Option (EnumSet T))) ∧
    Returns (EnumSet.from_slice_truncated data : Res (EnumSet T)) ∧
    Returns (EnumSet.from_slice_unchecked data : Res (EnumSet T)) := by
  obtain ⟨W⟩ := wf_of_derive hT hfit
  refine ⟨?_, .of_ex (W.from_repr_truncated_ok r), .of_cases (W.try_as_num_ok n s),
    .of_ex (W.as_num_truncated_ok n s), .of_cases (W.try_from_num_ok n x),
    .of_ex (W.from_num_truncated_ok n x), .of_ex (W.from_num_unchecked_ok n x),
    .of_cases (W.try_as_array_ok O s), .of_ex (W.as_array_truncated_ok O s),
    .of_cases (W.try_from_array_ok O ws), .of_ex (W.from_array_truncated_ok O ws),
    .of_ex (W.from_array_unchecked_ok O ws), .of_ex (W.to_vec_ok s), ?_,
    .of_ex (W.copy_into_slice_truncated_ok s data), .of_cases (W.try_from_slice_ok data),
    .of_ex (W.from_slice_truncated_ok data), .of_ex (W.from_slice_unchecked_ok data)⟩
  · by_cases h : OnlyVariants T (W.lawful.bit r)
    · exact ⟨_, (W.try_from_repr_ok r).1 h⟩
    · exact ⟨_, (W.try_from_repr_ok r).2 h⟩
  · by_cases h : ∀ i, W.bit s i = true → i < 64 * data.length
    · obtain ⟨_, e, -⟩ := (W.try_copy_into_slice_ok s data).1 h; exact ⟨_, e⟩
    · exact ⟨_, (W.try_copy_into_slice_ok s data).2 h⟩

open scoped Ex in
example := C42_conversions Ex.hL Ex.fitL Ex.rAC ⟨#v[7#64, 0#64, 1#64]⟩ .usize 5#64 2 #v[1#64, 1#64] []

/-- The conversions that panic by design either return or panic with the documented message; they do
not overflow or index out of range either.  (`copy_into_slice` answers the outcome together with the
slice.) -/
theorem C42_checked [Platform] {inp : DeriveInput} {T : EnumSetType} (hT : derive inp = .ok T)
    (hfit : Fits T) (s : EnumSet T) (r : T.Repr) (n : NumTy) (x : BitVec n.bits) (O : Nat)
    (ws : Vector U64 O) (data : List U64) :
    (Returns (EnumSet.from_repr r : Res (EnumSet T)) ∨
      EnumSet.from_repr (T := T) r = .panic (.expect "Bitset contains invalid variants.")) ∧
    (Returns (EnumSet.from_num n x : Res (EnumSet T)) ∨
      EnumSet.from_num (T := T) n x = .panic (.expect "Bitset contains invalid variants.")) ∧
    (Returns (EnumSet.from_array O ws : Res (EnumSet T)) ∨
      EnumSet.from_array (T := T) O ws = .panic (.expect "Bitset contains invalid variants.")) ∧
    (Returns (EnumSet.from_slice data : Res (EnumSet T)) ∨
      EnumSet.from_slice (T := T) data = .panic (.expect "Bitset contains invalid variants.")) ∧
    (Returns (s.as_num n) ∨ s.as_num n = .panic (.expect "Bitset will not fit into this type.")) ∧
    (Returns (s.as_array O) ∨ s.as_array O = .panic (.expect "Bitset will not fit into this type.")) ∧
    (∃ out, s.copy_into_slice data = .ok (.ok (), out) ∨
      s.copy_into_slice data = .ok (.panic (.expect "Bitset will not fit into slice."), data)) := by
  obtain ⟨h1, -, h2, -, h3, -, -, h4, -, h5, -, -, -, h6, -, h7, -, -⟩ :=
    C42_conversions hT hfit s r n x O ws data
  have key : ∀ {α : Type} (m : String) (o : Option α),
      Returns (Res.expect m o) ∨ Res.expect m o = .panic (.expect m) := by
    intro α m o
    cases o with
    | none => exact .inr rfl
    | some a => exact .inl ⟨a, rfl⟩
  refine ⟨?_, ?_, ?_, ?_, ?_, ?_, ?_⟩
  · obtain ⟨o, e⟩ := h1
    unfold EnumSet.from_repr; rw [e]; exact key _ o
  · obtain ⟨o, e⟩ := h3
    unfold EnumSet.from_num; rw [e]; exact key _ o
  · obtain ⟨o, e⟩ := h5
    unfold EnumSet.from_array; rw [e]; exact key _ o
  · obtain ⟨o, e⟩ := h7
    unfold EnumSet.from_slice; rw [e]; exact key _ o
  · obtain ⟨o, e⟩ := h2
    unfold EnumSet.as_num; rw [e]; exact key _ o
  · obtain ⟨o, e⟩ := h4
    unfold EnumSet.as_array; rw [e]; exact key _ o
  · obtain ⟨W⟩ := wf_of_derive hT hfit
    unfold EnumSet.copy_into_slice
    by_cases h : ∀ i, W.bit s i = true → i < 64 * data.length
    · obtain ⟨out, e, -⟩ := (W.try_copy_into_slice_ok s data).1 h
      rw [e]; exact ⟨out, .inl rfl⟩
    · rw [(W.try_copy_into_slice_ok s data).2 h]; exact ⟨[], .inr rfl⟩

open scoped Ex in
example := C42_checked Ex.hL Ex.fitL Ex.rAC ⟨#v[7#64, 0#64, 1#64]⟩ .usize 5#64 2 #v[1#64, 1#64] []

/-- Formatting, whatever the formatter does. -/
theorem C42_fmt [Platform] {inp : DeriveInput} {T : EnumSetType} (hT : derive inp = .ok T)
    (hfit : Fits T) {s : EnumSet T} (hs : Safe s) {σ : Type} (k : Sink σ)
    (vfmt : T.Val → σ → Bool × σ) (st : σ) :
    Returns (s.fmt_debug k vfmt st) ∧ Returns (s.fmt_display k vfmt st) := by
  obtain ⟨W⟩ := wf_of_derive hT hfit
  exact ⟨.of_eq (C41_debug hT hfit hs (W.members_self s) k vfmt st),
    .of_eq (C41_display hT hfit hs (W.members_self s) k vfmt st)⟩

open scoped Ex in
example := C42_fmt Ex.hL Ex.fitL Ex.safe_rAC stringSink (fun _ st => (false, st)) ""

/-- Every macro call that is accepted returns. -/
theorem C42_macros [Platform] {inp : DeriveInput} {T : EnumSetType} (hT : derive inp = .ok T)
    (hfit : Fits T) (ts : List (Tok (Operand T))) {r : Res (EnumSet T)}
    (h : ConstMacro.enum_set_call ts = some r ∨ (∃ k, ConstMacro.list_call k ts = some r) ∨
      ConstMacro.complement_call ts = some r) : Returns r := by
  obtain ⟨W⟩ := wf_of_derive hT hfit
  rcases h with h | ⟨k, h⟩ | h
  · unfold ConstMacro.enum_set_call at h
    obtain ⟨l, -, rfl⟩ := Option.map_eq_some_iff.mp h
    exact .of_ex (W.enum_set_ok l)
  · unfold ConstMacro.list_call at h
    obtain ⟨l, -, h⟩ := Option.bind_eq_some_iff.mp h
    unfold ConstMacro.evalKind at h
    split at h <;> cases h
    · exact .of_ex (W.enum_set_union_ok _ _)
    · exact .of_ex (W.enum_set_intersection_ok _ _)
    · exact .of_ex (W.enum_set_difference_ok _ _)
    · exact .of_ex (W.enum_set_symmetric_difference_ok _ _)
  · unfold ConstMacro.complement_call at h
    obtain ⟨l, -, rfl⟩ := Option.map_eq_some_iff.mp h
    exact .of_ex (W.enum_set_complement_ok l)

open scoped Ex in
example := C42_macros Ex.hT Ex.fitT (r := .ok Ex.sAC) [.path (.val Ex.tA), .comma, .path (.val Ex.tC)]
  (.inr (.inl ⟨.union, rfl⟩))

/-- Serialization. -/
theorem C42_serialize [Platform] {inp : DeriveInput} {T : EnumSetType} (hT : derive inp = .ok T)
    (hfit : Fits T) {s : EnumSet T} (hs : Safe s) : Returns (Serde.serialize s) := by
  obtain ⟨W⟩ := wf_of_derive hT hfit
  unfold Serde.serialize
  split
  case h_6 => exact .of_eq (W.serializeList_ok (W.clean_of_safe hs))
  case h_7 => exact .of_eq (W.serializeMap_ok (W.clean_of_safe hs))
  case h_8 => obtain ⟨_, _, e, -⟩ := W.serializeArray_ok s; exact ⟨_, e⟩
  all_goals obtain ⟨_, e, -⟩ := W.serializeInt_ok _ s; exact ⟨_, e⟩

open scoped Ex in
example := C42_serialize Ex.hL Ex.fitL Ex.safe_rAC

/-- Deserialization of any input returns (a set or an error), except that the array format panics on
unknown bits.

Missing from the full property: this panic is not documented; see `C42_fails`. -/
theorem C42_deserialize_partial [Platform] {inp : DeriveInput} {T : EnumSetType}
    (hT : derive inp = .ok T) (hfit : Fits T) {E : Type} (i : DeInput T.Val E)
    {r : Res (Except (DeError E) (EnumSet T))} (h : Serde.deserialize i = some r) :
    Returns r ∨ (formatOf inp = .array ∧ r = .panic (.expect "Bitset contains invalid variants.")) := by
  obtain ⟨W⟩ := wf_of_derive hT hfit
  have hint : ∀ (n : NumTy) (x : Except E (BitVec n.bits)),
      Returns (Serde.deserializeInt (T := T) n x) := by
    intro n x
    unfold Serde.deserializeInt
    cases x with
    | error e => exact ⟨_, rfl⟩
    | ok x =>
      simp only
      split
      · exact ⟨_, rfl⟩
      · obtain ⟨a, e, -⟩ := W.lawful.from_num_ok n x
        obtain ⟨b, e', -⟩ := W.lawful.bitand_ok a T.ALL_BITS
        rw [e, Res.ok_bind, e']
        exact ⟨_, rfl⟩
  unfold Serde.deserialize at h
  split at h <;> cases h
  case h_6 _ _ items _ =>
    left
    rcases WF.stream_cases items with ⟨vs, rfl⟩ | ⟨vs, e, rest, rfl⟩
    · exact .of_ex' (W.deserializeList_ok vs)
    · exact .of_eq (W.deserializeList_err vs e rest)
  case h_7 _ _ items _ =>
    left
    rcases WF.stream_cases items with ⟨vs, rfl⟩ | ⟨vs, e, rest, rfl⟩
    · exact .of_ex' (W.deserializeMap_ok vs)
    · exact .of_eq (W.deserializeMap_err vs e rest)
  case h_8 _ _ items hf =>
    rcases WF.stream_cases items with ⟨vs, rfl⟩ | ⟨vs, e, rest, rfl⟩
    · by_cases h : OnlyVariants T (wbit (WF.padded (PREFERRED_ARRAY_LEN T.Repr) vs).toList)
      · exact .inl (.of_ex' ((W.deserializeArray_ok vs).1 h))
      · refine .inr ⟨?_, (W.deserializeArray_ok vs).2 h⟩
        rw [(serde_facts hT).format, hf]; rfl
    · exact .inl (.of_eq (W.deserializeArray_err vs e rest))
  all_goals exact .inl (hint _ _)

open scoped Ex in
example := C42_deserialize_partial Ex.hL Ex.fitL (E := String) (.words [.ok 3, .error "eof"]) rfl

/-- The full property fails: `#[enumset(serialize_repr = "array")] enum { A, B = 3, C }` panics when it
deserializes the words `[2]`. -/
theorem C42_fails : ∃ (_ : Platform) (inp : DeriveInput) (T : EnumSetType) (i : DeInput T.Val Empty)
    (p : Panic), derive inp = .ok T ∧ Fits T ∧ inp.attrs.serialize_deny_unknown = false ∧
    Serde.deserialize i = some (.panic p) := by
  letI := Ex.plat64
  exact ⟨Ex.plat64, Ex.inpS "array", Ex.S3, .words [.ok 2], _, Ex.hS3, Ex.fitS3, rfl, rfl⟩

/-! ### build modes -/

/-- Debug builds (overflow is checked) and release builds (overflow wraps) accept the same enums. -/
theorem C42_build_modes_accept (t : Target) (inp : DeriveInput) :
    (∃ T, @derive (build t true) inp = .ok T) ↔ (∃ T, @derive (build t false) inp = .ok T) :=
  Iff.trans (@C30_accepts (build t true) inp) (@C30_accepts (build t false) inp).symm

example (t : Target) : ∃ T, @derive (build t true) Ex.inpL = .ok T :=
  (C42_build_modes_accept t Ex.inpL).mpr ⟨_, rfl⟩

open Hist in
/-- Debug builds and release builds give the same answers to every history of calls: the code never
relies on wrapping, and never loses a panic in release builds. -/
theorem C42_build_modes (t : Target) {inp : DeriveInput}
    {D : @EnumSetType (build t true)} {R : @EnumSetType (build t false)}
    (hD : @derive (build t true) inp = .ok D) (hR : @derive (build t false) inp = .ok R)
    (hfit : @Fits (build t true) D) (cs : List (@Cmd t inp.variants.length)) :
    @run (build t true) D _ (@Hist.variants_eq (build t true) _ _ hD) cs =
      @run (build t false) R _ (@Hist.variants_eq (build t false) _ _ hR) cs := by
  have hbD := letI := build t true; (core_of_derive hD).bw
  have hbR := letI := build t false; (core_of_derive hR).bw
  have hfit' : @Fits (build t false) R := by
    unfold Fits at hfit ⊢
    rw [hbR, ← hbD]
    exact hfit
  rw [@Hist.C01_history (build t true) _ _ hD hfit cs,
    @Hist.C01_history (build t false) _ _ hR hfit' cs]

/-- Release builds of the examples. -/
example : ∃ R, @derive (build Ex.plat64.toTarget false) Ex.inpL = .ok R := ⟨_, rfl⟩

example (R) (hR : @derive (build Ex.plat64.toTarget false) Ex.inpL = .ok R)
    (cs : List (@Hist.Cmd Ex.plat64.toTarget 3)) :=
  C42_build_modes Ex.plat64.toTarget Ex.hL hR Ex.fitL cs

end Enumset
