import Verif.DeriveLemmas
import Verif.Spec
/-!
# Helper lemmas: which inputs the derive macro accepts
-/
set_option autoImplicit false

namespace Enumset

/-- The `EnumSetInfo` before any variant is pushed: lib.rs:1013-1036. -/
def attrInfo (attrs : EnumsetAttrs) : Except DeriveErr EnumSetInfo := do
  let info := EnumSetInfo.new attrs
  let info ← match attrs.repr with
    | some repr => info.push_repr repr
    | none => pure info
  let info ← match attrs.serialize_repr with
    | some r => info.push_serialize_repr r
    | none => pure info
  let info := if attrs.serialize_as_map then
    { info with explicit_serde_repr := some .map } else info
  pure (if attrs.serialize_as_list then
    { info with explicit_serde_repr := some .list } else info)

theorem deriveInfo_eq (inp : DeriveInput) : deriveInfo inp =
    if inp.hasGenerics then
      .error (.msg .generics "`#[derive(EnumSetType)]` cannot be used on enums with type parameters.")
    else if inp.isEnum then
      match checkReprAttrs 0 inp.reprAttrs with
      | .error e => .error e
      | .ok _ => match attrInfo inp.attrs with
        | .error e => .error e
        | .ok i0 => match inp.variants.foldlM EnumSetInfo.push_variant i0 with
          | .error e => .error e
          | .ok info => match info.validate with
            | .error e => .error e
            | .ok _ => .ok info
    else .error (.msg .item "`#[derive(EnumSetType)]` may only be used on enums") := by
  unfold deriveInfo attrInfo
  split
  · rfl
  split
  case isFalse => rfl
  cases checkReprAttrs 0 inp.reprAttrs with
  | error e => rfl
  | ok _ =>
    change (_ >>= _) = _
    cases inp.attrs.repr with
    | none =>
      cases inp.attrs.serialize_repr with
      | none =>
        simp only [bind, Except.bind, pure, Except.pure]
        repeat' split
        all_goals simp_all
      | some r =>
        simp only [bind, Except.bind, pure, Except.pure]
        repeat' split
        all_goals simp_all
    | some q =>
      cases inp.attrs.serialize_repr with
      | none =>
        simp only [bind, Except.bind, pure, Except.pure]
        repeat' split
        all_goals simp_all
      | some r =>
        simp only [bind, Except.bind, pure, Except.pure]
        repeat' split
        all_goals simp_all

/-- The integer representation named by a string. -/
def internalOf (s : String) : Option InternalRepr :=
  if s = "u8" then some .u8
  else if s = "u16" then some .u16
  else if s = "u32" then some .u32
  else if s = "u64" then some .u64
  else if s = "u128" then some .u128
  else none

/-- The serialized representation named by a string. -/
def serdeOf (s : String) : Option SerdeRepr :=
  if s = "u8" then some .u8
  else if s = "u16" then some .u16
  else if s = "u32" then some .u32
  else if s = "u64" then some .u64
  else if s = "u128" then some .u128
  else if s = "list" then some .list
  else if s = "map" then some .map
  else if s = "array" then some .array
  else none

theorem internalOf_width (s : String) :
    (internalOf s).map InternalRepr.supported_variants = intWidth s := by
  unfold internalOf intWidth
  repeat' split
  all_goals rfl

theorem serdeOf_width (s : String) :
    (serdeOf s).bind SerdeRepr.supported_variants = intWidth s := by
  unfold serdeOf intWidth
  repeat' split
  all_goals first | rfl | simp_all

theorem internalOf_int (s : String) : EnumSetInfo.IntRepr (internalOf s) := by
  intro k
  unfold internalOf
  repeat' split
  all_goals simp

theorem push_repr_eq (info : EnumSetInfo) (s : String) : info.push_repr s =
    if s = "array" then .ok { info with internal_repr_force_array := true }
    else match internalOf s with
      | some r => .ok { info with explicit_internal_repr := some r }
      | none => .error (.msg .repr s!"`{s}` is not a valid internal enumset representation.") := by
  unfold EnumSetInfo.push_repr internalOf
  split
  all_goals first | rfl | skip
  simp_all

theorem push_serialize_repr_eq (info : EnumSetInfo) (s : String) : info.push_serialize_repr s =
    match serdeOf s with
      | some r => .ok { info with explicit_serde_repr := some r }
      | none => .error (.msg .serializeRepr s!"`{s}` is not a valid serialized representation.") := by
  unfold EnumSetInfo.push_serialize_repr serdeOf
  split
  all_goals first | rfl | skip
  simp_all

/-- The explicitly requested serialized representation: lib.rs:1020-1036. -/
def serdeChoice (attrs : EnumsetAttrs) : Option SerdeRepr :=
  if attrs.serialize_as_list then some .list
  else if attrs.serialize_as_map then some .map
  else attrs.serialize_repr.bind serdeOf

theorem attrInfo_iff (attrs : EnumsetAttrs) (i0 : EnumSetInfo) :
    attrInfo attrs = .ok i0 ↔
      (∀ s, attrs.repr = some s → s = "array" ∨ ∃ r, internalOf s = some r) ∧
      (∀ s, attrs.serialize_repr = some s → ∃ r, serdeOf s = some r) ∧
      i0 = { EnumSetInfo.new attrs with
        explicit_internal_repr := attrs.repr.bind internalOf
        internal_repr_force_array := attrs.repr == some "array"
        explicit_serde_repr := serdeChoice attrs } := by
  have harr : internalOf "array" = none := by decide
  unfold attrInfo serdeChoice
  simp only [push_repr_eq, push_serialize_repr_eq]
  rcases hr : attrs.repr with _ | s
  · rcases hs : attrs.serialize_repr with _ | t
    · cases attrs.serialize_as_map <;> cases attrs.serialize_as_list <;>
        simp [bind, Except.bind, pure, Except.pure, EnumSetInfo.new, eq_comm]
    · rcases ht : serdeOf t with _ | r
      · simp [bind, Except.bind, pure, Except.pure, ht]
      · cases attrs.serialize_as_map <;> cases attrs.serialize_as_list <;>
          simp [bind, Except.bind, pure, Except.pure, EnumSetInfo.new, eq_comm, ht]
  · by_cases ha : s = "array"
    · subst ha
      rcases hs : attrs.serialize_repr with _ | t
      · cases attrs.serialize_as_map <;> cases attrs.serialize_as_list <;>
          simp [bind, Except.bind, pure, Except.pure, EnumSetInfo.new, eq_comm, harr]
      · rcases ht : serdeOf t with _ | r
        · simp [bind, Except.bind, ht]
        · cases attrs.serialize_as_map <;> cases attrs.serialize_as_list <;>
            simp [bind, Except.bind, pure, Except.pure, EnumSetInfo.new, eq_comm, ht, harr]
    · have hb : (s == "array") = false := by simpa using ha
      rcases hi : internalOf s with _ | q
      · simp [bind, Except.bind, ha, hi]
      · rcases hs : attrs.serialize_repr with _ | t
        · cases attrs.serialize_as_map <;> cases attrs.serialize_as_list <;>
            simp [bind, Except.bind, pure, Except.pure, EnumSetInfo.new, eq_comm, hi, ha, hb]
        · rcases ht : serdeOf t with _ | r
          · simp [bind, Except.bind, ht, ha, hi]
          · cases attrs.serialize_as_map <;> cases attrs.serialize_as_list <;>
              simp [bind, Except.bind, pure, Except.pure, EnumSetInfo.new, eq_comm, ht, ha, hi, hb]

/-- The only errors are `compile_error!` messages. -/
def OnlyMsg {α : Type} (e : Except DeriveErr α) : Prop := ∀ x, e = .error x → ∃ sp m, x = .msg sp m

theorem OnlyMsg.ok {α : Type} (a : α) : OnlyMsg (.ok a) := by intro x h; cases h
theorem OnlyMsg.msg {α : Type} (sp : Span) (m : String) :
    OnlyMsg (.error (.msg sp m) : Except DeriveErr α) := by
  intro x h; injection h with h; exact ⟨sp, m, h.symm⟩
theorem OnlyMsg.bind {α β : Type} {e : Except DeriveErr α} {f : α → Except DeriveErr β}
    (h1 : OnlyMsg e) (h2 : ∀ a, OnlyMsg (f a)) : OnlyMsg (e >>= f) := by
  cases e with
  | error x =>
    obtain ⟨sp, m, rfl⟩ := h1 x rfl
    exact .msg sp m
  | ok a => exact h2 a

theorem push_repr_onlyMsg (info : EnumSetInfo) (s : String) : OnlyMsg (info.push_repr s) := by
  rw [push_repr_eq]
  split
  · exact .ok _
  · split
    · exact .ok _
    · exact .msg _ _

theorem push_serialize_repr_onlyMsg (info : EnumSetInfo) (s : String) :
    OnlyMsg (info.push_serialize_repr s) := by
  rw [push_serialize_repr_eq]
  split
  · exact .ok _
  · exact .msg _ _

theorem attrInfo_onlyMsg (attrs : EnumsetAttrs) : OnlyMsg (attrInfo attrs) := by
  unfold attrInfo
  cases attrs.repr with
  | none =>
    refine OnlyMsg.bind (.ok _) fun i => ?_
    cases attrs.serialize_repr with
    | none => exact .ok _
    | some t => exact (push_serialize_repr_onlyMsg _ _).bind fun i => .ok _
  | some r =>
    refine OnlyMsg.bind (push_repr_onlyMsg _ _) fun i => ?_
    cases attrs.serialize_repr with
    | none => exact .ok _
    | some t => exact (push_serialize_repr_onlyMsg _ _).bind fun i => .ok _

theorem push_variant_onlyMsg (info : EnumSetInfo) (v : Variant) : OnlyMsg (info.push_variant v) := by
  unfold EnumSetInfo.push_variant
  split
  · exact .msg _ _
  · split
    · refine OnlyMsg.bind ?_ fun d => ?_
      · unfold EnumSetInfo.parseDiscriminant
        split
        · exact .ok _
        · split
          · exact .ok _
          · exact .msg _ _
        · exact .msg _ _
        · exact .msg _ _
      · by_cases h1 : d ≥ 0xFFFFFFC0
        · simp only [h1, if_true]; exact .msg _ _
        · have h2 : ¬ d + 1 ≥ 2 ^ 32 := by omega
          simp only [h1, if_false, h2]
          split
          · exact .msg _ _
          · exact .ok _
    · exact .msg _ _

theorem foldlM_onlyMsg (vs : List Variant) (info : EnumSetInfo) :
    OnlyMsg (vs.foldlM EnumSetInfo.push_variant info) := by
  induction vs generalizing info with
  | nil => exact .ok _
  | cons v vs ih =>
    rw [List.foldlM_cons]
    exact (push_variant_onlyMsg info v).bind fun i => ih i

theorem checkReprAttrs_iff (i : Nat) (rs : List (Option String)) : checkReprAttrs i rs = .ok () ↔
    ∀ r ∈ rs, ∃ s ∈ ["C", "Rust", "u8", "u16", "u32", "u64", "u128", "usize",
      "i8", "i16", "i32", "i64", "i128", "isize"], r = some s := by
  induction rs generalizing i with
  | nil => simp [checkReprAttrs]
  | cons r rs ih =>
    cases r with
    | none => simp [checkReprAttrs]
    | some s =>
      simp only [checkReprAttrs]
      split
      · rename_i h
        rw [ih]
        have h' := List.contains_iff_mem.mp h
        constructor
        · intro hh r hr
          rcases List.mem_cons.mp hr with rfl | hr
          · exact ⟨s, h', rfl⟩
          · exact hh r hr
        · intro hh r hr
          exact hh r (by simp [hr])
      · rename_i h
        constructor
        · intro hh; cases hh
        · intro hh
          obtain ⟨s', hs', he⟩ := hh (some s) (by simp)
          injection he with he
          subst he
          exact absurd (List.contains_iff_mem.mpr hs') h

theorem checkReprAttrs_err (i : Nat) (rs : List (Option String)) :
    checkReprAttrs i rs = .ok () ∨ (∃ j, checkReprAttrs i rs = .error (.parse j)) ∨
      ∃ sp m, checkReprAttrs i rs = .error (.msg sp m) := by
  induction rs generalizing i with
  | nil => exact .inl rfl
  | cons r rs ih =>
    cases r with
    | none => exact .inr (.inl ⟨_, rfl⟩)
    | some s =>
      simp only [checkReprAttrs]
      split
      · exact ih _
      · exact .inr (.inr ⟨_, _, rfl⟩)

/-- Everything later proofs need to know about a successful `deriveInfo`. -/
structure InfoOk (inp : DeriveInput) (info : EnumSetInfo) : Prop where
  lits : ∀ v ∈ inp.variants, v.LitOrNone
  reprs : info.variants.map (·.variant_repr) = dsFrom 0 inp.variants
  nodup : (dsFrom 0 inp.variants).Nodup
  lt : ∀ d ∈ dsFrom 0 inp.variants, d < 0xFFFFFFC0
  max : info.max_discrim = maxD 0 (dsFrom 0 inp.variants)
  fits : info.max_discrim < info.internal_repr.supported_variants
  sfits : ∀ k, info.serde_repr.supported_variants = some k → info.max_discrim < k
  expl : info.explicit_internal_repr = inp.attrs.repr.bind internalOf
  force : info.internal_repr_force_array = (inp.attrs.repr == some "array")
  serd : info.explicit_serde_repr = serdeChoice inp.attrs
  ops : info.no_ops = inp.attrs.no_ops
  deny : info.serialize_deny_unknown = inp.attrs.serialize_deny_unknown
  super : info.no_super_impls = inp.attrs.no_super_impls

theorem InfoOk.max_lt {inp : DeriveInput} {info : EnumSetInfo} (h : InfoOk inp info) :
    info.max_discrim < 0xFFFFFFC0 := by
  rw [h.max]
  rcases maxD_mem 0 (dsFrom 0 inp.variants) with h' | h'
  · rw [h']; omega
  · exact h.lt _ h'

theorem bind_internal_int (o : Option String) : EnumSetInfo.IntRepr (o.bind internalOf) := by
  intro k
  cases o with
  | none => simp
  | some s => exact internalOf_int s k

theorem deriveInfo_ok {inp : DeriveInput} {info : EnumSetInfo} (h : deriveInfo inp = .ok info) :
    InfoOk inp info := by
  rw [deriveInfo_eq] at h
  split at h
  · cases h
  split at h
  case isFalse => cases h
  split at h
  · cases h
  split at h
  · cases h
  rename_i i0 hi0
  split at h
  · cases h
  rename_i info' hfold
  split at h
  · cases h
  rename_i u hval
  injection h with h
  subst h
  cases u
  obtain ⟨a1, a2, a3⟩ := (attrInfo_iff _ _).mp hi0
  obtain ⟨b1, b2, b3, b4, b5, b6⟩ := (EnumSetInfo.push_variants_iff _ _ _).mp hfold
  have hcur : i0.cur_discrim = 0 := by rw [a3]; rfl
  have hmx : i0.max_discrim = 0 := by rw [a3]; rfl
  have hvs : i0.variants = [] := by rw [a3]; rfl
  rw [hcur] at b4 b5
  obtain ⟨f1, f2, f3, f4, f5, f6⟩ := EnumSetInfo.steps_fields inp.variants i0
  have hmax : info'.max_discrim = maxD 0 (dsFrom 0 inp.variants) := by
    rw [b6, EnumSetInfo.steps_max, hcur, hmx]
  have hexpl : info'.explicit_internal_repr = inp.attrs.repr.bind internalOf := by
    rw [b6, f1, a3]
  have hlt : info'.max_discrim < 0xFFFFFFC0 := by
    rw [hmax]
    rcases maxD_mem 0 (dsFrom 0 inp.variants) with h' | h'
    · rw [h']; omega
    · exact (b5 _ h').1
  have hv := (EnumSetInfo.validate_iff info' hlt (by rw [hexpl]; exact bind_internal_int _)).mp hval
  exact {
    lits := fun v hv => (b1 v hv).2
    reprs := by rw [b6, EnumSetInfo.steps_variants, hvs, hcur]; rfl
    nodup := b4
    lt := fun d hd => (b5 d hd).1
    max := hmax
    fits := hv.1
    sfits := hv.2
    expl := hexpl
    force := by rw [b6, f2, a3]
    serd := by rw [b6, f3, a3]
    ops := by rw [b6, f4, a3]; rfl
    deny := by rw [b6, f5, a3]; rfl
    super := by rw [b6, f6, a3]; rfl }

end Enumset
