import Verif.WF
/-!
# Helper: the derive macro accepts exactly the acceptable inputs
-/
set_option autoImplicit false

namespace Enumset

theorem maxD_lt_iff (ds : List Nat) (w : Nat) (hw : 0 < w) :
    maxD 0 ds < w ↔ ∀ d ∈ ds, d < w := by
  constructor
  · intro h d hd
    exact Nat.lt_of_le_of_lt (mem_le_maxD 0 ds d hd) h
  · intro h
    rcases maxD_mem 0 ds with e | e
    · omega
    · exact h _ e

theorem auto_internal_fits (info : EnumSetInfo) (h : info.explicit_internal_repr = none) :
    info.max_discrim < info.internal_repr.supported_variants := by
  unfold EnumSetInfo.internal_repr
  rw [h]
  simp only
  repeat' split
  all_goals simp_all [InternalRepr.supported_variants]
  omega

theorem auto_serde_fits (info : EnumSetInfo) (h : info.explicit_serde_repr = none) (k : Nat)
    (hk : info.serde_repr.supported_variants = some k) : info.max_discrim < k := by
  unfold EnumSetInfo.serde_repr at hk
  rw [h] at hk
  simp only at hk
  repeat' split at hk
  all_goals simp_all [SerdeRepr.supported_variants]

theorem intWidth_pos {s : String} {w : Nat} (h : intWidth s = some w) : 0 < w := by
  unfold intWidth at h
  repeat' split at h
  all_goals simp_all
  all_goals omega

theorem internalOf_isSome (s : String) : (∃ r, internalOf s = some r) ↔ ∃ w, intWidth s = some w := by
  have := internalOf_width s
  cases h : internalOf s with
  | none => rw [h] at this; simp at this; simp [← this]
  | some r => rw [h] at this; simp at this; simp [← this]

theorem serdeOf_isSome (s : String) : (∃ r, serdeOf s = some r) ↔
    s = "list" ∨ s = "map" ∨ s = "array" ∨ ∃ w, intWidth s = some w := by
  unfold serdeOf intWidth
  repeat' split
  all_goals simp_all

theorem deriveInfo_iff (inp : DeriveInput) :
    (∃ info, deriveInfo inp = .ok info) ↔ Acceptable inp := by
  rw [show (∃ info, deriveInfo inp = .ok info) ↔ _ from Iff.rfl]
  constructor
  · rintro ⟨info, h⟩
    have hok := deriveInfo_ok h
    rw [deriveInfo_eq] at h
    split at h
    · cases h
    rename_i hgen
    split at h
    case isFalse => cases h
    rename_i henum
    split at h
    · cases h
    rename_i u hrep
    split at h
    · cases h
    rename_i i0 hi0
    split at h
    · cases h
    rename_i info' hfold
    split at h
    · cases h
    rename_i u' hval
    injection h with h
    subst h
    obtain ⟨a1, a2, a3⟩ := (attrInfo_iff _ _).mp hi0
    obtain ⟨b1, b2, b3, b4, b5, b6⟩ := (EnumSetInfo.push_variants_iff _ _ _).mp hfold
    have hr := rustc_eq 0 inp.variants hok.lits
    have hr' : rustcDiscriminants inp.variants = (dsFrom 0 inp.variants).map Int.ofNat := hr
    exact {
      no_generics := by simpa using hgen
      is_enum := henum
      repr_attrs := (checkReprAttrs_iff _ _).mp hrep
      repr_known := fun s hs => (a1 s hs).imp id (internalOf_isSome s).mp
      serialize_repr_known := fun s hs => (serdeOf_isSome s).mp (a2 s hs)
      fieldless := fun v hv => (b1 v hv).1
      distinct_names := b2
      literal := fun v hv => (b1 v hv).2
      distinct_discriminants := by
        rw [hr']
        exact List.Pairwise.map _ (fun a b hab e => hab (Int.ofNat.inj e)) hok.nodup
      limit := by
        rw [hr']
        intro d hd
        obtain ⟨x, hx, rfl⟩ := List.mem_map.mp hd
        have := hok.lt x hx
        change (x : Int) ≤ _
        omega
      repr_wide := by
        intro s w hs hw d hd
        rw [hr'] at hd
        obtain ⟨x, hx, rfl⟩ := List.mem_map.mp hd
        have hfit := hok.fits
        have hi := internalOf_width s
        rw [hw] at hi
        cases hio : internalOf s with
        | none => rw [hio] at hi; cases hi
        | some r =>
          rw [hio] at hi
          simp at hi
          have : info'.internal_repr = r := by
            unfold EnumSetInfo.internal_repr
            rw [hok.expl, hs]
            simp [hio]
          rw [this, hi, hok.max] at hfit
          have := (maxD_lt_iff _ _ (intWidth_pos hw)).mp hfit x hx
          change (x : Int) < _
          omega
      serialize_repr_wide := by
        intro hl hm s w hs hw d hd
        rw [hr'] at hd
        obtain ⟨x, hx, rfl⟩ := List.mem_map.mp hd
        have hi := serdeOf_width s
        rw [hw] at hi
        cases hio : serdeOf s with
        | none => rw [hio] at hi; cases hi
        | some r =>
          rw [hio] at hi
          simp at hi
          have : info'.serde_repr = r := by
            unfold EnumSetInfo.serde_repr
            rw [hok.serd]
            simp [serdeChoice, hl, hm, hs, hio]
          have hfit := hok.sfits w (by rw [this, hi])
          rw [hok.max] at hfit
          have := (maxD_lt_iff _ _ (intWidth_pos hw)).mp hfit x hx
          change (x : Int) < _
          omega }
  · intro h
    have hr' : rustcDiscriminants inp.variants = (dsFrom 0 inp.variants).map Int.ofNat :=
      rustc_eq 0 inp.variants h.literal
    have hmemr : ∀ x ∈ dsFrom 0 inp.variants, Int.ofNat x ∈ rustcDiscriminants inp.variants := by
      intro x hx; rw [hr']; exact List.mem_map_of_mem hx
    rw [deriveInfo_eq]
    rw [if_neg (by simp [h.no_generics]), if_pos h.is_enum, (checkReprAttrs_iff _ _).mpr h.repr_attrs]
    simp only
    have ha : ∃ i0, attrInfo inp.attrs = .ok i0 :=
      ⟨_, (attrInfo_iff _ _).mpr ⟨fun s hs => (h.repr_known s hs).imp id (internalOf_isSome s).mpr,
        fun s hs => (serdeOf_isSome s).mpr (h.serialize_repr_known s hs), rfl⟩⟩
    obtain ⟨i0, hi0⟩ := ha
    rw [hi0]
    simp only
    obtain ⟨a1, a2, a3⟩ := (attrInfo_iff _ _).mp hi0
    have hcur : i0.cur_discrim = 0 := by rw [a3]; rfl
    have hmx : i0.max_discrim = 0 := by rw [a3]; rfl
    have hun : i0.used_variant_names = [] := by rw [a3]; rfl
    have hud : i0.used_discriminants = [] := by rw [a3]; rfl
    have hfold : inp.variants.foldlM EnumSetInfo.push_variant i0 = .ok (i0.steps inp.variants) := by
      refine (EnumSetInfo.push_variants_iff _ _ _).mpr ⟨?_, h.distinct_names, ?_, ?_, ?_, rfl⟩
      · exact fun v hv => ⟨h.fieldless v hv, h.literal v hv⟩
      · simp [hun]
      · rw [hcur]
        have := h.distinct_discriminants
        rw [hr'] at this
        exact (List.pairwise_map.mp this).imp (fun hab hh => hab (by rw [hh]))
      · intro d hd
        rw [hcur] at hd
        have := h.limit _ (hmemr d hd)
        change (d : Int) ≤ _ at this
        refine ⟨by omega, by simp [hud]⟩
    rw [hfold]
    simp only
    obtain ⟨f1, f2, f3, f4, f5⟩ := EnumSetInfo.steps_fields inp.variants i0
    have hmax : (i0.steps inp.variants).max_discrim = maxD 0 (dsFrom 0 inp.variants) := by
      rw [EnumSetInfo.steps_max, hcur, hmx]
    have hexpl : (i0.steps inp.variants).explicit_internal_repr = inp.attrs.repr.bind internalOf := by
      rw [f1, a3]
    have hserd : (i0.steps inp.variants).explicit_serde_repr = serdeChoice inp.attrs := by
      rw [f3, a3]
    have hlt : (i0.steps inp.variants).max_discrim < 0xFFFFFFC0 := by
      rw [hmax, maxD_lt_iff _ _ (by omega)]
      intro d hd
      have := h.limit _ (hmemr d hd)
      change (d : Int) ≤ _ at this
      omega
    have hval : (i0.steps inp.variants).validate = .ok () := by
      refine (EnumSetInfo.validate_iff _ hlt (by rw [hexpl]; exact bind_internal_int _)).mpr ⟨?_, ?_⟩
      · cases he : (i0.steps inp.variants).explicit_internal_repr with
        | none => exact auto_internal_fits _ he
        | some r =>
          have hi : (i0.steps inp.variants).internal_repr = r := by
            unfold EnumSetInfo.internal_repr; rw [he]
          rw [hi]
          rw [hexpl] at he
          obtain ⟨s, hs, hsr⟩ := Option.bind_eq_some_iff.mp he
          have hw := internalOf_width s
          rw [hsr] at hw
          simp at hw
          rw [hmax, maxD_lt_iff _ _ (intWidth_pos hw.symm)]
          intro d hd
          have := h.repr_wide s _ hs hw.symm _ (hmemr d hd)
          change (d : Int) < _ at this
          omega
      · intro k hk
        cases he : (i0.steps inp.variants).explicit_serde_repr with
        | none => exact auto_serde_fits _ he k hk
        | some r =>
          have hi : (i0.steps inp.variants).serde_repr = r := by
            unfold EnumSetInfo.serde_repr; rw [he]
          rw [hi] at hk
          rw [hserd] at he
          unfold serdeChoice at he
          split at he
          · injection he with he; subst he; cases hk
          split at he
          · injection he with he; subst he; cases hk
          rename_i hl hm
          obtain ⟨s, hs, hsr⟩ := Option.bind_eq_some_iff.mp he
          have hw := serdeOf_width s
          rw [hsr] at hw
          simp only [Option.bind_some] at hw
          rw [hk] at hw
          rw [hmax, maxD_lt_iff _ _ (intWidth_pos hw.symm)]
          intro d hd
          have := h.serialize_repr_wide (by simpa using hl) (by simpa using hm) s _ hs hw.symm _
            (hmemr d hd)
          change (d : Int) < _ at this
          omega
    rw [hval]
    exact ⟨_, rfl⟩

theorem deriveInfo_err (inp : DeriveInput) (e : DeriveErr) (h : deriveInfo inp = .error e) :
    (∃ i, e = .parse i) ∨ ∃ sp m, e = .msg sp m := by
  rw [deriveInfo_eq] at h
  split at h
  · injection h with h; exact .inr ⟨_, _, h.symm⟩
  split at h
  case isFalse => injection h with h; exact .inr ⟨_, _, h.symm⟩
  split at h
  · rename_i e' he
    injection h with h
    subst h
    rcases checkReprAttrs_err 0 inp.reprAttrs with h' | ⟨j, h'⟩ | ⟨sp, m, h'⟩
    · rw [h'] at he; cases he
    · rw [h'] at he; injection he with he; exact .inl ⟨_, he.symm⟩
    · rw [h'] at he; injection he with he; exact .inr ⟨_, m, he.symm⟩
  split at h
  · rename_i e' he
    injection h with h
    subst h
    exact .inr (attrInfo_onlyMsg _ _ he)
  rename_i i0 hi0
  split at h
  · rename_i e' he
    injection h with h
    subst h
    exact .inr (foldlM_onlyMsg _ _ _ he)
  rename_i info' hfold
  split at h
  · rename_i e' he
    injection h with h
    subst h
    obtain ⟨a1, a2, a3⟩ := (attrInfo_iff _ _).mp hi0
    obtain ⟨b1, b2, b3, b4, b5, b6⟩ := (EnumSetInfo.push_variants_iff _ _ _).mp hfold
    have hcur : i0.cur_discrim = 0 := by rw [a3]; rfl
    have hmx : i0.max_discrim = 0 := by rw [a3]; rfl
    rw [hcur] at b5
    obtain ⟨f1, f2, f3, f4, f5⟩ := EnumSetInfo.steps_fields inp.variants i0
    have hlt : info'.max_discrim < 0xFFFFFFC0 := by
      rw [b6, EnumSetInfo.steps_max, hcur, hmx, maxD_lt_iff _ _ (by omega)]
      exact fun d hd => (b5 d hd).1
    have hexpl : EnumSetInfo.IntRepr info'.explicit_internal_repr := by
      rw [b6, f1, a3]; exact bind_internal_int _
    rcases EnumSetInfo.validate_not_panic info' hlt hexpl with hv | ⟨_, m, hv⟩
    · rw [hv] at he; cases he
    · rw [hv] at he; injection he with he; exact .inr ⟨_, m, he.symm⟩
  · cases h

theorem derive_ok_iff [Platform] (inp : DeriveInput) :
    (∃ T, derive inp = .ok T) ↔ ∃ info, deriveInfo inp = .ok info := by
  constructor
  · rintro ⟨T, h⟩
    obtain ⟨info, hi, -⟩ := derive_shape h
    exact ⟨info, hi⟩
  · rintro ⟨info, hi⟩
    obtain ⟨T, hT, -⟩ := impl_ok (deriveInfo_ok hi)
    refine ⟨T, ?_⟩
    unfold derive
    rw [hi]
    exact hT

theorem derive_err [Platform] (inp : DeriveInput) (e : DeriveErr) (h : derive inp = .error e) :
    (∃ i, e = .parse i) ∨ ∃ sp m, e = .msg sp m := by
  unfold derive at h
  split at h
  · rename_i e' he
    injection h with h
    subst h
    exact deriveInfo_err _ _ he
  · rename_i info hi
    obtain ⟨T, hT, -⟩ := impl_ok (deriveInfo_ok hi)
    rw [hT] at h
    cases h

end Enumset
