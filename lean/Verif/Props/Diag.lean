import Verif.DiagLemmas
import Verif.Props.Derive
/-!
# Property C54: the diagnostics of the derive macro
-/
set_option autoImplicit false

namespace Enumset

section helpers

theorem checkReprAttrs_error (i : Nat) (rs : List (Option String)) (e : DeriveErr)
    (h : checkReprAttrs i rs = .error e) :
    ∃ j, ((e = (Problem.reprSyntax (i + j)).error ∧ rs[j]? = some none) ∨
      ∃ s, e = (Problem.reprAttr (i + j) s).error ∧ rs[j]? = some (some s) ∧
        s ∉ ["C", "Rust", "u8", "u16", "u32", "u64", "u128", "usize",
          "i8", "i16", "i32", "i64", "i128", "isize"]) ∧
      ∀ k < j, ∃ s ∈ ["C", "Rust", "u8", "u16", "u32", "u64", "u128", "usize",
          "i8", "i16", "i32", "i64", "i128", "isize"], rs[k]? = some (some s) := by
  induction rs generalizing i with
  | nil => cases h
  | cons r rs ih =>
    cases r with
    | none =>
      injection h with h
      exact ⟨0, .inl ⟨h.symm, rfl⟩, by simp⟩
    | some s =>
      unfold checkReprAttrs at h
      split at h
      · rename_i hs
        obtain ⟨j, h1, h2⟩ := ih _ h
        refine ⟨j + 1, ?_, ?_⟩
        · rw [show i + (j + 1) = i + 1 + j by omega]
          exact h1
        · intro k hk
          cases k with
          | zero => exact ⟨s, List.contains_iff_mem.mp hs, rfl⟩
          | succ k => exact h2 k (by omega)
      · rename_i hs
        injection h with h
        exact ⟨0, .inr ⟨s, h.symm, rfl, fun hm => hs (List.contains_iff_mem.mpr hm)⟩, by simp⟩

theorem internalOf_none (s : String) : (s ≠ "array" ∧ internalOf s = none) ↔
    s ∉ ["u8", "u16", "u32", "u64", "u128", "array"] := by
  unfold internalOf
  repeat' split
  all_goals simp_all

theorem serdeOf_none (s : String) : serdeOf s = none ↔
    s ∉ ["u8", "u16", "u32", "u64", "u128", "list", "map", "array"] := by
  unfold serdeOf
  repeat' split
  all_goals simp_all

theorem attrInfo_error (attrs : EnumsetAttrs) (e : DeriveErr) (h : attrInfo attrs = .error e) :
    (∃ s, attrs.repr = some s ∧ s ∉ ["u8", "u16", "u32", "u64", "u128", "array"] ∧
      e = (Problem.unknownRepr s).error) ∨
    (∀ s, attrs.repr = some s → s ∈ ["u8", "u16", "u32", "u64", "u128", "array"]) ∧
    ∃ s, attrs.serialize_repr = some s ∧
      s ∉ ["u8", "u16", "u32", "u64", "u128", "list", "map", "array"] ∧
      e = (Problem.unknownSerializeRepr s).error := by
  unfold attrInfo at h
  simp only [push_repr_eq, push_serialize_repr_eq] at h
  have ser : ∀ i0 : EnumSetInfo, ((do
      let info ← match attrs.serialize_repr with
        | some s => (match serdeOf s with
          | some r => .ok { i0 with explicit_serde_repr := some r }
          | none => .error (.msg .serializeRepr s!"`{s}` is not a valid serialized representation.")
            : Except DeriveErr EnumSetInfo)
        | none => pure i0
      let info := if attrs.serialize_as_map then
        { info with explicit_serde_repr := some .map } else info
      pure (if attrs.serialize_as_list then
        { info with explicit_serde_repr := some .list } else info)) : Except DeriveErr EnumSetInfo)
        = .error e →
      ∃ s, attrs.serialize_repr = some s ∧
      s ∉ ["u8", "u16", "u32", "u64", "u128", "list", "map", "array"] ∧
      e = (Problem.unknownSerializeRepr s).error := by
    intro i0 h
    cases hs : attrs.serialize_repr with
    | none => rw [hs] at h; cases h
    | some s =>
      rw [hs] at h
      cases ht : serdeOf s with
      | some r => simp only [ht] at h; cases h
      | none =>
        simp only [ht] at h
        injection h with h
        exact ⟨s, rfl, (serdeOf_none s).mp ht, h.symm⟩
  cases hr : attrs.repr with
  | none =>
    rw [hr] at h
    exact .inr ⟨(by simp), ser _ h⟩
  | some s =>
    rw [hr] at h
    by_cases ha : s = "array"
    · subst ha
      simp only [if_true] at h
      refine .inr ⟨?_, ser _ h⟩
      intro s hs
      injection hs with hs
      subst hs
      decide
    · cases hi : internalOf s with
      | none =>
        simp only [ha, hi, if_false] at h
        injection h with h
        exact .inl ⟨s, rfl, (internalOf_none s).mp ⟨ha, hi⟩, h.symm⟩
      | some r =>
        simp only [ha, hi, if_false] at h
        refine .inr ⟨?_, ser _ h⟩
        intro s' hs
        injection hs with hs
        subst hs
        refine Classical.byContradiction fun hn => ?_
        have := ((internalOf_none s).mpr hn).2
        rw [hi] at this
        cases this

theorem validate_error (info : EnumSetInfo) (e : DeriveErr)
    (hmax : info.max_discrim < 0xFFFFFFC0)
    (hi : EnumSetInfo.IntRepr info.explicit_internal_repr) (h : info.validate = .error e) :
    let span := info.max_discrim_span.getD .callSite
    (info.internal_repr.supported_variants ≤ info.max_discrim ∧
      e = .msg span "`repr` is too small to contain the largest discriminant.") ∨
    info.max_discrim < info.internal_repr.supported_variants ∧
      ∃ k, info.serde_repr.supported_variants = some k ∧ k ≤ info.max_discrim ∧
      e = .msg span "`serialize_repr` is too small to contain the largest discriminant." := by
  have h1 : ¬ info.max_discrim + 64 ≥ 2 ^ 32 := by omega
  have h2 : ¬ info.internal_repr.supported_variants ≥ 2 ^ 32 := by
    have := EnumSetInfo.internal_size_lt info hmax hi
    omega
  unfold EnumSetInfo.validate at h
  simp only at h
  rw [if_neg h1, if_neg h2] at h
  by_cases h3 : info.internal_repr.supported_variants ≤ info.max_discrim
  · rw [if_pos h3] at h
    injection h with h
    refine .inl ⟨h3, ?_⟩
    rw [← h]
    cases info.max_discrim_span <;> rfl
  · rw [if_neg h3] at h
    rcases h4 : info.serde_repr.supported_variants with _ | k
    · simp only [h4] at h; cases h
    · by_cases h5 : k ≤ info.max_discrim
      · simp only [h4, h5, if_true] at h
        injection h with h
        refine .inr ⟨by omega, k, rfl, h5, ?_⟩
        rw [← h]
        cases info.max_discrim_span <;> rfl
      · simp only [h4, h5, if_false] at h
        cases h

theorem lt_of_ne {p : Problem} {n : Nat} (h : n ≤ p.stage) (hne : p.stage ≠ n) :
    n + 1 ≤ p.stage := by omega

theorem first_problem (inp : DeriveInput) (e : DeriveErr) (h : deriveInfo inp = .error e) :
    ∃ p : Problem, p.holds inp ∧ (∀ q : Problem, q.holds inp → ¬ q.before p) ∧ e = p.error := by
  rw [deriveInfo_eq] at h
  split at h
  · rename_i hg
    injection h with h
    refine ⟨.generics, hg, ?_, h.symm⟩
    rintro q - (hb | ⟨hs, hb⟩)
    · exact absurd hb (Nat.not_lt_zero _)
    · cases q <;> simp_all [Problem.stage, Problem.position, Problem.check]
  rename_i hg
  have n1 : ∀ q : Problem, q.holds inp → 1 ≤ q.stage := by
    intro q hq
    cases q <;> simp_all [Problem.stage, Problem.holds]
  split at h
  case isFalse =>
    rename_i hen
    injection h with h
    refine ⟨.notEnum, by simpa [Problem.holds] using hen, ?_, h.symm⟩
    rintro q hq (hb | ⟨hs, hb⟩)
    · exact absurd (n1 q hq) (by simpa [Problem.stage] using hb)
    · cases q <;> simp_all [Problem.stage, Problem.position, Problem.check]
  rename_i hen
  have n2 : ∀ q : Problem, q.holds inp → 2 ≤ q.stage := by
    intro q hq
    have := n1 q hq
    cases q <;> simp_all [Problem.stage, Problem.holds]
  split at h
  · rename_i e' he
    injection h with h
    subst h
    obtain ⟨j, h1, h2⟩ := checkReprAttrs_error _ _ _ he
    have key : ∀ (p : Problem), p.stage = 2 → p.position = j → p.check = 0 →
        ∀ q : Problem, q.holds inp → ¬ q.before p := by
      rintro p hp hpos hc q hq (hb | ⟨hs, hb | ⟨hb, hb'⟩⟩)
      · have := n2 q hq
        omega
      · rw [hp] at hs
        rw [hpos] at hb
        obtain ⟨s, hs', hk⟩ := h2 _ hb
        cases q <;> simp only [Problem.stage] at hs <;> try omega
        · simp only [Problem.holds] at hq
          rw [Problem.position] at hk
          rw [hk] at hq
          cases hq
        · obtain ⟨hq1, hq2⟩ := hq
          rw [Problem.position] at hk
          rw [hk] at hq1
          injection hq1 with hq1
          injection hq1 with hq1
          subst hq1
          exact hq2 hs'
      · omega
    rcases h1 with ⟨h1, h3⟩ | ⟨s, h1, h3, h4⟩
    · rw [Nat.zero_add] at h1
      exact ⟨.reprSyntax j, h3, key (.reprSyntax j) rfl rfl rfl, h1⟩
    · rw [Nat.zero_add] at h1
      exact ⟨.reprAttr j s, ⟨h3, h4⟩, key (.reprAttr j s) rfl rfl rfl, h1⟩
  rename_i u hrep
  have hrep' := (checkReprAttrs_iff _ _).mp hrep
  have n3 : ∀ q : Problem, q.holds inp → 3 ≤ q.stage := by
    intro q hq
    refine lt_of_ne (n2 q hq) fun hs => ?_
    cases q <;> simp only [Problem.stage] at hs <;> try omega
    · obtain ⟨s, -, hs⟩ := hrep' _ (List.mem_of_getElem? hq)
      cases hs
    · obtain ⟨s, hs1, hs⟩ := hrep' _ (List.mem_of_getElem? hq.1)
      injection hs with hs
      subst hs
      exact hq.2 hs1
  split at h
  · rename_i e' he
    injection h with h
    subst h
    rcases attrInfo_error _ _ he with ⟨s, h1, h2, h3⟩ | ⟨h0, s, h1, h2, h3⟩
    · refine ⟨.unknownRepr s, ⟨h1, h2⟩, ?_, h3⟩
      rintro q hq (hb | ⟨hs, hb⟩)
      · exact absurd (n3 q hq) (by simpa [Problem.stage] using hb)
      · cases q <;> simp_all [Problem.stage, Problem.position, Problem.check]
    · refine ⟨.unknownSerializeRepr s, ⟨h1, h2⟩, ?_, h3⟩
      rintro q hq (hb | ⟨hs, hb⟩)
      · have := n3 q hq
        cases q <;> simp only [Problem.stage] at hb this <;> try omega
        exact hq.2 (h0 _ hq.1)
      · cases q <;> simp_all [Problem.stage, Problem.position, Problem.check]
  rename_i i0 hi0
  obtain ⟨a1, a2, a3⟩ := (attrInfo_iff _ _).mp hi0
  have n5 : ∀ q : Problem, q.holds inp → 5 ≤ q.stage := by
    intro q hq
    have := n3 q hq
    cases q <;> simp only [Problem.stage] at this ⊢ <;> try omega
    · obtain ⟨q1, q2⟩ := hq
      obtain ⟨q3, q4⟩ := (internalOf_none _).mpr q2
      rcases a1 _ q1 with h | ⟨r, h⟩
      · exact absurd h q3
      · rw [h] at q4; cases q4
    · obtain ⟨q1, q2⟩ := hq
      have q3 := (serdeOf_none _).mpr q2
      obtain ⟨r, h⟩ := a2 _ q1
      rw [h] at q3; cases q3
  have hcur : i0.cur_discrim = 0 := by rw [a3]; rfl
  have hmx : i0.max_discrim = 0 := by rw [a3]; rfl
  have hun : i0.used_variant_names = [] := by rw [a3]; rfl
  have hud : i0.used_discriminants = [] := by rw [a3]; rfl
  have hvs : i0.variants = [] := by rw [a3]; rfl
  split at h
  · rename_i e' he
    injection h with h
    subst h
    obtain ⟨pre, v, post, heq, hpre, hv⟩ := EnumSetInfo.foldlM_error _ _ _ he
    obtain ⟨b1, b2, b3, b4, b5, -⟩ := (EnumSetInfo.push_variants_iff _ _ _).mp hpre
    rw [hcur] at b4 b5
    have hi : (i0.steps pre).variants.length = pre.length := by
      rw [EnumSetInfo.steps_length, hvs]; simp
    have fine : ∀ j, j < pre.length → ∀ k : VariantProblem, ¬ k.holds inp.variants j := by
      intro j hj k
      rw [heq]
      exact prefix_fine b1 b2 b4 (fun d hd => (b5 d hd).1) hj k
    have hget : inp.variants[pre.length]? = some v := by rw [heq]; simp
    have hval : v.LitOrNone → (rustcDiscriminants inp.variants)[pre.length]? =
        some ((dOf (i0.steps pre).cur_discrim v : Nat) : Int) := by
      intro hl
      have := EnumSetInfo.rustc_append pre (v :: post) i0 (fun v hv => (b1 v hv).2)
      rw [hcur] at this
      change rustcDiscriminants (pre ++ v :: post) = _ at this
      rw [heq, this, EnumSetInfo.rustc_cons _ _ _ hl]
      rw [List.getElem?_append_right (by simp [dsFrom_length])]
      simp [dsFrom_length]
    -- it is enough to look at this variant's other problems
    have key : ∀ (k : VariantProblem), k.holds inp.variants pre.length →
        (∀ k' : VariantProblem, k'.check < k.check → ¬ k'.holds inp.variants pre.length) →
        e' = k.error pre.length →
        ∃ p : Problem, p.holds inp ∧ (∀ q : Problem, q.holds inp → ¬ q.before p) ∧ e' = p.error := by
      intro k hk hmin hke
      refine ⟨.variant pre.length k, hk, ?_, hke⟩
      rintro q hq (hb | ⟨hs, hb | ⟨hb, hb'⟩⟩)
      · exact absurd (n5 q hq) (by simpa [Problem.stage] using hb)
      · cases q <;> simp only [Problem.stage] at hs <;> try omega
        exact fine _ hb _ hq
      · cases q <;> simp only [Problem.stage] at hs <;> try omega
        simp only [Problem.position] at hb
        subst hb
        exact hmin _ hb' hq
    have noName : v.ident ∉ (i0.steps pre).used_variant_names →
        ¬ VariantProblem.duplicateName.holds inp.variants pre.length := by
      rintro hn ⟨j, w, w', hj, hw, hw', he⟩
      rw [hget] at hw'
      injection hw' with hw'
      subst hw'
      refine hn ((EnumSetInfo.steps_names _ _ _).mpr (.inr ?_))
      rw [heq, List.getElem?_append_left hj] at hw
      rw [← he]
      exact List.mem_map_of_mem (List.mem_of_getElem? hw)
    have noFields : v.unit = true → ¬ VariantProblem.hasFields.holds inp.variants pre.length := by
      rintro hu ⟨w, hw, hw'⟩
      rw [hget] at hw
      injection hw with hw
      subst hw
      rw [hu] at hw'
      cases hw'
    have noParse : v.LitOrNone → (∀ n, v.discriminant = some (.lit n) → n < 2 ^ 32) →
        ∀ k' : VariantProblem, k'.check = 2 → ¬ k'.holds inp.variants pre.length := by
      rintro hl hu k' hk' hh
      cases k' <;> simp only [VariantProblem.check] at hk' <;> try omega
      · obtain ⟨w, n, hw, hd, hn⟩ := hh
        rw [hget] at hw
        injection hw with hw
        subst hw
        have := hu n hd
        omega
      · obtain ⟨w, n, hw, hd⟩ := hh
        rw [hget] at hw
        injection hw with hw
        subst hw
        rcases hl with h | ⟨m, h⟩ <;> rw [h] at hd <;> cases hd
      · obtain ⟨w, n, hw, hd⟩ := hh
        rw [hget] at hw
        injection hw with hw
        subst hw
        rcases hl with h | ⟨m, h⟩ <;> rw [h] at hd <;> cases hd
    have hperr := EnumSetInfo.push_variant_error _ _ _ hv
    simp only [hi] at hperr
    rcases hperr with ⟨h1, h2⟩ | ⟨h1, ⟨h2, h3⟩ | ⟨h2, h3⟩⟩
    · refine key .duplicateName ?_ (fun k' hk' => absurd hk' (Nat.not_lt_zero _)) h1
      rcases (EnumSetInfo.steps_names _ _ _).mp h2 with h | h
      · rw [hun] at h; cases h
      · obtain ⟨w, hw, hwe⟩ := List.mem_map.mp h
        obtain ⟨j, hj⟩ := List.mem_iff_getElem?.mp hw
        have hjl := (List.getElem?_eq_some_iff.mp hj).1
        refine ⟨j, w, v, hjl, ?_, hget, hwe⟩
        rw [heq, List.getElem?_append_left hjl]
        exact hj
    · refine key .hasFields ⟨v, hget, h3⟩ ?_ h2
      intro k' hk'
      cases k' <;> simp only [VariantProblem.check] at hk' <;> try omega
      exact noName h1
    · have lt2 : ∀ k' : VariantProblem, k'.check < 2 → ¬ k'.holds inp.variants pre.length := by
        intro k' hk'
        cases k' <;> simp only [VariantProblem.check] at hk' <;> try omega
        · exact noName h1
        · exact noFields h2
      rcases h3 with ⟨h3, n, h4, h5⟩ | ⟨h3, x, h4⟩ | ⟨h3, x, h4⟩ | ⟨h3, h4, h5⟩
      · exact key .notU32 ⟨v, n, hget, h4, h5⟩ lt2 h3
      · exact key .negative ⟨v, x, hget, h4⟩ lt2 h3
      · exact key .notLiteral ⟨v, x, hget, h4⟩ lt2 h3
      · have lt3 : ∀ k' : VariantProblem, k'.check < 3 → ¬ k'.holds inp.variants pre.length := by
          intro k' hk'
          by_cases h : k'.check = 2
          · exact noParse h3 h4 k' h
          · exact lt2 k' (by omega)
        rcases h5 with ⟨h5, h6⟩ | ⟨h5, h6, h7⟩
        · exact key .overLimit ⟨_, hval h3, by omega⟩ lt3 h5
        · refine key .duplicateDiscriminant ?_ ?_ h5
          · rcases (EnumSetInfo.steps_discrs _ _ _).mp h7 with h | h
            · rw [hud] at h; cases h
            · rw [hcur] at h
              obtain ⟨j, hj⟩ := List.mem_iff_getElem?.mp h
              obtain ⟨hjl, hje⟩ := List.getElem?_eq_some_iff.mp hj
              rw [dsFrom_length] at hjl
              refine ⟨j, _, hjl, ?_, hval h3⟩
              rw [heq, rustc_prefix (fun v hv => (b1 v hv).2) hjl, hje]
          · intro k' hk'
            by_cases h : k'.check = 3
            · cases k' <;> simp only [VariantProblem.check] at h <;> try omega
              rintro ⟨d, hd, hlt⟩
              rw [hval h3] at hd
              injection hd with hd
              omega
            · have hk' : k'.check < 4 := hk'
              exact lt3 k' (by omega)
  rename_i info hfold
  obtain ⟨b1, b2, b3, b4, b5, b6⟩ := (EnumSetInfo.push_variants_iff _ _ _).mp hfold
  rw [hcur] at b4 b5
  have n6 : ∀ q : Problem, q.holds inp → 6 ≤ q.stage := by
    intro q hq
    refine lt_of_ne (n5 q hq) fun hs => ?_
    cases q with
    | variant j k =>
      have hj : j < inp.variants.length := by
        cases k with
        | duplicateName =>
          obtain ⟨_, _, _, _, _, h, _⟩ := hq
          exact (List.getElem?_eq_some_iff.mp h).1
        | hasFields => obtain ⟨_, h, _⟩ := hq; exact (List.getElem?_eq_some_iff.mp h).1
        | notU32 => obtain ⟨_, _, h, _⟩ := hq; exact (List.getElem?_eq_some_iff.mp h).1
        | negative => obtain ⟨_, _, h, _⟩ := hq; exact (List.getElem?_eq_some_iff.mp h).1
        | notLiteral => obtain ⟨_, _, h, _⟩ := hq; exact (List.getElem?_eq_some_iff.mp h).1
        | overLimit =>
          obtain ⟨_, h, _⟩ := hq
          have := (List.getElem?_eq_some_iff.mp h).1
          rw [show rustcDiscriminants inp.variants = (dsFrom 0 inp.variants).map Int.ofNat from
            rustc_eq 0 _ (fun v hv => (b1 v hv).2)] at this
          simpa [dsFrom_length] using this
        | duplicateDiscriminant =>
          obtain ⟨_, _, _, _, h⟩ := hq
          have := (List.getElem?_eq_some_iff.mp h).1
          rw [show rustcDiscriminants inp.variants = (dsFrom 0 inp.variants).map Int.ofNat from
            rustc_eq 0 _ (fun v hv => (b1 v hv).2)] at this
          simpa [dsFrom_length] using this
      have := prefix_fine (rest := []) b1 b2 b4 (fun d hd => (b5 d hd).1) hj k
      rw [List.append_nil] at this
      exact this hq
    | _ => simp [Problem.stage] at hs
  have hmax : info.max_discrim = maxD 0 (dsFrom 0 inp.variants) := by
    rw [b6, EnumSetInfo.steps_max, hcur, hmx]
  obtain ⟨f1, f2, f3, f4, f5⟩ := EnumSetInfo.steps_fields inp.variants i0
  have hexpl : info.explicit_internal_repr = inp.attrs.repr.bind internalOf := by
    rw [b6, f1, a3]
  have hserd : info.explicit_serde_repr = serdeChoice inp.attrs := by
    rw [b6, f3, a3]
  have hlt : info.max_discrim < 0xFFFFFFC0 := by
    rw [hmax, maxD_lt_iff _ _ (by omega)]
    exact fun d hd => (b5 d hd).1
  have hru : rustcDiscriminants inp.variants = (dsFrom 0 inp.variants).map Int.ofNat :=
    rustc_eq 0 _ (fun v hv => (b1 v hv).2)
  have hreprs : info.variants.map (·.variant_repr) = dsFrom 0 inp.variants := by
    rw [b6, EnumSetInfo.steps_variants, hvs, hcur]; rfl
  have hle : ∀ d ∈ rustcDiscriminants inp.variants, d ≤ (info.max_discrim : Int) := by
    intro d hd
    rw [hru] at hd
    obtain ⟨x, hx, rfl⟩ := List.mem_map.mp hd
    have := mem_le_maxD 0 _ x hx
    rw [hmax]
    change (x : Int) ≤ _
    omega
  have hspan : ∀ w, 0 < w → w ≤ info.max_discrim →
      ∃ i, info.max_discrim_span = some (.variant i) ∧ LargestNotBelow inp.variants i w := by
    intro w h0 hw
    have := EnumSetInfo.max_span inp.variants i0 (by rw [← b6]; omega) (.inl hmx)
    rw [← b6] at this
    obtain ⟨i, h1, h2⟩ := this
    refine ⟨i, h1, info.max_discrim, ?_, by omega, hle⟩
    rw [hreprs] at h2
    rw [hru, List.getElem?_map, h2]
    rfl
  split at h
  · rename_i e' he
    injection h with h
    subst h
    rcases validate_error info e' hlt (by rw [hexpl]; exact bind_internal_int _) he with
      ⟨h1, h2⟩ | ⟨h1, k, h2, h3, h4⟩
    · cases hx : info.explicit_internal_repr with
      | none =>
        have := auto_internal_fits info hx
        omega
      | some r =>
        have hi : info.internal_repr = r := by
          unfold EnumSetInfo.internal_repr; rw [hx]
        rw [hi] at h1
        rw [hexpl] at hx
        obtain ⟨s, hs, hsr⟩ := Option.bind_eq_some_iff.mp hx
        have hw := internalOf_width s
        rw [hsr] at hw
        simp at hw
        obtain ⟨i, hi1, hi2⟩ := hspan _ (intWidth_pos hw.symm) h1
        rw [hi1] at h2
        refine ⟨.reprTooSmall i, ⟨s, _, hs, hw.symm, hi2⟩, ?_, h2⟩
        rintro q hq (hb | ⟨hs, hb⟩)
        · exact absurd (n6 q hq) (by simpa [Problem.stage] using hb)
        · cases q <;> simp_all [Problem.stage, Problem.position, Problem.check]
    · cases hx : info.explicit_serde_repr with
      | none =>
        have := auto_serde_fits info hx k h2
        omega
      | some r =>
        have hi : info.serde_repr = r := by
          unfold EnumSetInfo.serde_repr; rw [hx]
        rw [hi] at h2
        rw [hserd] at hx
        unfold serdeChoice at hx
        split at hx
        · injection hx with hx; subst hx; cases h2
        split at hx
        · injection hx with hx; subst hx; cases h2
        rename_i hl hm
        obtain ⟨s, hs, hsr⟩ := Option.bind_eq_some_iff.mp hx
        have hw := serdeOf_width s
        rw [hsr] at hw
        simp only [Option.bind_some] at hw
        rw [h2] at hw
        obtain ⟨i, hi1, hi2⟩ := hspan _ (intWidth_pos hw.symm) h3
        rw [hi1] at h4
        refine ⟨.serializeReprTooSmall i,
          ⟨by simpa using hl, by simpa using hm, s, _, hs, hw.symm, hi2⟩, ?_, h4⟩
        rintro q hq (hb | ⟨hs', hb⟩)
        · have := n6 q hq
          cases q <;> simp only [Problem.stage] at hb this <;> try omega
          obtain ⟨s', w', hs', hw', d, hd1, hd2, hd3⟩ := hq
          have h5 := hle d (List.mem_of_getElem? hd1)
          cases hio : internalOf s' with
          | none =>
            have := internalOf_width s'
            rw [hio, hw'] at this
            cases this
          | some r' =>
            have hir : info.internal_repr = r' := by
              unfold EnumSetInfo.internal_repr
              rw [hexpl, hs']
              simp [hio]
            have := internalOf_width s'
            rw [hio, hw'] at this
            simp at this
            rw [hir, this] at h1
            omega
        · cases q <;> simp_all [Problem.stage, Problem.position, Problem.check]
  · cases h

theorem no_problem {inp : DeriveInput} (h : Acceptable inp) (p : Problem) : ¬ p.holds inp := by
  intro hp
  cases p with
  | generics => have := h.no_generics; rw [hp] at this; cases this
  | notEnum => have := h.is_enum; rw [hp] at this; cases this
  | reprSyntax i =>
    obtain ⟨s, -, hs⟩ := h.repr_attrs _ (List.mem_of_getElem? hp)
    cases hs
  | reprAttr i s =>
    obtain ⟨s', hs', he⟩ := h.repr_attrs _ (List.mem_of_getElem? hp.1)
    injection he with he
    subst he
    exact hp.2 hs'
  | unknownRepr s =>
    obtain ⟨h1, h2⟩ := (internalOf_none s).mpr hp.2
    rcases h.repr_known s hp.1 with h3 | h3
    · exact h1 h3
    · obtain ⟨r, hr⟩ := (internalOf_isSome s).mpr h3
      rw [hr] at h2
      cases h2
  | unknownSerializeRepr s =>
    have h2 := (serdeOf_none s).mpr hp.2
    obtain ⟨r, hr⟩ := (serdeOf_isSome s).mpr (h.serialize_repr_known s hp.1)
    rw [hr] at h2
    cases h2
  | variant i k =>
    cases k with
    | duplicateName =>
      obtain ⟨j, v, w, hj, hv, hw, he⟩ := hp
      obtain ⟨hi, rfl⟩ := List.getElem?_eq_some_iff.mp hw
      obtain ⟨hj', rfl⟩ := List.getElem?_eq_some_iff.mp hv
      have hn := h.distinct_names
      rw [List.nodup_iff_pairwise_ne, List.pairwise_iff_getElem] at hn
      exact hn j i (by simpa using hj') (by simpa using hi) hj (by simpa using he)
    | hasFields =>
      obtain ⟨v, hv, hu⟩ := hp
      rw [h.fieldless v (List.mem_of_getElem? hv)] at hu
      cases hu
    | notU32 =>
      obtain ⟨v, n, hv, hd, hn⟩ := hp
      have hmem : (n : Int) ∈ rustcDiscriminants inp.variants := by
        have : ∀ (vs : List Variant) (c : Int) (i : Nat), vs[i]? = some v →
            (n : Int) ∈ rustcDiscriminantsFrom c vs := by
          intro vs
          induction vs with
          | nil => intro c i hi; cases hi
          | cons w ws ih =>
            intro c i hi
            cases i with
            | zero =>
              simp only [List.getElem?_cons_zero, Option.some.injEq] at hi
              subst hi
              simp [rustcDiscriminantsFrom, hd]
            | succ i => exact List.mem_cons_of_mem _ (ih _ i hi)
        exact this _ _ i hv
      have := h.limit _ hmem
      omega
    | negative =>
      obtain ⟨v, x, hv, hd⟩ := hp
      rcases h.literal v (List.mem_of_getElem? hv) with h | ⟨m, h⟩ <;> rw [h] at hd <;> cases hd
    | notLiteral =>
      obtain ⟨v, x, hv, hd⟩ := hp
      rcases h.literal v (List.mem_of_getElem? hv) with h | ⟨m, h⟩ <;> rw [h] at hd <;> cases hd
    | overLimit =>
      obtain ⟨d, hd, hlt⟩ := hp
      have := h.limit d (List.mem_of_getElem? hd)
      omega
    | duplicateDiscriminant =>
      obtain ⟨j, d, hj, ha, hb⟩ := hp
      obtain ⟨hi, h1⟩ := List.getElem?_eq_some_iff.mp ha
      obtain ⟨hj', h2⟩ := List.getElem?_eq_some_iff.mp hb
      have hn := h.distinct_discriminants
      rw [List.nodup_iff_pairwise_ne, List.pairwise_iff_getElem] at hn
      exact hn j i hi hj' hj (by rw [h1, h2])
  | reprTooSmall i =>
    obtain ⟨s, w, hs, hw, d, h1, h2, -⟩ := hp
    have := h.repr_wide s w hs hw d (List.mem_of_getElem? h1)
    omega
  | serializeReprTooSmall i =>
    obtain ⟨hl, hm, s, w, hs, hw, d, h1, h2, -⟩ := hp
    have := h.serialize_repr_wide hl hm s w hs hw d (List.mem_of_getElem? h1)
    omega

end helpers

/-! ## C54 The diagnostics of the derive macro -/

/-- The input is accepted exactly if it has no problem. -/
theorem C54_none [Platform] (inp : DeriveInput) :
    (∃ T, derive inp = .ok T) ↔ ∀ p : Problem, ¬ p.holds inp := by
  refine ⟨fun h => no_problem ((C30_accepts inp).mp h), fun h => ?_⟩
  rw [derive_ok_iff]
  cases hd : deriveInfo inp with
  | ok info => exact ⟨info, rfl⟩
  | error e =>
    obtain ⟨p, hp, -⟩ := first_problem inp e hd
    exact absurd hp (h p)

/-- What the macro reports is a problem the input has, at the right place, and no other problem
comes before it: problems of the attributes are reported before those of the variants, these in the
order of the source, and those before a representation that is too small. -/
theorem C54_first [Platform] (inp : DeriveInput) (e : DeriveErr) (h : derive inp = .error e) :
    ∃ p : Problem, p.holds inp ∧ (∀ q : Problem, q.holds inp → ¬ q.before p) ∧ e = p.error := by
  unfold derive at h
  split at h
  · rename_i e' he
    injection h with h
    subst h
    exact first_problem inp _ he
  · rename_i info hi
    obtain ⟨T, hT, -⟩ := impl_ok (deriveInfo_ok hi)
    rw [hT] at h
    cases h

/-- Two problems neither of which comes before the other are reported in the same way, so `C54_first`
determines the error. -/
theorem C54_unique (inp : DeriveInput) (p q : Problem) (hp : p.holds inp) (hq : q.holds inp)
    (h1 : ∀ r : Problem, r.holds inp → ¬ r.before p)
    (h2 : ∀ r : Problem, r.holds inp → ¬ r.before q) : p.error = q.error := by
  have a := h1 q hq
  have b := h2 p hp
  unfold Problem.before at a b
  have hs : p.stage = q.stage := by omega
  have hpos : p.position = q.position := by omega
  have hc : p.check = q.check := by omega
  have hsome : ∀ {α : Type} {o : Option α} {x y : α}, o = some x → o = some y → x = y := by
    rintro α o x y rfl h; injection h
  have same : ∀ {i j w w' : Nat}, LargestNotBelow inp.variants i w →
      LargestNotBelow inp.variants j w' →
      (∀ r : Problem, r.holds inp → r.stage = 5 → False) → i = j := by
    rintro i j w w' ⟨d, hd, -, hmax⟩ ⟨d', hd', -, hmax'⟩ hno
    have e : d = d' := by
      have := hmax d' (List.mem_of_getElem? hd')
      have := hmax' d (List.mem_of_getElem? hd)
      omega
    subst e
    rcases Nat.lt_trichotomy i j with h | h | h
    · exact (hno (.variant j .duplicateDiscriminant) ⟨i, d, h, hd, hd'⟩ rfl).elim
    · exact h
    · exact (hno (.variant i .duplicateDiscriminant) ⟨j, d, h, hd', hd⟩ rfl).elim
  clear a b
  cases p <;> cases q <;> simp only [Problem.stage] at hs <;> try omega
  case generics.generics => rfl
  case notEnum.notEnum => rfl
  case reprSyntax.reprSyntax => simp only [Problem.position] at hpos; rw [hpos]
  case reprSyntax.reprAttr =>
    simp only [Problem.position] at hpos
    subst hpos
    cases hsome hp hq.1
  case reprAttr.reprSyntax =>
    simp only [Problem.position] at hpos
    subst hpos
    cases hsome hp.1 hq
  case reprAttr.reprAttr =>
    simp only [Problem.position] at hpos
    subst hpos
    cases hsome hp.1 hq.1
    rfl
  case unknownRepr.unknownRepr => cases hsome hp.1 hq.1; rfl
  case unknownSerializeRepr.unknownSerializeRepr => cases hsome hp.1 hq.1; rfl
  case variant.variant i k j l =>
    simp only [Problem.position] at hpos
    subst hpos
    simp only [Problem.check] at hc
    cases k <;> cases l <;> simp only [VariantProblem.check] at hc <;> try omega
    all_goals try rfl
    all_goals
      exfalso
      first
      | (obtain ⟨v, x, hv, hd, -⟩ := hp
         obtain ⟨w, y, hw, he, -⟩ := hq
         cases hsome hv hw
         rw [hd] at he
         cases he)
      | (obtain ⟨v, x, hv, hd⟩ := hp
         obtain ⟨w, y, hw, he, -⟩ := hq
         cases hsome hv hw
         rw [hd] at he
         cases he)
      | (obtain ⟨v, x, hv, hd, -⟩ := hp
         obtain ⟨w, y, hw, he⟩ := hq
         cases hsome hv hw
         rw [hd] at he
         cases he)
      | (obtain ⟨v, x, hv, hd⟩ := hp
         obtain ⟨w, y, hw, he⟩ := hq
         cases hsome hv hw
         rw [hd] at he
         cases he)
  case reprTooSmall.reprTooSmall i j =>
    obtain ⟨_, _, _, _, hi⟩ := hp
    obtain ⟨_, _, _, _, hj⟩ := hq
    rw [same hi hj fun r hr hs => h1 r hr (.inl (show r.stage < 6 by omega))]
  case serializeReprTooSmall.serializeReprTooSmall i j =>
    obtain ⟨_, _, _, _, _, _, hi⟩ := hp
    obtain ⟨_, _, _, _, _, _, hj⟩ := hq
    rw [same hi hj fun r hr hs => h1 r hr (.inl (show r.stage < 7 by omega))]

/-- The error is exactly that of the first problem. -/
theorem C54_error [Platform] (inp : DeriveInput) (e : DeriveErr) :
    derive inp = .error e ↔
      ∃ p : Problem, p.holds inp ∧ (∀ q : Problem, q.holds inp → ¬ q.before p) ∧ e = p.error := by
  refine ⟨C54_first inp e, ?_⟩
  rintro ⟨p, hp, hmin, rfl⟩
  cases hd : derive inp with
  | ok T => exact absurd hp ((C54_none inp).mp ⟨T, hd⟩ p)
  | error e =>
    obtain ⟨q, hq, hmin', rfl⟩ := C54_first inp e hd
    rw [C54_unique inp p q hp hq hmin hmin']

/-- The deprecation warnings of a successful run: one for each deprecated thing used, pointing to it
and naming its replacement, and nothing else. -/
theorem C54_warnings (stdFeature : Bool) (inp : DeriveInput) (info : EnumSetInfo)
    (ws : List (Span × String)) (h : derive_enum_set_type_0 stdFeature inp = .ok (info, ws)) :
    deriveInfo inp = .ok info ∧ (ws.map Prod.fst).Nodup ∧
    ∀ sp m, (sp, m) ∈ ws ↔
      (sp = .serializeAsMap ∧ inp.attrs.serialize_as_map = true ∧
        m = "#[enumset(serialize_as_map)] is deprecated. " ++
          "Use `#[enumset(serialize_repr = \"map\")]` instead.") ∨
      (sp = .serializeAsList ∧ inp.attrs.serialize_as_list = true ∧
        m = "#[enumset(serialize_as_list)] is deprecated. " ++
          "Use `#[enumset(serialize_repr = \"list\")]` instead.") ∨
      (sp = .item ∧ stdFeature = true ∧
        m = "feature = \"std\" is depercated. If you rename `enumset`, use " ++
          "feature = \"proc-macro-crate\" instead. If you don't, remove the feature.") := by
  unfold derive_enum_set_type_0 at h
  cases hd : deriveInfo inp with
  | error e => rw [hd] at h; cases h
  | ok i =>
    rw [hd] at h
    have h : Except.ok (i, deriveWarnings stdFeature inp.attrs) = Except.ok (info, ws) := h
    injection h with h
    injection h with h1 h2
    subst h1 h2
    refine ⟨rfl, ?_⟩
    unfold deriveWarnings
    cases inp.attrs.serialize_as_map <;> cases inp.attrs.serialize_as_list <;> cases stdFeature <;>
      simp

open scoped Ex in
example := (C54_none Ex.inpL).mp ⟨_, Ex.hL⟩

/-- `enum { A, B = 5, C(u32), B = 5 }`: the third variant has fields; the last one has two problems,
none of which is reported. -/
def Ex.inpBad : DeriveInput where
  variants := [{ ident := "A" }, { ident := "B", discriminant := some (.lit 5) },
    { ident := "C", unit := false }, { ident := "B", discriminant := some (.lit 5) }]

open scoped Ex in
example : derive Ex.inpBad = .error (Problem.variant 2 .hasFields).error := rfl
open scoped Ex in
example := C54_first Ex.inpBad _ rfl
open scoped Ex in
example := (C54_error Ex.inpBad _).mp rfl
open scoped Ex in
example (q : Problem) (hq : q.holds Ex.inpBad)
    (h : ∀ r : Problem, r.holds Ex.inpBad → ¬ r.before q) :
    q.error = (Problem.variant 2 .hasFields).error := by
  obtain ⟨p, hp, h1, he⟩ := C54_first Ex.inpBad _ rfl
  exact (C54_unique Ex.inpBad q p hq hp h h1).trans he.symm
example : (Problem.variant 3 .duplicateName).holds Ex.inpBad :=
  ⟨1, _, _, by decide, rfl, rfl, rfl⟩
example : (Problem.variant 3 .duplicateDiscriminant).holds Ex.inpBad :=
  ⟨1, 5, by decide, by decide, by decide⟩
example := C54_warnings false
  { variants := [{ ident := "A" }], attrs := { serialize_as_map := true } } _ _ rfl

end Enumset
