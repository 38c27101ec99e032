import Verif.DeriveIff
import Verif.SpecDiag
/-!
# Helper lemmas for C54: the first problem is the one reported
-/
set_option autoImplicit false

namespace Enumset

namespace EnumSetInfo

theorem steps_append (a b : List Variant) (info : EnumSetInfo) :
    info.steps (a ++ b) = (info.steps a).steps b := by
  simp [steps]

theorem steps_names (vs : List Variant) (info : EnumSetInfo) (s : String) :
    s ∈ (info.steps vs).used_variant_names ↔
      s ∈ info.used_variant_names ∨ s ∈ vs.map (·.ident) := by
  induction vs generalizing info with
  | nil => simp [steps]
  | cons v vs ih =>
    have := ih (info.step v)
    simp only [steps, List.foldl_cons] at this ⊢
    rw [this]
    simp [step]
    grind

theorem steps_discrs (vs : List Variant) (info : EnumSetInfo) (d : Nat) :
    d ∈ (info.steps vs).used_discriminants ↔
      d ∈ info.used_discriminants ∨ d ∈ dsFrom info.cur_discrim vs := by
  induction vs generalizing info with
  | nil => simp [steps, dsFrom]
  | cons v vs ih =>
    have := ih (info.step v)
    simp only [steps, List.foldl_cons] at this ⊢
    rw [this]
    simp [step, dsFrom]
    grind

theorem steps_length (vs : List Variant) (info : EnumSetInfo) :
    (info.steps vs).variants.length = info.variants.length + vs.length := by
  have := congrArg List.length (steps_variants vs info)
  simpa [dsFrom_length] using this

theorem rustc_cons (cur : Nat) (v : Variant) (vs : List Variant) (h : v.LitOrNone) :
    rustcDiscriminantsFrom cur (v :: vs) =
      (dOf cur v : Int) :: rustcDiscriminantsFrom ((dOf cur v + 1 : Nat) : Int) vs := by
  rcases h with hv | ⟨n, hv⟩ <;> simp [rustcDiscriminantsFrom, dOf, hv]

theorem rustc_append (pre rest : List Variant) (info : EnumSetInfo)
    (h : ∀ v ∈ pre, v.LitOrNone) :
    rustcDiscriminantsFrom info.cur_discrim (pre ++ rest) =
      (dsFrom info.cur_discrim pre).map Int.ofNat ++
        rustcDiscriminantsFrom (info.steps pre).cur_discrim rest := by
  induction pre generalizing info with
  | nil => rfl
  | cons v vs ih =>
    have ih := ih (info.step v) (fun w hw => h w (by simp [hw]))
    rw [List.cons_append, rustc_cons _ _ _ (h v (by simp)), dsFrom, List.map_cons, List.cons_append]
    congr 1

/-- The first variant that cannot be pushed. -/
theorem foldlM_error (vs : List Variant) (info : EnumSetInfo) (e : DeriveErr)
    (h : vs.foldlM push_variant info = .error e) :
    ∃ pre v post, vs = pre ++ v :: post ∧
      pre.foldlM push_variant info = .ok (info.steps pre) ∧
      (info.steps pre).push_variant v = .error e := by
  induction vs generalizing info with
  | nil => cases h
  | cons v vs ih =>
    rw [List.foldlM_cons] at h
    cases hp : info.push_variant v with
    | error e' =>
      rw [hp] at h
      cases h
      exact ⟨[], v, vs, rfl, rfl, hp⟩
    | ok i1 =>
      rw [hp] at h
      obtain ⟨-, -, -, -, -, rfl⟩ := (push_variant_iff _ _ _).mp hp
      obtain ⟨pre, w, post, rfl, h1, h2⟩ := ih _ h
      refine ⟨v :: pre, w, post, rfl, ?_, h2⟩
      rw [List.foldlM_cons, hp]
      exact h1

theorem max_span (vs : List Variant) (info : EnumSetInfo)
    (hm : 0 < (info.steps vs).max_discrim) (h0 : info.max_discrim = 0 ∨
      ∃ i, info.max_discrim_span = some (.variant i) ∧
        (info.variants.map (·.variant_repr))[i]? = some info.max_discrim) :
    ∃ i, (info.steps vs).max_discrim_span = some (.variant i) ∧
      ((info.steps vs).variants.map (·.variant_repr))[i]? = some (info.steps vs).max_discrim := by
  induction vs generalizing info with
  | nil =>
    rcases h0 with h0 | h0
    · simp [steps] at hm; omega
    · exact h0
  | cons v vs ih =>
    refine ih (info.step v) hm ?_
    by_cases hgt : dOf info.cur_discrim v > info.max_discrim
    · right
      refine ⟨info.variants.length, ?_, ?_⟩
      · simp [step, hgt]
      · simp [step, hgt]
    · rcases h0 with h0 | ⟨i, h1, h2⟩
      · left
        change (if _ then _ else _) = 0
        rw [if_neg hgt, h0]
      · right
        refine ⟨i, by simp [step, hgt, h1], ?_⟩
        have hi := (List.getElem?_eq_some_iff.mp h2).1
        simp [step, hgt]
        rw [List.getElem?_append_left (by simpa using hi)]
        simpa using h2

/-- What the errors of `push_variant` mean. -/
theorem push_variant_error (info : EnumSetInfo) (v : Variant) (e : DeriveErr)
    (h : info.push_variant v = .error e) :
    let i := info.variants.length
    (e = VariantProblem.duplicateName.error i ∧ v.ident ∈ info.used_variant_names) ∨
    v.ident ∉ info.used_variant_names ∧
    ((e = VariantProblem.hasFields.error i ∧ v.unit = false) ∨
     v.unit = true ∧
     ((e = VariantProblem.notU32.error i ∧ ∃ n, v.discriminant = some (.lit n) ∧ 2 ^ 32 ≤ n) ∨
      (e = VariantProblem.negative.error i ∧ ∃ x, v.discriminant = some (.neg x)) ∨
      (e = VariantProblem.notLiteral.error i ∧ ∃ x, v.discriminant = some (.other x)) ∨
      v.LitOrNone ∧ (∀ n, v.discriminant = some (.lit n) → n < 2 ^ 32) ∧
      ((e = VariantProblem.overLimit.error i ∧ 0xFFFFFFC0 ≤ dOf info.cur_discrim v) ∨
       (e = VariantProblem.duplicateDiscriminant.error i ∧ dOf info.cur_discrim v < 0xFFFFFFC0 ∧
        dOf info.cur_discrim v ∈ info.used_discriminants)))) := by
  simp only
  unfold push_variant at h
  simp only at h
  by_cases h1 : v.ident ∈ info.used_variant_names
  · rw [if_pos (by simpa using h1)] at h
    injection h with h
    exact .inl ⟨h.symm, h1⟩
  rw [if_neg (by simpa using h1)] at h
  refine .inr ⟨h1, ?_⟩
  cases h2 : v.unit with
  | false =>
    rw [if_neg (by simp [h2])] at h
    injection h with h
    exact .inl ⟨h.symm, rfl⟩
  | true =>
  rw [if_pos h2] at h
  refine .inr ⟨rfl, ?_⟩
  rcases hd : parseDiscriminant info.variants.length info.cur_discrim v.discriminant with e' | d
  · rw [hd] at h
    injection h with h
    subst h
    unfold parseDiscriminant at hd
    rcases hv : v.discriminant with _ | ⟨n⟩ | ⟨n⟩ | ⟨n⟩
    · rw [hv] at hd; cases hd
    · rw [hv] at hd
      by_cases hn : n < 2 ^ 32
      · simp only [if_pos hn] at hd; cases hd
      · simp only [if_neg hn] at hd
        injection hd with hd
        exact .inl ⟨hd.symm, n, rfl, by omega⟩
    · rw [hv] at hd
      injection hd with hd
      exact .inr (.inl ⟨hd.symm, n, rfl⟩)
    · rw [hv] at hd
      injection hd with hd
      exact .inr (.inr (.inl ⟨hd.symm, n, rfl⟩))
  · obtain ⟨h3, rfl, h3'⟩ := (parse_iff _ _ _ _).mp hd
    refine .inr (.inr (.inr ⟨h3, ?_, ?_⟩))
    · intro n hn
      rcases h3' with h3' | h3'
      · rw [h3'] at hn; cases hn
      · simpa [dOf, hn] using h3'
    rw [hd] at h
    change (if dOf info.cur_discrim v ≥ 0xFFFFFFC0 then _ else _) = _ at h
    by_cases h4 : dOf info.cur_discrim v < 0xFFFFFFC0
    case neg =>
      rw [if_pos (by omega)] at h
      injection h with h
      exact .inl ⟨h.symm, by omega⟩
    rw [if_neg (by omega)] at h
    by_cases h5 : dOf info.cur_discrim v ∈ info.used_discriminants
    · simp only [List.contains_eq_mem, h5, decide_true, if_true] at h
      injection h with h
      exact .inr ⟨h.symm, h4, h5⟩
    · have h6 : ¬ dOf info.cur_discrim v + 1 ≥ 2 ^ 32 := by omega
      simp only [List.contains_eq_mem, h5] at h
      simp only [h6, if_false] at h
      cases h

end EnumSetInfo

/-- The discriminants of a prefix of readable variants. -/
theorem rustc_prefix {pre rest : List Variant} (h : ∀ v ∈ pre, v.LitOrNone) {j : Nat}
    (hj : j < pre.length) :
    (rustcDiscriminants (pre ++ rest))[j]? =
      some (((dsFrom 0 pre)[j]'(by rw [dsFrom_length]; exact hj) : Nat) : Int) := by
  have := EnumSetInfo.rustc_append pre rest (EnumSetInfo.new {}) h
  change rustcDiscriminants (pre ++ rest) = _ at this
  rw [this, List.getElem?_append_left (by simpa [dsFrom_length] using hj)]
  simp
  exact ⟨_, List.getElem?_eq_getElem _, rfl⟩

/-- A prefix that can be pushed has no problems. -/
theorem prefix_fine {pre rest : List Variant}
    (h1 : ∀ v ∈ pre, v.unit = true ∧ v.LitOrNone) (h2 : (pre.map (·.ident)).Nodup)
    (h3 : (dsFrom 0 pre).Nodup) (h4 : ∀ d ∈ dsFrom 0 pre, d < 0xFFFFFFC0) {j : Nat}
    (hj : j < pre.length) (k : VariantProblem) : ¬ k.holds (pre ++ rest) j := by
  have hl : ∀ v ∈ pre, v.LitOrNone := fun v hv => (h1 v hv).2
  have hget : ∀ i, i < pre.length → (pre ++ rest)[i]? = pre[i]? := fun i hi =>
    List.getElem?_append_left hi
  have hmem : ∀ v, (pre ++ rest)[j]? = some v → v ∈ pre := fun v hv =>
    List.mem_of_getElem? (by rw [← hget j hj]; exact hv)
  have hru : ∀ i, i < pre.length → (rustcDiscriminants (pre ++ rest))[i]? =
      ((dsFrom 0 pre)[i]?).map Int.ofNat := by
    intro i hi
    rw [rustc_prefix hl hi, List.getElem?_eq_getElem (by rw [dsFrom_length]; exact hi)]
    rfl
  cases k with
  | duplicateName =>
    rintro ⟨i, v, w, hi, hv, hw, he⟩
    rw [hget _ (by omega)] at hv
    rw [hget _ hj] at hw
    rw [List.nodup_iff_pairwise_ne, List.pairwise_iff_getElem] at h2
    refine h2 i j (by simp; omega) (by simpa using hj) hi ?_
    obtain ⟨_, rfl⟩ := List.getElem?_eq_some_iff.mp hv
    obtain ⟨_, rfl⟩ := List.getElem?_eq_some_iff.mp hw
    simpa using he
  | hasFields =>
    rintro ⟨v, hv, hu⟩
    rw [(h1 v (hmem v hv)).1] at hu
    cases hu
  | notU32 =>
    rintro ⟨v, n, hv, hd, hn⟩
    have hlt : n < 0xFFFFFFC0 := by
      have hr := hru j hj
      obtain ⟨d, hd'⟩ : ∃ d, (dsFrom 0 pre)[j]? = some d :=
        ⟨_, List.getElem?_eq_getElem (by rw [dsFrom_length]; exact hj)⟩
      have : d = n := by
        clear hr
        rw [hget j hj] at hv
        clear h1 h2 h3 h4 hget hmem hru hl
        revert hd' hv
        generalize 0 = c
        induction pre generalizing j c with
        | nil => simp
        | cons w ws ih =>
          cases j with
          | zero =>
            simp only [dsFrom, List.getElem?_cons_zero, Option.some.injEq]
            rintro rfl rfl
            simp [dOf, hd]
          | succ j =>
            simp only [dsFrom, List.getElem?_cons_succ]
            exact ih (by simpa using hj) _
      subst this
      exact h4 _ (List.mem_of_getElem? hd')
    omega
  | negative =>
    rintro ⟨v, x, hv, hd⟩
    rcases (h1 v (hmem v hv)).2 with h | ⟨n, h⟩ <;> rw [h] at hd <;> cases hd
  | notLiteral =>
    rintro ⟨v, x, hv, hd⟩
    rcases (h1 v (hmem v hv)).2 with h | ⟨n, h⟩ <;> rw [h] at hd <;> cases hd
  | overLimit =>
    rintro ⟨d, hd, hn⟩
    rw [hru j hj] at hd
    obtain ⟨x, hx, rfl⟩ := Option.map_eq_some_iff.mp hd
    have := h4 _ (List.mem_of_getElem? hx)
    change _ < (x : Int) at hn
    omega
  | duplicateDiscriminant =>
    rintro ⟨i, d, hi, ha, hb⟩
    rw [hru _ (by omega)] at ha
    rw [hru _ hj] at hb
    obtain ⟨x, hx, rfl⟩ := Option.map_eq_some_iff.mp ha
    obtain ⟨y, hy, he⟩ := Option.map_eq_some_iff.mp hb
    have he := Int.ofNat.inj he
    subst he
    rw [List.nodup_iff_pairwise_ne, List.pairwise_iff_getElem] at h3
    obtain ⟨p, hp⟩ := List.getElem?_eq_some_iff.mp hx
    obtain ⟨q, hq⟩ := List.getElem?_eq_some_iff.mp hy
    exact h3 i j p q hi (by rw [hp, hq])

end Enumset
