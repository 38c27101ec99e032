import Verif.Derive
import Verif.LawfulPrim
import Verif.LawfulArray
/-!
# Helper lemmas: what the derive macro computes
-/
set_option autoImplicit false

namespace Enumset

/-- The discriminant expression is one the macro can read. -/
def Variant.LitOrNone (v : Variant) : Prop :=
  v.discriminant = none ∨ ∃ n, v.discriminant = some (.lit n)

/-- The discriminant of a variant, when it is `LitOrNone`. -/
def dOf (cur : Nat) (v : Variant) : Nat :=
  match v.discriminant with
  | some (.lit n) => n
  | _ => cur

/-- The discriminants of a list of variants, when all are `LitOrNone`. -/
def dsFrom (cur : Nat) : List Variant → List Nat
  | [] => []
  | v :: vs => dOf cur v :: dsFrom (dOf cur v + 1) vs

theorem dsFrom_length (cur : Nat) (vs : List Variant) : (dsFrom cur vs).length = vs.length := by
  induction vs generalizing cur with
  | nil => rfl
  | cons v vs ih => simp [dsFrom, ih]

theorem rustc_eq (cur : Nat) (vs : List Variant) (h : ∀ v ∈ vs, v.LitOrNone) :
    rustcDiscriminantsFrom cur vs = (dsFrom cur vs).map Int.ofNat := by
  induction vs generalizing cur with
  | nil => rfl
  | cons v vs ih =>
    have hv := h v (by simp)
    have ih := fun c => ih c (fun w hw => h w (by simp [hw]))
    rcases hv with hv | ⟨n, hv⟩
    · have e : ((cur : Int) + 1) = ((cur + 1 : Nat) : Int) := rfl
      simp [rustcDiscriminantsFrom, dsFrom, dOf, hv, ← ih]
    · have e : ((n : Int) + 1) = ((n + 1 : Nat) : Int) := rfl
      simp [rustcDiscriminantsFrom, dsFrom, dOf, hv, ← ih]

/-- Running maximum. -/
def maxD (m : Nat) : List Nat → Nat
  | [] => m
  | d :: ds => maxD (if d > m then d else m) ds

theorem le_maxD (m : Nat) (ds : List Nat) : m ≤ maxD m ds := by
  induction ds generalizing m with
  | nil => exact Nat.le_refl _
  | cons d ds ih =>
    have := ih (if d > m then d else m)
    simp only [maxD]
    split at this <;> split <;> first | omega | assumption

theorem mem_le_maxD (m : Nat) (ds : List Nat) : ∀ d ∈ ds, d ≤ maxD m ds := by
  induction ds generalizing m with
  | nil => simp
  | cons d ds ih =>
    intro e he
    simp only [maxD]
    rcases List.mem_cons.mp he with rfl | he
    · refine Nat.le_trans ?_ (le_maxD _ ds)
      split <;> omega
    · exact ih _ e he

theorem maxD_mem (m : Nat) (ds : List Nat) : maxD m ds = m ∨ maxD m ds ∈ ds := by
  induction ds generalizing m with
  | nil => exact .inl rfl
  | cons d ds ih =>
    simp only [maxD]
    rcases ih (if d > m then d else m) with h | h
    · rw [h]
      split
      · exact .inr (by simp)
      · exact .inl rfl
    · exact .inr (by simp [h])

namespace EnumSetInfo

/-- The effect of a successful `push_variant`. -/
def step (info : EnumSetInfo) (v : Variant) : EnumSetInfo :=
  let d := dOf info.cur_discrim v
  { info with
    cur_discrim := d + 1
    max_discrim := if d > info.max_discrim then d else info.max_discrim
    max_discrim_span := if d > info.max_discrim then some (.variant info.variants.length)
      else info.max_discrim_span
    variants := info.variants ++ [{ name := v.ident, variant_repr := d }]
    used_variant_names := v.ident :: info.used_variant_names
    used_discriminants := d :: info.used_discriminants }

theorem parse_iff (i cur d : Nat) (v : Variant) :
    parseDiscriminant i cur v.discriminant = .ok d ↔
      v.LitOrNone ∧ d = dOf cur v ∧ (v.discriminant = none ∨ d < 2 ^ 32) := by
  unfold Variant.LitOrNone dOf parseDiscriminant
  rcases h : v.discriminant with _ | ⟨n⟩ | ⟨n⟩ | ⟨n⟩
  · simp [eq_comm]
  · by_cases hn : n < 2 ^ 32
    · simp only [if_pos hn]; simp [eq_comm]; omega
    · simp only [if_neg hn]; simp; omega
  · simp
  · simp

theorem push_variant_iff (info info' : EnumSetInfo) (v : Variant) :
    info.push_variant v = .ok info' ↔
      v.ident ∉ info.used_variant_names ∧ v.unit = true ∧ v.LitOrNone ∧
      dOf info.cur_discrim v < 0xFFFFFFC0 ∧
      dOf info.cur_discrim v ∉ info.used_discriminants ∧ info' = info.step v := by
  unfold push_variant
  simp only
  by_cases h1 : v.ident ∈ info.used_variant_names
  · simp [h1]
  rw [if_neg (by simpa using h1)]
  by_cases h2 : v.unit = true
  case neg => simp [h2]
  rw [if_pos h2]
  rcases hd : parseDiscriminant info.variants.length info.cur_discrim v.discriminant with e | d
  · constructor
    · intro h; cases h
    · rintro ⟨_, _, h3, h4, _⟩
      have := (parse_iff info.variants.length info.cur_discrim _ v).mpr ⟨h3, rfl, .inr (by omega)⟩
      rw [this] at hd; cases hd
  · obtain ⟨h3, rfl, -⟩ := (parse_iff _ _ _ _).mp hd
    change (if dOf info.cur_discrim v ≥ 0xFFFFFFC0 then _ else _) = _ ↔ _
    by_cases h4 : dOf info.cur_discrim v < 0xFFFFFFC0
    case neg =>
      rw [if_pos (by omega)]
      constructor
      · intro h; cases h
      · rintro ⟨_, _, _, h, _⟩; omega
    rw [if_neg (by omega)]
    by_cases h5 : dOf info.cur_discrim v ∈ info.used_discriminants
    · simp only [List.contains_eq_mem, h5]
      constructor
      · intro h; cases h
      · rintro ⟨_, _, _, _, h, _⟩; exact absurd trivial h
    · have h6 : ¬ dOf info.cur_discrim v + 1 ≥ 2 ^ 32 := by omega
      simp only [List.contains_eq_mem, h5]
      simp only [h6, h1, h2, h3, h4, not_false_eq_true, true_and, if_false]
      have : info.step v =
       (if dOf info.cur_discrim v > info.max_discrim then info.step v else info.step v) := by
        split <;> rfl
      rw [this]
      unfold step
      by_cases h7 : dOf info.cur_discrim v > info.max_discrim
      · simp only [h7, if_true]
        constructor
        · intro h; injection h with h; exact h.symm
        · intro h; rw [h]; rfl
      · simp only [h7, if_false]
        constructor
        · intro h; injection h with h; exact h.symm
        · intro h; rw [h]; rfl

/-- The effect of pushing a list of variants. -/
def steps (info : EnumSetInfo) (vs : List Variant) : EnumSetInfo := vs.foldl step info

theorem push_variants_iff (vs : List Variant) (info info' : EnumSetInfo) :
    vs.foldlM push_variant info = .ok info' ↔
      (∀ v ∈ vs, v.unit = true ∧ v.LitOrNone) ∧ (vs.map (·.ident)).Nodup ∧
      (∀ v ∈ vs, v.ident ∉ info.used_variant_names) ∧
      (dsFrom info.cur_discrim vs).Nodup ∧
      (∀ d ∈ dsFrom info.cur_discrim vs, d < 0xFFFFFFC0 ∧ d ∉ info.used_discriminants) ∧
      info' = info.steps vs := by
  induction vs generalizing info with
  | nil =>
    constructor
    · intro h
      have h : Except.ok info = Except.ok info' := h
      injection h with h
      subst h
      simp [dsFrom, steps]
    · rintro ⟨_, _, _, _, _, rfl⟩; rfl
  | cons v vs ih =>
    rw [List.foldlM_cons]
    constructor
    · intro h
      rcases hp : info.push_variant v with e | i1
      · rw [hp] at h; cases h
      · rw [hp] at h
        obtain ⟨a1, a2, a3, a4, a5, rfl⟩ := (push_variant_iff _ _ _).mp hp
        obtain ⟨b1, b2, b3, b4, b5, rfl⟩ := (ih _).mp h
        refine ⟨?_, ?_, ?_, ?_, ?_, rfl⟩
        · intro w hw
          rcases List.mem_cons.mp hw with rfl | hw
          · exact ⟨a2, a3⟩
          · exact b1 w hw
        · rw [List.map_cons, List.nodup_cons]
          refine ⟨?_, b2⟩
          intro hm
          obtain ⟨w, hw, he⟩ := List.mem_map.mp hm
          have := b3 w hw
          simp [step, he] at this
        · intro w hw
          rcases List.mem_cons.mp hw with rfl | hw
          · exact a1
          · have := b3 w hw
            simp [step] at this
            exact this.2
        · rw [dsFrom, List.nodup_cons]
          refine ⟨?_, b4⟩
          intro hm
          have := (b5 _ hm).2
          simp [step] at this
        · intro d hd
          rcases List.mem_cons.mp hd with rfl | hd
          · exact ⟨a4, a5⟩
          · have := b5 d hd
            simp [step] at this
            exact ⟨this.1, this.2.2⟩
    · rintro ⟨c1, c2, c3, c4, c5, rfl⟩
      rw [List.map_cons, List.nodup_cons] at c2
      rw [dsFrom, List.nodup_cons] at c4
      have c5' := c5 (dOf info.cur_discrim v) (by simp [dsFrom])
      have hp : info.push_variant v = .ok (info.step v) :=
        (push_variant_iff _ _ _).mpr ⟨c3 v (by simp), (c1 v (by simp)).1, (c1 v (by simp)).2,
          c5'.1, c5'.2, rfl⟩
      rw [hp]
      refine (ih _).mpr ⟨fun w hw => c1 w (by simp [hw]), c2.2, ?_, c4.2, ?_, rfl⟩
      · intro w hw
        have h1 := c3 w (by simp [hw])
        have h2 : w.ident ≠ v.ident := by
          intro he
          exact c2.1 (List.mem_map.mpr ⟨w, hw, he⟩)
        simp [step, h1, h2]
      · intro d hd
        have h1 := c5 d (by simp [dsFrom]; exact .inr hd)
        have h2 : d ≠ dOf info.cur_discrim v := by
          rintro rfl
          exact c4.1 hd
        refine ⟨h1.1, ?_⟩
        simp [step, h1.2, h2]

theorem steps_variants (vs : List Variant) (info : EnumSetInfo) :
    (info.steps vs).variants.map (·.variant_repr) =
      info.variants.map (·.variant_repr) ++ dsFrom info.cur_discrim vs := by
  induction vs generalizing info with
  | nil => simp [steps, dsFrom]
  | cons v vs ih =>
    have := ih (info.step v)
    simp only [steps, List.foldl_cons] at this ⊢
    rw [this]
    simp [step, dsFrom]

theorem steps_max (vs : List Variant) (info : EnumSetInfo) :
    (info.steps vs).max_discrim = maxD info.max_discrim (dsFrom info.cur_discrim vs) := by
  induction vs generalizing info with
  | nil => rfl
  | cons v vs ih => exact ih (info.step v)

theorem steps_fields (vs : List Variant) (info : EnumSetInfo) :
    (info.steps vs).explicit_internal_repr = info.explicit_internal_repr ∧
    (info.steps vs).internal_repr_force_array = info.internal_repr_force_array ∧
    (info.steps vs).explicit_serde_repr = info.explicit_serde_repr ∧
    (info.steps vs).no_ops = info.no_ops ∧
    (info.steps vs).serialize_deny_unknown = info.serialize_deny_unknown ∧
    (info.steps vs).no_super_impls = info.no_super_impls := by
  induction vs generalizing info with
  | nil => simp [steps]
  | cons v vs ih =>
    have := ih (info.step v)
    simpa [steps, step] using this

/-- An explicit internal representation is an integer, chosen by `push_repr`. -/
def IntRepr (o : Option InternalRepr) : Prop := ∀ k, o ≠ some (.array k)

theorem internal_size_lt (info : EnumSetInfo) (hmax : info.max_discrim < 0xFFFFFFC0)
    (hi : IntRepr info.explicit_internal_repr) :
    info.internal_repr.supported_variants < 2 ^ 32 := by
  unfold internal_repr
  rcases h : info.explicit_internal_repr with _ | x
  · simp only
    repeat' split
    all_goals simp only [InternalRepr.supported_variants]
    all_goals omega
  · cases x with
    | array k => exact absurd h (hi k)
    | _ => simp [InternalRepr.supported_variants]

theorem validate_iff (info : EnumSetInfo) (hmax : info.max_discrim < 0xFFFFFFC0)
    (hi : IntRepr info.explicit_internal_repr) :
    info.validate = .ok () ↔
      info.max_discrim < info.internal_repr.supported_variants ∧
      (∀ k, info.serde_repr.supported_variants = some k → info.max_discrim < k) := by
  have h1 : ¬ info.max_discrim + 64 ≥ 2 ^ 32 := by omega
  have h2 : ¬ info.internal_repr.supported_variants ≥ 2 ^ 32 := by
    have := internal_size_lt info hmax hi
    omega
  unfold validate
  simp only
  rw [if_neg h1, if_neg h2]
  by_cases h3 : info.internal_repr.supported_variants ≤ info.max_discrim
  · rw [if_pos h3]
    constructor
    · intro h; cases h
    · intro h; omega
  · rw [if_neg h3]
    rcases h4 : info.serde_repr.supported_variants with _ | k
    · constructor
      · intro _; exact ⟨by omega, by simp⟩
      · intro _; rfl
    · by_cases h5 : k ≤ info.max_discrim
      · simp only [h5, if_true]
        constructor
        · intro h; cases h
        · rintro ⟨_, h⟩
          have := h k rfl
          omega
      · simp only [h5, if_false]
        constructor
        · intro _
          refine ⟨by omega, fun j hj => ?_⟩
          injection hj with hj
          omega
        · intro _; rfl

theorem validate_not_panic (info : EnumSetInfo) (hmax : info.max_discrim < 0xFFFFFFC0)
    (hi : IntRepr info.explicit_internal_repr) :
    info.validate = .ok () ∨ ∃ sp m, info.validate = .error (.msg sp m) := by
  have h1 : ¬ info.max_discrim + 64 ≥ 2 ^ 32 := by omega
  have h2 : ¬ info.internal_repr.supported_variants ≥ 2 ^ 32 := by
    have := internal_size_lt info hmax hi
    omega
  unfold validate
  simp only
  rw [if_neg h1, if_neg h2]
  by_cases h3 : info.internal_repr.supported_variants ≤ info.max_discrim
  · rw [if_pos h3]
    exact .inr ⟨_, _, rfl⟩
  · rw [if_neg h3]
    rcases h4 : info.serde_repr.supported_variants with _ | k
    · exact .inl rfl
    · by_cases h5 : k ≤ info.max_discrim
      · simp only [h5, if_true]
        exact .inr ⟨_, _, rfl⟩
      · simp only [h5, if_false]
        exact .inl rfl

end EnumSetInfo
end Enumset
