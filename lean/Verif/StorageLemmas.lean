import Verif.PropLemmas
/-!
# Helper lemmas: the storage and serialization choice in terms of the input; orders on words
-/
set_option autoImplicit false
set_option linter.unusedSectionVars false

namespace Enumset

theorem foldl_max_maxD (m : Nat) (ds : List Nat) :
    (ds.map Int.ofNat).foldl max (m : Int) = (maxD m ds : Nat) := by
  induction ds generalizing m with
  | nil => rfl
  | cons d ds ih =>
    simp only [List.map_cons, List.foldl_cons, maxD]
    rw [← ih]
    congr 1
    split <;> (simp only [Int.ofNat_eq_natCast]; omega)

theorem InfoOk.maxDiscr_eq {inp : DeriveInput} {info : EnumSetInfo} (h : InfoOk inp info) :
    maxDiscr inp.variants = info.max_discrim := by
  unfold maxDiscr
  rw [show rustcDiscriminants inp.variants = (dsFrom 0 inp.variants).map Int.ofNat from
    rustc_eq 0 inp.variants h.lits, h.max]
  have := foldl_max_maxD 0 (dsFrom 0 inp.variants)
  change ((List.map Int.ofNat (dsFrom 0 inp.variants)).foldl Max.max ((0 : Nat) : Int)).toNat = _
  rw [this]
  simp

/-- The storage a representation provides. -/
def InternalRepr.storage : InternalRepr → Storage
  | .u8 => .int 8
  | .u16 => .int 16
  | .u32 => .int 32
  | .u64 => .int 64
  | .u128 => .int 128
  | .array n => .array n

/-- The format a serialized representation provides. -/
def SerdeRepr.format : SerdeRepr → Format
  | .u8 => .int 8
  | .u16 => .int 16
  | .u32 => .int 32
  | .u64 => .int 64
  | .u128 => .int 128
  | .list => .list
  | .map => .map
  | .array => .array

theorem InfoOk.storage_eq {inp : DeriveInput} {info : EnumSetInfo} (h : InfoOk inp info)
    (hrk : ∀ s, inp.attrs.repr = some s → s = "array" ∨ ∃ w, intWidth s = some w) :
    storageOf inp = info.internal_repr.storage := by
  unfold storageOf EnumSetInfo.internal_repr
  have e1 := h.expl
  have e2 := h.force
  have em := h.maxDiscr_eq
  cases hr : inp.attrs.repr with
  | none =>
    rw [hr] at e1 e2
    rw [e1, e2, em]
    simp only [Option.bind_none]
    generalize info.max_discrim = m
    have hd : (m + 64) / 64 = m / 64 + 1 := by omega
    by_cases h8 : m < 8
    · simp [h8, InternalRepr.storage]
    by_cases h16 : m < 16
    · simp [h8, h16, InternalRepr.storage]
    by_cases h32 : m < 32
    · simp [h8, h16, h32, InternalRepr.storage]
    by_cases h64 : m < 64
    · simp [h8, h16, h32, h64, InternalRepr.storage]
    simp [h8, h16, h32, h64, InternalRepr.storage, hd]
  | some s =>
    rw [hr] at e1 e2
    rcases hrk s hr with rfl | ⟨w, hw⟩
    · rw [e1, e2, em]
      have : internalOf "array" = none := by decide
      simp only [Option.bind_some, this]
      simp only [BEq.rfl, Bool.not_true, Bool.and_false, Bool.false_eq_true, if_false]
      have hd : (info.max_discrim + 64) / 64 = info.max_discrim / 64 + 1 := by omega
      simp [intWidth, InternalRepr.storage, hd]
    · rw [e1]
      have hi := internalOf_width s
      simp only [Option.bind_some, hw]
      rw [hw] at hi
      cases ho : internalOf s with
      | none => rw [ho] at hi; simp at hi
      | some r =>
        have hint := internalOf_int s
        rw [ho] at hi hint
        simp only [Option.map_some, Option.some.injEq] at hi
        subst hi
        cases r <;> first | rfl | exact absurd rfl (hint _)

theorem InfoOk.format_eq {inp : DeriveInput} {info : EnumSetInfo} (h : InfoOk inp info)
    (hsk : ∀ s, inp.attrs.serialize_repr = some s →
      s = "list" ∨ s = "map" ∨ s = "array" ∨ ∃ w, intWidth s = some w) :
    formatOf inp = info.serde_repr.format := by
  unfold formatOf EnumSetInfo.serde_repr
  have e1 := h.serd
  have em := h.maxDiscr_eq
  unfold serdeChoice at e1
  split
  case isTrue hl => rw [hl] at e1; rw [e1]; rfl
  rename_i hl
  rw [if_neg hl] at e1
  split
  case isTrue hm => rw [hm] at e1; rw [e1]; rfl
  rename_i hm
  rw [if_neg hm] at e1
  cases hr : inp.attrs.serialize_repr with
  | none =>
    rw [hr] at e1
    rw [e1, em]
    simp only [Option.bind_none]
    generalize info.max_discrim = m
    by_cases h8 : m < 8
    · simp [h8, SerdeRepr.format]
    by_cases h16 : m < 16
    · simp [h8, h16, SerdeRepr.format]
    by_cases h32 : m < 32
    · simp [h8, h16, h32, SerdeRepr.format]
    by_cases h64 : m < 64
    · simp [h8, h16, h32, h64, SerdeRepr.format]
    by_cases h128 : m < 128
    · simp [h8, h16, h32, h64, h128, SerdeRepr.format]
    simp [h8, h16, h32, h64, h128, SerdeRepr.format]
  | some s =>
    rw [hr] at e1
    rw [e1]
    simp only [Option.bind_some]
    rcases hsk s hr with rfl | rfl | rfl | ⟨w, hw⟩
    · simp [intWidth, serdeOf, SerdeRepr.format]
    · simp [intWidth, serdeOf, SerdeRepr.format]
    · simp [intWidth, serdeOf, SerdeRepr.format]
    · have hi := serdeOf_width s
      simp only [hw]
      rw [hw] at hi
      cases ho : serdeOf s with
      | none => rw [ho] at hi; simp at hi
      | some r =>
        rw [ho] at hi
        simp only [Option.bind_some] at hi
        cases r <;> simp [SerdeRepr.supported_variants] at hi <;> subst hi <;> rfl

section
variable [Platform]

theorem derive_acceptable {inp : DeriveInput} {T : EnumSetType} (hT : derive inp = .ok T) :
    Acceptable inp := (deriveInfo_iff inp).mp ((derive_ok_iff inp).mp ⟨T, hT⟩)

/-- The generated items, with the storage choice expressed in terms of the input. -/
theorem derive_storage {inp : DeriveInput} {T : EnumSetType} (hT : derive inp = .ok T) :
    ∃ info, InfoOk inp info ∧ GenShape info T ∧ storageOf inp = info.internal_repr.storage ∧
      formatOf inp = T.serde.format := by
  obtain ⟨info, -, hok, hs⟩ := derive_shape hT
  have ha := derive_acceptable hT
  refine ⟨info, hok, hs, hok.storage_eq ha.repr_known, ?_⟩
  rw [hok.format_eq ha.serialize_repr_known]
  cases hs <;> rfl

theorem primOf_storage {r : InternalRepr} {w pal : Nat} (h : primOf r = some (w, pal)) :
    r.storage = .int w := by
  cases r <;> simp [primOf] at h <;> obtain ⟨rfl, -⟩ := h <;> rfl

/-- The bits of a stored value do not depend on the proof that the representation is lawful. -/
theorem bit_unique {R : Type} [EnumSetTypeRepr R] (L₁ L₂ : LawfulRepr R) (r : R) (i : Nat) :
    L₁.bit r i = L₂.bit r i := by
  obtain ⟨x, e, h1⟩ := L₁.to_array_ok (i + 1) r
  obtain ⟨y, f, h2⟩ := L₂.to_array_ok (i + 1) r
  rw [e] at f
  injection f with f
  subst f
  have h1 := h1 i
  rw [h2 i, show decide (i < 64 * (i + 1)) = true from by simp; omega] at h1
  simpa using h1.symm

/-! ### orders -/

/-- The largest position below `w` where two bit sequences differ. -/
theorem largest_diff (p q : Nat → Bool) (w : Nat) :
    (∀ i, i < w → p i = q i) ∨ ∃ i, i < w ∧ p i ≠ q i ∧ ∀ j, i < j → j < w → p j = q j := by
  induction w with
  | zero => exact .inl fun i hi => absurd hi (by omega)
  | succ w ih =>
    by_cases hw : p w = q w
    · rcases ih with h | ⟨i, h1, h2, h3⟩
      · refine .inl fun i hi => ?_
        by_cases hiw : i = w
        · rw [hiw, hw]
        · exact h i (by omega)
      · refine .inr ⟨i, by omega, h2, fun j hj hjw => ?_⟩
        by_cases hiw : j = w
        · rw [hiw, hw]
        · exact h3 j hj (by omega)
    · exact .inr ⟨w, by omega, hw, fun j h1 h2 => by omega⟩

theorem lt_of_testBit {x y : Nat} (i : Nat) (hx : x.testBit i = false) (hy : y.testBit i = true)
    (h : ∀ j, i < j → x.testBit j = y.testBit j) : x < y := by
  have hq : x / 2 ^ (i + 1) = y / 2 ^ (i + 1) := by
    apply Nat.eq_of_testBit_eq
    intro j
    rw [Nat.testBit_div_two_pow, Nat.testBit_div_two_pow]
    exact h _ (by omega)
  rw [Nat.testBit_eq_decide_div_mod_eq] at hx hy
  simp only [decide_eq_false_iff_not, decide_eq_true_eq] at hx hy
  rw [Nat.pow_succ, ← Nat.div_div_eq_div_mul, ← Nat.div_div_eq_div_mul] at hq
  have hlt : x / 2 ^ i < y / 2 ^ i := by omega
  refine Nat.lt_of_not_le fun hle => ?_
  have := Nat.div_le_div_right (c := 2 ^ i) hle
  omega

/-- Comparing integers is comparing at the largest differing bit. -/
theorem bv_lt_iff {w : Nat} (x y : BitVec w) :
    x.toNat < y.toNat ↔ ∃ i, x.getLsbD i = false ∧ y.getLsbD i = true ∧
      ∀ j, i < j → x.getLsbD j = y.getLsbD j := by
  constructor
  · intro hlt
    rcases largest_diff x.getLsbD y.getLsbD w with h | ⟨i, h1, h2, h3⟩
    · have : x = y := BitVec.eq_of_getLsbD_eq fun i hi => h i hi
      subst this
      omega
    · have h3 : ∀ j, i < j → x.getLsbD j = y.getLsbD j := by
        intro j hj
        by_cases hw : j < w
        · exact h3 j hj hw
        · rw [BitVec.getLsbD_of_ge x j (by omega), BitVec.getLsbD_of_ge y j (by omega)]
      cases hx : x.getLsbD i with
      | false =>
        rw [hx] at h2
        exact ⟨i, hx, by simpa using h2.symm, h3⟩
      | true =>
        rw [hx] at h2
        have : y.toNat < x.toNat :=
          lt_of_testBit i (show y.getLsbD i = false by simpa using h2.symm) hx fun j hj => (h3 j hj).symm
        omega
  · rintro ⟨i, h1, h2, h3⟩
    exact lt_of_testBit i h1 h2 h3

/-- `[u64]::cmp` compares at the lowest differing word. -/
theorem cmpWords_lt_iff {x y : List U64} (hl : x.length = y.length) :
    cmpWords x y = .lt ↔ ∃ i, wbit x i = false ∧ wbit y i = true ∧
      ∀ j, (j / 64 < i / 64 ∨ (j / 64 = i / 64 ∧ i < j)) → wbit x j = wbit y j := by
  induction x generalizing y with
  | nil =>
    cases y with
    | nil => simp [cmpWords, wbit]
    | cons _ _ => simp at hl
  | cons a as ih =>
    cases y with
    | nil => simp at hl
    | cons b bs =>
      have ih := ih (y := bs) (by simpa using hl)
      have h0 : ∀ (c : U64) (cs : List U64) i, i < 64 → wbit (c :: cs) i = c.getLsbD i :=
        fun c cs i hi => by rw [wbit_cons, if_pos hi]
      have h1 : ∀ (c : U64) (cs : List U64) i, ¬ i < 64 → wbit (c :: cs) i = wbit cs (i - 64) :=
        fun c cs i hi => by rw [wbit_cons, if_neg hi]
      by_cases hab : a = b
      · subst hab
        rw [show cmpWords (a :: as) (a :: bs) = cmpWords as bs by
          simp only [cmpWords, Nat.compare_eq_eq.mpr rfl], ih]
        constructor
        · rintro ⟨i, g1, g2, g3⟩
          refine ⟨i + 64, ?_, ?_, fun j hj => ?_⟩
          · rw [h1 _ _ _ (by omega), show i + 64 - 64 = i by omega, g1]
          · rw [h1 _ _ _ (by omega), show i + 64 - 64 = i by omega, g2]
          · by_cases hj64 : j < 64
            · rw [h0 _ _ _ hj64, h0 _ _ _ hj64]
            · rw [h1 _ _ _ hj64, h1 _ _ _ hj64]
              exact g3 _ (by omega)
        · rintro ⟨i, g1, g2, g3⟩
          have hi : ¬ i < 64 := by
            intro hi
            rw [h0 _ _ _ hi] at g1 g2
            rw [g1] at g2
            cases g2
          rw [h1 _ _ _ hi] at g1 g2
          refine ⟨i - 64, g1, g2, fun j hj => ?_⟩
          have := g3 (j + 64) (by omega)
          rw [h1 _ _ _ (by omega), h1 _ _ _ (by omega), show j + 64 - 64 = j by omega] at this
          exact this
      · have hne : compare a.toNat b.toNat ≠ .eq := by
          intro h
          exact hab (BitVec.eq_of_toNat_eq (Nat.compare_eq_eq.mp h))
        have : cmpWords (a :: as) (b :: bs) = .lt ↔ compare a.toNat b.toNat = .lt := by
          simp only [cmpWords]
        rw [this, Nat.compare_eq_lt, bv_lt_iff]
        constructor
        · rintro ⟨i, g1, g2, g3⟩
          have hi : i < 64 := BitVec.lt_of_getLsbD g2
          refine ⟨i, by rw [h0 _ _ _ hi, g1], by rw [h0 _ _ _ hi, g2], fun j hj => ?_⟩
          rw [h0 _ _ _ (by omega), h0 _ _ _ (by omega)]
          exact g3 j (by omega)
        · rintro ⟨i, g1, g2, g3⟩
          by_cases hi : i < 64
          · rw [h0 _ _ _ hi] at g1 g2
            refine ⟨i, g1, g2, fun j hj => ?_⟩
            by_cases hj64 : j < 64
            · have := g3 j (by omega)
              rwa [h0 _ _ _ hj64, h0 _ _ _ hj64] at this
            · rw [BitVec.getLsbD_of_ge _ _ (by omega), BitVec.getLsbD_of_ge _ _ (by omega)]
          · exfalso
            apply hab
            apply BitVec.eq_of_getLsbD_eq
            intro j hj
            have := g3 j (by omega)
            rwa [h0 _ _ _ hj, h0 _ _ _ hj] at this

/-- Bits to variants in the two comparison lemmas. -/
theorem WF.lift_lt {T : EnumSetType} (W : WF T) {a b : EnumSet T} (ha : W.Clean a) (hb : W.Clean b)
    {A B : T.Val → Bool} (hA : Members a A) (hB : Members b B) (R : Nat → Nat → Prop) :
    (∃ i, W.bit a i = false ∧ W.bit b i = true ∧ ∀ j, R i j → W.bit a j = W.bit b j) ↔
    ∃ v, A v = false ∧ B v = true ∧ ∀ u, R (T.discr v) (T.discr u) → A u = B u := by
  constructor
  · rintro ⟨i, h1, h2, h3⟩
    obtain ⟨v, rfl⟩ := hb i h2
    refine ⟨v, ?_, ?_, fun u hu => ?_⟩
    · rw [← W.members_iff.mp hA v]; exact h1
    · rw [← W.members_iff.mp hB v]; exact h2
    · rw [← W.members_iff.mp hA u, ← W.members_iff.mp hB u]; exact h3 _ hu
  · rintro ⟨v, h1, h2, h3⟩
    refine ⟨T.discr v, ?_, ?_, fun j hj => ?_⟩
    · rw [← W.members_iff.mp hA v] at h1; exact h1
    · rw [← W.members_iff.mp hB v] at h2; exact h2
    · rw [Bool.eq_iff_iff, W.bit_eq_mem ha hA, W.bit_eq_mem hb hB]
      constructor
      · rintro ⟨u, rfl, hu⟩; exact ⟨u, rfl, by rw [← h3 u hj, hu]⟩
      · rintro ⟨u, rfl, hu⟩; exact ⟨u, rfl, by rw [h3 u hj, hu]⟩

end

end Enumset
