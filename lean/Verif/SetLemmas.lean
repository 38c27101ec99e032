import Verif.WF
/-!
# Helper lemmas: what `set.rs` does to the bits of a set of a well-formed type
-/
set_option autoImplicit false
set_option linter.unusedSectionVars false

namespace Enumset

open EnumSetTypeRepr (WIDTH)

variable [Platform] {T : EnumSetType}

namespace WF

/-- Bit `i` of a set. -/
def bit (W : WF T) (s : EnumSet T) (i : Nat) : Bool := W.lawful.bit s.priv_repr i
/-- Membership. -/
def mem (W : WF T) (s : EnumSet T) (v : T.Val) : Bool := W.bit s (T.discr v)
/-- No bit besides those of variants. -/
def Clean (W : WF T) (s : EnumSet T) : Prop := ∀ i, W.bit s i = true → ∃ v, T.discr v = i

variable (W : WF T)
include W

theorem discr_lt_width (v : T.Val) : T.discr v < WIDTH T.Repr :=
  Nat.lt_of_lt_of_le (W.discr_lt v) W.bw_le
theorem discr_lt_usize (v : T.Val) : T.discr v < 2 ^ usizeBits :=
  Nat.lt_trans (W.discr_lt v) W.bw_lt

theorem ext {a b : EnumSet T} (h : ∀ i, W.bit a i = W.bit b i) : a = b := by
  cases a; cases b
  congr 1
  exact W.lawful.ext h

theorem bit_all (i : Nat) : W.bit EnumSet.ALL_REPR i = true ↔ ∃ v, T.discr v = i := W.all_bit i

theorem mem_all (v : T.Val) : W.mem EnumSet.ALL_REPR v = true := (W.bit_all _).mpr ⟨v, rfl⟩

theorem bit_empty (i : Nat) : W.bit EnumSet.EMPTY_REPR i = false := W.lawful.bit_empty i

theorem clean_all : W.Clean EnumSet.ALL_REPR := fun i h => (W.bit_all i).mp h
theorem clean_empty : W.Clean EnumSet.EMPTY_REPR := fun i h => by rw [W.bit_empty] at h; cases h

theorem decide_discr (u v : T.Val) : decide (T.discr u = T.discr v) = decide (u = v) := by
  by_cases h : u = v
  · simp [h]
  · have : T.discr u ≠ T.discr v := fun e => h (W.discr_inj e)
    simp [h, this]

/-- A clean set is determined by its members. -/
theorem clean_ext {a b : EnumSet T} (ha : W.Clean a) (hb : W.Clean b)
    (h : ∀ v, W.mem a v = W.mem b v) : a = b := by
  apply W.ext
  intro i
  by_cases hv : ∃ v, T.discr v = i
  · obtain ⟨v, rfl⟩ := hv
    exact h v
  · have h1 : W.bit a i = false := by
      cases hh : W.bit a i with
      | false => rfl
      | true => exact absurd (ha i hh) hv
    have h2 : W.bit b i = false := by
      cases hh : W.bit b i with
      | false => rfl
      | true => exact absurd (hb i hh) hv
    rw [h1, h2]

/-! ### basic operations -/

theorem contains_ok (s : EnumSet T) (v : T.Val) : s.contains v = .ok (W.mem s v) := by
  unfold EnumSet.contains
  rw [W.into_ok, Res.ok_bind, W.lawful.has_bit_ok _ _ (W.discr_lt_width v) (W.discr_lt_usize v)]
  rfl

theorem insert_ok (s : EnumSet T) (v : T.Val) : ∃ s', s.insert v = .ok (!W.mem s v, s') ∧
    ∀ i, W.bit s' i = (W.bit s i || decide (i = T.discr v)) := by
  obtain ⟨r, e, hr⟩ := W.lawful.add_bit_ok s.priv_repr _ (W.discr_lt_width v) (W.discr_lt_usize v)
  refine ⟨⟨r⟩, ?_, hr⟩
  unfold EnumSet.insert
  rw [W.contains_ok, Res.ok_bind, W.into_ok, Res.ok_bind, e]
  rfl

theorem remove_ok (s : EnumSet T) (v : T.Val) : ∃ s', s.remove v = .ok (W.mem s v, s') ∧
    ∀ i, W.bit s' i = (W.bit s i && !decide (i = T.discr v)) := by
  obtain ⟨r, e, hr⟩ := W.lawful.remove_bit_ok s.priv_repr _ (W.discr_lt_width v) (W.discr_lt_usize v)
  refine ⟨⟨r⟩, ?_, hr⟩
  unfold EnumSet.remove
  rw [W.contains_ok, Res.ok_bind, W.into_ok, Res.ok_bind, e]
  rfl

theorem only_set_ok (v : T.Val) : ∃ s', EnumSet.only v = .ok s' ∧
    ∀ i, W.bit s' i = decide (i = T.discr v) := by
  obtain ⟨s', e, hs⟩ := W.insert_ok EnumSet.EMPTY_REPR v
  refine ⟨s', ?_, ?_⟩
  · unfold EnumSet.only EnumSet.new
    rw [e]
    rfl
  · intro i
    rw [hs, W.bit_empty, Bool.false_or]

theorem union_set_ok (a b : EnumSet T) : ∃ s, a.union b = .ok s ∧
    ∀ i, W.bit s i = (W.bit a i || W.bit b i) := by
  obtain ⟨r, e, hr⟩ := W.lawful.bitor_ok a.priv_repr b.priv_repr
  exact ⟨⟨r⟩, by unfold EnumSet.union; rw [e]; rfl, hr⟩

theorem intersection_ok (a b : EnumSet T) : ∃ s, a.intersection b = .ok s ∧
    ∀ i, W.bit s i = (W.bit a i && W.bit b i) := by
  obtain ⟨r, e, hr⟩ := W.lawful.bitand_ok a.priv_repr b.priv_repr
  exact ⟨⟨r⟩, by unfold EnumSet.intersection; rw [e]; rfl, hr⟩

theorem difference_ok (a b : EnumSet T) : ∃ s, a.difference b = .ok s ∧
    ∀ i, W.bit s i = (W.bit a i && !W.bit b i) := by
  obtain ⟨r, e, hr⟩ := W.lawful.and_not_ok a.priv_repr b.priv_repr
  exact ⟨⟨r⟩, by unfold EnumSet.difference; rw [e]; rfl, hr⟩

theorem symmetrical_difference_ok (a b : EnumSet T) : ∃ s, a.symmetrical_difference b = .ok s ∧
    ∀ i, W.bit s i = (W.bit a i ^^ W.bit b i) := by
  obtain ⟨r, e, hr⟩ := W.lawful.bitxor_ok a.priv_repr b.priv_repr
  exact ⟨⟨r⟩, by unfold EnumSet.symmetrical_difference; rw [e]; rfl, hr⟩

theorem complement_ok (a : EnumSet T) : ∃ s, a.complement = .ok s ∧
    ∀ i, W.bit s i = (!W.bit a i && W.bit EnumSet.ALL_REPR i) := by
  obtain ⟨r, e, hr⟩ := W.lawful.not_ok a.priv_repr
  obtain ⟨r', e', hr'⟩ := W.lawful.bitand_ok r T.ALL_BITS
  refine ⟨⟨r'⟩, by unfold EnumSet.complement; rw [e, Res.ok_bind, e']; rfl, ?_⟩
  intro i
  change W.lawful.bit r' i = (!W.lawful.bit a.priv_repr i && W.lawful.bit T.ALL_BITS i)
  rw [hr', hr]
  by_cases h : i < WIDTH T.Repr
  · simp [h]
  · cases hb : W.lawful.bit T.ALL_BITS i with
    | false => simp
    | true => exact absurd (W.lawful.bit_lt hb) h

omit W in
theorem insert_all_eq (a b : EnumSet T) : a.insert_all b = a.union b := rfl
omit W in
theorem remove_all_eq (a b : EnumSet T) : a.remove_all b = a.difference b := rfl

/-- What an operand denotes. -/
def obit (W : WF T) : Operand T → Nat → Bool
  | .val v => fun i => decide (i = T.discr v)
  | .set s => W.bit s

theorem into_set_ok (o : Operand T) : ∃ s, o.into = .ok s ∧ ∀ i, W.bit s i = W.obit o i := by
  cases o with
  | val v => exact W.only_set_ok v
  | set s => exact ⟨s, rfl, fun _ => rfl⟩

theorem bitor_ok (a : EnumSet T) (o : Operand T) : ∃ s, a.bitor o = .ok s ∧
    ∀ i, W.bit s i = (W.bit a i || W.obit o i) := by
  obtain ⟨b, e, hb⟩ := W.into_set_ok o
  obtain ⟨s, e', hs⟩ := W.union_set_ok a b
  exact ⟨s, by unfold EnumSet.bitor; rw [e, Res.ok_bind, e'], fun i => by rw [hs, hb]⟩

theorem bitand_ok (a : EnumSet T) (o : Operand T) : ∃ s, a.bitand o = .ok s ∧
    ∀ i, W.bit s i = (W.bit a i && W.obit o i) := by
  obtain ⟨b, e, hb⟩ := W.into_set_ok o
  obtain ⟨s, e', hs⟩ := W.intersection_ok a b
  exact ⟨s, by unfold EnumSet.bitand; rw [e, Res.ok_bind, e'], fun i => by rw [hs, hb]⟩

theorem sub_ok (a : EnumSet T) (o : Operand T) : ∃ s, a.sub o = .ok s ∧
    ∀ i, W.bit s i = (W.bit a i && !W.obit o i) := by
  obtain ⟨b, e, hb⟩ := W.into_set_ok o
  obtain ⟨s, e', hs⟩ := W.difference_ok a b
  exact ⟨s, by unfold EnumSet.sub; rw [e, Res.ok_bind, e'], fun i => by rw [hs, hb]⟩

theorem bitxor_ok (a : EnumSet T) (o : Operand T) : ∃ s, a.bitxor o = .ok s ∧
    ∀ i, W.bit s i = (W.bit a i ^^ W.obit o i) := by
  obtain ⟨b, e, hb⟩ := W.into_set_ok o
  obtain ⟨s, e', hs⟩ := W.symmetrical_difference_ok a b
  exact ⟨s, by unfold EnumSet.bitxor; rw [e, Res.ok_bind, e'], fun i => by rw [hs, hb]⟩

theorem is_empty_ok (s : EnumSet T) : ∃ b, s.is_empty = .ok b ∧ (b = true ↔ ∀ i, W.bit s i = false) :=
  W.lawful.is_empty_ok s.priv_repr

theorem eq_iff (a b : EnumSet T) : a.eq b = true ↔ a = b := by
  unfold EnumSet.eq
  rw [W.lawful.eq_iff]
  constructor
  · intro h; cases a; cases b; simp only at h; rw [h]
  · rintro rfl; rfl

theorem is_disjoint_ok (a b : EnumSet T) : ∃ r, a.is_disjoint b = .ok r ∧
    (r = true ↔ ∀ i, ¬ (W.bit a i = true ∧ W.bit b i = true)) := by
  obtain ⟨s, e, hs⟩ := W.bitand_ok a (.set b)
  obtain ⟨r, e', hr⟩ := W.is_empty_ok s
  refine ⟨r, by unfold EnumSet.is_disjoint; rw [e, Res.ok_bind, e'], ?_⟩
  rw [hr]
  apply forall_congr'
  intro i
  rw [hs]
  change (W.bit a i && W.bit b i) = false ↔ _
  cases W.bit a i <;> cases W.bit b i <;> simp

theorem is_superset_ok (a b : EnumSet T) : ∃ r, a.is_superset b = .ok r ∧
    (r = true ↔ ∀ i, W.bit b i = true → W.bit a i = true) := by
  obtain ⟨s, e, hs⟩ := W.bitand_ok a (.set b)
  refine ⟨EnumSet.eq s b, by unfold EnumSet.is_superset; rw [e]; rfl, ?_⟩
  rw [W.eq_iff]
  constructor
  · rintro rfl i hi
    have := hs i
    change W.bit s i = (W.bit a i && W.bit s i) at this
    rw [hi] at this
    simpa using this.symm
  · intro h
    apply W.ext
    intro i
    rw [hs]
    change (W.bit a i && W.bit b i) = _
    cases hb : W.bit b i with
    | false => simp
    | true => simp [h i hb]

theorem is_subset_ok (a b : EnumSet T) : ∃ r, a.is_subset b = .ok r ∧
    (r = true ↔ ∀ i, W.bit a i = true → W.bit b i = true) := W.is_superset_ok b a

/-! ### cleanness of results -/

theorem clean_of_imp {a s : EnumSet T} (ha : W.Clean a)
    (h : ∀ i, W.bit s i = true → W.bit a i = true) : W.Clean s := fun i hi => ha i (h i hi)

theorem clean_of_or {a b s : EnumSet T} (ha : W.Clean a) (hb : W.Clean b)
    (h : ∀ i, W.bit s i = true → W.bit a i = true ∨ W.bit b i = true) : W.Clean s :=
  fun i hi => (h i hi).elim (ha i) (hb i)

theorem clean_only {s : EnumSet T} {v : T.Val} (h : ∀ i, W.bit s i = decide (i = T.discr v)) :
    W.Clean s := by
  intro i hi
  rw [h] at hi
  exact ⟨v, by simpa [eq_comm] using hi⟩

theorem clean_insert {a s : EnumSet T} {v : T.Val} (ha : W.Clean a)
    (h : ∀ i, W.bit s i = (W.bit a i || decide (i = T.discr v))) : W.Clean s := by
  intro i hi
  rw [h] at hi
  simp only [Bool.or_eq_true, decide_eq_true_eq] at hi
  rcases hi with hi | hi
  · exact ha i hi
  · exact ⟨v, hi.symm⟩

end WF

end Enumset
