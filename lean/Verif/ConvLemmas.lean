import Verif.SetLemmas
/-!
# Helper lemmas: conversions of sets of a well-formed type
-/
set_option autoImplicit false
set_option linter.unusedSectionVars false

namespace Enumset

open EnumSetTypeRepr (WIDTH)

variable [Platform] {T : EnumSetType}

namespace WF

variable (W : WF T)
include W

theorem checkMask_ok (r : T.Repr) :
    (OnlyVariants T (W.lawful.bit r) → EnumSet.checkMask r = .ok (some ⟨r⟩)) ∧
    (¬ OnlyVariants T (W.lawful.bit r) → EnumSet.checkMask (T := T) r = .ok none) := by
  obtain ⟨x, e, hx⟩ := W.lawful.and_not_ok r T.ALL_BITS
  obtain ⟨b, e', hb⟩ := W.lawful.is_empty_ok x
  have key : b = true ↔ OnlyVariants T (W.lawful.bit r) := by
    rw [hb]
    apply forall_congr'
    intro i
    rw [hx, ← W.all_bit]
    cases W.lawful.bit r i <;> cases W.lawful.bit T.ALL_BITS i <;> simp
  unfold EnumSet.checkMask
  rw [e, Res.ok_bind, e', Res.ok_bind]
  constructor
  · intro h
    rw [if_pos (key.mpr h)]; rfl
  · intro h
    rw [if_neg (fun hh => h (key.mp hh))]; rfl

/-- Importing bits `p` through a checked conversion to the representation. -/
theorem import_ok (p : Nat → Bool) (o : Res (Option T.Repr))
    (h1 : (∀ i, p i = true → i < WIDTH T.Repr) →
      ∃ r : T.Repr, o = .ok (some r) ∧ ∀ i, W.lawful.bit r i = p i)
    (h2 : ¬ (∀ i, p i = true → i < WIDTH T.Repr) → o = .ok none) :
    let res : Res (Option (EnumSet T)) := (do
      let bits ← o
      match bits with
      | some bits => EnumSet.checkMask bits
      | none => pure none)
    (OnlyVariants T p → ∃ s, res = .ok (some s) ∧ ∀ i, W.bit s i = p i) ∧
    (¬ OnlyVariants T p → res = .ok none) := by
  by_cases hw : ∀ i, p i = true → i < WIDTH T.Repr
  · obtain ⟨r, rfl, hr⟩ := h1 hw
    have hp : W.lawful.bit r = p := funext hr
    obtain ⟨c1, c2⟩ := W.checkMask_ok r
    rw [hp] at c1 c2
    exact ⟨fun h => ⟨⟨r⟩, c1 h, hr⟩, fun h => c2 h⟩
  · rw [h2 hw]
    refine ⟨fun h => ?_, fun _ => rfl⟩
    exfalso
    apply hw
    intro i hi
    obtain ⟨v, rfl⟩ := h i hi
    exact W.discr_lt_width v

/-! ### integers -/

theorem try_from_num_ok (n : NumTy) (x : BitVec n.bits) :
    (OnlyVariants T x.getLsbD → ∃ s : EnumSet T, EnumSet.try_from_num n x = .ok (some s) ∧
      ∀ i, W.bit s i = x.getLsbD i) ∧
    (¬ OnlyVariants T x.getLsbD → EnumSet.try_from_num (T := T) n x = .ok none) :=
  W.import_ok _ _ (W.lawful.from_num_opt_ok n x).1 (W.lawful.from_num_opt_ok n x).2

theorem from_num_truncated_ok (n : NumTy) (x : BitVec n.bits) :
    ∃ s : EnumSet T, EnumSet.from_num_truncated n x = .ok s ∧
      ∀ i, W.bit s i = (x.getLsbD i && W.bit EnumSet.ALL_REPR i) := by
  obtain ⟨m, e, hm⟩ := W.lawful.to_num_ok n T.ALL_BITS
  obtain ⟨r, e', hr⟩ := W.lawful.from_num_ok n (x &&& m)
  refine ⟨⟨r⟩, ?_, ?_⟩
  · unfold EnumSet.from_num_truncated EnumSet.as_num_truncated
    rw [show (EnumSet.all : EnumSet T).priv_repr = T.ALL_BITS from rfl, e, Res.ok_bind, e']
    rfl
  · intro i
    change W.lawful.bit r i = (x.getLsbD i && W.lawful.bit T.ALL_BITS i)
    rw [hr, BitVec.getLsbD_and, hm]
    by_cases h : i < WIDTH T.Repr
    · by_cases h2 : i < n.bits
      · simp [h, h2]
      · simp [h2, BitVec.getLsbD_of_ge x i (by omega)]
    · cases hb : W.lawful.bit T.ALL_BITS i with
      | false => simp
      | true => exact absurd (W.lawful.bit_lt hb) h

theorem from_num_unchecked_ok (n : NumTy) (x : BitVec n.bits) :
    ∃ s : EnumSet T, EnumSet.from_num_unchecked n x = .ok s ∧
      ∀ i, W.bit s i = (decide (i < WIDTH T.Repr) && x.getLsbD i) := by
  obtain ⟨r, e, hr⟩ := W.lawful.from_num_ok n x
  exact ⟨⟨r⟩, by unfold EnumSet.from_num_unchecked; rw [e]; rfl, hr⟩

theorem try_as_num_ok (n : NumTy) (s : EnumSet T) :
    ((∀ i, W.bit s i = true → i < n.bits) →
      ∃ x, s.try_as_num n = .ok (some x) ∧ ∀ i, x.getLsbD i = W.bit s i) ∧
    (¬ (∀ i, W.bit s i = true → i < n.bits) → s.try_as_num n = .ok none) :=
  W.lawful.to_num_opt_ok n s.priv_repr

theorem as_num_truncated_ok (n : NumTy) (s : EnumSet T) : ∃ x, s.as_num_truncated n = .ok x ∧
    ∀ i, x.getLsbD i = (decide (i < n.bits) && W.bit s i) :=
  W.lawful.to_num_ok n s.priv_repr

/-! ### representation -/

theorem try_from_repr_ok (r : T.Repr) :
    (OnlyVariants T (W.lawful.bit r) → EnumSet.try_from_repr r = .ok (some ⟨r⟩)) ∧
    (¬ OnlyVariants T (W.lawful.bit r) → EnumSet.try_from_repr (T := T) r = .ok none) :=
  W.checkMask_ok r

theorem from_repr_truncated_ok (r : T.Repr) :
    ∃ s : EnumSet T, EnumSet.from_repr_truncated r = .ok s ∧
      ∀ i, W.bit s i = (W.lawful.bit r i && W.bit EnumSet.ALL_REPR i) := by
  obtain ⟨x, e, hx⟩ := W.lawful.bitand_ok r T.ALL_BITS
  refine ⟨⟨x⟩, ?_, hx⟩
  change (EnumSetTypeRepr.bitand r T.ALL_BITS >>= _) = _
  rw [e]
  rfl

/-! ### arrays -/

theorem try_from_array_ok (O : Nat) (x : Vector U64 O) :
    (OnlyVariants T (wbit x.toList) → ∃ s : EnumSet T, EnumSet.try_from_array O x = .ok (some s) ∧
      ∀ i, W.bit s i = wbit x.toList i) ∧
    (¬ OnlyVariants T (wbit x.toList) → EnumSet.try_from_array (T := T) O x = .ok none) :=
  W.import_ok _ _ (W.lawful.from_array_opt_ok O x).1 (W.lawful.from_array_opt_ok O x).2

theorem mask_trunc (r r' : T.Repr) (p : Nat → Bool)
    (hr : ∀ i, W.lawful.bit r i = (decide (i < WIDTH T.Repr) && p i))
    (hr' : ∀ i, W.lawful.bit r' i = (W.lawful.bit r i && W.lawful.bit T.ALL_BITS i)) (i : Nat) :
    W.lawful.bit r' i = (p i && W.lawful.bit T.ALL_BITS i) := by
  rw [hr', hr]
  cases hb : W.lawful.bit T.ALL_BITS i with
  | false => simp
  | true => simp [W.lawful.bit_lt hb]

theorem from_array_truncated_ok (O : Nat) (x : Vector U64 O) :
    ∃ s : EnumSet T, EnumSet.from_array_truncated O x = .ok s ∧
      ∀ i, W.bit s i = (wbit x.toList i && W.bit EnumSet.ALL_REPR i) := by
  obtain ⟨r, e, hr⟩ := W.lawful.from_array_ok O x
  obtain ⟨r', e', hr'⟩ := W.lawful.bitand_ok r T.ALL_BITS
  refine ⟨⟨r'⟩, by unfold EnumSet.from_array_truncated; rw [e, Res.ok_bind, e']; rfl, ?_⟩
  exact W.mask_trunc r r' _ hr hr'

theorem from_array_unchecked_ok (O : Nat) (x : Vector U64 O) :
    ∃ s : EnumSet T, EnumSet.from_array_unchecked O x = .ok s ∧
      ∀ i, W.bit s i = (decide (i < WIDTH T.Repr) && wbit x.toList i) := by
  obtain ⟨r, e, hr⟩ := W.lawful.from_array_ok O x
  exact ⟨⟨r⟩, by unfold EnumSet.from_array_unchecked; rw [e]; rfl, hr⟩

theorem try_as_array_ok (O : Nat) (s : EnumSet T) :
    ((∀ i, W.bit s i = true → i < 64 * O) →
      ∃ x, s.try_as_array O = .ok (some x) ∧ ∀ i, wbit x.toList i = W.bit s i) ∧
    (¬ (∀ i, W.bit s i = true → i < 64 * O) → s.try_as_array O = .ok none) :=
  W.lawful.to_array_opt_ok O s.priv_repr

theorem as_array_truncated_ok (O : Nat) (s : EnumSet T) : ∃ x, s.as_array_truncated O = .ok x ∧
    ∀ i, wbit x.toList i = (decide (i < 64 * O) && W.bit s i) :=
  W.lawful.to_array_ok O s.priv_repr

/-! ### slices -/

theorem try_from_slice_ok (x : List U64) :
    (OnlyVariants T (wbit x) → ∃ s : EnumSet T, EnumSet.try_from_slice x = .ok (some s) ∧
      ∀ i, W.bit s i = wbit x i) ∧
    (¬ OnlyVariants T (wbit x) → EnumSet.try_from_slice (T := T) x = .ok none) :=
  W.import_ok _ _ (W.lawful.from_slice_opt_ok x).1 (W.lawful.from_slice_opt_ok x).2

theorem from_slice_truncated_ok (x : List U64) :
    ∃ s : EnumSet T, EnumSet.from_slice_truncated x = .ok s ∧
      ∀ i, W.bit s i = (wbit x i && W.bit EnumSet.ALL_REPR i) := by
  obtain ⟨r, e, hr⟩ := W.lawful.from_slice_ok x
  obtain ⟨r', e', hr'⟩ := W.lawful.bitand_ok r T.ALL_BITS
  refine ⟨⟨r'⟩, by unfold EnumSet.from_slice_truncated; rw [e, Res.ok_bind, e']; rfl, ?_⟩
  exact W.mask_trunc r r' _ hr hr'

theorem from_slice_unchecked_ok (x : List U64) :
    ∃ s : EnumSet T, EnumSet.from_slice_unchecked x = .ok s ∧
      ∀ i, W.bit s i = (decide (i < WIDTH T.Repr) && wbit x i) := by
  obtain ⟨r, e, hr⟩ := W.lawful.from_slice_ok x
  exact ⟨⟨r⟩, by unfold EnumSet.from_slice_unchecked; rw [e]; rfl, hr⟩

theorem try_copy_into_slice_ok (s : EnumSet T) (out : List U64) :
    ((∀ i, W.bit s i = true → i < 64 * out.length) →
      ∃ x, s.try_copy_into_slice out = .ok (some (), x) ∧ x.length = out.length ∧
        ∀ i, wbit x i = W.bit s i) ∧
    (¬ (∀ i, W.bit s i = true → i < 64 * out.length) →
      s.try_copy_into_slice out = .ok (none, out)) :=
  W.lawful.to_slice_opt_ok s.priv_repr out

theorem copy_into_slice_truncated_ok (s : EnumSet T) (out : List U64) :
    ∃ x, s.copy_into_slice_truncated out = .ok x ∧ x.length = out.length ∧
      ∀ i, wbit x i = (decide (i < 64 * out.length) && W.bit s i) :=
  W.lawful.to_slice_ok s.priv_repr out

theorem to_vec_ok (s : EnumSet T) :
    ∃ x, s.to_vec = .ok x ∧ x.length = EnumSetTypeRepr.PREFERRED_ARRAY_LEN T.Repr ∧
      ∀ i, wbit x i = W.bit s i := by
  obtain ⟨x, e, hl, hx⟩ := W.lawful.to_slice_ok s.priv_repr
    (List.replicate (EnumSetTypeRepr.PREFERRED_ARRAY_LEN T.Repr) (0 : U64))
  refine ⟨x, e, by simpa using hl, ?_⟩
  intro i
  rw [hx, List.length_replicate]
  change _ = W.lawful.bit s.priv_repr i
  cases hb : W.lawful.bit s.priv_repr i with
  | false => simp
  | true =>
    have h1 := W.lawful.bit_lt hb
    have h2 := W.lawful.width_le
    simp
    omega

end WF

end Enumset
