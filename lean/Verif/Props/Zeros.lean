import Verif.Props.Derive
import Verif.Props.Basic
/-!
# Property C59: leading and trailing zeros of the storage
-/
set_option autoImplicit false

namespace Enumset

/-- `trailing_zeros` of the storage is the smallest discriminant in the set, and `leading_zeros` the
number of bits above the largest one; both are the number of bits for the empty set. -/
theorem C59_zeros [Platform] {inp : DeriveInput} {T : EnumSetType} (hT : derive inp = .ok T)
    (hfit : Fits T) {s : EnumSet T} (hs : Safe s) {A : T.Val → Bool} (hA : Members s A) :
    ∃ l t, EnumSetTypeRepr.leading_zeros s.priv_repr = .ok l ∧
      EnumSetTypeRepr.trailing_zeros s.priv_repr = .ok t ∧
      (∀ v, A v = true → t ≤ T.discr v ∧ T.discr v + l < (storageOf inp).bits) ∧
      ((∃ v, A v = true) → (∃ v, A v = true ∧ T.discr v = t) ∧
        ∃ v, A v = true ∧ T.discr v + l + 1 = (storageOf inp).bits) ∧
      ((∀ v, A v = false) → l = (storageOf inp).bits ∧ t = (storageOf inp).bits) := by
  obtain ⟨W⟩ := wf_of_derive hT hfit
  rw [← (C31_storage hT).2.2]
  obtain ⟨t, et, t1, t2, t3⟩ := W.lawful.trailing_zeros_ok s.priv_repr
  obtain ⟨l, el, l1, l2, l3⟩ := W.lawful.leading_zeros_ok s.priv_repr
  have mem : ∀ i, W.bit s i = true ↔ ∃ v, T.discr v = i ∧ A v = true :=
    fun i => W.bit_eq_mem (W.clean_of_safe hs) hA i
  have hw : ∀ v : T.Val, T.discr v < EnumSetTypeRepr.WIDTH T.Repr := W.discr_lt_width
  have low : ∀ v, A v = true → t ≤ T.discr v := by
    intro v hv
    refine Decidable.byContradiction fun h => ?_
    have h1 := t2 (T.discr v) (by omega)
    rw [show W.lawful.bit s.priv_repr (T.discr v) = true from (mem _).mpr ⟨v, rfl, hv⟩] at h1
    cases h1
  have high : ∀ v, A v = true → T.discr v + l < EnumSetTypeRepr.WIDTH T.Repr := by
    intro v hv
    refine Decidable.byContradiction fun h => ?_
    have h1 := l2 (T.discr v) (by omega)
    rw [show W.lawful.bit s.priv_repr (T.discr v) = true from (mem _).mpr ⟨v, rfl, hv⟩] at h1
    cases h1
  refine ⟨l, t, el, et, fun v hv => ⟨low v hv, high v hv⟩, ?_, ?_⟩
  · rintro ⟨v, hv⟩
    have h1 := low v hv
    have h2 := high v hv
    have h3 := hw v
    obtain ⟨u, hu, hu'⟩ := (mem t).mp (t3 (by omega))
    obtain ⟨w, hw, hw'⟩ := (mem _).mp (l3 (by omega))
    exact ⟨⟨u, hu', hu⟩, w, hw', by omega⟩
  · intro h
    have none : ∀ i, W.bit s i ≠ true := fun i hi => by
      obtain ⟨v, -, hv⟩ := (mem i).mp hi
      rw [h v] at hv
      cases hv
    refine ⟨?_, ?_⟩
    · exact Decidable.byContradiction fun hl => none _ (l3 (by omega))
    · exact Decidable.byContradiction fun ht => none _ (t3 (by omega))

open scoped Ex in
example := C59_zeros Ex.hL Ex.fitL Ex.safe_rAC Ex.mem_rAC
open scoped Ex in
example : EnumSetTypeRepr.leading_zeros Ex.rAC.priv_repr = .ok 61 ∧
    EnumSetTypeRepr.trailing_zeros Ex.rAC.priv_repr = .ok 0 ∧
    EnumSetTypeRepr.leading_zeros Ex.sB.priv_repr = .ok 4 ∧
    EnumSetTypeRepr.trailing_zeros Ex.rB.priv_repr = .ok 64 := ⟨rfl, rfl, rfl, rfl⟩

end Enumset
