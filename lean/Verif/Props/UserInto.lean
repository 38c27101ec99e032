import Verif.UserInto
import Verif.Props.Macros
/-!
# Property C64: operators on operands of a type of the caller
-/
set_option autoImplicit false

namespace Enumset

/-- If the conversion returns the set `o`, the operators of sets and of variants combine with `o`.
The conversion is called once. -/
theorem C64_converted [Platform] {inp : DeriveInput} {T : EnumSetType} (hT : derive inp = .ok T)
    (hfit : Fits T) {σ : Type} {into : UserInto T σ} {st st' : σ} {o : EnumSet T}
    (hinto : into st = (.ok o, st')) {B : T.Val → Bool} (hB : Members o B) :
    (∀ {a : EnumSet T} {A : T.Val → Bool}, Members a A →
      (∃ s, a.bitor_user into st = (.ok s, st') ∧ a.bitor_assign_user into st = (.ok (), s, st') ∧
        Members s fun v => A v || B v) ∧
      (∃ s, a.bitand_user into st = (.ok s, st') ∧ a.bitand_assign_user into st = (.ok (), s, st') ∧
        Members s fun v => A v && B v) ∧
      (∃ s, a.sub_user into st = (.ok s, st') ∧ a.sub_assign_user into st = (.ok (), s, st') ∧
        Members s fun v => A v && !B v) ∧
      (∃ s, a.bitxor_user into st = (.ok s, st') ∧ a.bitxor_assign_user into st = (.ok (), s, st') ∧
        Members s fun v => A v != B v)) ∧
    ∀ a : T.Val,
      (∃ s, EnumVal.bitor_user a into st = (.ok s, st') ∧
        Members s fun u => decide (u = a) || B u) ∧
      (∃ s, EnumVal.bitand_user a into st = (.ok s, st') ∧
        Members s fun u => decide (u = a) && B u) ∧
      (∃ s, EnumVal.sub_user a into st = (.ok s, st') ∧
        Members s fun u => decide (u = a) && !B u) ∧
      (∃ s, EnumVal.bitxor_user a into st = (.ok s, st') ∧
        Members s fun u => decide (u = a) != B u) := by
  have run : ∀ {f : EnumSet T → Res (EnumSet T)} {s : EnumSet T}, f o = .ok s →
      callInto into f st = (.ok s, st') := by
    intro f s h
    unfold callInto
    rw [hinto]
    show (f o, st') = _
    rw [h]
  constructor
  · intro a A hA
    obtain ⟨s1, e1, m1⟩ := C04_union hT hfit hA hB
    obtain ⟨s2, e2, m2⟩ := C04_intersection hT hfit hA hB
    obtain ⟨s3, e3, m3⟩ := C04_difference hT hfit hA hB
    obtain ⟨s4, e4, m4⟩ := C04_symmetrical_difference hT hfit hA hB
    have r1 : a.bitor_user into st = (.ok s1, st') := run e1
    have r2 : a.bitand_user into st = (.ok s2, st') := run e2
    have r3 : a.sub_user into st = (.ok s3, st') := run e3
    have r4 : a.bitxor_user into st = (.ok s4, st') := run e4
    refine ⟨⟨s1, r1, ?_, m1⟩, ⟨s2, r2, ?_, m2⟩, ⟨s3, r3, ?_, m3⟩, ⟨s4, r4, ?_, m4⟩⟩
    · unfold EnumSet.bitor_assign_user; rw [r1]; rfl
    · unfold EnumSet.bitand_assign_user; rw [r2]; rfl
    · unfold EnumSet.sub_assign_user; rw [r3]; rfl
    · unfold EnumSet.bitxor_assign_user; rw [r4]; rfl
  · intro a
    obtain ⟨s0, e0, -, hs0, -⟩ := C35_operators hT hfit a (.set o)
    obtain ⟨s1, e1, m1⟩ := C04_union hT hfit hs0 hB
    obtain ⟨s2, e2, m2⟩ := C04_intersection hT hfit hs0 hB
    obtain ⟨s3, e3, m3⟩ := C04_difference hT hfit hs0 hB
    obtain ⟨s4, e4, m4⟩ := C04_symmetrical_difference hT hfit hs0 hB
    refine ⟨⟨s1, ?_, m1⟩, ⟨s2, ?_, m2⟩, ⟨s3, ?_, m3⟩, ⟨s4, ?_, m4⟩⟩
    · unfold EnumVal.bitor_user EnumVal.withOnly; rw [e0]; exact run e1
    · unfold EnumVal.bitand_user EnumVal.withOnly; rw [e0]; exact run e2
    · unfold EnumVal.sub_user EnumVal.withOnly; rw [e0]; exact run e3
    · unfold EnumVal.bitxor_user EnumVal.withOnly; rw [e0]; exact run e4

/-- If the conversion panics, so do the operators, and an assigning operator leaves the set as it
was. -/
theorem C64_panic [Platform] {inp : DeriveInput} {T : EnumSetType} (hT : derive inp = .ok T)
    (hfit : Fits T) {σ : Type} {into : UserInto T σ} {st st' : σ} {p : Panic}
    (hinto : into st = (.panic p, st')) :
    (∀ a : EnumSet T,
      a.bitor_user into st = (.panic p, st') ∧ a.bitor_assign_user into st = (.panic p, a, st') ∧
      a.bitand_user into st = (.panic p, st') ∧ a.bitand_assign_user into st = (.panic p, a, st') ∧
      a.sub_user into st = (.panic p, st') ∧ a.sub_assign_user into st = (.panic p, a, st') ∧
      a.bitxor_user into st = (.panic p, st') ∧ a.bitxor_assign_user into st = (.panic p, a, st')) ∧
    ∀ a : T.Val,
      EnumVal.bitor_user a into st = (.panic p, st') ∧ EnumVal.bitand_user a into st = (.panic p, st') ∧
      EnumVal.sub_user a into st = (.panic p, st') ∧ EnumVal.bitxor_user a into st = (.panic p, st') := by
  have run : ∀ (f : EnumSet T → Res (EnumSet T)), callInto into f st = (.panic p, st') := by
    intro f
    unfold callInto
    rw [hinto]
    rfl
  constructor
  · intro a
    have r1 : a.bitor_user into st = (.panic p, st') := run _
    have r2 : a.bitand_user into st = (.panic p, st') := run _
    have r3 : a.sub_user into st = (.panic p, st') := run _
    have r4 : a.bitxor_user into st = (.panic p, st') := run _
    refine ⟨r1, ?_, r2, ?_, r3, ?_, r4, ?_⟩
    · unfold EnumSet.bitor_assign_user; rw [r1]; rfl
    · unfold EnumSet.bitand_assign_user; rw [r2]; rfl
    · unfold EnumSet.sub_assign_user; rw [r3]; rfl
    · unfold EnumSet.bitxor_assign_user; rw [r4]; rfl
  · intro a
    obtain ⟨s0, e0, -⟩ := C35_operators hT hfit a (.val a)
    refine ⟨?_, ?_, ?_, ?_⟩
    · unfold EnumVal.bitor_user EnumVal.withOnly; rw [e0]; exact run _
    · unfold EnumVal.bitand_user EnumVal.withOnly; rw [e0]; exact run _
    · unfold EnumVal.sub_user EnumVal.withOnly; rw [e0]; exact run _
    · unfold EnumVal.bitxor_user EnumVal.withOnly; rw [e0]; exact run _

/-- For the operands whose conversion the crate provides (variants and sets) these are the operators of
C04 and C35. -/
theorem C64_operand [Platform] {T : EnumSetType} {σ : Type} (o : Operand T) (st : σ) :
    (∀ a : EnumSet T, a.bitor_user (fun st => (o.into, st)) st = (a.bitor o, st) ∧
      a.bitand_user (fun st => (o.into, st)) st = (a.bitand o, st) ∧
      a.sub_user (fun st => (o.into, st)) st = (a.sub o, st) ∧
      a.bitxor_user (fun st => (o.into, st)) st = (a.bitxor o, st)) ∧
    ∀ a : T.Val, EnumVal.bitor_user a (fun st => (o.into, st)) st = (EnumVal.bitor a o, st) ∧
      EnumVal.bitand_user a (fun st => (o.into, st)) st = (EnumVal.bitand a o, st) ∧
      EnumVal.sub_user a (fun st => (o.into, st)) st = (EnumVal.sub a o, st) ∧
      EnumVal.bitxor_user a (fun st => (o.into, st)) st = (EnumVal.bitxor a o, st) := by
  refine ⟨fun a => ⟨rfl, rfl, rfl, rfl⟩, fun a => ?_⟩
  refine ⟨?_, ?_, ?_, ?_⟩
  · unfold EnumVal.bitor_user EnumVal.withOnly EnumVal.bitor
    cases EnumSet.only a <;> rfl
  · unfold EnumVal.bitand_user EnumVal.withOnly EnumVal.bitand
    cases EnumSet.only a <;> rfl
  · unfold EnumVal.sub_user EnumVal.withOnly EnumVal.sub
    cases EnumSet.only a <;> rfl
  · unfold EnumVal.bitxor_user EnumVal.withOnly EnumVal.bitxor
    cases EnumSet.only a <;> rfl

section examples
open scoped Ex

/-- a conversion that counts its calls -/
example := (C64_converted Ex.hL Ex.fitL (into := fun n : Nat => (.ok Ex.rB, n + 1)) (st := 0) rfl
  Ex.mem_rB).1 Ex.mem_rAC
example := (C64_panic Ex.hL Ex.fitL (into := fun n : Nat => (.panic .index, n + 1)) (st := 0) rfl).1
  Ex.rAC
example := (C64_operand (.val Ex.lA) ()).1 Ex.rAC

end examples

end Enumset
