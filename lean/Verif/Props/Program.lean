import Verif.Program
import Verif.Props.Total
/-!
# Property C65: interactive programs
-/
set_option autoImplicit false

namespace Enumset

namespace Hist

section helpers

variable [Platform] {inp : DeriveInput} {T : EnumSetType} {α : Type}

theorem program_runFrom (hT : derive inp = .ok T) (hfit : Fits T) (W : WF T) (p : Program T.n α)
    (fuel : Nat) : ∀ (s : p.State) {st : St T} {ast : ASt T.n}, Rel W st ast →
      p.runFrom rfl fuel s st = .ok (p.meaningFrom T.discr (layoutOf inp) fuel s ast) := by
  induction fuel with
  | zero =>
    intro s st ast _
    unfold Program.runFrom Program.meaningFrom
    cases p.step s <;> rfl
  | succ fuel ih =>
    intro s st ast R
    unfold Program.runFrom Program.meaningFrom
    cases p.step s with
    | inl a => rfl
    | inr x =>
      obtain ⟨c, k⟩ := x
      obtain ⟨st', e, R'⟩ := cmd_agrees hT hfit W R c
      simp only [e, Res.ok_bind]
      exact ih _ R'

theorem program_run (hT : derive inp = .ok T) (hfit : Fits T) {n : Nat} (h : n = T.n)
    (discr : Fin n → Nat) (hd : ∀ v, discr v = T.discr (toVal h v)) (p : Program n α) (fuel : Nat) :
    p.run (T := T) h fuel = .ok (p.meaning discr (layoutOf inp) fuel) := by
  subst h
  obtain rfl : discr = T.discr := funext hd
  obtain ⟨W⟩ := wf_of_derive hT hfit
  obtain ⟨st, e, R⟩ := init_agrees hT hfit W
  unfold Program.run Program.meaning
  rw [e]
  exact program_runFrom hT hfit W p fuel _ R

theorem den_portable {n : Nat} {discr : Fin n → Nat} {l₁ l₂ : Layout} {c : Cmd n} (hc : c.Portable)
    (hs : c.usesSerde = true → l₁.SameSerde l₂) (st : ASt n) :
    c.den discr l₁ st = c.den discr l₂ st := by
  cases c with
  | ask q =>
    cases q with
    | toVec a => exact absurd hc (by simp [Cmd.Portable])
    | cmp a b => exact absurd hc (by simp [Cmd.Portable])
    | partialCmp a b => exact absurd hc (by simp [Cmd.Portable])
    | serialize a => simp only [Cmd.den, Query.den, serialized_same (hs rfl)]
    | _ => rfl
  | deserialize d x b => simp only [Cmd.den, read_same (hs rfl)]
  | _ => rfl

end helpers

/-- Every interactive program has, after any number of calls, the result it has on mathematical sets of
variants: it ends after the same calls with the same result, or goes on. -/
theorem C65_program [Platform] {inp : DeriveInput} {T : EnumSetType} (hT : derive inp = .ok T)
    (hfit : Fits T) {α : Type} (p : Program inp.variants.length α) (fuel : Nat) :
    p.run (T := T) (variants_eq hT) fuel = .ok (p.meaning (discrOf inp) (layoutOf inp) fuel) :=
  program_run hT hfit _ _ (discrOf_eq hT rfl _) p fuel

/-- A program that does not call `cmp`, `partial_cmp` and `to_vec` cannot find out which attributes the
enum has; if it serializes or deserializes, the form must be the same, and not words. -/
theorem C65_portable [Platform] {inp₁ inp₂ : DeriveInput} {T₁ T₂ : EnumSetType}
    (h₁ : derive inp₁ = .ok T₁) (h₂ : derive inp₂ = .ok T₂) (fit₁ : Fits T₁) (fit₂ : Fits T₂)
    (hv : inp₁.variants = inp₂.variants) {α : Type} (p : Program inp₁.variants.length α)
    (hc : ∀ c, p.Makes c → c.Portable)
    (hser : (∃ c, p.Makes c ∧ c.usesSerde = true) → (layoutOf inp₁).SameSerde (layoutOf inp₂))
    (fuel : Nat) :
    p.run (T := T₁) (variants_eq h₁) fuel =
      p.run (T := T₂) ((congrArg List.length hv).trans (variants_eq h₂)) fuel := by
  rw [program_run h₁ fit₁ _ _ (discrOf_eq h₁ rfl (variants_eq h₁)) p fuel,
    program_run h₂ fit₂ _ _ (discrOf_eq h₂ hv ((congrArg List.length hv).trans (variants_eq h₂))) p
      fuel]
  congr 1
  unfold Program.meaning
  generalize p.start = s
  generalize ASt.init = st
  induction fuel generalizing s st with
  | zero => unfold Program.meaningFrom; cases p.step s <;> rfl
  | succ fuel ih =>
    unfold Program.meaningFrom
    cases hs : p.step s with
    | inl a => rfl
    | inr x =>
      obtain ⟨c, k⟩ := x
      have hm : p.Makes c := ⟨s, k, hs⟩
      simp only [den_portable (hc c hm) (fun h => hser ⟨c, hm, h⟩) st]
      exact ih _ _

/-- A program cannot find out whether it was built with overflow checks. -/
theorem C65_build_modes (t : Target) {inp : DeriveInput}
    {D : @EnumSetType (build t true)} {R : @EnumSetType (build t false)}
    (hD : @derive (build t true) inp = .ok D) (hR : @derive (build t false) inp = .ok R)
    (hfit : @Fits (build t true) D) {α : Type} (p : @Program t inp.variants.length α) (fuel : Nat) :
    @Program.run (build t true) D _ α (@Hist.variants_eq (build t true) _ _ hD) p fuel =
      @Program.run (build t false) R _ α (@Hist.variants_eq (build t false) _ _ hR) p fuel := by
  have hbD := letI := build t true; (core_of_derive hD).bw
  have hbR := letI := build t false; (core_of_derive hR).bw
  have hfit' : @Fits (build t false) R := by
    unfold Fits at hfit ⊢
    rw [hbR, ← hbD]
    exact hfit
  rw [@C65_program (build t true) _ _ hD hfit, @C65_program (build t false) _ _ hR hfit']

namespace Ex

open Enumset.Ex

/-- `let s = EnumSet::all(); s.iter().position(|v| v == B)`: an interactive program, since the number of
calls of `next` depends on the answers. -/
def position [Target] (b : Fin 3) : Program 3 (Option Nat) where
  State := Nat ⊕ Option Nat
  start := .inl 0
  step
    | .inr r => .inl r
    | .inl 0 => .inr (.set 0 .all, fun _ => .inl 1)
    | .inl 1 => .inr (.iter 0 0, fun _ => .inl 2)
    | .inl (k + 2) => .inr (.next 0, fun
      | .val (some v) => if v = b then .inr (some k) else .inl (k + 3)
      | _ => .inr none)

example : (position 1).run (T := L) (variants_eq hL) 9 = .ok (some (some 1)) := rfl
example : (position 1).run (T := L) (variants_eq hL) 3 = .ok none := rfl
example := C65_program hL fitL (position 1) 9

theorem position_portable [Target] (b : Fin 3) (c : Cmd 3) (h : (position b).Makes c) :
    c.Portable ∧ c.usesSerde = false := by
  obtain ⟨s, k, h⟩ := h
  unfold position at h
  rcases s with (_ | _ | s) | r <;> cases h <;> exact ⟨trivial, rfl⟩

example := C65_portable hT hTA fitT fitTA rfl (position 1) (fun c h => (position_portable 1 c h).1)
  (fun _ => serde_TTA) 9

example (R) (hR : @derive (build Enumset.Ex.plat64.toTarget false) inpL = .ok R) :=
  C65_build_modes Enumset.Ex.plat64.toTarget hL hR fitL
    (@position Enumset.Ex.plat64.toTarget 1) 9

end Ex

end Hist

end Enumset
