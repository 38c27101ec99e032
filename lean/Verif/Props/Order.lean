import Verif.StorageLemmas
import Verif.Props.Examples
/-!
# C10: what order `Ord` is
-/
set_option autoImplicit false

namespace Enumset

/-- Sets stored in an integer: `a < b` iff the largest variant on which they differ is in `b`. -/
theorem C10_integer_order [Platform] {inp : DeriveInput} {T : EnumSetType}
    (hT : derive inp = .ok T) (hfit : Fits T) {w : Nat} (hst : storageOf inp = .int w)
    {a b : EnumSet T} (ha : Safe a) (hb : Safe b)
    {A B : T.Val → Bool} (hA : Members a A) (hB : Members b B) :
    a.cmp b = .lt ↔
      ∃ v, A v = false ∧ B v = true ∧ ∀ u, T.discr v < T.discr u → A u = B u := by
  obtain ⟨W⟩ := wf_of_derive hT hfit
  obtain ⟨info, hok, hs, he, -⟩ := derive_storage hT
  rw [← W.lift_lt (W.clean_of_safe ha) (W.clean_of_safe hb) hA hB fun i j => i < j]
  cases hs with
  | prim w pal lit hr discr hd hl =>
    have hw := (primOf_ok hr).1
    have hbit : ∀ (s : EnumSet (genPrim w pal info.variants.length discr discr lit
        (info.max_discrim + 1) info)) i, W.bit s i = BitVec.getLsbD (Prim.v s.priv_repr) i :=
      fun s i => bit_unique W.lawful (lawfulPrim hw) s.priv_repr i
    simp only [hbit]
    rw [← bv_lt_iff]
    exact Nat.compare_eq_lt
  | array size hr all discr hd hl =>
    rw [he, hr] at hst
    cases hst

/-- Sets stored in an array: the lowest 64-bit word (block of 64 discriminants) on which the sets
differ decides; within it, the largest variant on which they differ. -/
theorem C10_array_order [Platform] {inp : DeriveInput} {T : EnumSetType}
    (hT : derive inp = .ok T) (hfit : Fits T) {N : Nat} (hst : storageOf inp = .array N)
    {a b : EnumSet T} (ha : Safe a) (hb : Safe b)
    {A B : T.Val → Bool} (hA : Members a A) (hB : Members b B) :
    a.cmp b = .lt ↔ ∃ v, A v = false ∧ B v = true ∧
      (∀ u, T.discr u / 64 < T.discr v / 64 → A u = B u) ∧
      (∀ u, T.discr u / 64 = T.discr v / 64 → T.discr v < T.discr u → A u = B u) := by
  obtain ⟨W⟩ := wf_of_derive hT hfit
  obtain ⟨info, hok, hs, he, -⟩ := derive_storage hT
  have hsplit : (∃ v, A v = false ∧ B v = true ∧
      (∀ u, T.discr u / 64 < T.discr v / 64 → A u = B u) ∧
      (∀ u, T.discr u / 64 = T.discr v / 64 → T.discr v < T.discr u → A u = B u)) ↔
      ∃ v, A v = false ∧ B v = true ∧ ∀ u, (T.discr u / 64 < T.discr v / 64 ∨
        (T.discr u / 64 = T.discr v / 64 ∧ T.discr v < T.discr u)) → A u = B u := by
    constructor
    · rintro ⟨v, h1, h2, h3, h4⟩
      refine ⟨v, h1, h2, fun u hu => ?_⟩
      rcases hu with hu | hu
      · exact h3 u hu
      · exact h4 u hu.1 hu.2
    · rintro ⟨v, h1, h2, h3⟩
      exact ⟨v, h1, h2, fun u hu => h3 u (.inl hu), fun u hu hu' => h3 u (.inr ⟨hu, hu'⟩)⟩
  rw [hsplit, ← W.lift_lt (W.clean_of_safe ha) (W.clean_of_safe hb) hA hB
    fun i j => j / 64 < i / 64 ∨ (j / 64 = i / 64 ∧ i < j)]
  cases hs with
  | prim w pal lit hr discr hd hl =>
    rw [he, primOf_storage hr] at hst
    cases hst
  | array size hr all discr hd hl =>
    have hsize := array_size hok hr
    have hmax := hok.max_lt
    have hfit' : info.max_discrim + 1 < 2 ^ usizeBits := hfit
    have hbit : ∀ (s : EnumSet (genArray size info.variants.length discr discr all
        (info.max_discrim + 1) info)) i,
        W.bit s i = wbit (ArrayRepr.a s.priv_repr).toList i :=
      fun s i => bit_unique W.lawful
        (lawfulArray (by omega) (by omega) (by omega)) s.priv_repr i
    simp only [hbit]
    rw [← cmpWords_lt_iff (by simp)]
    rfl

open scoped Ex in
example := C10_integer_order Ex.hT Ex.fitT (w := 8) (by decide) Ex.safe_sB Ex.safe_sAC
  Ex.mem_sB Ex.mem_sAC
open scoped Ex in
example := C10_array_order Ex.hL Ex.fitL (N := 3) (by decide) Ex.safe_rB Ex.safe_rAC
  Ex.mem_rB Ex.mem_rAC

/-- With an array the order is not that of the "single large integer" of the documentation: there
is an enum and two sets built without `unsafe` where the largest differing variant is in the set that
compares smaller. -/
theorem C10_array_not_numeric : ∃ (_ : Platform) (inp : DeriveInput) (T : EnumSetType)
    (a b : EnumSet T) (A B : T.Val → Bool), derive inp = .ok T ∧ Fits T ∧ Safe a ∧ Safe b ∧
    Members a A ∧ Members b B ∧ b.cmp a = .lt ∧
    ∃ v, A v = false ∧ B v = true ∧ ∀ u, T.discr v < T.discr u → A u = B u := by
  letI := Ex.plat64
  refine ⟨Ex.plat64, Ex.inpL, Ex.L, ⟨⟨#v[1#64, 0#64, 0#64]⟩⟩, ⟨⟨#v[0#64, 1#64, 0#64]⟩⟩,
    fun v => v == Ex.lA, fun v => v == Ex.lB, Ex.hL, Ex.fitL, ?_, ?_, ?_, ?_, ?_, Ex.lB, ?_⟩
  · exact .only (v := Ex.lA) rfl
  · exact .only (v := Ex.lB) rfl
  · unfold Members; decide
  · unfold Members; decide
  · rfl
  · refine ⟨by decide, by decide, ?_⟩
    decide

end Enumset
