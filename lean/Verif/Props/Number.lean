import Verif.SpecInt
import Verif.Props.Conv
import Verif.Props.Order
import Verif.Props.Serde
/-!
# Property C60: a set is the number with the bits of its elements

`setInt T.discr A` is the sum of `2 ^ d` over the discriminants `d` of the elements of `A`.
-/
set_option autoImplicit false

namespace Enumset

section helpers

theorem add_two_pow_or (a d : Nat) (h : a.testBit d = false) : a + 2 ^ d = a ||| 2 ^ d := by
  have ha : a < 2 ^ (a + 2 ^ d) :=
    Nat.lt_of_lt_of_le Nat.lt_two_pow_self (Nat.pow_le_pow_right (by omega) (Nat.le_add_right _ _))
  have hd : 2 ^ d < 2 ^ (a + 2 ^ d) := by
    refine Nat.pow_lt_pow_right (by omega) ?_
    have : d < 2 ^ d := Nat.lt_two_pow_self
    omega
  revert ha hd
  generalize hw : a + 2 ^ d = w
  intro ha hd
  have hz : BitVec.ofNat w a &&& BitVec.ofNat w (2 ^ d) = 0#w := by
    refine BitVec.eq_of_getLsbD_eq fun i hi => ?_
    rw [BitVec.getLsbD_and, BitVec.getLsbD_ofNat, BitVec.getLsbD_ofNat, Nat.testBit_two_pow]
    by_cases e : d = i
    · subst e; simp [h]
    · simp [e]
  have h1 := BitVec.toNat_add_of_and_eq_zero hz
  have h2 := congrArg BitVec.toNat (BitVec.add_eq_or_of_and_eq_zero _ _ hz)
  rw [h1, BitVec.toNat_or, BitVec.toNat_ofNat, BitVec.toNat_ofNat, Nat.mod_eq_of_lt ha,
    Nat.mod_eq_of_lt hd] at h2
  rw [← hw]
  exact h2

theorem sum_testBit (ds : List Nat) (h : ds.Nodup) (i : Nat) :
    ((ds.map (2 ^ ·)).sum).testBit i = true ↔ i ∈ ds := by
  induction ds generalizing i with
  | nil => simp
  | cons d ds ih =>
    rw [List.nodup_cons] at h
    have hd : ((ds.map (2 ^ ·)).sum).testBit d = false := by
      cases hb : ((ds.map (2 ^ ·)).sum).testBit d with
      | false => rfl
      | true => exact absurd ((ih h.2 d).mp hb) h.1
    rw [List.map_cons, List.sum_cons, Nat.add_comm, add_two_pow_or _ _ hd, Nat.testBit_or,
      Bool.or_eq_true, ih h.2, Nat.testBit_two_pow, decide_eq_true_iff, List.mem_cons]
    exact ⟨fun h => h.elim .inr fun h => .inl h.symm, fun h => h.elim (fun h => .inr h.symm) .inl⟩

theorem setInt_testBit {n : Nat} {discr : Fin n → Nat} (inj : ∀ u v, discr u = discr v → u = v)
    (A : Fin n → Bool) (i : Nat) :
    (setInt discr A).testBit i = true ↔ ∃ v, discr v = i ∧ A v = true := by
  have hn : (((List.finRange n).filter A).map discr).Nodup := by
    have : ((List.finRange n).filter A).Nodup := (List.nodup_finRange n).filter _
    rw [List.nodup_iff_pairwise_ne, List.pairwise_map]
    exact (List.nodup_iff_pairwise_ne.mp this).imp fun h e => h (inj _ _ e)
  have e : setInt discr A = ((((List.finRange n).filter A).map discr).map (2 ^ ·)).sum := by
    unfold setInt
    rw [List.map_map]
    rfl
  rw [e, sum_testBit _ hn, List.mem_map]
  constructor
  · rintro ⟨v, hv, rfl⟩
    exact ⟨v, rfl, (List.mem_filter.mp hv).2⟩
  · rintro ⟨v, rfl, hv⟩
    exact ⟨v, List.mem_filter.mpr ⟨List.mem_finRange v, hv⟩, rfl⟩

theorem sum_filter {n : Nat} (f : Fin n → Nat) (A : Fin n → Bool) (l : List (Fin n)) :
    ((l.filter A).map f).sum = (l.map fun v => if A v then f v else 0).sum := by
  induction l with
  | nil => rfl
  | cons v l ih =>
    cases h : A v
    · rw [List.filter_cons_of_neg (by simp [h]), List.map_cons, List.sum_cons, ih]; simp [h]
    · rw [List.filter_cons_of_pos h, List.map_cons, List.map_cons, List.sum_cons, List.sum_cons, ih]
      simp [h]

theorem setInt_add {n : Nat} (discr : Fin n → Nat) (A B C D : Fin n → Bool)
    (h : ∀ v, (A v).toNat + (B v).toNat = (C v).toNat + (D v).toNat) :
    setInt discr A + setInt discr B = setInt discr C + setInt discr D := by
  unfold setInt
  rw [sum_filter, sum_filter, sum_filter, sum_filter]
  generalize List.finRange n = l
  induction l with
  | nil => rfl
  | cons v l ih =>
    simp only [List.map_cons, List.sum_cons]
    have := h v
    revert this
    cases A v <;> cases B v <;> cases C v <;> cases D v <;> simp <;> omega

theorem wordsInt_testBit (ws : List U64) (i : Nat) : (wordsInt ws).testBit i = wbit ws i := by
  induction ws generalizing i with
  | nil => rw [wbit_of_ge (by simp)]; exact Nat.zero_testBit i
  | cons x ws ih =>
    have hx : x.toNat < 2 ^ 64 := x.isLt
    rw [wordsInt, Nat.add_comm, Nat.testBit_two_pow_mul_add _ hx, wbit_cons]
    by_cases h : i < 64
    · simp only [h, if_true]; rfl
    · simp only [h, if_false]; exact ih _

variable [Platform] {T : EnumSetType} (W : WF T)

theorem WF.setInt_bit {s : EnumSet T} (hs : Safe s) {A : T.Val → Bool} (hA : Members s A) (i : Nat) :
    (setInt T.discr A).testBit i = W.bit s i := by
  rw [Bool.eq_iff_iff, setInt_testBit (fun u v h => W.discr_inj h)]
  exact (W.discrIn hs hA i).symm

include W in
theorem WF.below_iff (A : T.Val → Bool) (k : Nat) : Below A k ↔ setInt T.discr A < 2 ^ k := by
  have inj : ∀ u v : T.Val, T.discr u = T.discr v → u = v := fun u v h => W.discr_inj h
  constructor
  · intro h
    refine Nat.lt_pow_two_of_testBit _ fun i hi => ?_
    cases hb : (setInt T.discr A).testBit i with
    | false => rfl
    | true =>
      obtain ⟨v, rfl, hv⟩ := (setInt_testBit inj A i).mp hb
      have := h v hv
      omega
  · intro h v hv
    refine Decidable.byContradiction fun hk => ?_
    have h1 := (setInt_testBit inj A _).mpr ⟨v, rfl, hv⟩
    rw [Nat.testBit_lt_two_pow (Nat.lt_of_lt_of_le h (Nat.pow_le_pow_right (by omega) (by omega)))] at h1
    cases h1

end helpers

/-- The integer of a set is its number, reduced to the width of the type by the truncating
conversion; the checked conversions succeed exactly if it fits. -/
theorem C60_num [Platform] {inp : DeriveInput} {T : EnumSetType} (hT : derive inp = .ok T)
    (hfit : Fits T) {s : EnumSet T} (hs : Safe s) {A : T.Val → Bool} (hA : Members s A) (n : NumTy) :
    s.as_num_truncated n = .ok (BitVec.ofNat n.bits (setInt T.discr A)) ∧
    (setInt T.discr A < 2 ^ n.bits →
      s.try_as_num n = .ok (some (BitVec.ofNat n.bits (setInt T.discr A))) ∧
      s.as_num n = .ok (BitVec.ofNat n.bits (setInt T.discr A))) ∧
    (2 ^ n.bits ≤ setInt T.discr A → s.try_as_num n = .ok none ∧
      s.as_num n = .panic (.expect "Bitset will not fit into this type.")) := by
  obtain ⟨W⟩ := wf_of_derive hT hfit
  obtain ⟨x, e, hx, h1, h2⟩ := C18_as_num hT hfit hs hA n
  have hx' : x = BitVec.ofNat n.bits (setInt T.discr A) := by
    refine BitVec.eq_of_getLsbD_eq fun i hi => ?_
    rw [BitVec.getLsbD_ofNat, Bool.eq_iff_iff, hx, Bool.and_eq_true, decide_eq_true_iff,
      setInt_testBit (fun u v h => W.discr_inj h)]
    rfl
  subst hx'
  refine ⟨e, fun h => h1 ((W.below_iff A _).mpr h), fun h => h2 fun hb => ?_⟩
  have := (W.below_iff A _).mp hb
  omega

/-- The words of a set are the digits of its number to the base `2 ^ 64`; `to_vec` never truncates. -/
theorem C60_words [Platform] {inp : DeriveInput} {T : EnumSetType} (hT : derive inp = .ok T)
    (hfit : Fits T) {s : EnumSet T} (hs : Safe s) {A : T.Val → Bool} (hA : Members s A) (O : Nat) :
    (∃ x, s.as_array_truncated O = .ok x ∧
      wordsInt x.toList = setInt T.discr A % 2 ^ (64 * O) ∧
      (setInt T.discr A < 2 ^ (64 * O) → s.try_as_array O = .ok (some x) ∧ s.as_array O = .ok x) ∧
      (2 ^ (64 * O) ≤ setInt T.discr A → s.try_as_array O = .ok none ∧
        s.as_array O = .panic (.expect "Bitset will not fit into this type."))) ∧
    (∃ x, s.to_vec = .ok x ∧ wordsInt x = setInt T.discr A) := by
  obtain ⟨W⟩ := wf_of_derive hT hfit
  obtain ⟨x, e, hx⟩ := W.as_array_truncated_ok O s
  obtain ⟨x', e', -, h1, h2⟩ := C21_as_array hT hfit hs hA O
  rw [e] at e'
  injection e' with e'
  subst e'
  refine ⟨⟨x, e, ?_, fun h => h1 ((W.below_iff A _).mpr h), fun h => h2 fun hb => ?_⟩, ?_⟩
  · refine Nat.eq_of_testBit_eq fun i => ?_
    rw [wordsInt_testBit, hx, Nat.testBit_mod_two_pow, W.setInt_bit hs hA]
  · have := (W.below_iff A _).mp hb
    omega
  · obtain ⟨y, ey, hl, hy⟩ := W.to_vec_ok s
    refine ⟨y, ey, Nat.eq_of_testBit_eq fun i => ?_⟩
    rw [wordsInt_testBit, hy, W.setInt_bit hs hA]

/-- Reading a number keeps the bits that belong to variants; the checked conversions accept exactly
the numbers of sets. -/
theorem C60_import [Platform] {inp : DeriveInput} {T : EnumSetType} (hT : derive inp = .ok T)
    (hfit : Fits T) (n : NumTy) (x : BitVec n.bits) :
    (∃ (s : EnumSet T) (A : T.Val → Bool), EnumSet.from_num_truncated n x = .ok s ∧ Members s A ∧
      setInt T.discr A = x.toNat &&& setInt T.discr fun _ => true) ∧
    ((∃ s : EnumSet T, EnumSet.try_from_num n x = .ok (some s)) ↔
      ∃ A : T.Val → Bool, x.toNat = setInt T.discr A) ∧
    (∀ (s : EnumSet T) (A : T.Val → Bool), EnumSet.try_from_num n x = .ok (some s) → Members s A →
      x.toNat = setInt T.discr A) := by
  obtain ⟨W⟩ := wf_of_derive hT hfit
  have inj : ∀ u v : T.Val, T.discr u = T.discr v → u = v := fun u v h => W.discr_inj h
  obtain ⟨h1, h2, s0, e0, m0⟩ := C19_from_num hT hfit n x
  have only : OnlyVariants T x.getLsbD → x.toNat = setInt T.discr fun v => x.getLsbD (T.discr v) := by
    intro h
    refine Nat.eq_of_testBit_eq fun i => ?_
    rw [Bool.eq_iff_iff, setInt_testBit inj]
    constructor
    · intro hi
      obtain ⟨v, hv⟩ := h i hi
      exact ⟨v, hv, hv ▸ hi⟩
    · rintro ⟨v, rfl, hv⟩
      exact hv
  refine ⟨⟨s0, _, e0, m0, ?_⟩, ⟨?_, ?_⟩, ?_⟩
  · refine Nat.eq_of_testBit_eq fun i => ?_
    rw [Bool.eq_iff_iff, setInt_testBit inj, Nat.testBit_and, Bool.and_eq_true, setInt_testBit inj]
    constructor
    · rintro ⟨v, rfl, hv⟩
      exact ⟨hv, v, rfl, rfl⟩
    · rintro ⟨hx, v, rfl, -⟩
      exact ⟨v, rfl, hx⟩
  · rintro ⟨s, hs⟩
    by_cases h : OnlyVariants T x.getLsbD
    · exact ⟨_, only h⟩
    · rw [(h2 h).1] at hs; cases hs
  · rintro ⟨A, hA⟩
    have h : OnlyVariants T x.getLsbD := by
      intro i hi
      have : x.toNat.testBit i = true := hi
      rw [hA] at this
      obtain ⟨v, hv, -⟩ := (setInt_testBit inj A i).mp this
      exact ⟨v, hv⟩
    obtain ⟨s, e, -⟩ := h1 h
    exact ⟨s, e⟩
  · intro s A e hA
    by_cases h : OnlyVariants T x.getLsbD
    · obtain ⟨s', e', -, hm⟩ := h1 h
      rw [e] at e'
      have : s = s' := by injection e' with e'; injection e'
      subst this
      rw [only h]
      congr 1
      funext v
      have := (hm v).symm.trans (hA v)
      injection this
    · rw [(h2 h).1] at e; cases e

/-- Different sets have different numbers, and with integer storage the order of sets is the order
of their numbers. -/
theorem C60_order [Platform] {inp : DeriveInput} {T : EnumSetType} (hT : derive inp = .ok T)
    (hfit : Fits T) {a b : EnumSet T} (ha : Safe a) (hb : Safe b) {A B : T.Val → Bool}
    (hA : Members a A) (hB : Members b B) :
    (a = b ↔ setInt T.discr A = setInt T.discr B) ∧
    ∀ w, storageOf inp = .int w → a.cmp b = compare (setInt T.discr A) (setInt T.discr B) := by
  obtain ⟨W⟩ := wf_of_derive hT hfit
  have eqv : a = b ↔ setInt T.discr A = setInt T.discr B := by
    constructor
    · rintro rfl
      refine Nat.eq_of_testBit_eq fun i => ?_
      rw [W.setInt_bit ha hA, W.setInt_bit ha hB]
    · intro h
      refine W.ext fun i => ?_
      rw [← W.setInt_bit ha hA, h, W.setInt_bit hb hB]
  refine ⟨eqv, fun w hw => ?_⟩
  have lt : ∀ {a b : EnumSet T} {A B : T.Val → Bool}, Safe a → Safe b → Members a A → Members b B →
      a.cmp b = .lt → setInt T.discr A < setInt T.discr B := by
    intro a b A B ha hb hA hB h
    obtain ⟨v, h1, h2, h3⟩ := (C10_integer_order hT hfit hw ha hb hA hB).mp h
    refine lt_of_testBit (T.discr v) ?_ ?_ ?_
    · rw [W.setInt_bit ha hA]
      exact (W.members_iff.mp hA v).trans h1
    · rw [W.setInt_bit hb hB]
      exact (W.members_iff.mp hB v).trans h2
    · intro j hj
      rw [Bool.eq_iff_iff, setInt_testBit (fun u v h => W.discr_inj h),
        setInt_testBit (fun u v h => W.discr_inj h)]
      constructor
      · rintro ⟨u, rfl, hu⟩; exact ⟨u, rfl, h3 u hj ▸ hu⟩
      · rintro ⟨u, rfl, hu⟩; exact ⟨u, rfl, (h3 u hj).trans hu⟩
  have hsw : b.cmp a = (a.cmp b).swap := W.lawful.cmp_swap _ _
  cases hc : a.cmp b with
  | lt => exact (Nat.compare_eq_lt.mpr (lt ha hb hA hB hc)).symm
  | eq =>
    have : a = b := (W.eq_iff a b).mp (W.lawful.eq_iff.mpr (W.lawful.cmp_eq_iff.mp hc))
    exact (Nat.compare_eq_eq.mpr (eqv.mp this)).symm
  | gt =>
    rw [hc] at hsw
    exact (Nat.compare_eq_gt.mpr (lt hb ha hB hA hsw)).symm

/-- The operations on numbers. -/
theorem C60_operations [Platform] {inp : DeriveInput} {T : EnumSetType} (hT : derive inp = .ok T)
    (hfit : Fits T) {a b u i d x c : EnumSet T} {A B U I D X C : T.Val → Bool}
    (hA : Members a A) (hB : Members b B)
    (hu : a.union b = .ok u) (hU : Members u U) (hi : a.intersection b = .ok i) (hI : Members i I)
    (hd : a.difference b = .ok d) (hD : Members d D) (hx : a.symmetrical_difference b = .ok x)
    (hX : Members x X) (hc : a.complement = .ok c) (hC : Members c C) :
    setInt T.discr U + setInt T.discr I = setInt T.discr A + setInt T.discr B ∧
    setInt T.discr D + setInt T.discr I = setInt T.discr A ∧
    setInt T.discr X + setInt T.discr I = setInt T.discr U ∧
    setInt T.discr C + setInt T.discr A = setInt T.discr fun _ => true := by
  obtain ⟨W⟩ := wf_of_derive hT hfit
  have hA' := W.members_iff.mp hA
  have hB' := W.members_iff.mp hB
  have bits : ∀ {s t : EnumSet T} {r : Res (EnumSet T)} {p : Nat → Bool} {S : T.Val → Bool},
      (∃ s, r = .ok s ∧ ∀ i, W.bit s i = p i) → r = .ok t → Members t S →
      ∀ v, S v = p (T.discr v) := by
    rintro s t r p S ⟨s', e, hs⟩ e' hS v
    rw [e] at e'
    injection e' with e'
    subst e'
    rw [← W.members_iff.mp hS v]
    exact hs _
  have kU := bits (s := a) (W.union_set_ok a b) hu hU
  have kI := bits (s := a) (W.intersection_ok a b) hi hI
  have kD := bits (s := a) (W.difference_ok a b) hd hD
  have kX := bits (s := a) (W.symmetrical_difference_ok a b) hx hX
  have kC := bits (s := a) (W.complement_ok a) hc hC
  have nil : setInt T.discr (fun _ => false) = 0 := by
    unfold setInt
    rw [List.filter_eq_nil_iff.mpr (by simp)]
    rfl
  refine ⟨setInt_add _ _ _ _ _ fun v => ?_, ?_, ?_, ?_⟩
  · rw [kU, kI, ← hA' v, ← hB' v]
    show Bool.toNat (W.mem a v || W.mem b v) + Bool.toNat (W.mem a v && W.mem b v) = _
    cases W.mem a v <;> cases W.mem b v <;> rfl
  · rw [← Nat.add_zero (setInt T.discr A), ← nil]
    refine setInt_add _ _ _ _ _ fun v => ?_
    rw [kD, kI, ← hA' v]
    show Bool.toNat (W.mem a v && !W.mem b v) + Bool.toNat (W.mem a v && W.mem b v) = _
    cases W.mem a v <;> cases W.mem b v <;> rfl
  · rw [← Nat.add_zero (setInt T.discr U), ← nil]
    refine setInt_add _ _ _ _ _ fun v => ?_
    rw [kX, kI, kU]
    show Bool.toNat (W.mem a v ^^ W.mem b v) + Bool.toNat (W.mem a v && W.mem b v) =
      Bool.toNat (W.mem a v || W.mem b v) + _
    cases W.mem a v <;> cases W.mem b v <;> rfl
  · rw [← Nat.add_zero (setInt T.discr fun _ => true), ← nil]
    refine setInt_add _ _ _ _ _ fun v => ?_
    have hv : W.lawful.bit T.ALL_BITS (T.discr v) = true := (W.all_bit _).mpr ⟨v, rfl⟩
    rw [kC, ← hA' v]
    show Bool.toNat (!W.mem a v && W.lawful.bit T.ALL_BITS (T.discr v)) + _ = _
    rw [hv]
    cases W.mem a v <;> rfl

/-- The number is what is serialized in the integer formats. -/
theorem C60_serialize [Platform] {inp : DeriveInput} {T : EnumSetType} (hT : derive inp = .ok T)
    (hfit : Fits T) {n : NumTy} (hn : n ≠ .usize) (hf : formatOf inp = .int n.bits)
    {s : EnumSet T} (hs : Safe s) {A : T.Val → Bool} (hA : Members s A) :
    ∃ x, Serde.serialize s = .ok (.int n x) ∧ x.toNat = setInt T.discr A := by
  obtain ⟨W⟩ := wf_of_derive hT hfit
  obtain ⟨x, e, hx⟩ := C36_serialize hT hfit hn hf hs hA
  refine ⟨x, e, Nat.eq_of_testBit_eq fun i => ?_⟩
  rw [Bool.eq_iff_iff, setInt_testBit (fun u v h => W.discr_inj h)]
  exact hx i

open scoped Ex in
example := C60_num Ex.hT Ex.fitT Ex.safe_sAC Ex.mem_sAC .u8
open scoped Ex in
/-- `{A, C}` with discriminants 0 and 4 is 17 -/
example : setInt Ex.T.discr (fun v => v != Ex.tB) = 17 := by decide
open scoped Ex in
example := C60_words Ex.hL Ex.fitL Ex.safe_rAC Ex.mem_rAC 2
open scoped Ex in
/-- `{A, C}` with discriminants 0 and 130; its two lowest words are 1 and 0 -/
example : setInt Ex.L.discr (fun v => v != Ex.lB) = 2 ^ 130 + 1 ∧ wordsInt [1, 0] = 1 := by decide
open scoped Ex in
example := C60_import Ex.hT Ex.fitT .u16 0b11000#16
open scoped Ex in
example := C60_order Ex.hT Ex.fitT Ex.safe_sAC Ex.safe_sB Ex.mem_sAC (B := fun v => v == Ex.tB)
  (by unfold Members; decide)
open scoped Ex in
/-- `{A, C}` and `{B}` have the numbers 17 and 8: 25 + 0 = 17 + 8 -/
example := C60_operations Ex.hT Ex.fitT (a := Ex.sAC) (b := Ex.sB) (u := ⟨⟨25⟩⟩) (i := ⟨⟨0⟩⟩)
  (d := ⟨⟨17⟩⟩) (x := ⟨⟨25⟩⟩) (c := ⟨⟨8⟩⟩) Ex.mem_sAC (B := fun v => v == Ex.tB)
  (by unfold Members; decide) rfl (U := fun _ => true) (by unfold Members; decide) rfl
  (I := fun _ => false) (by unfold Members; decide) rfl Ex.mem_sAC rfl (X := fun _ => true)
  (by unfold Members; decide) rfl (C := fun v => v == Ex.tB) (by unfold Members; decide)
open scoped Ex in
example := C60_serialize Ex.hT Ex.fitT (n := .u8) (by decide) rfl Ex.safe_sAC Ex.mem_sAC

end Enumset
