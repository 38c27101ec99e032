import Verif.SafeLemmas
import Verif.DeriveIff
/-!
# Helper lemmas: from the specification vocabulary to the bit-level lemmas
-/
set_option autoImplicit false
set_option linter.unusedSectionVars false

namespace Enumset

variable [Platform] {T : EnumSetType}

theorem discr_sorted_le {n : Nat} (discr : Fin n → Nat) (A : Fin n → Bool) :
    (sortedMembers discr A).Pairwise fun a b => discr a ≤ discr b := by
  unfold sortedMembers
  have := List.pairwise_mergeSort (le := fun a b => decide (discr a ≤ discr b))
    (by intro a b c; simp only [decide_eq_true_eq]; omega)
    (by intro a b; simp only [Bool.or_eq_true, decide_eq_true_eq]; omega)
    ((List.finRange n).filter A)
  exact this.imp (by simp)

theorem mem_sortedMembers {n : Nat} (discr : Fin n → Nat) (A : Fin n → Bool) (v : Fin n) :
    v ∈ sortedMembers discr A ↔ A v = true := by
  unfold sortedMembers
  rw [List.mem_mergeSort, List.mem_filter]
  simp

theorem nodup_sortedMembers {n : Nat} (discr : Fin n → Nat) (A : Fin n → Bool) :
    (sortedMembers discr A).Nodup := by
  unfold sortedMembers
  rw [(List.mergeSort_perm _ _).nodup_iff]
  exact (List.nodup_finRange n).filter _

theorem length_sortedMembers {n : Nat} (discr : Fin n → Nat) (A : Fin n → Bool) :
    (sortedMembers discr A).length = card A := by
  unfold sortedMembers card
  rw [List.length_mergeSort, List.countP_eq_length_filter]

theorem card_congr {n : Nat} {A B : Fin n → Bool} (h : ∀ v, A v = B v) : card A = card B := by
  rw [show A = B from funext h]

theorem card_le {n : Nat} (A : Fin n → Bool) : card A ≤ n := by
  unfold card
  have := List.countP_le_length (p := A) (l := List.finRange n)
  simpa using this

namespace WF

variable (W : WF T)
include W

theorem members_iff {s : EnumSet T} {A : T.Val → Bool} : Members s A ↔ ∀ v, W.mem s v = A v := by
  unfold Members
  apply forall_congr'
  intro v
  rw [W.contains_ok]
  constructor
  · intro h; injection h
  · intro h; rw [h]

theorem members_self (s : EnumSet T) : Members s (W.mem s) := W.members_iff.mpr fun _ => rfl

theorem members_of_bits {s : EnumSet T} {A : T.Val → Bool} (h : ∀ v, W.bit s (T.discr v) = A v) :
    Members s A := W.members_iff.mpr h

theorem sortedMembers_asc (A : T.Val → Bool) : Ascending (sortedMembers T.discr A) := by
  have h1 := discr_sorted_le T.discr A
  have h2 := nodup_sortedMembers T.discr A
  refine List.Pairwise.imp₂ (R := fun a b => T.discr a ≤ T.discr b) (S := fun a b => a ≠ b) ?_ h1 h2
  intro a b hle hne
  rcases Nat.lt_or_eq_of_le hle with h | h
  · exact h
  · exact absurd (W.discr_inj h) hne

theorem sortedMembers_eq (A : T.Val → Bool) : sortedMembers T.discr A = ascList T A := by
  apply W.asc_ext (W.sortedMembers_asc A) (W.ascList_asc A)
  intro v
  rw [mem_sortedMembers, W.mem_ascList]

theorem mem_funext {s : EnumSet T} {A : T.Val → Bool} (h : Members s A) : W.mem s = A :=
  funext (W.members_iff.mp h)

/-- Members and cleanness determine all bits. -/
theorem bit_eq_mem {s : EnumSet T} (hs : W.Clean s) {A : T.Val → Bool} (h : Members s A) (i : Nat) :
    W.bit s i = true ↔ ∃ v, T.discr v = i ∧ A v = true := by
  constructor
  · intro hb
    obtain ⟨v, rfl⟩ := hs i hb
    exact ⟨v, rfl, (W.members_iff.mp h v) ▸ hb⟩
  · rintro ⟨v, rfl, hA⟩
    rw [← W.members_iff.mp h v] at hA
    exact hA

theorem eqRes_of {r₁ r₂ : Res (EnumSet T)} {p q : Nat → Bool}
    (h₁ : ∃ s, r₁ = .ok s ∧ ∀ i, W.bit s i = p i) (h₂ : ∃ s, r₂ = .ok s ∧ ∀ i, W.bit s i = q i)
    (h : ∀ i, p i = q i) : EqRes r₁ r₂ := by
  obtain ⟨a, rfl, ha⟩ := h₁
  obtain ⟨b, rfl, hb⟩ := h₂
  have : a = b := W.ext (fun i => by rw [ha, hb, h])
  subst this
  change Res.ok _ = _
  rw [(W.eq_iff a a).mpr rfl]

/-- Sequencing of calls whose effect on bits is known. -/
theorem bind_ok {r : Res (EnumSet T)} {k : EnumSet T → Res (EnumSet T)} {p : Nat → Bool}
    {q : Nat → Bool → Bool} (h : ∃ s, r = .ok s ∧ ∀ i, W.bit s i = p i)
    (hk : ∀ s, ∃ s', k s = .ok s' ∧ ∀ i, W.bit s' i = q i (W.bit s i)) :
    ∃ s', (r >>= k) = .ok s' ∧ ∀ i, W.bit s' i = q i (p i) := by
  obtain ⟨s, rfl, hs⟩ := h
  obtain ⟨s', e, hs'⟩ := hk s
  exact ⟨s', e, fun i => by rw [hs', hs]⟩

theorem bind_ok₂ {r₁ r₂ : Res (EnumSet T)} {k : EnumSet T → EnumSet T → Res (EnumSet T)}
    {p₁ p₂ : Nat → Bool} {q : Nat → Bool → Bool → Bool}
    (h₁ : ∃ s, r₁ = .ok s ∧ ∀ i, W.bit s i = p₁ i) (h₂ : ∃ s, r₂ = .ok s ∧ ∀ i, W.bit s i = p₂ i)
    (hk : ∀ s t, ∃ s', k s t = .ok s' ∧ ∀ i, W.bit s' i = q i (W.bit s i) (W.bit t i)) :
    ∃ s', (do let x ← r₁; let y ← r₂; k x y) = .ok s' ∧ ∀ i, W.bit s' i = q i (p₁ i) (p₂ i) := by
  obtain ⟨s, rfl, hs⟩ := h₁
  obtain ⟨t, rfl, ht⟩ := h₂
  obtain ⟨s', e, hs'⟩ := hk s t
  exact ⟨s', e, fun i => by rw [hs', hs, ht]⟩

theorem pure_ok (s : EnumSet T) : ∃ s', (Res.ok s) = .ok s' ∧ ∀ i, W.bit s' i = W.bit s i :=
  ⟨s, rfl, fun _ => rfl⟩

theorem denotes_iff {o : Operand T} {B : T.Val → Bool} :
    Denotes o B ↔ ∀ v, W.obit o (T.discr v) = B v := by
  cases o with
  | val u =>
    constructor
    · intro h v
      rw [h v]
      exact W.decide_discr v u
    · intro h v
      rw [← h v]
      exact W.decide_discr v u
  | set s => exact W.members_iff

/-- From the bits of the result to its members. -/
theorem members_res {r : Res (EnumSet T)} {p : Nat → Bool} {A : T.Val → Bool}
    (h : ∃ s, r = .ok s ∧ ∀ i, W.bit s i = p i) (hp : ∀ v, p (T.discr v) = A v) :
    ∃ s, r = .ok s ∧ Members s A := by
  obtain ⟨s, e, hs⟩ := h
  exact ⟨s, e, W.members_of_bits fun v => by rw [hs, hp]⟩

end WF

end Enumset
