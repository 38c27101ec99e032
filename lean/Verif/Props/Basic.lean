import Verif.Props.Examples
/-!
# Properties C02–C09, C43: membership, set algebra, cardinality, equality, order

Every theorem is about an arbitrary enum accepted by the derive macro (`hT`); `hfit` only excludes
bit positions that do not fit a 16-bit `usize` (see C44).  `Members s A` says that `contains` reports
exactly the variants satisfying `A`; `Safe s` that `s` was built without `unsafe`.
-/
set_option autoImplicit false

namespace Enumset

/-! ## C02 No stray bits -/

/-- Whatever a safe program did to obtain `s`: exported to any number of words, a bit is set exactly
if it is the discriminant of a contained variant (and the position is covered by the export). -/
theorem C02_no_stray_bits [Platform] {inp : DeriveInput} {T : EnumSetType}
    (hT : derive inp = .ok T) (hfit : Fits T) {s : EnumSet T} (hs : Safe s) (O : Nat) :
    ∃ x : Vector U64 O, s.as_array_truncated O = .ok x ∧
      ∀ i, wbit x.toList i = true ↔ i < 64 * O ∧ ∃ v, T.discr v = i ∧ s.contains v = .ok true := by
  obtain ⟨W⟩ := wf_of_derive hT hfit
  obtain ⟨x, e, hx⟩ := W.as_array_truncated_ok O s
  refine ⟨x, e, ?_⟩
  intro i
  rw [hx, Bool.and_eq_true, decide_eq_true_iff,
    W.bit_eq_mem (W.clean_of_safe hs) (W.members_self s)]
  apply and_congr_right
  intro _
  constructor
  · rintro ⟨v, h1, h2⟩; exact ⟨v, h1, by rw [W.contains_ok, h2]⟩
  · rintro ⟨v, h1, h2⟩
    rw [W.contains_ok] at h2
    injection h2 with h2
    exact ⟨v, h1, h2⟩

open scoped Ex in
example := C02_no_stray_bits Ex.hL Ex.fitL Ex.safe_rAC 3

/-- The same for the stored value itself: its complete word export is the export of the set that
`from_iter` builds from the contained variants, i.e. nothing else is stored. -/
theorem C02_canonical [Platform] {inp : DeriveInput} {T : EnumSetType}
    (hT : derive inp = .ok T) (hfit : Fits T) {s : EnumSet T} (hs : Safe s)
    {A : T.Val → Bool} (hA : Members s A) :
    EnumSet.from_iter (sortedMembers T.discr A) = .ok s := by
  obtain ⟨W⟩ := wf_of_derive hT hfit
  obtain ⟨s', e, h⟩ := W.extend_ok (sortedMembers T.discr A) EnumSet.default
  unfold EnumSet.from_iter
  rw [e]
  congr 1
  apply W.ext
  intro i
  rw [Bool.eq_iff_iff, h, W.bit_eq_mem (W.clean_of_safe hs) hA,
    show W.bit EnumSet.default i = false from W.bit_empty i]
  simp only [Bool.false_eq_true, false_or, mem_sortedMembers]
  constructor
  · rintro ⟨v, h1, h2⟩; exact ⟨v, h2, h1⟩
  · rintro ⟨v, h1, h2⟩; exact ⟨v, h2, h1⟩

open scoped Ex in
example := C02_canonical Ex.hL Ex.fitL Ex.safe_rAC Ex.mem_rAC

/-! ## C03 insert, remove, contains -/

/-- `contains` returns for every set and variant. -/
theorem C03_contains [Platform] {inp : DeriveInput} {T : EnumSetType}
    (hT : derive inp = .ok T) (hfit : Fits T) (s : EnumSet T) : ∃ A, Members s A := by
  obtain ⟨W⟩ := wf_of_derive hT hfit
  exact ⟨_, W.members_self s⟩

theorem C03_insert [Platform] {inp : DeriveInput} {T : EnumSetType}
    (hT : derive inp = .ok T) (hfit : Fits T) {s : EnumSet T} {A : T.Val → Bool}
    (hA : Members s A) (v : T.Val) :
    ∃ s', s.insert v = .ok (!A v, s') ∧ Members s' fun u => A u || decide (u = v) := by
  obtain ⟨W⟩ := wf_of_derive hT hfit
  obtain ⟨s', e, h⟩ := W.insert_ok s v
  refine ⟨s', by rw [e, W.members_iff.mp hA v], W.members_of_bits fun u => ?_⟩
  rw [h, W.decide_discr, ← W.members_iff.mp hA u]
  rfl

theorem C03_remove [Platform] {inp : DeriveInput} {T : EnumSetType}
    (hT : derive inp = .ok T) (hfit : Fits T) {s : EnumSet T} {A : T.Val → Bool}
    (hA : Members s A) (v : T.Val) :
    ∃ s', s.remove v = .ok (A v, s') ∧ Members s' fun u => A u && !decide (u = v) := by
  obtain ⟨W⟩ := wf_of_derive hT hfit
  obtain ⟨s', e, h⟩ := W.remove_ok s v
  refine ⟨s', by rw [e, W.members_iff.mp hA v], W.members_of_bits fun u => ?_⟩
  rw [h, W.decide_discr, ← W.members_iff.mp hA u]
  rfl

/-- Inserting what is there and removing what is not there leave the set as it is; inserting and
then removing a new variant gives the set back. -/
theorem C03_undo [Platform] {inp : DeriveInput} {T : EnumSetType}
    (hT : derive inp = .ok T) (hfit : Fits T) {s : EnumSet T} {A : T.Val → Bool}
    (hA : Members s A) (v : T.Val) :
    (A v = true → s.insert v = .ok (false, s)) ∧
    (A v = false → s.remove v = .ok (false, s)) ∧
    (A v = false → (do let (_, s') ← s.insert v; s'.remove v) = .ok (true, s)) ∧
    (A v = true → (do let (_, s') ← s.remove v; s'.insert v) = .ok (true, s)) := by
  obtain ⟨W⟩ := wf_of_derive hT hfit
  have hm := W.members_iff.mp hA v
  obtain ⟨s', e, h⟩ := W.insert_ok s v
  obtain ⟨t', f, k⟩ := W.remove_ok s v
  rw [hm] at e f
  have hv : W.bit s (T.discr v) = A v := hm
  refine ⟨?_, ?_, ?_, ?_⟩
  · intro hAv
    have : s' = s := W.ext fun i => by
      rw [h]
      by_cases hi : i = T.discr v
      · rw [hi, hv, hAv]; rfl
      · simp [hi]
    rw [e, this, hAv]; rfl
  · intro hAv
    have : t' = s := W.ext fun i => by
      rw [k]
      by_cases hi : i = T.discr v
      · rw [hi, hv, hAv]; rfl
      · simp [hi]
    rw [f, this, hAv]
  · intro hAv
    rw [e]
    obtain ⟨s2, e2, h2⟩ := W.remove_ok s' v
    have hs' : W.mem s' v = true := by
      change W.bit s' (T.discr v) = true
      rw [h]; simp
    have : s2 = s := W.ext fun i => by
      rw [h2, h]
      by_cases hi : i = T.discr v
      · rw [hi, hv, hAv]; simp
      · simp [hi]
    change s'.remove v = _
    rw [e2, hs', this]
  · intro hAv
    rw [f]
    obtain ⟨s2, e2, h2⟩ := W.insert_ok t' v
    have hs' : W.mem t' v = false := by
      change W.bit t' (T.discr v) = false
      rw [k]; simp
    have : s2 = s := W.ext fun i => by
      rw [h2, k]
      by_cases hi : i = T.discr v
      · rw [hi, hv, hAv]; simp
      · simp [hi]
    change t'.insert v = _
    rw [e2, hs', this]; rfl

open scoped Ex in
example := C03_contains Ex.hL Ex.fitL Ex.rAC
open scoped Ex in
example := C03_insert Ex.hL Ex.fitL Ex.mem_rAC Ex.lB
open scoped Ex in
example := C03_remove Ex.hT Ex.fitT Ex.mem_sAC Ex.tC
open scoped Ex in
example := (C03_undo Ex.hT Ex.fitT Ex.mem_sAC Ex.tB).2.2.1 rfl

/-! ## C04 Set operations are pointwise -/

theorem C04_union [Platform] {inp : DeriveInput} {T : EnumSetType}
    (hT : derive inp = .ok T) (hfit : Fits T) {a b : EnumSet T} {A B : T.Val → Bool}
    (hA : Members a A) (hB : Members b B) :
    ∃ s, a.union b = .ok s ∧ Members s fun v => A v || B v := by
  obtain ⟨W⟩ := wf_of_derive hT hfit
  exact W.members_res (W.union_set_ok a b)
    fun v => by rw [← W.members_iff.mp hA v, ← W.members_iff.mp hB v]; rfl

theorem C04_intersection [Platform] {inp : DeriveInput} {T : EnumSetType}
    (hT : derive inp = .ok T) (hfit : Fits T) {a b : EnumSet T} {A B : T.Val → Bool}
    (hA : Members a A) (hB : Members b B) :
    ∃ s, a.intersection b = .ok s ∧ Members s fun v => A v && B v := by
  obtain ⟨W⟩ := wf_of_derive hT hfit
  exact W.members_res (W.intersection_ok a b)
    fun v => by rw [← W.members_iff.mp hA v, ← W.members_iff.mp hB v]; rfl

theorem C04_difference [Platform] {inp : DeriveInput} {T : EnumSetType}
    (hT : derive inp = .ok T) (hfit : Fits T) {a b : EnumSet T} {A B : T.Val → Bool}
    (hA : Members a A) (hB : Members b B) :
    ∃ s, a.difference b = .ok s ∧ Members s fun v => A v && !B v := by
  obtain ⟨W⟩ := wf_of_derive hT hfit
  exact W.members_res (W.difference_ok a b)
    fun v => by rw [← W.members_iff.mp hA v, ← W.members_iff.mp hB v]; rfl

theorem C04_symmetrical_difference [Platform] {inp : DeriveInput} {T : EnumSetType}
    (hT : derive inp = .ok T) (hfit : Fits T) {a b : EnumSet T} {A B : T.Val → Bool}
    (hA : Members a A) (hB : Members b B) :
    ∃ s, a.symmetrical_difference b = .ok s ∧ Members s fun v => A v != B v := by
  obtain ⟨W⟩ := wf_of_derive hT hfit
  exact W.members_res (W.symmetrical_difference_ok a b)
    fun v => by rw [← W.members_iff.mp hA v, ← W.members_iff.mp hB v]; rfl

theorem C04_complement [Platform] {inp : DeriveInput} {T : EnumSetType}
    (hT : derive inp = .ok T) (hfit : Fits T) {a : EnumSet T} {A : T.Val → Bool}
    (hA : Members a A) : ∃ s, a.complement = .ok s ∧ Members s fun v => !A v := by
  obtain ⟨W⟩ := wf_of_derive hT hfit
  exact W.members_res (W.complement_ok a) fun v => by
    rw [← W.members_iff.mp hA v, show W.bit EnumSet.ALL_REPR (T.discr v) = true from W.mem_all v,
      Bool.and_true]
    rfl

/-- The operators `|`, `&`, `-`, `^`, `!`, also with a variant on the right. -/
theorem C04_operators [Platform] {inp : DeriveInput} {T : EnumSetType}
    (hT : derive inp = .ok T) (hfit : Fits T) {a : EnumSet T} {o : Operand T} {A B : T.Val → Bool}
    (hA : Members a A) (hB : Denotes o B) :
    (∃ s, a.bitor o = .ok s ∧ Members s fun v => A v || B v) ∧
    (∃ s, a.bitand o = .ok s ∧ Members s fun v => A v && B v) ∧
    (∃ s, a.sub o = .ok s ∧ Members s fun v => A v && !B v) ∧
    (∃ s, a.bitxor o = .ok s ∧ Members s fun v => A v != B v) ∧
    (∃ s, a.not = .ok s ∧ Members s fun v => !A v) := by
  obtain ⟨W⟩ := wf_of_derive hT hfit
  refine ⟨?_, ?_, ?_, ?_, C04_complement hT hfit hA⟩
  · exact W.members_res (W.bitor_ok a o)
      fun v => by rw [← W.members_iff.mp hA v, ← W.denotes_iff.mp hB v]; rfl
  · exact W.members_res (W.bitand_ok a o)
      fun v => by rw [← W.members_iff.mp hA v, ← W.denotes_iff.mp hB v]; rfl
  · exact W.members_res (W.sub_ok a o)
      fun v => by rw [← W.members_iff.mp hA v, ← W.denotes_iff.mp hB v]; rfl
  · exact W.members_res (W.bitxor_ok a o)
      fun v => by rw [← W.members_iff.mp hA v, ← W.denotes_iff.mp hB v]; rfl

/-- The assigning operators, `insert_all`, `remove_all` and `clear`. -/
theorem C04_assigning [Platform] {inp : DeriveInput} {T : EnumSetType}
    (hT : derive inp = .ok T) (hfit : Fits T) {a b : EnumSet T} {o : Operand T}
    {A B C : T.Val → Bool} (hA : Members a A) (hB : Denotes o B) (hC : Members b C) :
    (∃ s, a.bitor_assign o = .ok s ∧ Members s fun v => A v || B v) ∧
    (∃ s, a.bitand_assign o = .ok s ∧ Members s fun v => A v && B v) ∧
    (∃ s, a.sub_assign o = .ok s ∧ Members s fun v => A v && !B v) ∧
    (∃ s, a.bitxor_assign o = .ok s ∧ Members s fun v => A v != B v) ∧
    (∃ s, a.insert_all b = .ok s ∧ Members s fun v => A v || C v) ∧
    (∃ s, a.remove_all b = .ok s ∧ Members s fun v => A v && !C v) ∧
    Members a.clear (fun _ => false) := by
  obtain ⟨h1, h2, h3, h4, -⟩ := C04_operators hT hfit hA hB
  refine ⟨h1, h2, h3, h4, C04_union hT hfit hA hC, C04_difference hT hfit hA hC, ?_⟩
  obtain ⟨W⟩ := wf_of_derive hT hfit
  exact W.members_of_bits fun v => W.bit_empty _

open scoped Ex in
example := C04_union Ex.hL Ex.fitL Ex.mem_rAC Ex.mem_rB
open scoped Ex in
example := C04_intersection Ex.hL Ex.fitL Ex.mem_rAC Ex.mem_rB
open scoped Ex in
example := C04_difference Ex.hL Ex.fitL Ex.mem_rAC Ex.mem_rB
open scoped Ex in
example := C04_symmetrical_difference Ex.hL Ex.fitL Ex.mem_rAC Ex.mem_rB
open scoped Ex in
example := C04_complement Ex.hL Ex.fitL Ex.mem_rAC
open scoped Ex in
example := C04_operators Ex.hT Ex.fitT (o := .val Ex.tB) Ex.mem_sAC (fun _ => rfl)
open scoped Ex in
example := C04_assigning Ex.hT Ex.fitT (o := .set Ex.sB) Ex.mem_sAC Ex.mem_sB Ex.mem_sB

/-! ## C05 Boolean algebra -/

section
variable [Platform] {T : EnumSetType}
/-- `a | b`, `a & b`, `a - b`, `a ^ b` on sets -/
abbrev EnumSet.or' (a b : EnumSet T) : Res (EnumSet T) := a.bitor (.set b)
/-- See `EnumSet.or'`. -/
abbrev EnumSet.and' (a b : EnumSet T) : Res (EnumSet T) := a.bitand (.set b)
/-- See `EnumSet.or'`. -/
abbrev EnumSet.sub' (a b : EnumSet T) : Res (EnumSet T) := a.sub (.set b)
/-- See `EnumSet.or'`. -/
abbrev EnumSet.xor' (a b : EnumSet T) : Res (EnumSet T) := a.bitxor (.set b)
end

/-- The laws that hold of arbitrary sets. `EqRes x y`: both sides return and `x == y`. -/
theorem C05_lattice [Platform] {inp : DeriveInput} {T : EnumSetType}
    (hT : derive inp = .ok T) (hfit : Fits T) (a b c : EnumSet T) :
    -- commutative
    EqRes (a.or' b) (b.or' a) ∧ EqRes (a.and' b) (b.and' a) ∧
    -- associative
    EqRes (do let x ← a.or' b; x.or' c) (do let y ← b.or' c; a.or' y) ∧
    EqRes (do let x ← a.and' b; x.and' c) (do let y ← b.and' c; a.and' y) ∧
    -- idempotent
    EqRes (a.or' a) (.ok a) ∧ EqRes (a.and' a) (.ok a) ∧
    -- absorbing
    EqRes (do let y ← a.and' b; a.or' y) (.ok a) ∧
    EqRes (do let y ← a.or' b; a.and' y) (.ok a) ∧
    -- distributive
    EqRes (do let y ← b.or' c; a.and' y) (do let x ← a.and' b; let y ← a.and' c; x.or' y) ∧
    EqRes (do let y ← b.and' c; a.or' y) (do let x ← a.or' b; let y ← a.or' c; x.and' y) ∧
    -- the empty set
    EqRes (a.or' EnumSet.empty) (.ok a) ∧ EqRes (a.and' EnumSet.empty) (.ok EnumSet.empty) := by
  obtain ⟨W⟩ := wf_of_derive hT hfit
  have O := fun a b => W.bitor_ok a (.set b)
  have A := fun a b => W.bitand_ok a (.set b)
  have e : ∀ i, W.bit EnumSet.empty i = false := W.bit_empty
  refine ⟨?_, ?_, ?_, ?_, ?_, ?_, ?_, ?_, ?_, ?_, ?_, ?_⟩
  · exact W.eqRes_of (O a b) (O b a) fun i => Bool.or_comm _ _
  · exact W.eqRes_of (A a b) (A b a) fun i => Bool.and_comm _ _
  · exact W.eqRes_of (W.bind_ok (q := fun i x => x || W.bit c i) (O a b) fun x => O x c)
      (W.bind_ok (q := fun i x => W.bit a i || x) (O b c) fun y => O a y)
      fun i => Bool.or_assoc _ _ _
  · exact W.eqRes_of (W.bind_ok (q := fun i x => x && W.bit c i) (A a b) fun x => A x c)
      (W.bind_ok (q := fun i x => W.bit a i && x) (A b c) fun y => A a y)
      fun i => Bool.and_assoc _ _ _
  · exact W.eqRes_of (O a a) (W.pure_ok a) fun i => Bool.or_self _
  · exact W.eqRes_of (A a a) (W.pure_ok a) fun i => Bool.and_self _
  · exact W.eqRes_of (W.bind_ok (q := fun i x => W.bit a i || x) (A a b) fun y => O a y)
      (W.pure_ok a) fun i => by change (W.bit a i || (W.bit a i && W.bit b i)) = _; cases W.bit a i <;> simp
  · exact W.eqRes_of (W.bind_ok (q := fun i x => W.bit a i && x) (O a b) fun y => A a y)
      (W.pure_ok a) fun i => by change (W.bit a i && (W.bit a i || W.bit b i)) = _; cases W.bit a i <;> simp
  · exact W.eqRes_of (W.bind_ok (q := fun i x => W.bit a i && x) (O b c) fun y => A a y)
      (W.bind_ok₂ (q := fun _ x y => x || y) (A a b) (A a c) fun x y => O x y)
      fun i => Bool.and_or_distrib_left _ _ _
  · exact W.eqRes_of (W.bind_ok (q := fun i x => W.bit a i || x) (A b c) fun y => O a y)
      (W.bind_ok₂ (q := fun _ x y => x && y) (O a b) (O a c) fun x y => A x y)
      fun i => Bool.or_and_distrib_left _ _ _
  · exact W.eqRes_of (O a _) (W.pure_ok a) fun i => by
      change (W.bit a i || W.bit EnumSet.empty i) = _; rw [e, Bool.or_false]
  · exact W.eqRes_of (A a _) (W.pure_ok _) fun i => by
      change (W.bit a i && W.bit EnumSet.empty i) = _; rw [e, Bool.and_false]

/-- The laws with a complement, for sets built without `unsafe` (a set with stray bits is not equal
to its double complement). -/
theorem C05_complement [Platform] {inp : DeriveInput} {T : EnumSetType}
    (hT : derive inp = .ok T) (hfit : Fits T) {a : EnumSet T} (ha : Safe a) (b : EnumSet T) :
    -- complements
    EqRes (do let x ← a.not; a.or' x) (.ok EnumSet.all) ∧
    EqRes (do let x ← a.not; a.and' x) (.ok EnumSet.empty) ∧
    -- involution
    EqRes (do let x ← a.not; x.not) (.ok a) ∧
    -- De Morgan
    EqRes (do let x ← a.or' b; x.not) (do let x ← a.not; let y ← b.not; x.and' y) ∧
    EqRes (do let x ← a.and' b; x.not) (do let x ← a.not; let y ← b.not; x.or' y) ∧
    -- bounds
    EqRes (a.or' EnumSet.all) (.ok EnumSet.all) ∧ EqRes (a.and' EnumSet.all) (.ok a) ∧
    EqRes (EnumSet.not EnumSet.empty) (.ok (EnumSet.all : EnumSet T)) ∧
    EqRes (EnumSet.not EnumSet.all) (.ok (EnumSet.empty : EnumSet T)) ∧
    -- difference and symmetric difference
    EqRes (a.sub' b) (do let y ← b.not; a.and' y) ∧
    EqRes (a.xor' b) (do let x ← a.sub' b; let y ← b.sub' a; x.or' y) := by
  obtain ⟨W⟩ := wf_of_derive hT hfit
  have O := fun a b => W.bitor_ok a (.set b)
  have A := fun a b => W.bitand_ok a (.set b)
  have N := W.complement_ok
  have e : ∀ i, W.bit EnumSet.empty i = false := W.bit_empty
  have le : ∀ {s : EnumSet T}, Safe s → ∀ i, W.bit s i = true → W.bit EnumSet.ALL_REPR i = true :=
    fun hs i h => (W.bit_all i).mpr (W.clean_of_safe hs i h)
  refine ⟨?_, ?_, ?_, ?_, ?_, ?_, ?_, ?_, ?_, ?_, ?_⟩
  · refine W.eqRes_of (W.bind_ok (q := fun i x => W.bit a i || x) (N a) fun y => O a y)
      (W.pure_ok _) fun i => ?_
    change (W.bit a i || (!W.bit a i && W.bit EnumSet.ALL_REPR i)) = W.bit EnumSet.ALL_REPR i
    have := le ha i
    cases h : W.bit a i <;> simp [h] at this ⊢
    exact this
  · refine W.eqRes_of (W.bind_ok (q := fun i x => W.bit a i && x) (N a) fun y => A a y)
      (W.pure_ok _) fun i => ?_
    rw [e]
    cases W.bit a i <;> simp
  · refine W.eqRes_of (W.bind_ok (q := fun i x => !x && W.bit EnumSet.ALL_REPR i) (N a)
      fun y => N y) (W.pure_ok _) fun i => ?_
    have := le ha i
    cases h : W.bit a i <;> simp [h] at this ⊢
    exact this
  · refine W.eqRes_of (W.bind_ok (q := fun i x => !x && W.bit EnumSet.ALL_REPR i) (O a b)
      fun y => N y) (W.bind_ok₂ (q := fun _ x y => x && y) (N a) (N b) fun x y => A x y)
      fun i => ?_
    change (!(W.bit a i || W.bit b i) && W.bit EnumSet.ALL_REPR i) = _
    cases W.bit a i <;> cases W.bit b i <;> cases W.bit EnumSet.ALL_REPR i <;> rfl
  · refine W.eqRes_of (W.bind_ok (q := fun i x => !x && W.bit EnumSet.ALL_REPR i) (A a b)
      fun y => N y) (W.bind_ok₂ (q := fun _ x y => x || y) (N a) (N b) fun x y => O x y)
      fun i => ?_
    change (!(W.bit a i && W.bit b i) && W.bit EnumSet.ALL_REPR i) = _
    cases W.bit a i <;> cases W.bit b i <;> cases W.bit EnumSet.ALL_REPR i <;> rfl
  · refine W.eqRes_of (O a _) (W.pure_ok _) fun i => ?_
    change (W.bit a i || W.bit EnumSet.ALL_REPR i) = W.bit EnumSet.ALL_REPR i
    have := le ha i
    cases h : W.bit a i <;> simp [h] at this ⊢
    exact this
  · refine W.eqRes_of (A a _) (W.pure_ok _) fun i => ?_
    change (W.bit a i && W.bit EnumSet.ALL_REPR i) = W.bit a i
    have := le ha i
    cases h : W.bit a i <;> simp [h] at this ⊢
    exact this
  · refine W.eqRes_of (N _) (W.pure_ok _) fun i => ?_
    rw [e]
    rfl
  · refine W.eqRes_of (N _) (W.pure_ok _) fun i => ?_
    rw [e]
    change (!W.bit EnumSet.ALL_REPR i && W.bit EnumSet.ALL_REPR i) = false
    simp
  · refine W.eqRes_of (W.sub_ok a (.set b)) (W.bind_ok (q := fun i x => W.bit a i && x) (N b)
      fun y => A a y) fun i => ?_
    change (W.bit a i && !W.bit b i) = (W.bit a i && (!W.bit b i && W.bit EnumSet.ALL_REPR i))
    have := le ha i
    cases h : W.bit a i <;> simp [h] at this ⊢
    intro _; exact this
  · refine W.eqRes_of (W.bitxor_ok a (.set b)) (W.bind_ok₂ (q := fun _ x y => x || y)
      (W.sub_ok a (.set b)) (W.sub_ok b (.set a)) fun x y => O x y) fun i => ?_
    change (W.bit a i ^^ W.bit b i) = ((W.bit a i && !W.bit b i) || (W.bit b i && !W.bit a i))
    cases W.bit a i <;> cases W.bit b i <;> rfl

open scoped Ex in
example := C05_lattice Ex.hL Ex.fitL Ex.rAC Ex.rB EnumSet.all
open scoped Ex in
example := C05_complement Ex.hL Ex.fitL Ex.safe_rAC Ex.rB

/-! ## C06 Subset, superset, disjoint -/

theorem C06_relations [Platform] {inp : DeriveInput} {T : EnumSetType}
    (hT : derive inp = .ok T) (hfit : Fits T) {a b : EnumSet T} (ha : Safe a) (hb : Safe b)
    {A B : T.Val → Bool} (hA : Members a A) (hB : Members b B) :
    (∃ r, a.is_subset b = .ok r ∧ (r = true ↔ ∀ v, A v = true → B v = true)) ∧
    (∃ r, a.is_superset b = .ok r ∧ (r = true ↔ ∀ v, B v = true → A v = true)) ∧
    (∃ r, a.is_disjoint b = .ok r ∧ (r = true ↔ ∀ v, ¬ (A v = true ∧ B v = true))) := by
  obtain ⟨W⟩ := wf_of_derive hT hfit
  have key : ∀ {a b : EnumSet T} {A B : T.Val → Bool}, Safe a → Members a A → Members b B →
      ((∀ i, W.bit a i = true → W.bit b i = true) ↔ ∀ v, A v = true → B v = true) := by
    intro a b A B ha hA hB
    constructor
    · intro h v hv
      rw [← W.members_iff.mp hA v] at hv
      rw [← W.members_iff.mp hB v]
      exact h _ hv
    · intro h i hi
      obtain ⟨v, rfl⟩ := W.clean_of_safe ha i hi
      have := h v
      rw [← W.members_iff.mp hA v, ← W.members_iff.mp hB v] at this
      exact this hi
  refine ⟨?_, ?_, ?_⟩
  · obtain ⟨r, e, h⟩ := W.is_subset_ok a b
    exact ⟨r, e, h.trans (key ha hA hB)⟩
  · obtain ⟨r, e, h⟩ := W.is_superset_ok a b
    exact ⟨r, e, h.trans (key hb hB hA)⟩
  · obtain ⟨r, e, h⟩ := W.is_disjoint_ok a b
    refine ⟨r, e, h.trans ?_⟩
    constructor
    · intro h v
      rw [← W.members_iff.mp hA v, ← W.members_iff.mp hB v]
      exact h _
    · intro h i hi
      obtain ⟨v, rfl⟩ := W.clean_of_safe ha i hi.1
      have := h v
      rw [← W.members_iff.mp hA v, ← W.members_iff.mp hB v] at this
      exact this hi

open scoped Ex in
example := C06_relations Ex.hL Ex.fitL Ex.safe_rAC Ex.safe_rB Ex.mem_rAC Ex.mem_rB

/-! ## C07 Cardinality -/

/-- `len` is the number of contained variants. -/
theorem C07_len [Platform] {inp : DeriveInput} {T : EnumSetType}
    (hT : derive inp = .ok T) (hfit : Fits T) {s : EnumSet T} (hs : Safe s)
    {A : T.Val → Bool} (hA : Members s A) : s.len = .ok (card A) := by
  obtain ⟨W⟩ := wf_of_derive hT hfit
  rw [W.len_ok (W.clean_of_safe hs), W.ascList_length, W.mem_funext hA]
  rfl

theorem C07_is_empty [Platform] {inp : DeriveInput} {T : EnumSetType}
    (hT : derive inp = .ok T) (hfit : Fits T) {s : EnumSet T} (hs : Safe s)
    {A : T.Val → Bool} (hA : Members s A) : ∃ b, s.is_empty = .ok b ∧
      (b = true ↔ ∀ v, A v = false) ∧ (b = true ↔ s.len = .ok 0) := by
  have hlen := C07_len hT hfit hs hA
  obtain ⟨W⟩ := wf_of_derive hT hfit
  obtain ⟨b, e, h⟩ := W.is_empty_ok s
  have h1 : b = true ↔ ∀ v, A v = false := by
    rw [h]
    constructor
    · intro h v
      rw [← W.members_iff.mp hA v]
      exact h _
    · intro h i
      cases hb : W.bit s i with
      | false => rfl
      | true =>
        obtain ⟨v, -, hv⟩ := (W.bit_eq_mem (W.clean_of_safe hs) hA i).mp hb
        rw [h v] at hv
        cases hv
  refine ⟨b, e, h1, h1.trans ?_⟩
  rw [hlen]
  constructor
  · intro h
    congr 1
    unfold card
    rw [List.countP_eq_zero]
    intro v _
    simp [h v]
  · intro h v
    injection h with h
    unfold card at h
    rw [List.countP_eq_zero] at h
    simpa using h v (by simp)

/-- `len` is at most `variant_count`, which is `len` of `all()`. -/
theorem C07_bound [Platform] {inp : DeriveInput} {T : EnumSetType}
    (hT : derive inp = .ok T) (hfit : Fits T) {s : EnumSet T} (hs : Safe s) :
    (EnumSet.all : EnumSet T).len = .ok (EnumSet.variant_count T) ∧
    ∃ k, s.len = .ok k ∧ k ≤ EnumSet.variant_count T ∧
      (k = EnumSet.variant_count T ↔ s = EnumSet.all) := by
  obtain ⟨W⟩ := wf_of_derive hT hfit
  have hc : EnumSet.variant_count T = T.n := W.count_eq
  have hall := C07_len hT hfit Safe.all (A := fun _ => true) (W.members_iff.mpr W.mem_all)
  have hcard : card (fun _ : T.Val => true) = T.n := by
    unfold card
    rw [List.countP_eq_length.mpr (by simp), List.length_finRange]
  refine ⟨by rw [hall, hcard, hc], card (W.mem s), C07_len hT hfit hs (W.members_self s),
    by rw [hc]; exact card_le _, ?_⟩
  rw [hc]
  constructor
  · intro h
    unfold card at h
    have hl : (List.finRange T.n).length = T.n := List.length_finRange
    have h2 := List.countP_eq_length.mp (h.trans hl.symm)
    apply W.clean_ext (W.clean_of_safe hs) W.clean_all
    intro v
    rw [h2 v (by simp), W.mem_all]
  · rintro rfl
    rw [show W.mem EnumSet.all = fun _ => true from funext W.mem_all, hcard]

/-- `|a| + |b| = |a ∪ b| + |a ∩ b|` -/
theorem C07_inclusion_exclusion [Platform] {inp : DeriveInput} {T : EnumSetType}
    (hT : derive inp = .ok T) (hfit : Fits T) {a b : EnumSet T} (ha : Safe a) (hb : Safe b) :
    ∃ u i na nb nu ni, a.union b = .ok u ∧ a.intersection b = .ok i ∧
      a.len = .ok na ∧ b.len = .ok nb ∧ u.len = .ok nu ∧ i.len = .ok ni ∧ na + nb = nu + ni := by
  obtain ⟨A, hA⟩ := C03_contains hT hfit a
  obtain ⟨B, hB⟩ := C03_contains hT hfit b
  obtain ⟨u, eu, hu⟩ := C04_union hT hfit hA hB
  obtain ⟨i, ei, hi⟩ := C04_intersection hT hfit hA hB
  refine ⟨u, i, _, _, _, _, eu, ei, C07_len hT hfit ha hA, C07_len hT hfit hb hB,
    C07_len hT hfit (.union ha hb eu) hu, C07_len hT hfit (.intersection ha hb ei) hi, ?_⟩
  unfold card
  induction List.finRange T.n with
  | nil => rfl
  | cons v l ih =>
    simp only [List.countP_cons]
    cases A v <;> cases B v <;> simp <;> omega

open scoped Ex in
example := C07_len Ex.hL Ex.fitL Ex.safe_rAC Ex.mem_rAC
open scoped Ex in
example := C07_is_empty Ex.hL Ex.fitL Ex.safe_rAC Ex.mem_rAC
open scoped Ex in
example := C07_bound Ex.hL Ex.fitL Ex.safe_rAC
open scoped Ex in
example := C07_inclusion_exclusion Ex.hL Ex.fitL Ex.safe_rAC Ex.safe_rB

/-! ## C08 Extensional equality and hashing -/

theorem C08_eq_iff [Platform] {inp : DeriveInput} {T : EnumSetType}
    (hT : derive inp = .ok T) (hfit : Fits T) {a b : EnumSet T} (ha : Safe a) (hb : Safe b)
    {A B : T.Val → Bool} (hA : Members a A) (hB : Members b B) :
    (a.eq b = true ↔ ∀ v, A v = B v) ∧ (a.hash = b.hash ↔ ∀ v, A v = B v) := by
  obtain ⟨W⟩ := wf_of_derive hT hfit
  have key : a = b ↔ ∀ v, A v = B v := by
    constructor
    · rintro rfl v
      rw [← W.members_iff.mp hA v, ← W.members_iff.mp hB v]
    · intro h
      apply W.clean_ext (W.clean_of_safe ha) (W.clean_of_safe hb)
      intro v
      rw [W.members_iff.mp hA v, W.members_iff.mp hB v, h]
  refine ⟨(W.eq_iff a b).trans key, ?_⟩
  rw [← key]
  constructor
  · intro h
    have := W.lawful.hash_inj h
    cases a; cases b; simp only at this; rw [this]
  · rintro rfl; rfl

/-- `set == variant` and `variant == set` hold exactly if the set is that singleton. -/
theorem C08_eq_variant [Platform] {inp : DeriveInput} {T : EnumSetType}
    (hT : derive inp = .ok T) (hfit : Fits T) {a : EnumSet T} (ha : Safe a)
    {A : T.Val → Bool} (hA : Members a A) (v : T.Val) :
    ∃ r, a.eq_val v = .ok r ∧ EnumVal.eq_set v a = .ok r ∧
      (r = true ↔ ∀ u, A u = decide (u = v)) := by
  obtain ⟨W⟩ := wf_of_derive hT hfit
  obtain ⟨o, e, ho⟩ := W.only_set_ok v
  have hO : Members o fun u => decide (u = v) :=
    W.members_of_bits fun u => by rw [ho, W.decide_discr]
  have h1 := (C08_eq_iff hT hfit ha (.only e) hA hO).1
  have h2 := (C08_eq_iff hT hfit (.only e) ha hO hA).1
  refine ⟨a.eq o, ?_, ?_, h1⟩
  · unfold EnumSet.eq_val; rw [e]; rfl
  · unfold EnumVal.eq_set
    rw [e]
    change Res.ok (o.eq a) = .ok (a.eq o)
    congr 1
    rw [Bool.eq_iff_iff, h1, h2]
    constructor
    · intro h u; rw [h u]
    · intro h u; rw [h u]

open scoped Ex in
example := C08_eq_iff Ex.hL Ex.fitL Ex.safe_rAC Ex.safe_rB Ex.mem_rAC Ex.mem_rB
open scoped Ex in
example := C08_eq_variant Ex.hL Ex.fitL Ex.safe_rB Ex.mem_rB Ex.lB

/-! ## C09 Total order -/

theorem C09_total_order [Platform] {inp : DeriveInput} {T : EnumSetType}
    (hT : derive inp = .ok T) (hfit : Fits T) (a b c : EnumSet T) :
    -- `partial_cmp` is `Some(cmp)`
    a.partial_cmp b = some (a.cmp b) ∧
    -- agrees with `==`
    (a.cmp b = .eq ↔ a.eq b = true) ∧
    -- total and antisymmetric: exactly the reverse order the other way round
    b.cmp a = (a.cmp b).swap ∧
    -- reflexive
    a.cmp a = .eq ∧
    -- transitive
    (a.cmp b ≠ .gt → b.cmp c ≠ .gt → a.cmp c ≠ .gt) ∧
    (a.cmp b = .lt → b.cmp c ≠ .gt → a.cmp c = .lt) := by
  obtain ⟨W⟩ := wf_of_derive hT hfit
  have heq : ∀ x y : EnumSet T, x.cmp y = .eq ↔ x.eq y = true := fun x y =>
    W.lawful.cmp_eq_iff.trans W.lawful.eq_iff.symm
  have hsw : ∀ x y : EnumSet T, y.cmp x = (x.cmp y).swap := fun x y => W.lawful.cmp_swap _ _
  have htr : ∀ x y z : EnumSet T, x.cmp y ≠ .gt → y.cmp z ≠ .gt → x.cmp z ≠ .gt :=
    fun x y z h1 h2 => W.lawful.cmp_trans h1 h2
  refine ⟨W.lawful.partial_cmp_eq _ _, heq a b, hsw a b, (heq a a).mpr ((W.eq_iff a a).mpr rfl),
    htr a b c, ?_⟩
  intro h1 h2
  cases h : a.cmp c with
  | lt => rfl
  | gt => exact absurd h (htr a b c (by rw [h1]; simp) h2)
  | eq =>
    have : a = c := (W.eq_iff a c).mp ((heq a c).mp h)
    subst this
    rw [hsw, h1] at h2
    simp at h2

/-- A subset is smaller or equal, a proper subset smaller. -/
theorem C09_subset [Platform] {inp : DeriveInput} {T : EnumSetType}
    (hT : derive inp = .ok T) (hfit : Fits T) {a b : EnumSet T} (h : a.is_subset b = .ok true) :
    a.cmp b ≠ .gt ∧ (a.eq b = false → a.cmp b = .lt) := by
  obtain ⟨W⟩ := wf_of_derive hT hfit
  obtain ⟨r, e, hr⟩ := W.is_subset_ok a b
  rw [e] at h
  injection h with h
  have hgt : a.cmp b ≠ .gt := W.lawful.cmp_subset (hr.mp h)
  refine ⟨hgt, fun hne => ?_⟩
  cases hc : a.cmp b with
  | lt => rfl
  | gt => exact absurd hc hgt
  | eq =>
    have := (C09_total_order hT hfit a b a).2.1.mp hc
    rw [this] at hne
    cases hne

open scoped Ex in
example := C09_total_order Ex.hL Ex.fitL Ex.rAC Ex.rB EnumSet.all
open scoped Ex in
example := C09_subset Ex.hL Ex.fitL (a := Ex.rAC) (b := EnumSet.all) rfl

/-! ## C43 Empty, all, default -/

theorem C43_empty_all [Platform] {inp : DeriveInput} {T : EnumSetType}
    (hT : derive inp = .ok T) (hfit : Fits T) :
    Members (EnumSet.new : EnumSet T) (fun _ => false) ∧
    Members (EnumSet.empty : EnumSet T) (fun _ => false) ∧
    Members (EnumSet.default : EnumSet T) (fun _ => false) ∧
    Members (EnumSet.EMPTY : EnumSet T) (fun _ => false) ∧
    (∀ s : EnumSet T, Members s.clear fun _ => false) ∧
    Members (EnumSet.all : EnumSet T) (fun _ => true) ∧
    Members (EnumSet.ALL : EnumSet T) (fun _ => true) := by
  obtain ⟨W⟩ := wf_of_derive hT hfit
  have h0 : Members (EnumSet.new : EnumSet T) (fun _ => false) :=
    W.members_of_bits fun v => W.bit_empty _
  have h1 : Members (EnumSet.all : EnumSet T) (fun _ => true) :=
    W.members_of_bits W.mem_all
  exact ⟨h0, h0, h0, h0, fun _ => h0, h1, h1⟩

/-- They are the least and the greatest set. -/
theorem C43_bounds [Platform] {inp : DeriveInput} {T : EnumSetType}
    (hT : derive inp = .ok T) (hfit : Fits T) {s : EnumSet T} (hs : Safe s) :
    EnumSet.is_subset EnumSet.empty s = .ok true ∧ s.is_subset EnumSet.all = .ok true ∧
    (s.is_subset EnumSet.empty = .ok true ↔ s = EnumSet.empty) ∧
    (EnumSet.is_subset EnumSet.all s = .ok true ↔ s = EnumSet.all) := by
  obtain ⟨W⟩ := wf_of_derive hT hfit
  have key : ∀ x y : EnumSet T, x.is_subset y = .ok true ↔
      ∀ i, W.bit x i = true → W.bit y i = true := by
    intro x y
    obtain ⟨r, e, h⟩ := W.is_subset_ok x y
    rw [e, ← h]
    constructor
    · intro h; injection h
    · intro h; rw [h]
  have hle : ∀ i, W.bit s i = true → W.bit EnumSet.all i = true :=
    fun i hi => (W.bit_all i).mpr (W.clean_of_safe hs i hi)
  have hemp : ∀ i, W.bit EnumSet.empty i = false := W.bit_empty
  simp only [key]
  refine ⟨fun i h => ?_, hle, ?_, ?_⟩
  · rw [hemp] at h; cases h
  · constructor
    · intro h
      apply W.ext
      intro i
      rw [hemp]
      cases hb : W.bit s i with
      | false => rfl
      | true => have := h i hb; rw [hemp] at this; cases this
    · rintro rfl i h; exact h
  · constructor
    · intro h
      apply W.ext
      intro i
      rw [Bool.eq_iff_iff]
      exact ⟨hle i, h i⟩
    · rintro rfl i h; exact h

open scoped Ex in
example := C43_empty_all Ex.hL Ex.fitL
open scoped Ex in
example := C43_bounds Ex.hL Ex.fitL Ex.safe_rAC

end Enumset
