import Verif.StorageLemmas
import Verif.Props.Examples
/-!
# Properties C18–C27: conversions to and from integers, arrays, slices, vectors and the repr type

`NumTy` ranges over `u8`, `u16`, `u32`, `u64`, `u128`, `usize`.  `DiscrIn A i`: `i` is the
discriminant of an element of `A`.  `Below A k`: all discriminants of elements of `A` are `< k`.
`OnlyVariants T p`: every bit set in `p` is a discriminant.
-/
set_option autoImplicit false

namespace Enumset

section helpers

variable [Platform] {T : EnumSetType}

theorem WF.discrIn (W : WF T) {s : EnumSet T} (hs : Safe s) {A : T.Val → Bool} (hA : Members s A)
    (i : Nat) : W.bit s i = true ↔ DiscrIn A i := W.bit_eq_mem (W.clean_of_safe hs) hA i

theorem WF.below (W : WF T) {s : EnumSet T} (hs : Safe s) {A : T.Val → Bool} (hA : Members s A)
    (k : Nat) : (∀ i, W.bit s i = true → i < k) ↔ Below A k := by
  constructor
  · intro h v hv
    exact h _ ((W.discrIn hs hA _).mpr ⟨v, rfl, hv⟩)
  · intro h i hi
    obtain ⟨v, rfl, hv⟩ := (W.discrIn hs hA i).mp hi
    exact h v hv

theorem WF.onlyVariants_of_clean (W : WF T) {s : EnumSet T} (hs : Safe s) {p : Nat → Bool}
    (hp : ∀ i, p i = W.bit s i) : OnlyVariants T p := by
  intro i hi
  rw [hp] at hi
  exact W.clean_of_safe hs i hi

theorem WF.trunc_members (W : WF T) {r : Res (EnumSet T)} {p : Nat → Bool}
    (h : ∃ s : EnumSet T, r = .ok s ∧ ∀ i, W.bit s i = (p i && W.bit EnumSet.ALL_REPR i)) :
    ∃ s, r = .ok s ∧ Members s fun v => p (T.discr v) := by
  obtain ⟨s, e, hs⟩ := h
  refine ⟨s, e, W.members_of_bits fun v => ?_⟩
  rw [hs]
  have : W.bit EnumSet.ALL_REPR (T.discr v) = true := W.mem_all v
  rw [this, Bool.and_true]

end helpers

theorem wbit_ext {a b : List U64} (hl : a.length = b.length) (h : ∀ i, wbit a i = wbit b i) :
    a = b := by
  apply List.ext_getElem hl
  intro k h1 h2
  apply BitVec.eq_of_getLsbD_eq
  intro j hj
  rw [← wbit_word hj h1, ← wbit_word hj h2, h]

theorem wbit_vec_ext {O : Nat} {a b : Vector U64 O} (h : ∀ i, wbit a.toList i = wbit b.toList i) :
    a = b := by
  apply Vector.toList_inj.mp
  exact wbit_ext (by simp) h

/-! ## C18 Integer export -/

theorem C18_as_num [Platform] {inp : DeriveInput} {T : EnumSetType} (hT : derive inp = .ok T)
    (hfit : Fits T) {s : EnumSet T} (hs : Safe s) {A : T.Val → Bool} (hA : Members s A)
    (n : NumTy) :
    ∃ x : BitVec n.bits, s.as_num_truncated n = .ok x ∧
      (∀ i, x.getLsbD i = true ↔ i < n.bits ∧ DiscrIn A i) ∧
      (Below A n.bits → s.try_as_num n = .ok (some x) ∧ s.as_num n = .ok x) ∧
      (¬ Below A n.bits → s.try_as_num n = .ok none ∧
        s.as_num n = .panic (.expect "Bitset will not fit into this type.")) := by
  obtain ⟨W⟩ := wf_of_derive hT hfit
  obtain ⟨x, e, hx⟩ := W.as_num_truncated_ok n s
  obtain ⟨h1, h2⟩ := W.try_as_num_ok n s
  rw [W.below hs hA] at h1 h2
  refine ⟨x, e, ?_, ?_, ?_⟩
  · intro i
    rw [hx, Bool.and_eq_true, decide_eq_true_iff, W.discrIn hs hA]
  · intro h
    obtain ⟨y, e', hy⟩ := h1 h
    have : y = x := BitVec.eq_of_getLsbD_eq fun i hi => by
      rw [hy, hx, decide_eq_true hi, Bool.true_and]
    subst this
    exact ⟨e', by unfold EnumSet.as_num; rw [e']; rfl⟩
  · intro h
    exact ⟨h2 h, by unfold EnumSet.as_num; rw [h2 h]; rfl⟩

open scoped Ex in
example := C18_as_num Ex.hL Ex.fitL Ex.safe_rAC Ex.mem_rAC .u128
open scoped Ex in
/-- both cases occur: `{A, C}` does not fit 128 bits, `{B}` does -/
example : ¬ Below (T := Ex.L) (fun v => v != Ex.lB) 128 :=
  fun h => absurd (h Ex.lC rfl) (by decide)
open scoped Ex in
example : Below (T := Ex.L) (fun v => v == Ex.lB) 128 := by unfold Below; decide

/-! ## C19 Integer import -/

theorem C19_from_num [Platform] {inp : DeriveInput} {T : EnumSetType} (hT : derive inp = .ok T)
    (hfit : Fits T) (n : NumTy) (x : BitVec n.bits) :
    (OnlyVariants T x.getLsbD → ∃ s : EnumSet T, EnumSet.try_from_num n x = .ok (some s) ∧
      EnumSet.from_num n x = .ok s ∧ Members s fun v => x.getLsbD (T.discr v)) ∧
    (¬ OnlyVariants T x.getLsbD → EnumSet.try_from_num (T := T) n x = .ok none ∧
      EnumSet.from_num (T := T) n x = .panic (.expect "Bitset contains invalid variants.")) ∧
    (∃ s : EnumSet T, EnumSet.from_num_truncated n x = .ok s ∧
      Members s fun v => x.getLsbD (T.discr v)) := by
  obtain ⟨W⟩ := wf_of_derive hT hfit
  obtain ⟨h1, h2⟩ := W.try_from_num_ok n x
  refine ⟨?_, ?_, W.trunc_members (W.from_num_truncated_ok n x)⟩
  · intro h
    obtain ⟨s, e, hs⟩ := h1 h
    exact ⟨s, e, by unfold EnumSet.from_num; rw [e]; rfl, W.members_of_bits fun v => hs _⟩
  · intro h
    exact ⟨h2 h, by unfold EnumSet.from_num; rw [h2 h]; rfl⟩

open scoped Ex in
example := C19_from_num Ex.hT Ex.fitT .u16 0b11000#16
open scoped Ex in
/-- both cases occur -/
example : OnlyVariants Ex.T (0b11000#16).getLsbD := by
  intro i hi
  have : i < 16 := BitVec.lt_of_getLsbD hi
  revert hi; revert i
  decide
open scoped Ex in
example : ¬ OnlyVariants Ex.T (0b11100#16).getLsbD :=
  fun h => absurd (h 2 (by decide)) (by decide)

/-! ## C20 Integer round trip -/

theorem C20_export_import [Platform] {inp : DeriveInput} {T : EnumSetType}
    (hT : derive inp = .ok T) (hfit : Fits T) {s : EnumSet T} (hs : Safe s) (n : NumTy)
    (x : BitVec n.bits) (h : s.try_as_num n = .ok (some x)) :
    EnumSet.try_from_num n x = .ok (some s) := by
  obtain ⟨W⟩ := wf_of_derive hT hfit
  obtain ⟨h1, h2⟩ := W.try_as_num_ok n s
  by_cases hb : ∀ i, W.bit s i = true → i < n.bits
  · obtain ⟨y, e, hy⟩ := h1 hb
    have : y = x := by rw [e] at h; simpa using h
    subst this
    obtain ⟨t, e', ht⟩ := (W.try_from_num_ok n y).1 (W.onlyVariants_of_clean hs hy)
    rw [e', show t = s from W.ext fun i => by rw [ht, hy]]
  · rw [h2 hb] at h; simp at h

theorem C20_import_export [Platform] {inp : DeriveInput} {T : EnumSetType}
    (hT : derive inp = .ok T) (hfit : Fits T) {s : EnumSet T} (n : NumTy)
    (x : BitVec n.bits) (h : EnumSet.try_from_num n x = .ok (some s)) :
    s.try_as_num n = .ok (some x) := by
  obtain ⟨W⟩ := wf_of_derive hT hfit
  obtain ⟨h1, h2⟩ := W.try_from_num_ok n x
  by_cases hb : OnlyVariants T x.getLsbD
  · obtain ⟨t, e, ht⟩ := h1 hb
    have : t = s := by rw [e] at h; simpa using h
    subst this
    obtain ⟨y, e', hy⟩ := (W.try_as_num_ok n t).1 (fun i hi => by
      rw [ht] at hi; exact BitVec.lt_of_getLsbD hi)
    rw [e', show y = x from BitVec.eq_of_getLsbD_eq fun i _ => by rw [hy, ht]]
  · rw [h2 hb] at h; simp at h

theorem C20_truncated [Platform] {inp : DeriveInput} {T : EnumSetType}
    (hT : derive inp = .ok T) (hfit : Fits T) {s : EnumSet T} {A : T.Val → Bool}
    (hA : Members s A) (n : NumTy) :
    ∃ t : EnumSet T, (s.as_num_truncated n >>= EnumSet.from_num_truncated n) = .ok t ∧
      Members t fun v => A v && decide (T.discr v < n.bits) := by
  obtain ⟨W⟩ := wf_of_derive hT hfit
  obtain ⟨x, e, hx⟩ := W.as_num_truncated_ok n s
  obtain ⟨t, e', ht⟩ := W.trunc_members (W.from_num_truncated_ok n x)
  refine ⟨t, by rw [e]; exact e', ?_⟩
  intro v
  rw [ht v]
  simp only []
  rw [hx, Bool.and_comm, show W.bit s (T.discr v) = A v from W.members_iff.mp hA v]

open scoped Ex in
example := C20_export_import Ex.hT Ex.fitT Ex.safe_sAC .u16 0b10001#16 rfl
open scoped Ex in
example := C20_import_export Ex.hT Ex.fitT (s := Ex.sAC) .u16 0b10001#16 rfl
open scoped Ex in
example := C20_truncated Ex.hL Ex.fitL Ex.mem_rAC .u64

/-! ## C21 Array export -/

theorem C21_as_array [Platform] {inp : DeriveInput} {T : EnumSetType} (hT : derive inp = .ok T)
    (hfit : Fits T) {s : EnumSet T} (hs : Safe s) {A : T.Val → Bool} (hA : Members s A) (O : Nat) :
    ∃ x : Vector U64 O, s.as_array_truncated O = .ok x ∧
      (∀ (k : Nat) (hk : k < O) (j : Nat), j < 64 →
        (x[k].getLsbD j = true ↔ DiscrIn A (64 * k + j))) ∧
      (Below A (64 * O) → s.try_as_array O = .ok (some x) ∧ s.as_array O = .ok x) ∧
      (¬ Below A (64 * O) → s.try_as_array O = .ok none ∧
        s.as_array O = .panic (.expect "Bitset will not fit into this type.")) := by
  obtain ⟨W⟩ := wf_of_derive hT hfit
  obtain ⟨x, e, hx⟩ := W.as_array_truncated_ok O s
  obtain ⟨h1, h2⟩ := W.try_as_array_ok O s
  rw [W.below hs hA] at h1 h2
  refine ⟨x, e, ?_, ?_, ?_⟩
  · intro k hk j hj
    have := wbit_word (ws := x.toList) (k := k) hj (by simpa using hk)
    rw [Vector.getElem_toList] at this
    rw [← this, hx, Bool.and_eq_true, decide_eq_true_iff, W.discrIn hs hA]
    constructor
    · exact fun h => h.2
    · exact fun h => ⟨by omega, h⟩
  · intro h
    obtain ⟨y, e', hy⟩ := h1 h
    have : y = x := wbit_vec_ext fun i => by
      rw [hy, hx]
      cases hb : W.bit s i with
      | false => simp
      | true => simp [(W.below hs hA _).mpr h i hb]
    subst this
    exact ⟨e', by unfold EnumSet.as_array; rw [e']; rfl⟩
  · intro h
    exact ⟨h2 h, by unfold EnumSet.as_array; rw [h2 h]; rfl⟩

/-- `to_vec`: the same words, as many as the storage has, which is enough for every discriminant of the
enum. -/
theorem C21_to_vec [Platform] {inp : DeriveInput} {T : EnumSetType} (hT : derive inp = .ok T)
    (hfit : Fits T) {s : EnumSet T} (hs : Safe s) {A : T.Val → Bool} (hA : Members s A) :
    ∃ x : List U64, s.to_vec = .ok x ∧ x.length = (storageOf inp).words ∧
      (∀ (k : Nat) (hk : k < x.length) (j : Nat), j < 64 →
        (x[k].getLsbD j = true ↔ DiscrIn A (64 * k + j))) ∧
      (∀ v, T.discr v < 64 * x.length) := by
  obtain ⟨W⟩ := wf_of_derive hT hfit
  obtain ⟨x, e, hl, hx⟩ := W.to_vec_ok s
  refine ⟨x, e, ?_, ?_, ?_⟩
  · rw [hl]
    obtain ⟨info, hok, hsh, he, -⟩ := derive_storage hT
    rw [he]
    cases hsh with
    | prim w pal lit hr discr hd hl =>
      rw [primOf_storage hr]
      have := primOf_ok hr
      unfold prim.Ok at this
      change pal = (w + 63) / 64
      omega
    | array size hr all discr hd hl => rw [hr]; rfl
  · intro k hk j hj
    rw [← wbit_word hj hk, hx, W.discrIn hs hA]
  · intro v
    have h1 := W.discr_lt_width v
    have h2 := W.lawful.width_le
    omega

open scoped Ex in
example := C21_as_array Ex.hL Ex.fitL Ex.safe_rAC Ex.mem_rAC 2
open scoped Ex in
example := C21_to_vec Ex.hL Ex.fitL Ex.safe_rAC Ex.mem_rAC
open scoped Ex in
example : Ex.rAC.to_vec = .ok [1, 0, 4] := rfl

/-! ## C22 Array import -/

theorem C22_from_array [Platform] {inp : DeriveInput} {T : EnumSetType} (hT : derive inp = .ok T)
    (hfit : Fits T) (O : Nat) (x : Vector U64 O) :
    (OnlyVariants T (wbit x.toList) → ∃ s : EnumSet T, EnumSet.try_from_array O x = .ok (some s) ∧
      EnumSet.from_array O x = .ok s ∧ Members s fun v => wbit x.toList (T.discr v)) ∧
    (¬ OnlyVariants T (wbit x.toList) → EnumSet.try_from_array (T := T) O x = .ok none ∧
      EnumSet.from_array (T := T) O x = .panic (.expect "Bitset contains invalid variants.")) ∧
    (∃ s : EnumSet T, EnumSet.from_array_truncated O x = .ok s ∧
      Members s fun v => wbit x.toList (T.discr v)) := by
  obtain ⟨W⟩ := wf_of_derive hT hfit
  obtain ⟨h1, h2⟩ := W.try_from_array_ok O x
  refine ⟨?_, ?_, W.trunc_members (W.from_array_truncated_ok O x)⟩
  · intro h
    obtain ⟨s, e, hs⟩ := h1 h
    exact ⟨s, e, by unfold EnumSet.from_array; rw [e]; rfl, W.members_of_bits fun v => hs _⟩
  · intro h
    exact ⟨h2 h, by unfold EnumSet.from_array; rw [h2 h]; rfl⟩

theorem C22_from_slice [Platform] {inp : DeriveInput} {T : EnumSetType} (hT : derive inp = .ok T)
    (hfit : Fits T) (x : List U64) :
    (OnlyVariants T (wbit x) → ∃ s : EnumSet T, EnumSet.try_from_slice x = .ok (some s) ∧
      EnumSet.from_slice x = .ok s ∧ Members s fun v => wbit x (T.discr v)) ∧
    (¬ OnlyVariants T (wbit x) → EnumSet.try_from_slice (T := T) x = .ok none ∧
      EnumSet.from_slice (T := T) x = .panic (.expect "Bitset contains invalid variants.")) ∧
    (∃ s : EnumSet T, EnumSet.from_slice_truncated x = .ok s ∧
      Members s fun v => wbit x (T.discr v)) := by
  obtain ⟨W⟩ := wf_of_derive hT hfit
  obtain ⟨h1, h2⟩ := W.try_from_slice_ok x
  refine ⟨?_, ?_, W.trunc_members (W.from_slice_truncated_ok x)⟩
  · intro h
    obtain ⟨s, e, hs⟩ := h1 h
    exact ⟨s, e, by unfold EnumSet.from_slice; rw [e]; rfl, W.members_of_bits fun v => hs _⟩
  · intro h
    exact ⟨h2 h, by unfold EnumSet.from_slice; rw [h2 h]; rfl⟩

open scoped Ex in
example := C22_from_array Ex.hL Ex.fitL 5 #v[1, 0, 4, 0, 0]
open scoped Ex in
example := C22_from_slice Ex.hL Ex.fitL [1, 2, 4]
open scoped Ex in
/-- both cases occur -/
example : OnlyVariants Ex.L (wbit [1, 0, 4]) := by
  have h : ∀ i, i < 192 → wbit [1, 0, 4] i = true → i = 0 ∨ i = 130 := by decide +kernel
  intro i hi
  rcases h i (wbit_lt hi) hi with rfl | rfl
  · exact ⟨Ex.lA, rfl⟩
  · exact ⟨Ex.lC, rfl⟩
open scoped Ex in
example : ¬ OnlyVariants Ex.L (wbit [1, 2, 4]) :=
  fun h => absurd (h 65 (by decide)) (by decide)

/-! ## C23 Copying into slices -/

/-- `data` is the previous content of the slice; `copy_into_slice` is described by what it does
(return or panic) and what it leaves in the slice. -/
theorem C23_copy_into_slice [Platform] {inp : DeriveInput} {T : EnumSetType}
    (hT : derive inp = .ok T) (hfit : Fits T) {s : EnumSet T} (hs : Safe s) {A : T.Val → Bool}
    (hA : Members s A) (data : List U64) :
    ∃ x : List U64, s.copy_into_slice_truncated data = .ok x ∧ x.length = data.length ∧
      (∀ (k : Nat) (hk : k < x.length) (j : Nat), j < 64 →
        (x[k].getLsbD j = true ↔ DiscrIn A (64 * k + j))) ∧
      (Below A (64 * data.length) → s.try_copy_into_slice data = .ok (some (), x) ∧
        s.copy_into_slice data = .ok (.ok (), x)) ∧
      (¬ Below A (64 * data.length) → s.try_copy_into_slice data = .ok (none, data) ∧
        s.copy_into_slice data =
          .ok (.panic (.expect "Bitset will not fit into slice."), data)) := by
  obtain ⟨W⟩ := wf_of_derive hT hfit
  obtain ⟨x, e, hl, hx⟩ := W.copy_into_slice_truncated_ok s data
  obtain ⟨h1, h2⟩ := W.try_copy_into_slice_ok s data
  rw [W.below hs hA] at h1 h2
  refine ⟨x, e, hl, ?_, ?_, ?_⟩
  · intro k hk j hj
    rw [← wbit_word hj hk, hx, Bool.and_eq_true, decide_eq_true_iff, W.discrIn hs hA]
    constructor
    · exact fun h => h.2
    · exact fun h => ⟨by omega, h⟩
  · intro h
    obtain ⟨y, e', hl', hy⟩ := h1 h
    have : y = x := wbit_ext (by omega) fun i => by
      rw [hy, hx]
      cases hb : W.bit s i with
      | false => simp
      | true => simp [(W.below hs hA _).mpr h i hb]
    subst this
    exact ⟨e', by unfold EnumSet.copy_into_slice; rw [e']; rfl⟩
  · intro h
    exact ⟨h2 h, by unfold EnumSet.copy_into_slice; rw [h2 h]; rfl⟩

open scoped Ex in
example := C23_copy_into_slice Ex.hL Ex.fitL Ex.safe_rAC Ex.mem_rAC [7, 7, 7, 7]
open scoped Ex in
example : Ex.rAC.try_copy_into_slice [7, 7, 7, 7] = .ok (some (), [1, 0, 4, 0]) := rfl
open scoped Ex in
example : Ex.rAC.try_copy_into_slice [7, 7] = .ok (none, [7, 7]) := rfl

/-! ## C24 Array and slice round trip -/

theorem C24_export_import [Platform] {inp : DeriveInput} {T : EnumSetType}
    (hT : derive inp = .ok T) (hfit : Fits T) {s : EnumSet T} (hs : Safe s) :
    (∀ (O : Nat) (x : Vector U64 O), s.try_as_array O = .ok (some x) →
      EnumSet.try_from_array O x = .ok (some s)) ∧
    (∀ data x, s.try_copy_into_slice data = .ok (some (), x) →
      EnumSet.try_from_slice x = .ok (some s)) ∧
    (∀ x, s.to_vec = .ok x → EnumSet.try_from_slice x = .ok (some s)) := by
  obtain ⟨W⟩ := wf_of_derive hT hfit
  refine ⟨?_, ?_, ?_⟩
  · intro O x h
    obtain ⟨h1, h2⟩ := W.try_as_array_ok O s
    by_cases hb : ∀ i, W.bit s i = true → i < 64 * O
    · obtain ⟨y, e, hy⟩ := h1 hb
      have : y = x := by rw [e] at h; simpa using h
      subst this
      obtain ⟨t, e', ht⟩ := (W.try_from_array_ok O y).1 (W.onlyVariants_of_clean hs hy)
      rw [e', show t = s from W.ext fun i => by rw [ht, hy]]
    · rw [h2 hb] at h; simp at h
  · intro data x h
    obtain ⟨h1, h2⟩ := W.try_copy_into_slice_ok s data
    by_cases hb : ∀ i, W.bit s i = true → i < 64 * data.length
    · obtain ⟨y, e, _, hy⟩ := h1 hb
      have : y = x := by rw [e] at h; simpa using h
      subst this
      obtain ⟨t, e', ht⟩ := (W.try_from_slice_ok y).1 (W.onlyVariants_of_clean hs hy)
      rw [e', show t = s from W.ext fun i => by rw [ht, hy]]
    · rw [h2 hb] at h; simp at h
  · intro x h
    obtain ⟨y, e, _, hy⟩ := W.to_vec_ok s
    have : y = x := by rw [e] at h; simpa using h
    subst this
    obtain ⟨t, e', ht⟩ := (W.try_from_slice_ok y).1 (W.onlyVariants_of_clean hs hy)
    rw [e', show t = s from W.ext fun i => by rw [ht, hy]]

theorem C24_import_export [Platform] {inp : DeriveInput} {T : EnumSetType}
    (hT : derive inp = .ok T) (hfit : Fits T) {s : EnumSet T} :
    (∀ (O : Nat) (x : Vector U64 O), EnumSet.try_from_array O x = .ok (some s) →
      s.try_as_array O = .ok (some x)) ∧
    (∀ x data : List U64, EnumSet.try_from_slice x = .ok (some s) → data.length = x.length →
      s.try_copy_into_slice data = .ok (some (), x)) := by
  obtain ⟨W⟩ := wf_of_derive hT hfit
  refine ⟨?_, ?_⟩
  · intro O x h
    obtain ⟨h1, h2⟩ := W.try_from_array_ok O x
    by_cases hb : OnlyVariants T (wbit x.toList)
    · obtain ⟨t, e, ht⟩ := h1 hb
      have : t = s := by rw [e] at h; simpa using h
      subst this
      obtain ⟨y, e', hy⟩ := (W.try_as_array_ok O t).1 (fun i hi => by
        rw [ht] at hi; simpa using wbit_lt hi)
      rw [e', show y = x from wbit_vec_ext fun i => by rw [hy, ht]]
    · rw [h2 hb] at h; simp at h
  · intro x data h hl
    obtain ⟨h1, h2⟩ := W.try_from_slice_ok x
    by_cases hb : OnlyVariants T (wbit x)
    · obtain ⟨t, e, ht⟩ := h1 hb
      have : t = s := by rw [e] at h; simpa using h
      subst this
      obtain ⟨y, e', hl', hy⟩ := (W.try_copy_into_slice_ok t data).1 (fun i hi => by
        rw [ht] at hi; rw [hl]; exact wbit_lt hi)
      rw [e', show y = x from wbit_ext (by omega) fun i => by rw [hy, ht]]
    · rw [h2 hb] at h; simp at h

open scoped Ex in
example := (C24_export_import Ex.hL Ex.fitL Ex.safe_rAC).1 4 #v[1, 0, 4, 0] rfl
open scoped Ex in
example := (C24_export_import Ex.hL Ex.fitL Ex.safe_rAC).2.1 [7, 7, 7, 7] [1, 0, 4, 0] rfl
open scoped Ex in
example := (C24_export_import Ex.hL Ex.fitL Ex.safe_rAC).2.2 [1, 0, 4] rfl
open scoped Ex in
example := (C24_import_export Ex.hL Ex.fitL (s := Ex.rAC)).1 4 #v[1, 0, 4, 0] rfl
open scoped Ex in
example := (C24_import_export Ex.hL Ex.fitL (s := Ex.rAC)).2 [1, 0, 4, 0] [9, 9, 9, 9] rfl rfl

/-! ## C25 repr conversions -/

/-- `#[enumset(repr = "u8")]` … `"u128"` (`name`, of width `w`): the repr type is the integer of `w`
bits (`cast` only tells Lean so), and the conversions are those of C18 and C19 without the size
check. -/
theorem C25_repr [Platform] {inp : DeriveInput} {T : EnumSetType} (hT : derive inp = .ok T)
    (hfit : Fits T) {name : String} {w : Nat} (hr : inp.attrs.repr = some name)
    (hw : intWidth name = some w) :
    ∃ (pal : Nat) (h : T.Repr = Prim w pal), T.withRepr = true ∧
      (∀ (s : EnumSet T) (A : T.Val → Bool), Safe s → Members s A →
        (∀ i, (cast h s.as_repr).v.getLsbD i = true ↔ DiscrIn A i) ∧
        EnumSet.try_from_repr s.as_repr = .ok (some s)) ∧
      (∀ x : BitVec w, let r : T.Repr := cast h.symm ⟨x⟩
        (OnlyVariants T x.getLsbD → ∃ s : EnumSet T, EnumSet.try_from_repr r = .ok (some s) ∧
          EnumSet.from_repr r = .ok s ∧ EnumSet.from_repr_unchecked r = s ∧ s.as_repr = r ∧
          Members s fun v => x.getLsbD (T.discr v)) ∧
        (¬ OnlyVariants T x.getLsbD → EnumSet.try_from_repr (T := T) r = .ok none ∧
          EnumSet.from_repr (T := T) r = .panic (.expect "Bitset contains invalid variants.")) ∧
        (∃ s : EnumSet T, EnumSet.from_repr_truncated r = .ok s ∧
          Members s fun v => x.getLsbD (T.discr v))) := by
  obtain ⟨W⟩ := wf_of_derive hT hfit
  obtain ⟨info, hok, hs, he, -⟩ := derive_storage hT
  have hst : storageOf inp = .int w := by unfold storageOf; rw [hr]; simp only [hw]
  have hwr : T.withRepr = true := by
    have : T.withRepr = info.explicit_internal_repr.isSome := by cases hs <;> rfl
    rw [this, hok.expl, hr]
    have := internalOf_width name
    rw [hw] at this
    cases ho : internalOf name with
    | none => rw [ho] at this; simp at this
    | some r => simp [ho]
  cases hs with
  | array size hr all discr hd hl =>
    rw [he, hr] at hst
    cases hst
  | prim w' pal lit hr discr hd hl =>
    rw [he, primOf_storage hr] at hst
    injection hst with hst
    subst hst
    have hbit : ∀ (r : (genPrim w' pal info.variants.length discr discr lit
        (info.max_discrim + 1) info).Repr) i, W.lawful.bit r i = BitVec.getLsbD (Prim.v r) i :=
      fun r i => bit_unique W.lawful (lawfulPrim (primOf_ok hr).1) r i
    refine ⟨pal, rfl, hwr, ?_, ?_⟩
    · intro s A hs hA
      refine ⟨?_, ?_⟩
      · intro i
        rw [← W.discrIn hs hA]
        exact Bool.eq_iff_iff.mp (hbit s.priv_repr i).symm
      · exact (W.try_from_repr_ok s.priv_repr).1 (W.clean_of_safe hs)
    · intro x
      have hx : W.lawful.bit (⟨x⟩ : Prim w' pal) = x.getLsbD := funext fun i => hbit ⟨x⟩ i
      obtain ⟨h1, h2⟩ := W.try_from_repr_ok (⟨x⟩ : Prim w' pal)
      rw [hx] at h1 h2
      refine ⟨?_, ?_, ?_⟩
      · intro h
        refine ⟨⟨(⟨x⟩ : Prim w' pal)⟩, h1 h, ?_, rfl, rfl, W.members_of_bits fun v => ?_⟩
        · unfold EnumSet.from_repr
          exact (congrArg (· >>= _) (h1 h)).trans rfl
        · exact congrFun hx _
      · intro h
        refine ⟨h2 h, ?_⟩
        unfold EnumSet.from_repr
        exact (congrArg (· >>= _) (h2 h)).trans rfl
      · have := W.trunc_members (W.from_repr_truncated_ok (⟨x⟩ : Prim w' pal))
        rw [hx] at this
        exact this

/-- The repr conversions exist exactly for the enums with an explicit integer representation. -/
theorem C25_exists [Platform] {inp : DeriveInput} {T : EnumSetType} (hT : derive inp = .ok T) :
    T.withRepr = true ↔ ∃ name w, inp.attrs.repr = some name ∧ intWidth name = some w := by
  obtain ⟨info, hok, hs, he, -⟩ := derive_storage hT
  have : T.withRepr = info.explicit_internal_repr.isSome := by cases hs <;> rfl
  rw [this, hok.expl]
  cases hr : inp.attrs.repr with
  | none => simp
  | some s =>
    have hi := internalOf_width s
    cases ho : internalOf s with
    | none =>
      rw [ho] at hi
      simp only [Option.bind_some, ho]
      constructor
      · intro h; cases h
      · rintro ⟨name, w, h1, h2⟩
        injection h1 with h1
        subst h1
        rw [h2] at hi
        simp at hi
    | some r =>
      rw [ho] at hi
      simp only [Option.bind_some, ho]
      exact ⟨fun _ => ⟨s, _, rfl, by rw [← hi]; rfl⟩, fun _ => rfl⟩

namespace Ex

/-- `#[enumset(repr = "u32")] enum { A = 3, B = 17 }` -/
def inpR : DeriveInput :=
  { attrs := { repr := some "u32" }
    variants := [{ ident := "A", discriminant := some (.lit 3) },
      { ident := "B", discriminant := some (.lit 17) }] }

def R : EnumSetType := okOf (derive inpR) ⟨_, rfl⟩
theorem hR : derive inpR = .ok R := okOf_eq _ _
theorem fitR : Fits R := by unfold Fits; decide

end Ex

open scoped Ex in
example := C25_repr Ex.hR Ex.fitR (name := "u32") (w := 32) rfl rfl
open scoped Ex in
example := C25_exists Ex.hR

/-! ## C26 Unchecked constructors -/

/-- The safety condition ("all bits set are discriminants") makes the unchecked constructors equal
to the checked ones, which then do not panic. -/
theorem C26_unchecked [Platform] {inp : DeriveInput} {T : EnumSetType} (hT : derive inp = .ok T)
    (hfit : Fits T) :
    (∀ (n : NumTy) (x : BitVec n.bits), OnlyVariants T x.getLsbD →
      ∃ s : EnumSet T, EnumSet.from_num n x = .ok s ∧ EnumSet.from_num_unchecked n x = .ok s) ∧
    (∀ (O : Nat) (x : Vector U64 O), OnlyVariants T (wbit x.toList) →
      ∃ s : EnumSet T, EnumSet.from_array O x = .ok s ∧ EnumSet.from_array_unchecked O x = .ok s) ∧
    (∀ x : List U64, OnlyVariants T (wbit x) →
      ∃ s : EnumSet T, EnumSet.from_slice x = .ok s ∧ EnumSet.from_slice_unchecked x = .ok s) ∧
    (∀ (r : T.Repr) (s : EnumSet T), EnumSet.try_from_repr r = .ok (some s) →
      EnumSet.from_repr r = .ok s ∧ EnumSet.from_repr_unchecked r = s) := by
  obtain ⟨W⟩ := wf_of_derive hT hfit
  have key : ∀ {p : Nat → Bool} {s t : EnumSet T}, OnlyVariants T p → (∀ i, W.bit s i = p i) →
      (∀ i, W.bit t i = (decide (i < EnumSetTypeRepr.WIDTH T.Repr) && p i)) → t = s := by
    intro p s t hp hs ht
    apply W.ext
    intro i
    rw [hs, ht]
    cases hpi : p i with
    | false => simp
    | true =>
      obtain ⟨v, rfl⟩ := hp i hpi
      simp [W.discr_lt_width v]
  refine ⟨?_, ?_, ?_, ?_⟩
  · intro n x h
    obtain ⟨s, e, hs⟩ := (W.try_from_num_ok n x).1 h
    obtain ⟨t, e', ht⟩ := W.from_num_unchecked_ok n x
    exact ⟨s, by unfold EnumSet.from_num; rw [e]; rfl, by rw [e', key h hs ht]⟩
  · intro O x h
    obtain ⟨s, e, hs⟩ := (W.try_from_array_ok O x).1 h
    obtain ⟨t, e', ht⟩ := W.from_array_unchecked_ok O x
    exact ⟨s, by unfold EnumSet.from_array; rw [e]; rfl, by rw [e', key h hs ht]⟩
  · intro x h
    obtain ⟨s, e, hs⟩ := (W.try_from_slice_ok x).1 h
    obtain ⟨t, e', ht⟩ := W.from_slice_unchecked_ok x
    exact ⟨s, by unfold EnumSet.from_slice; rw [e]; rfl, by rw [e', key h hs ht]⟩
  · intro r s h
    refine ⟨by unfold EnumSet.from_repr; rw [h]; rfl, ?_⟩
    obtain ⟨h1, h2⟩ := W.try_from_repr_ok r
    by_cases hb : OnlyVariants T (W.lawful.bit r)
    · rw [h1 hb] at h
      have : (⟨r⟩ : EnumSet T) = s := by simpa using h
      exact this
    · rw [h2 hb] at h; simp at h

open scoped Ex in
example := (C26_unchecked Ex.hT Ex.fitT).1 .u8 0b11000#8 (by
  intro i hi
  have : i < 8 := BitVec.lt_of_getLsbD hi
  revert hi; revert i
  decide)
open scoped Ex in
example := (C26_unchecked Ex.hT Ex.fitT).2.2.2 (⟨0b10001#8⟩ : Prim 8 1) Ex.sAC rfl

/-! ## C27 Bit layout -/

theorem twoPow_of_bits {w d : Nat} {x : BitVec w}
    (h : ∀ i, x.getLsbD i = true ↔ i < w ∧ i = d) : x.toNat = if d < w then 2 ^ d else 0 := by
  have : x = BitVec.twoPow w d := by
    apply BitVec.eq_of_getLsbD_eq
    intro i hi
    rw [Bool.eq_iff_iff, h, BitVec.getLsbD_twoPow, Bool.and_eq_true, decide_eq_true_iff,
      decide_eq_true_iff]
    constructor
    · rintro ⟨h1, rfl⟩; exact ⟨h1, rfl⟩
    · rintro ⟨h1, h2⟩; exact ⟨hi, h2.symm⟩
  rw [this, BitVec.toNat_twoPow]
  split
  · next h => exact Nat.mod_eq_of_lt (Nat.pow_lt_pow_right (by omega) h)
  · next h =>
    obtain ⟨k, rfl⟩ := Nat.exists_eq_add_of_le (Nat.le_of_not_lt h)
    rw [Nat.pow_add, Nat.mul_mod_right]

/-- The set with the single element `v` of discriminant `d` is exported to integers as `1 << d`, and
to arrays and vectors as `1 << (d % 64)` in word `d / 64` and zero elsewhere. -/
theorem C27_layout [Platform] {inp : DeriveInput} {T : EnumSetType} (hT : derive inp = .ok T)
    (hfit : Fits T) (v : T.Val) :
    ∃ s : EnumSet T, EnumSet.only v = .ok s ∧
      (∀ n : NumTy, ∃ x, s.as_num_truncated n = .ok x ∧
        x.toNat = if T.discr v < n.bits then 2 ^ T.discr v else 0) ∧
      (∀ O : Nat, ∃ x : Vector U64 O, s.as_array_truncated O = .ok x ∧ ∀ (k : Nat) (hk : k < O),
        x[k].toNat = if k = T.discr v / 64 then 2 ^ (T.discr v % 64) else 0) ∧
      (∃ x, s.to_vec = .ok x ∧ ∀ (k : Nat) (hk : k < x.length),
        x[k].toNat = if k = T.discr v / 64 then 2 ^ (T.discr v % 64) else 0) := by
  obtain ⟨W⟩ := wf_of_derive hT hfit
  obtain ⟨s, e, hs⟩ := W.only_set_ok v
  have safe : Safe s := .only e
  have hw : ∀ (k : Nat) (y : U64), (∀ j, j < 64 → (y.getLsbD j = true ↔ 64 * k + j = T.discr v)) →
      y.toNat = if k = T.discr v / 64 then 2 ^ (T.discr v % 64) else 0 := by
    intro k y hy
    split
    · next hk =>
      rw [twoPow_of_bits (d := T.discr v % 64), if_pos (Nat.mod_lt _ (by omega))]
      intro i
      constructor
      · intro h
        have := BitVec.lt_of_getLsbD h
        exact ⟨this, by have := (hy i this).mp h; omega⟩
      · rintro ⟨h1, h2⟩
        exact (hy i h1).mpr (by omega)
    · next hk =>
      have : y = 0#64 := BitVec.eq_of_getLsbD_eq fun j hj => by
        rw [BitVec.getLsbD_zero]
        cases hb : y.getLsbD j with
        | false => rfl
        | true => have := (hy j hj).mp hb; omega
      rw [this]; rfl
  have hbit : ∀ i, W.bit s i = true ↔ i = T.discr v := by
    intro i; rw [hs, decide_eq_true_iff]
  refine ⟨s, e, ?_, ?_, ?_⟩
  · intro n
    obtain ⟨x, e', hx⟩ := W.as_num_truncated_ok n s
    refine ⟨x, e', twoPow_of_bits fun i => ?_⟩
    rw [hx, Bool.and_eq_true, decide_eq_true_iff, hbit]
  · intro O
    obtain ⟨x, e', hx⟩ := W.as_array_truncated_ok O s
    refine ⟨x, e', fun k hk => hw k _ fun j hj => ?_⟩
    have := wbit_word (ws := x.toList) (k := k) hj (by simpa using hk)
    rw [Vector.getElem_toList] at this
    rw [← this, hx, Bool.and_eq_true, decide_eq_true_iff, hbit]
    constructor
    · exact fun h => h.2
    · exact fun h => ⟨by omega, h⟩
  · obtain ⟨x, e', hl, hx⟩ := W.to_vec_ok s
    refine ⟨x, e', fun k hk => hw k _ fun j hj => ?_⟩
    rw [← wbit_word hj hk, hx, hbit]

open scoped Ex in
example := C27_layout Ex.hL Ex.fitL Ex.lC

end Enumset
