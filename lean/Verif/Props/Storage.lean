import Verif.Props.Iter
import Verif.SpecStorage
/-!
# Property C61: the storage types fulfil the contract of `EnumSetTypeRepr`
-/
set_option autoImplicit false

namespace Enumset

open EnumSetTypeRepr (WIDTH)

namespace LawfulRepr

variable [Platform] {R : Type} [EnumSetTypeRepr R] (L : LawfulRepr R)

/-- `it` has exactly the positions `l` left, in this order. -/
def Rep (it : EnumSetTypeRepr.Iter R) (l : List Nat) : Prop :=
  L.Inv it ∧ l.Pairwise (· < ·) ∧ ∀ i, L.ibit it i = true ↔ i ∈ l

variable {L}

theorem Rep.eq_filter {it : EnumSetTypeRepr.Iter R} {l : List Nat} (h : L.Rep it l) :
    l = positions (WIDTH R) (L.ibit it) := by
  apply sorted_ext h.2.1 (List.Pairwise.filter _ List.pairwise_lt_range)
  intro i
  rw [← h.2.2 i, List.mem_filter, List.mem_range]
  exact ⟨fun hi => ⟨L.ibit_lt hi, hi⟩, fun hi => hi.2⟩

theorem Rep.next {it : EnumSetTypeRepr.Iter R} {l : List Nat} (h : L.Rep it l) :
    ∃ it', EnumSetTypeRepr.iter_next (R := R) it = .ok (l.head?, it') ∧ L.Rep it' l.tail := by
  obtain ⟨o, it', e, hI, ⟨rfl, h1, h2⟩ | ⟨b, rfl, hb, h1, h2⟩⟩ := L.next_ok it h.1
  · cases l with
    | nil => exact ⟨it', e, hI, h.2.1, fun i => by rw [h2 i]; simp⟩
    | cons a l =>
      have := (h.2.2 a).mpr (by simp)
      rw [h1 a] at this
      cases this
  · cases l with
    | nil => exact absurd ((h.2.2 b).mp hb) (by simp)
    | cons a l =>
      have hs := List.pairwise_cons.mp h.2.1
      have hab : a = b := by
        rcases List.mem_cons.mp ((h.2.2 b).mp hb) with e | e
        · exact e.symm
        · have := hs.1 b e
          have h3 := h1 a this
          rw [(h.2.2 a).mpr (by simp)] at h3
          cases h3
      subst hab
      refine ⟨it', e, hI, hs.2, fun i => ?_⟩
      rw [h2 i, Bool.and_eq_true, h.2.2 i]
      simp only [Bool.not_eq_true', decide_eq_false_iff_not, List.mem_cons, List.tail_cons]
      constructor
      · rintro ⟨rfl | hi, hne⟩
        · exact absurd rfl hne
        · exact hi
      · intro hi
        have := hs.1 i hi
        exact ⟨.inr hi, by omega⟩

theorem Rep.next_back {it : EnumSetTypeRepr.Iter R} {l : List Nat} (h : L.Rep it l) :
    ∃ it', EnumSetTypeRepr.iter_next_back (R := R) it = .ok (l.getLast?, it') ∧
      L.Rep it' l.dropLast := by
  obtain ⟨o, it', e, hI, ⟨rfl, h1, h2⟩ | ⟨b, rfl, hb, h1, h2⟩⟩ := L.next_back_ok it h.1
  · cases l with
    | nil => exact ⟨it', e, hI, h.2.1, fun i => by rw [h2 i]; simp⟩
    | cons a l =>
      have := (h.2.2 a).mpr (by simp)
      rw [h1 a] at this
      cases this
  · rcases snoc_cases l with rfl | ⟨l, a, rfl⟩
    · exact absurd ((h.2.2 b).mp hb) (by simp)
    · have hs := List.pairwise_append.mp h.2.1
      have hab : a = b := by
        rcases List.mem_append.mp ((h.2.2 b).mp hb) with e | e
        · have := hs.2.2 b e a (by simp)
          have h3 := h1 a this
          rw [(h.2.2 a).mpr (by simp)] at h3
          cases h3
        · exact (List.mem_singleton.mp e).symm
      subst hab
      refine ⟨it', by rw [List.getLast?_concat]; exact e, hI, ?_, fun i => ?_⟩
      · rw [List.dropLast_concat]; exact hs.1
      · rw [h2 i, Bool.and_eq_true, h.2.2 i, List.dropLast_concat]
        simp only [Bool.not_eq_true', decide_eq_false_iff_not, List.mem_append, List.mem_singleton]
        constructor
        · rintro ⟨hi | rfl, hne⟩
          · exact hi
          · exact absurd rfl hne
        · intro hi
          have := hs.2.2 i hi a (by simp)
          exact ⟨.inl hi, by omega⟩

theorem Rep.size_hint {it : EnumSetTypeRepr.Iter R} {l : List Nat} (h : L.Rep it l)
    (hw : WIDTH R < 2 ^ usizeBits) :
    EnumSetTypeRepr.iter_size_hint (R := R) it = .ok (l.length, some l.length) := by
  have hl : (List.range (WIDTH R)).countP (L.ibit it) = l.length := by
    rw [List.countP_eq_length_filter]
    exact congrArg List.length h.eq_filter.symm
  rw [L.size_hint_ok it h.1, hl]
  refine Nat.lt_of_le_of_lt (List.countP_le_length) ?_
  rw [List.length_range]
  exact hw

theorem Rep.run (hw : WIDTH R < 2 ^ usizeBits) (ops : List IterOp) :
    ∀ {it : EnumSetTypeRepr.Iter R} {l : List Nat}, L.Rep it l →
      ∃ it', runReprIter (R := R) ops it = .ok ((runDeque ops l).1, it') := by
  induction ops with
  | nil => intro it l _; exact ⟨it, rfl⟩
  | cons op ops ih =>
    intro it l h
    cases op with
    | next =>
      obtain ⟨it1, e1, h1⟩ := h.next
      obtain ⟨it2, e2⟩ := ih h1
      exact ⟨it2, by simp only [runReprIter, e1, Res.ok_bind, e2, runDeque]; rfl⟩
    | nextBack =>
      obtain ⟨it1, e1, h1⟩ := h.next_back
      obtain ⟨it2, e2⟩ := ih h1
      exact ⟨it2, by simp only [runReprIter, e1, Res.ok_bind, e2, runDeque]; rfl⟩
    | sizeHint =>
      obtain ⟨it2, e2⟩ := ih h
      exact ⟨it2, by simp only [runReprIter, h.size_hint hw, Res.ok_bind, e2, runDeque]; rfl⟩

theorem contract (hw : WIDTH R < 2 ^ usizeBits)
    (hp : 64 * EnumSetTypeRepr.PREFERRED_ARRAY_LEN R < WIDTH R + 64) :
    StorageContract R (WIDTH R) L.bit where
  width_eq := rfl
  below := L.bit_lt
  ext := L.ext
  words := ⟨L.width_le, hp⟩
  empty := L.bit_empty
  eq {a b} := by
    rw [L.eq_iff]
    exact ⟨fun h i => by rw [h], L.ext⟩
  hash {a b} := ⟨fun h i => by rw [L.hash_inj h], fun h => by rw [L.ext h]⟩
  bitand := L.bitand_ok
  bitor := L.bitor_ok
  bitxor a b := by
    obtain ⟨r, e, h⟩ := L.bitxor_ok a b
    exact ⟨r, e, fun i => by rw [h i]⟩
  not := L.not_ok
  and_not := L.and_not_ok
  is_empty a := by
    obtain ⟨b, e, h⟩ := L.is_empty_ok a
    rw [e]
    congr 1
    rw [Bool.eq_iff_iff, h, List.isEmpty_iff, positions, List.filter_eq_nil_iff]
    constructor
    · intro h i _
      rw [h i]
      decide
    · intro h i
      refine Bool.eq_false_iff.mpr fun hi => ?_
      exact h i (List.mem_range.mpr (L.bit_lt hi)) hi
  add_bit a b hb := L.add_bit_ok a b hb (by omega)
  remove_bit a b hb := L.remove_bit_ok a b hb (by omega)
  has_bit a b hb := L.has_bit_ok a b hb (by omega)
  count_ones a := by rw [L.count_ones_ok a, List.countP_eq_length_filter]; rfl
  trailing_zeros a := by
    obtain ⟨t, e, h1, h2, h3⟩ := L.trailing_zeros_ok a
    rw [e]
    congr 1
    cases hf : (positions (WIDTH R) (L.bit a)).head? with
    | none =>
      rw [List.head?_eq_none_iff, positions, List.filter_eq_nil_iff] at hf
      refine Decidable.byContradiction fun hne => ?_
      have ht : t < WIDTH R := by simp only [Option.getD_none] at hne; omega
      exact hf t (List.mem_range.mpr ht) (h3 ht)
    | some b =>
      have hb : b ∈ positions (WIDTH R) (L.bit a) := List.mem_of_mem_head? hf
      have hb' := List.mem_filter.mp hb
      rw [List.mem_range] at hb'
      have ht : t ≤ b := Decidable.byContradiction fun hne => by
        have := h2 b (by omega)
        rw [hb'.2] at this
        cases this
      have hs : (positions (WIDTH R) (L.bit a)).Pairwise (· < ·) :=
        List.Pairwise.filter _ List.pairwise_lt_range
      have hmem : t ∈ positions (WIDTH R) (L.bit a) :=
        List.mem_filter.mpr ⟨List.mem_range.mpr (by omega), h3 (by omega)⟩
      cases hl : positions (WIDTH R) (L.bit a) with
      | nil => rw [hl] at hmem; cases hmem
      | cons c l =>
        rw [hl] at hf hs hmem
        simp only [List.head?_cons, Option.some.injEq] at hf
        subst hf
        rcases List.mem_cons.mp hmem with e | e
        · exact e
        · have := (List.pairwise_cons.mp hs).1 t e
          omega
  leading_zeros a := by
    obtain ⟨t, e, h1, h2, h3⟩ := L.leading_zeros_ok a
    rw [e]
    congr 1
    have hs : (positions (WIDTH R) (L.bit a)).Pairwise (· < ·) :=
      List.Pairwise.filter _ List.pairwise_lt_range
    have hmem : ∀ i, i ∈ positions (WIDTH R) (L.bit a) ↔ i < WIDTH R ∧ L.bit a i = true := by
      intro i; rw [positions, List.mem_filter, List.mem_range]
    rcases snoc_cases (positions (WIDTH R) (L.bit a)) with hl | ⟨l, c, hl⟩
    · rw [hl] at hmem ⊢
      refine Decidable.byContradiction fun hne => ?_
      have ht : t < WIDTH R := by simp at hne; omega
      exact absurd ((hmem _).mpr ⟨by omega, h3 ht⟩) (by simp)
    · rw [hl] at hmem hs ⊢
      have hc := (hmem c).mp (by simp)
      have ht : c < WIDTH R - t := Decidable.byContradiction fun hne => by
        have := h2 c (by omega)
        rw [hc.2] at this
        cases this
      have hm := (hmem (WIDTH R - 1 - t)).mpr ⟨by omega, h3 (by omega)⟩
      simp only [List.getLast?_concat, Option.map_some, Option.getD_some]
      rcases List.mem_append.mp hm with e | e
      · have := (List.pairwise_append.mp hs).2.2 _ e c (by simp)
        omega
      · have := List.mem_singleton.mp e
        omega
  iter a ops := by
    obtain ⟨it, e, hI, h⟩ := L.iter_ok a
    have hr : L.Rep it (positions (WIDTH R) (L.bit a)) := by
      refine ⟨hI, List.Pairwise.filter _ List.pairwise_lt_range, fun i => ?_⟩
      rw [h i, positions, List.mem_filter, List.mem_range]
      exact ⟨fun hi => ⟨L.bit_lt hi, hi⟩, fun hi => hi.2⟩
    obtain ⟨it', e'⟩ := Rep.run hw ops hr
    exact ⟨it, it', e, e'⟩
  from_num := L.from_num_ok
  from_num_opt := L.from_num_opt_ok
  to_num := L.to_num_ok
  to_num_opt := L.to_num_opt_ok
  to_array := L.to_array_ok
  to_array_opt := L.to_array_opt_ok
  from_array := L.from_array_ok
  from_array_opt := L.from_array_opt_ok
  to_slice := L.to_slice_ok
  to_slice_opt := L.to_slice_opt_ok
  from_slice := L.from_slice_ok
  from_slice_opt := L.from_slice_opt_ok

end LawfulRepr

/-- `u8`, `u16`, `u32`, `u64` and `u128` as storage: every value is the set of its one bits. -/
theorem C61_int [Platform] {w pal : Nat} (hw : Prim.Instantiated w pal) :
    StorageContract (Prim w pal) w fun r => r.v.getLsbD := by
  have h16 : 2 ^ 16 ≤ 2 ^ usizeBits := by
    rcases Target.usize_ok with h | h | h <;> unfold usizeBits <;> rw [h] <;> decide
  have h := LawfulRepr.contract (L := lawfulPrim (show prim.Ok w pal by
      unfold Prim.Instantiated at hw; unfold prim.Ok; omega))
    (show w < _ by unfold Prim.Instantiated at hw; omega)
    (show 64 * pal < w + 64 by unfold Prim.Instantiated at hw; omega)
  exact h

/-- `ArrayRepr<N>` as storage, for every `N` that does not overflow the `u32` and `usize` used for bit
positions: every value is the set of the one bits of its words. -/
theorem C61_array [Platform] {N : Nat} (h0 : 0 < N) (hN : 64 * N < 2 ^ 32)
    (hu : 64 * N < 2 ^ usizeBits) :
    StorageContract (ArrayRepr N) (64 * N) fun r => wbit r.a.toList := by
  have hW : @WIDTH ‹Platform› (ArrayRepr N) _ = 64 * N := ArrayRepr.WIDTH_eq hN
  have h := LawfulRepr.contract (L := lawfulArray h0 hN (by omega)) (by rw [hW]; exact hu)
    (by rw [hW]; exact (by omega : 64 * N < 64 * N + 64))
  rw [hW] at h
  exact h

example [Platform] : StorageContract (Prim 128 2) 128 fun r => r.v.getLsbD :=
  C61_int (by unfold Prim.Instantiated; omega)
open scoped Ex in
example : StorageContract (ArrayRepr 3) 192 fun r => wbit r.a.toList :=
  C61_array (by omega) (by omega) (by decide)
open scoped Ex in
/-- bits 2, 64 and 191; `next`, `next_back`, `next_back`, `next` -/
example : (do
    let it ← EnumSetTypeRepr.iter (ArrayRepr.mk #v[4#64, 1#64, 0x8000000000000000#64])
    let (obs, _) ← runReprIter (R := ArrayRepr 3) [.next, .nextBack, .sizeHint, .nextBack, .next] it
    pure obs) = .ok [.item (some 2), .item (some 191), .size 1 (some 1), .item (some 64), .item none] :=
  rfl

end Enumset
