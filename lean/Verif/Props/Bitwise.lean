import Verif.Props.Conv
import Verif.Props.Basic
/-!
# Property C57: operating on exported integers and words is operating on sets
-/
set_option autoImplicit false

namespace Enumset

section helpers

variable [Platform] {T : EnumSetType} (W : WF T)

theorem WF.num_bits {n : NumTy} {s : EnumSet T} {x : BitVec n.bits}
    (e : s.as_num_truncated n = .ok x) {i : Nat} (hi : i < n.bits) : x.getLsbD i = W.bit s i := by
  obtain ⟨x', e', hx⟩ := W.as_num_truncated_ok n s
  rw [e] at e'
  injection e' with e'
  rw [e', hx]
  simp [hi]

theorem WF.num_set {n : NumTy} {s : EnumSet T} {x : BitVec n.bits}
    (h : ∀ i, i < n.bits → x.getLsbD i = W.bit s i) : s.as_num_truncated n = .ok x := by
  obtain ⟨x', e', hx⟩ := W.as_num_truncated_ok n s
  rw [e']
  congr 1
  refine BitVec.eq_of_getLsbD_eq fun i hi => ?_
  rw [hx, h i hi]
  simp [hi]

end helpers

/-- The truncated integer of a union, intersection, difference, symmetric difference or complement is
the same operation on the truncated integers; `m` is the integer of `all()`. -/
theorem C57_operations [Platform] {inp : DeriveInput} {T : EnumSetType} (hT : derive inp = .ok T)
    (hfit : Fits T) (n : NumTy) {a b : EnumSet T} {x y m : BitVec n.bits}
    (hx : a.as_num_truncated n = .ok x) (hy : b.as_num_truncated n = .ok y)
    (hm : (EnumSet.all : EnumSet T).as_num_truncated n = .ok m) :
    (do let s ← a.union b; s.as_num_truncated n) = .ok (x ||| y) ∧
    (do let s ← a.intersection b; s.as_num_truncated n) = .ok (x &&& y) ∧
    (do let s ← a.difference b; s.as_num_truncated n) = .ok (x &&& ~~~ y) ∧
    (do let s ← a.symmetrical_difference b; s.as_num_truncated n) = .ok (x ^^^ y) ∧
    (do let s ← a.complement; s.as_num_truncated n) = .ok (~~~ x &&& m) := by
  obtain ⟨W⟩ := wf_of_derive hT hfit
  obtain ⟨s1, e1, h1⟩ := W.union_set_ok a b
  obtain ⟨s2, e2, h2⟩ := W.intersection_ok a b
  obtain ⟨s3, e3, h3⟩ := W.difference_ok a b
  obtain ⟨s4, e4, h4⟩ := W.symmetrical_difference_ok a b
  obtain ⟨s5, e5, h5⟩ := W.complement_ok a
  rw [e1, e2, e3, e4, e5]
  refine ⟨W.num_set fun i hi => ?_, W.num_set fun i hi => ?_, W.num_set fun i hi => ?_,
    W.num_set fun i hi => ?_, W.num_set fun i hi => ?_⟩
  · rw [h1, BitVec.getLsbD_or, W.num_bits hx hi, W.num_bits hy hi]
  · rw [h2, BitVec.getLsbD_and, W.num_bits hx hi, W.num_bits hy hi]
  · rw [h3, BitVec.getLsbD_and, BitVec.getLsbD_not, W.num_bits hx hi, W.num_bits hy hi]
    simp [hi]
  · rw [h4, BitVec.getLsbD_xor, W.num_bits hx hi, W.num_bits hy hi]
  · rw [h5, BitVec.getLsbD_and, BitVec.getLsbD_not, W.num_bits hx hi, W.num_bits hm hi]
    simp only [hi, decide_true, Bool.true_and]
    rfl

open scoped Ex in
/-- `{A, C} ^ {B} = {A, B, C}`; `~{A, C} = {B}` -/
example := C57_operations Ex.hT Ex.fitT .u8 (a := Ex.sAC) (b := Ex.sB) (m := 0b11001#8)
  (x := 0b10001#8) (y := 0b1000#8) rfl rfl rfl
open scoped Ex in
/-- truncated: `B` and `C` are beyond 64 bits -/
example := C57_operations Ex.hL Ex.fitL .u64 (a := Ex.rAC) (b := Ex.rAC) (m := 1#64)
  (x := 1#64) (y := 1#64) rfl rfl rfl

/-- A variant whose discriminant `d` fits is bit `d`: `contains` tests it, `insert` sets it (`1 << d`),
`remove` clears it, and a single variant is the integer `1 << d`.  A variant that does not fit has no
effect on the truncated integer. -/
theorem C57_elements [Platform] {inp : DeriveInput} {T : EnumSetType} (hT : derive inp = .ok T)
    (hfit : Fits T) (n : NumTy) {a : EnumSet T} {x : BitVec n.bits}
    (hx : a.as_num_truncated n = .ok x) (v : T.Val) :
    (T.discr v < n.bits → a.contains v = .ok (x.getLsbD (T.discr v))) ∧
    (do let (_, s) ← a.insert v; s.as_num_truncated n) = .ok (x ||| 1#n.bits <<< T.discr v) ∧
    (do let (_, s) ← a.remove v; s.as_num_truncated n) = .ok (x &&& ~~~ (1#n.bits <<< T.discr v)) ∧
    (do let s ← (EnumSet.only v : Res (EnumSet T)); s.as_num_truncated n) =
      .ok (1#n.bits <<< T.discr v) := by
  obtain ⟨W⟩ := wf_of_derive hT hfit
  obtain ⟨s1, e1, h1⟩ := W.insert_ok a v
  obtain ⟨s2, e2, h2⟩ := W.remove_ok a v
  obtain ⟨s3, e3, h3⟩ := W.only_set_ok v
  have one : ∀ i, i < n.bits →
      (1#n.bits <<< T.discr v).getLsbD i = decide (i = T.discr v) := by
    intro i hi
    rw [BitVec.getLsbD_shiftLeft]
    simp only [hi, decide_true, Bool.true_and, BitVec.getLsbD_one]
    by_cases h : i = T.discr v
    · subst h; simp; omega
    · by_cases h' : i < T.discr v
      · simp [h, h']
      · have : ¬ i - T.discr v = 0 := by omega
        simp [h, this]
  rw [e1, e2, e3]
  refine ⟨fun hv => ?_, W.num_set fun i hi => ?_, W.num_set fun i hi => ?_,
    W.num_set fun i hi => ?_⟩
  · rw [W.contains_ok, W.num_bits hx hv]; rfl
  · rw [h1, BitVec.getLsbD_or, W.num_bits hx hi, one i hi]
  · rw [h2, BitVec.getLsbD_and, BitVec.getLsbD_not, W.num_bits hx hi, one i hi]
    simp [hi]
  · rw [h3, one i hi]

open scoped Ex in
example := C57_elements Ex.hT Ex.fitT .u16 (a := Ex.sAC) (x := 0b10001#16) rfl

/-- If the type is wide enough for all variants, the comparisons, the emptiness test and the number of
elements of sets can be computed from the integers. -/
theorem C57_tests [Platform] {inp : DeriveInput} {T : EnumSetType} (hT : derive inp = .ok T)
    (hfit : Fits T) (n : NumTy) (hw : T.BIT_WIDTH ≤ n.bits) {a b : EnumSet T} (ha : Safe a)
    (hb : Safe b) {x y : BitVec n.bits} (hx : a.as_num n = .ok x) (hy : b.as_num n = .ok y) :
    (a.eq b = true ↔ x = y) ∧ a.is_subset b = .ok (x &&& ~~~ y == 0) ∧
    a.is_superset b = .ok (y &&& ~~~ x == 0) ∧ a.is_disjoint b = .ok (x &&& y == 0) ∧
    a.is_empty = .ok (x == 0) ∧ a.len = .ok (countOnes x) := by
  obtain ⟨W⟩ := wf_of_derive hT hfit
  have lt : ∀ {s : EnumSet T}, Safe s → ∀ {i}, W.bit s i = true → i < n.bits := by
    intro s hs i hi
    obtain ⟨v, rfl⟩ := W.clean_of_safe hs i hi
    exact Nat.lt_of_lt_of_le (W.discr_lt v) hw
  have bits : ∀ {s : EnumSet T} {z : BitVec n.bits}, Safe s → s.as_num n = .ok z →
      ∀ i, z.getLsbD i = W.bit s i := by
    intro s z hs e i
    obtain ⟨z', e', hz⟩ := (W.try_as_num_ok n s).1 fun i hi => lt hs hi
    unfold EnumSet.as_num at e
    rw [e'] at e
    injection e with e
    rw [← e, hz]
  have bx := bits ha hx
  have by' := bits hb hy
  have zero : ∀ {z : BitVec n.bits}, (z == 0) = true ↔ ∀ i, i < n.bits → z.getLsbD i = false := by
    intro z
    rw [beq_iff_eq]
    constructor
    · rintro rfl i _; simp
    · intro h
      exact BitVec.eq_of_getLsbD_eq fun i hi => by rw [h i hi]; simp
  have sub : ∀ {s t : EnumSet T} {z w : BitVec n.bits}, (∀ i, z.getLsbD i = W.bit s i) →
      (∀ i, w.getLsbD i = W.bit t i) → Safe s →
      ((z &&& ~~~ w == 0) = true ↔ ∀ i, W.bit s i = true → W.bit t i = true) := by
    intro s t z w hz hw hs
    rw [zero]
    constructor
    · intro h i hi
      have hl := lt hs hi
      have := h i hl
      rw [BitVec.getLsbD_and, BitVec.getLsbD_not, hz, hw, hi] at this
      simpa [hl] using this
    · intro h i hi
      rw [BitVec.getLsbD_and, BitVec.getLsbD_not, hz, hw]
      cases hb : W.bit s i with
      | false => rfl
      | true => rw [h i hb]; simp
  refine ⟨?_, ?_, ?_, ?_, ?_, ?_⟩
  · rw [W.eq_iff]
    constructor
    · rintro rfl
      exact BitVec.eq_of_getLsbD_eq fun i _ => by rw [bx, by']
    · rintro rfl
      exact W.ext fun i => by rw [← bx, by']
  · obtain ⟨r, e, hr⟩ := W.is_subset_ok a b
    rw [e]
    congr 1
    rw [Bool.eq_iff_iff, hr, sub bx by' ha]
  · obtain ⟨r, e, hr⟩ := W.is_superset_ok a b
    rw [e]
    congr 1
    rw [Bool.eq_iff_iff, hr, sub by' bx hb]
  · obtain ⟨r, e, hr⟩ := W.is_disjoint_ok a b
    rw [e]
    congr 1
    rw [Bool.eq_iff_iff, hr, zero]
    constructor
    · intro h i _
      rw [BitVec.getLsbD_and, bx, by']
      have := h i
      cases h1 : W.bit a i with
      | false => rfl
      | true =>
        cases h2 : W.bit b i with
        | false => rfl
        | true => exact (this ⟨h1, h2⟩).elim
    · rintro h i ⟨h1, h2⟩
      have := h i (lt ha h1)
      rw [BitVec.getLsbD_and, bx, by', h1, h2] at this
      cases this
  · obtain ⟨r, e, hr⟩ := W.is_empty_ok a
    rw [e]
    congr 1
    rw [Bool.eq_iff_iff, hr, zero]
    constructor
    · intro h i _; rw [bx, h]
    · intro h i
      cases hb : W.bit a i with
      | false => rfl
      | true =>
        have := h i (lt ha hb)
        rw [bx, hb] at this
        cases this
  · rw [W.len_ok (W.clean_of_safe ha)]
    congr 1
    unfold countOnes
    rw [List.countP_eq_length_filter]
    have : (List.range n.bits).filter (fun i => x.getLsbD i) =
        (ascList T (W.mem a)).map T.discr := by
      apply sorted_ext (List.Pairwise.filter _ List.pairwise_lt_range) (W.ascList_asc _).map
      intro i
      rw [List.mem_filter, List.mem_range, List.mem_map, bx]
      constructor
      · rintro ⟨-, h⟩
        obtain ⟨v, rfl⟩ := W.clean_of_safe ha i h
        exact ⟨v, (W.mem_ascList _ v).mpr h, rfl⟩
      · rintro ⟨v, hv, rfl⟩
        have h := (W.mem_ascList _ v).mp hv
        exact ⟨lt ha h, h⟩
    rw [this, List.length_map]

open scoped Ex in
example := C57_tests Ex.hT Ex.fitT .u32 (by decide) Ex.safe_sAC Ex.safe_sB
  (x := 0b10001#32) (y := 0b1000#32) rfl rfl

/-- Reading an integer, ignoring unknown bits, turns operations on integers into operations on sets. -/
theorem C57_import [Platform] {inp : DeriveInput} {T : EnumSetType} (hT : derive inp = .ok T)
    (hfit : Fits T) (n : NumTy) (x y : BitVec n.bits) :
    ∃ a b : EnumSet T, EnumSet.from_num_truncated n x = .ok a ∧
      EnumSet.from_num_truncated n y = .ok b ∧
      EnumSet.from_num_truncated n (x ||| y) = a.union b ∧
      EnumSet.from_num_truncated n (x &&& y) = a.intersection b ∧
      EnumSet.from_num_truncated n (x &&& ~~~ y) = a.difference b ∧
      EnumSet.from_num_truncated n (x ^^^ y) = a.symmetrical_difference b ∧
      (T.BIT_WIDTH ≤ n.bits → EnumSet.from_num_truncated n (~~~ x) = a.complement) := by
  obtain ⟨W⟩ := wf_of_derive hT hfit
  obtain ⟨a, ea, ha⟩ := W.from_num_truncated_ok n x
  obtain ⟨b, eb, hb⟩ := W.from_num_truncated_ok n y
  have key : ∀ {z : BitVec n.bits} {s : EnumSet T} {r : Res (EnumSet T)}, r = .ok s →
      (∀ i, W.bit s i = (z.getLsbD i && W.bit EnumSet.ALL_REPR i)) →
      EnumSet.from_num_truncated n z = r := by
    intro z s r e h
    obtain ⟨s', e', h'⟩ := W.from_num_truncated_ok n z
    rw [e', e]
    congr 1
    exact W.ext fun i => by rw [h', h]
  obtain ⟨s1, e1, h1⟩ := W.union_set_ok a b
  obtain ⟨s2, e2, h2⟩ := W.intersection_ok a b
  obtain ⟨s3, e3, h3⟩ := W.difference_ok a b
  obtain ⟨s4, e4, h4⟩ := W.symmetrical_difference_ok a b
  obtain ⟨s5, e5, h5⟩ := W.complement_ok a
  have out : ∀ (z : BitVec n.bits) i, z.getLsbD i = true → i < n.bits := fun z i h =>
    Decidable.byContradiction fun h' => by
      rw [BitVec.getLsbD_of_ge _ _ (by omega)] at h; cases h
  refine ⟨a, b, ea, eb, key e1 fun i => ?_, key e2 fun i => ?_, key e3 fun i => ?_,
    key e4 fun i => ?_, fun hw => key e5 fun i => ?_⟩
  · rw [h1, ha, hb, BitVec.getLsbD_or]
    cases x.getLsbD i <;> cases y.getLsbD i <;> cases W.bit EnumSet.ALL_REPR i <;> rfl
  · rw [h2, ha, hb, BitVec.getLsbD_and]
    cases x.getLsbD i <;> cases y.getLsbD i <;> cases W.bit EnumSet.ALL_REPR i <;> rfl
  · rw [h3, ha, hb, BitVec.getLsbD_and, BitVec.getLsbD_not]
    cases hx : x.getLsbD i with
    | false => rfl
    | true =>
      simp only [out x i hx, decide_true]
      cases y.getLsbD i <;> cases W.bit EnumSet.ALL_REPR i <;> rfl
  · rw [h4, ha, hb, BitVec.getLsbD_xor]
    cases x.getLsbD i <;> cases y.getLsbD i <;> cases W.bit EnumSet.ALL_REPR i <;> rfl
  · rw [h5, ha, BitVec.getLsbD_not]
    cases hA : W.bit EnumSet.ALL_REPR i with
    | false => simp
    | true =>
      obtain ⟨v, rfl⟩ := (W.bit_all i).mp hA
      have := Nat.lt_of_lt_of_le (W.discr_lt v) hw
      simp [this]

open scoped Ex in
example := C57_import Ex.hT Ex.fitT .u8 0b111#8 0b10001#8

/-- Arrays of words: the operations act word by word. -/
theorem C57_words [Platform] {inp : DeriveInput} {T : EnumSetType} (hT : derive inp = .ok T)
    (hfit : Fits T) (O : Nat) {a b : EnumSet T} {x y m : Vector U64 O}
    (hx : a.as_array_truncated O = .ok x) (hy : b.as_array_truncated O = .ok y)
    (hm : (EnumSet.all : EnumSet T).as_array_truncated O = .ok m) :
    (do let s ← a.union b; s.as_array_truncated O) = .ok (x.zipWith (· ||| ·) y) ∧
    (do let s ← a.intersection b; s.as_array_truncated O) = .ok (x.zipWith (· &&& ·) y) ∧
    (do let s ← a.difference b; s.as_array_truncated O) = .ok (x.zipWith (fun p q => p &&& ~~~ q) y) ∧
    (do let s ← a.symmetrical_difference b; s.as_array_truncated O) =
      .ok (x.zipWith (· ^^^ ·) y) ∧
    (do let s ← a.complement; s.as_array_truncated O) =
      .ok (x.zipWith (fun p q => ~~~ p &&& q) m) := by
  obtain ⟨W⟩ := wf_of_derive hT hfit
  have get : ∀ {s : EnumSet T} {z : Vector U64 O}, s.as_array_truncated O = .ok z →
      ∀ (k : Nat) (hk : k < O) (j : Nat), j < 64 → z[k].getLsbD j = W.bit s (64 * k + j) := by
    intro s z e k hk j hj
    obtain ⟨z', e', hz⟩ := W.as_array_truncated_ok O s
    rw [e] at e'
    injection e' with e'
    subst e'
    have := wbit_word (ws := z.toList) (k := k) hj (by simpa using hk)
    rw [Vector.getElem_toList] at this
    rw [← this, hz]
    have : 64 * k + j < 64 * O := by omega
    simp [this]
  have key : ∀ {s : EnumSet T} {z : Vector U64 O},
      (∀ (k : Nat) (hk : k < O) (j : Nat), j < 64 → z[k].getLsbD j = W.bit s (64 * k + j)) →
      s.as_array_truncated O = .ok z := by
    intro s z h
    obtain ⟨z', e', hz⟩ := W.as_array_truncated_ok O s
    rw [e']
    congr 1
    refine Vector.ext fun k hk => BitVec.eq_of_getLsbD_eq fun j hj => ?_
    rw [get e' k hk j hj, h k hk j hj]
  obtain ⟨s1, e1, h1⟩ := W.union_set_ok a b
  obtain ⟨s2, e2, h2⟩ := W.intersection_ok a b
  obtain ⟨s3, e3, h3⟩ := W.difference_ok a b
  obtain ⟨s4, e4, h4⟩ := W.symmetrical_difference_ok a b
  obtain ⟨s5, e5, h5⟩ := W.complement_ok a
  rw [e1, e2, e3, e4, e5]
  refine ⟨key fun k hk j hj => ?_, key fun k hk j hj => ?_, key fun k hk j hj => ?_,
    key fun k hk j hj => ?_, key fun k hk j hj => ?_⟩
  · rw [Vector.getElem_zipWith, BitVec.getLsbD_or, get hx k hk j hj, get hy k hk j hj, h1]
  · rw [Vector.getElem_zipWith, BitVec.getLsbD_and, get hx k hk j hj, get hy k hk j hj, h2]
  · rw [Vector.getElem_zipWith, BitVec.getLsbD_and, BitVec.getLsbD_not, get hx k hk j hj,
      get hy k hk j hj, h3]
    simp [hj]
  · rw [Vector.getElem_zipWith, BitVec.getLsbD_xor, get hx k hk j hj, get hy k hk j hj, h4]
  · rw [Vector.getElem_zipWith, BitVec.getLsbD_and, BitVec.getLsbD_not, get hx k hk j hj,
      get hm k hk j hj, h5]
    simp only [hj, decide_true, Bool.true_and]
    rfl

open scoped Ex in
example := C57_words Ex.hL Ex.fitL 3 (a := Ex.rAC) (b := Ex.rB) (x := #v[1, 0, 4]) (y := #v[0, 1, 0])
  (m := #v[1, 1, 4]) rfl rfl rfl

end Enumset
