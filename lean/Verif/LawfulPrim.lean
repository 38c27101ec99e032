import Verif.Lawful
import Verif.Primitive
/-!
# The integer types are lawful representations
-/
set_option autoImplicit false

namespace Enumset

theorem getLsbD_castBV {a b : Nat} (v : BitVec a) (i : Nat) :
    (castBV b v).getLsbD i = (decide (i < b) && v.getLsbD i) := by
  simp [castBV, BitVec.getLsbD_setWidth]

theorem wbit_of_words {xs : List U64} {L : Nat} (F : Nat → U64) (b : Nat → Bool)
    (hl : xs.length = L) (hF : ∀ k, k < L → xs.getD k 0 = F k)
    (hb : ∀ i, (F (i / 64)).getLsbD (i % 64) = b i) (i : Nat) :
    wbit xs i = (decide (i < 64 * L) && b i) := by
  by_cases h : i < 64 * L
  · unfold wbit
    rw [hF (i / 64) (by omega), hb]
    simp [h]
  · rw [wbit_of_ge (by omega)]
    simp [h]

/-- The 128-bit value made of two words. -/
theorem getLsbD_two (v0 v1 : U64) (i : Nat) :
    (castBV 128 v0 ||| castBV 128 v1 <<< 64 : U128).getLsbD i =
      if i < 64 then v0.getLsbD i else v1.getLsbD (i - 64) := by
  rw [BitVec.getLsbD_or, BitVec.getLsbD_shiftLeft, getLsbD_castBV, getLsbD_castBV]
  by_cases h : i < 64
  · have : i < 128 := by omega
    simp [h, this]
  · have h0 : v0.getLsbD i = false := BitVec.getLsbD_of_ge _ _ (by omega)
    by_cases h2 : i < 128
    · have : i - 64 < 128 := by omega
      simp [h, h0, h2, this]
    · have h1 : v1.getLsbD (i - 64) = false := BitVec.getLsbD_of_ge _ _ (by omega)
      simp [h, h0, h1]

namespace prim

variable {w : Nat}

theorem getLsbD_lo (v : BitVec w) (i : Nat) :
    (lo v).getLsbD i = (decide (i < 64) && v.getLsbD i) := getLsbD_castBV v i

theorem getLsbD_hi (v : BitVec w) (_hw : w ≤ 128) (i : Nat) :
    (hi v).getLsbD i = (decide (i < 64) && v.getLsbD (64 + i)) := by
  unfold hi
  rw [getLsbD_castBV, BitVec.getLsbD_ushiftRight, getLsbD_castBV]
  by_cases h : i < 64
  · have : 64 + i < 128 := by omega
    simp [h, this]
  · simp [h]

theorem hi_zero (v : BitVec w) (hw : w ≤ 64) : hi v = 0 := by
  rw [eq_zero_iff_bits]
  intro i
  rw [getLsbD_hi v (by omega), BitVec.getLsbD_of_ge v _ (by omega)]
  simp

theorem hi_zero_iff (v : BitVec w) (hw : w ≤ 128) :
    hi v = 0 ↔ ∀ i, v.getLsbD i = true → i < 64 := by
  rw [eq_zero_iff_bits]
  constructor
  · intro h i hi'
    apply Classical.byContradiction
    intro hn
    have h1 := h (i - 64)
    have hlt := BitVec.lt_of_getLsbD hi'
    have e : 64 + (i - 64) = i := by omega
    have : i - 64 < 64 := by omega
    rw [getLsbD_hi v hw, e] at h1
    simp [this, hi'] at h1
  · intro h i
    rw [getLsbD_hi v hw]
    cases hv : v.getLsbD (64 + i) with
    | false => simp
    | true => have := h _ hv; omega

/-- Word `k` of an integer. -/
def word (pal : Nat) (v : BitVec w) (k : Nat) : U64 :=
  if k = 0 then lo v else if k = 1 ∧ pal = 2 then hi v else 0

/-- What `Prim.Instantiated` is used for. -/
def Ok (w pal : Nat) : Prop := (0 < w ∧ w ≤ 64 ∧ pal = 1) ∨ (w = 128 ∧ pal = 2)

theorem Ok.le {w pal : Nat} (h : Ok w pal) : w ≤ 128 := by rcases h with h | h <;> omega
theorem Ok.pos {w pal : Nat} (h : Ok w pal) : 0 < w := by rcases h with h | h <;> omega

theorem word_bits {pal : Nat} (h : Ok w pal) (v : BitVec w) (i : Nat) :
    (word pal v (i / 64)).getLsbD (i % 64) = v.getLsbD i := by
  have hm : i % 64 < 64 := by omega
  unfold word
  by_cases h0 : i / 64 = 0
  · have : i % 64 = i := by omega
    rw [if_pos h0, getLsbD_lo, this]
    have : i < 64 := by omega
    simp [this]
  · rw [if_neg h0]
    by_cases h1 : i / 64 = 1 ∧ pal = 2
    · rw [if_pos h1, getLsbD_hi v h.le]
      have : 64 + i % 64 = i := by omega
      simp [hm, this]
    · rw [if_neg h1]
      have : w ≤ i := by rcases h with h | h <;> omega
      rw [BitVec.getLsbD_of_ge v i this]
      simp

theorem has_bit_ok [Platform] (v : BitVec w) (b : Nat) (h : b < w) : has_bit v b = .ok (v.getLsbD b) := by
  have hb : b < 2 ^ w := Nat.lt_trans h Nat.lt_two_pow_self
  unfold has_bit
  rw [castW_of_lt hb, shl1_ok h]
  simp only [Res.ok_bind, Res.pure_eq, Res.ok.injEq]
  cases hv : v.getLsbD b with
  | false =>
    have : v &&& 1#w <<< b = 0 := by
      rw [eq_zero_iff_bits]
      intro i
      rw [BitVec.getLsbD_and, getLsbD_shl1 b i h]
      by_cases hi : i = b
      · subst hi; simp [hv]
      · simp [hi]
    simp [this]
  | true =>
    have : v &&& 1#w <<< b ≠ 0 := by
      intro hz
      rw [eq_zero_iff_bits] at hz
      have := hz b
      rw [BitVec.getLsbD_and, getLsbD_shl1 b b h] at this
      simp [hv] at this
    simpa using this

theorem add_bit_ok [Platform] (v : BitVec w) (b : Nat) (h : b < w) :
    ∃ r, add_bit v b = .ok r ∧ ∀ i, r.getLsbD i = (v.getLsbD i || decide (i = b)) := by
  have hb : b < 2 ^ w := Nat.lt_trans h Nat.lt_two_pow_self
  refine ⟨v ||| 1#w <<< b, ?_, ?_⟩
  · unfold add_bit; rw [castW_of_lt hb, shl1_ok h]; rfl
  · intro i; rw [BitVec.getLsbD_or, getLsbD_shl1 b i h]

theorem remove_bit_ok [Platform] (v : BitVec w) (b : Nat) (h : b < w) :
    ∃ r, remove_bit v b = .ok r ∧ ∀ i, r.getLsbD i = (v.getLsbD i && !decide (i = b)) := by
  have hb : b < 2 ^ w := Nat.lt_trans h Nat.lt_two_pow_self
  refine ⟨v &&& ~~~ (1#w <<< b), ?_, ?_⟩
  · unfold remove_bit; rw [castW_of_lt hb, shl1_ok h]; rfl
  · intro i
    rw [BitVec.getLsbD_and, BitVec.getLsbD_not, getLsbD_shl1 b i h]
    by_cases hi : i < w
    · simp [hi]
    · rw [BitVec.getLsbD_of_ge v i (by omega)]; simp

theorem next_ok [Platform] (it : BitVec w) : ∃ o it', iter_next it = .ok (o, it') ∧
    ((o = none ∧ (∀ i, it.getLsbD i = false) ∧ ∀ i, it'.getLsbD i = false) ∨
     (∃ b, o = some b ∧ it.getLsbD b = true ∧ (∀ i, i < b → it.getLsbD i = false) ∧
       ∀ i, it'.getLsbD i = (it.getLsbD i && !decide (i = b)))) := by
  by_cases h : it = 0
  · refine ⟨none, it, by simp [iter_next, is_empty, h], .inl ⟨rfl, ?_, ?_⟩⟩ <;>
      exact (eq_zero_iff_bits it).mp h
  · obtain ⟨h1, h2, h3⟩ := trailingZeros_spec h
    obtain ⟨r, hr, hb⟩ := remove_bit_ok it (trailingZeros it) h1
    refine ⟨some (trailingZeros it), r, ?_, .inr ⟨_, rfl, h2, h3, hb⟩⟩
    have h' : ¬ it = 0#w := h
    simp [iter_next, is_empty, h', trailing_zeros, hr]

theorem next_back_ok [Platform] (it : BitVec w) : ∃ o it', iter_next_back it = .ok (o, it') ∧
    ((o = none ∧ (∀ i, it.getLsbD i = false) ∧ ∀ i, it'.getLsbD i = false) ∨
     (∃ b, o = some b ∧ it.getLsbD b = true ∧ (∀ i, b < i → it.getLsbD i = false) ∧
       ∀ i, it'.getLsbD i = (it.getLsbD i && !decide (i = b)))) := by
  by_cases h : it = 0
  · refine ⟨none, it, by simp [iter_next_back, is_empty, h], .inl ⟨rfl, ?_, ?_⟩⟩ <;>
      exact (eq_zero_iff_bits it).mp h
  · obtain ⟨h1, h2, h3⟩ := leadingZeros_spec h
    obtain ⟨r, hr, hb⟩ := remove_bit_ok it (w - 1 - leadingZeros it) (by omega)
    refine ⟨some (w - 1 - leadingZeros it), r, ?_, .inr ⟨_, rfl, h2, h3, hb⟩⟩
    have e1 : subW 32 w 1 = .ok (w - 1) := subW_ok (by omega)
    have e2 : subW 32 (w - 1) (leadingZeros it) = .ok (w - 1 - leadingZeros it) := subW_ok (by omega)
    have h' : ¬ it = 0#w := h
    simp [iter_next_back, is_empty, h', leading_zeros, e1, e2, hr]

theorem countOnes_le (v : BitVec w) : countOnes v ≤ w := by
  unfold countOnes
  exact Nat.le_trans List.countP_le_length (by simp)

/-! arrays and slices -/

theorem from_array_eq (pal O : Nat) (v : Vector U64 O) :
    (from_u64_array pal O v : Res (BitVec w)) = from_u64_slice pal v.toList := by
  have : ∀ i, idxV v i = idxL v.toList i := by intro i; simp [idxV, idxL]
  simp [from_u64_array, from_u64_slice, this]

theorem from_array_opt_eq (O : Nat) (v : Vector U64 O) :
    (from_u64_array_opt O v : Res (Option (BitVec w))) = from_u64_slice_opt v.toList := by
  have : ∀ i, idxV v i = idxL v.toList i := by intro i; simp [idxV, idxL]
  simp [from_u64_array_opt, from_u64_slice_opt, this]

theorem wbit_nil (i : Nat) : wbit [] i = false := wbit_of_ge (by simp)

theorem from_slice_ok {pal : Nat} (h : Ok w pal) (v : List U64) :
    ∃ r : BitVec w, from_u64_slice pal v = .ok r ∧
      ∀ i, r.getLsbD i = (decide (i < w) && wbit v i) := by
  unfold from_u64_slice
  by_cases h0 : v.length = 0
  · refine ⟨0, by simp [h0], ?_⟩
    intro i
    have : v = [] := List.length_eq_zero_iff.mp h0
    simp [this, wbit_nil]
  · rw [if_neg h0]
    by_cases h1 : v.length > 1 ∧ pal = 2
    · rw [if_pos h1, idxL_ok (by omega : 0 < v.length), idxL_ok (by omega : 1 < v.length)]
      refine ⟨_, rfl, ?_⟩
      intro i
      rw [getLsbD_castBV, getLsbD_two]
      have hw : w = 128 := by rcases h with h | h <;> omega
      by_cases hi : i < w
      · simp only [hi, decide_true, Bool.true_and]
        unfold wbit
        by_cases h64 : i < 64
        · have e1 : i / 64 = 0 := by omega
          have e2 : i % 64 = i := by omega
          simp [h64, e1, e2, List.getD, (by omega : 0 < v.length)]
        · have e1 : i / 64 = 1 := by omega
          have e2 : i % 64 = i - 64 := by omega
          simp [h64, e1, e2, List.getD, (by omega : 1 < v.length)]
      · simp [hi]
    · rw [if_neg h1, idxL_ok (by omega : 0 < v.length)]
      refine ⟨_, rfl, ?_⟩
      intro i
      rw [getLsbD_castBV]
      by_cases hi : i < w
      · simp only [hi, decide_true, Bool.true_and]
        by_cases h64 : i < 64
        · have e1 : i / 64 = 0 := by omega
          have e2 : i % 64 = i := by omega
          unfold wbit
          simp [e1, e2, List.getD, (by omega : 0 < v.length)]
        · have hl : v.length = 1 := by
            rcases h with h | h
            · omega
            · have : ¬ v.length > 1 := fun hh => h1 ⟨hh, h.2⟩
              omega
          rw [wbit_of_ge (by omega), BitVec.getLsbD_of_ge _ _ (by omega)]
      · simp [hi]

theorem from_slice_opt_ok {pal : Nat} (h : Ok w pal) (v : List U64) :
    ((∀ i, wbit v i = true → i < w) →
      ∃ r : BitVec w, from_u64_slice_opt v = .ok (some r) ∧ ∀ i, r.getLsbD i = wbit v i) ∧
    (¬ (∀ i, wbit v i = true → i < w) →
      (from_u64_slice_opt v : Res (Option (BitVec w))) = .ok none) := by
  have hle := h.le
  -- the value is some `x` with the bits of `v`, passed through `tryInto`, or `none` when a high
  -- word is set
  have fin : ∀ {a : Nat} (x : BitVec a), (∀ i, x.getLsbD i = wbit v i) →
      from_u64_slice_opt v = .ok (tryInto w x) →
      ((∀ i, wbit v i = true → i < w) →
        ∃ r : BitVec w, from_u64_slice_opt v = .ok (some r) ∧ ∀ i, r.getLsbD i = wbit v i) ∧
      (¬ (∀ i, wbit v i = true → i < w) →
        (from_u64_slice_opt v : Res (Option (BitVec w))) = .ok none) := by
    intro a x hx he
    obtain ⟨t1, t2⟩ := tryInto_spec (b := w) x
    constructor
    · intro hv
      refine ⟨x.setWidth w, ?_, ?_⟩
      · rw [he, t1 (fun i hi => hv i (by rw [← hx]; exact hi))]
      · intro i
        rw [BitVec.getLsbD_setWidth, hx]
        cases hw : wbit v i with
        | false => simp
        | true => simp [hv i hw]
    · intro hv
      rw [he, t2]
      intro hh
      exact hv (fun i hi => hh i (by rw [hx]; exact hi))
  by_cases h0 : v.length = 0
  · have : v = [] := List.length_eq_zero_iff.mp h0
    subst this
    constructor
    · intro _
      exact ⟨0, by simp [from_u64_slice_opt], by simp [wbit_nil]⟩
    · intro hn
      exact absurd (fun i hi => by simp [wbit_nil] at hi) hn
  · by_cases h1 : v.length = 1
    · apply fin v[0]
      · intro i
        unfold wbit
        by_cases h64 : i < 64
        · have e1 : i / 64 = 0 := by omega
          have e2 : i % 64 = i := by omega
          simp [e1, e2, List.getD, (by omega : 0 < v.length)]
        · have := wbit_of_ge (ws := v) (i := i) (by omega)
          unfold wbit at this
          rw [this, BitVec.getLsbD_of_ge _ _ (by omega)]
      · unfold from_u64_slice_opt
        rw [if_neg h0, if_pos h1, idxL_ok (by omega : 0 < v.length)]
        rfl
    · have hloop : forEachRet (ρ := Option (BitVec w)) (range 2 v.length) ()
          (fun i _ => do
            let x ← idxL v i
            pure (if x ≠ 0 then .ret none else .next ())) =
          .ok (if (range 2 v.length).any (fun i => v.getD i 0 != 0) then .ret none
            else .next ()) := by
        apply forEachRet_any
        intro i hi
        have hi' := (mem_range.mp hi).2
        rw [idxL_ok hi']
        simp [List.getD, hi']
      have hbody : (from_u64_slice_opt v : Res (Option (BitVec w))) =
          if (range 2 v.length).any (fun i => v.getD i 0 != 0) then .ok none
          else .ok (tryInto w (castBV 128 (v[0]'(by omega)) |||
            castBV 128 (v[1]'(by omega)) <<< 64 : U128)) := by
        unfold from_u64_slice_opt
        rw [if_neg h0, if_neg h1, hloop]
        cases hany : (range 2 v.length).any (fun i => v.getD i 0 != 0) with
        | true => simp
        | false =>
          rw [idxL_ok (by omega : 0 < v.length), idxL_ok (by omega : 1 < v.length)]
          simp
      cases hany : (range 2 v.length).any (fun i => v.getD i 0 != 0) with
      | true =>
        rw [hany] at hbody
        simp only [if_true] at hbody
        obtain ⟨k, hk, hne⟩ := List.any_eq_true.mp hany
        obtain ⟨hk2, hkl⟩ := mem_range.mp hk
        have hne : v[k] ≠ 0 := by simpa [List.getD, hkl] using hne
        obtain ⟨j, hj, hb⟩ := exists_bit_of_ne_zero hne
        have hwb : wbit v (64 * k + j) = true := by rw [wbit_word hj hkl, hb]
        constructor
        · intro hv
          have := hv _ hwb
          omega
        · intro _; exact hbody
      | false =>
        rw [hany] at hbody
        have hbody : (from_u64_slice_opt v : Res (Option (BitVec w))) = .ok (tryInto w
            (castBV 128 (v[0]'(by omega)) ||| castBV 128 (v[1]'(by omega)) <<< 64 : U128)) := by
          simpa using hbody
        refine fin _ ?_ hbody
        intro i
        rw [getLsbD_two]
        unfold wbit
        by_cases h64 : i < 64
        · have e1 : i / 64 = 0 := by omega
          have e2 : i % 64 = i := by omega
          simp [h64, e1, e2, List.getD, (by omega : 0 < v.length)]
        · by_cases h128 : i < 128
          · have e1 : i / 64 = 1 := by omega
            have e2 : i % 64 = i - 64 := by omega
            simp [h64, e1, e2, List.getD, (by omega : 1 < v.length)]
          · rw [if_neg h64, BitVec.getLsbD_of_ge _ (i - 64) (by omega)]
            by_cases hl : i / 64 < v.length
            · have := List.any_eq_false.mp hany (i / 64) (mem_range.mpr ⟨by omega, hl⟩)
              have : v.getD (i / 64) 0 = 0 := by simpa using this
              rw [this]; simp
            · have := wbit_of_ge (ws := v) (i := i) (by omega)
              unfold wbit at this
              exact this.symm

theorem to_slice_ok {pal : Nat} (h : Ok w pal) (v : BitVec w) (out : List U64) :
    ∃ x, to_u64_slice pal v out = .ok x ∧ x.length = out.length ∧
      ∀ i, wbit x i = (decide (i < 64 * out.length) && v.getLsbD i) := by
  -- first word
  obtain ⟨o1, ho1, hl1, hw1⟩ : ∃ o1 : List U64,
      (if out.length > 0 then setL out 0 (lo v) else pure out) = .ok o1 ∧
      o1.length = out.length ∧ (0 < out.length → o1.getD 0 0 = lo v) := by
    by_cases hp : out.length > 0
    · refine ⟨out.set 0 (lo v), by rw [if_pos hp, setL_ok hp], by simp, ?_⟩
      intro _
      simp [List.getD, hp]
    · exact ⟨out, by simp [hp], rfl, fun hh => absurd hh hp⟩
  -- second word
  obtain ⟨o2, ho2, hl2, hw2⟩ : ∃ o2 : List U64,
      (if o1.length > 1 ∧ pal = 2 then setL o1 1 (hi v) else pure o1) = .ok o2 ∧
      o2.length = out.length ∧ ∀ k, k < pal → k < out.length → o2.getD k 0 = word pal v k := by
    by_cases hp : o1.length > 1 ∧ pal = 2
    · refine ⟨o1.set 1 (hi v), by rw [if_pos hp, setL_ok hp.1], by simp [hl1], ?_⟩
      intro k hk hkl
      obtain rfl | rfl : k = 0 ∨ k = 1 := by omega
      · have := hw1 hkl
        simp only [List.getD, List.getElem?_set] at this ⊢
        simpa [word] using this
      · simp [List.getD, word, hp.2, hp.1]
    · refine ⟨o1, by rw [if_neg hp]; rfl, hl1, ?_⟩
      intro k hk hkl
      have hk0 : k = 0 := by
        rcases h with h | h
        · omega
        · have : ¬ o1.length > 1 := fun hh => hp ⟨hh, h.2⟩
          omega
      subst hk0
      simpa [word] using hw1 hkl
  -- the loop
  have hloop : ∃ x, forEach (range pal o2.length) o2 (fun i out => setL out i 0) = .ok x ∧
      x.length = out.length ∧ ∀ k, k < out.length → x.getD k 0 = word pal v k := by
    by_cases hp : pal ≤ out.length
    · obtain ⟨x, hx, hxl, hxw⟩ := forEach_range (fun i out => setL out i (0 : U64))
        (fun j s => s.length = out.length ∧
          ∀ k, k < j → k < out.length → s.getD k 0 = word pal v k)
        o2.length (o2.length - pal) pal o2 rfl (by omega) ⟨hl2, hw2⟩ (by
          intro i s hi hil ⟨hsl, hsw⟩
          refine ⟨s.set i 0, setL_ok (by omega), by simp [hsl], ?_⟩
          intro k hk hkl
          by_cases hki : k = i
          · subst hki
            have hk' : k < s.length := by omega
            have hz : word pal v k = 0 := by
              unfold word
              have : ¬ (k = 0) := by rcases h with h | h <;> omega
              have : ¬ (k = 1 ∧ pal = 2) := by omega
              simp [*]
            simp [List.getD, hk', hz]
          · have := hsw k (by omega) hkl
            simp only [List.getD, List.getElem?_set] at this ⊢
            simpa [Ne.symm hki] using this)
      exact ⟨x, hx, hxl, fun k hk => hxw k (by omega) hk⟩
    · refine ⟨o2, by rw [range_of_le (by omega)]; rfl, hl2, fun k hk => hw2 k (by omega) hk⟩
  obtain ⟨x, hx, hxl, hxw⟩ := hloop
  refine ⟨x, ?_, hxl, wbit_of_words (word pal v) _ hxl hxw (word_bits h v)⟩
  unfold to_u64_slice
  simp only [ite_bind, ho1, ho2, hx, Res.ok_bind]

theorem to_array_ok {pal : Nat} (h : Ok w pal) (O : Nat) (v : BitVec w) :
    ∃ x, to_u64_array pal O v = .ok x ∧
      ∀ i, wbit x.toList i = (decide (i < 64 * O) && v.getLsbD i) := by
  obtain ⟨o1, ho1, hw1⟩ : ∃ o1 : Vector U64 O,
      (if O > 0 then setV (Vector.replicate O 0) 0 (lo v) else pure (Vector.replicate O 0)) = .ok o1
      ∧ ∀ k, (hk : k < O) → o1[k] = if k = 0 then lo v else 0 := by
    by_cases hp : O > 0
    · refine ⟨(Vector.replicate O 0).set 0 (lo v), by rw [if_pos hp, setV_ok hp], ?_⟩
      intro k hk
      rw [Vector.getElem_set]
      by_cases h0 : k = 0
      · subst h0; simp
      · simp [h0, Ne.symm h0]
    · exact ⟨Vector.replicate O 0, by simp [hp], fun k hk => by omega⟩
  obtain ⟨o2, ho2, hw2⟩ : ∃ o2 : Vector U64 O,
      (if O > 1 ∧ pal = 2 then setV o1 1 (hi v) else pure o1) = .ok o2
      ∧ ∀ k, (hk : k < O) → o2[k] = word pal v k := by
    by_cases hp : O > 1 ∧ pal = 2
    · refine ⟨o1.set 1 (hi v) hp.1, by rw [if_pos hp, setV_ok hp.1], ?_⟩
      intro k hk
      rw [Vector.getElem_set, hw1 k hk]
      unfold word
      by_cases h1 : k = 1
      · subst h1; simp [hp.2]
      · simp [h1, Ne.symm h1]
    · refine ⟨o1, by rw [if_neg hp]; rfl, ?_⟩
      intro k hk
      rw [hw1 k hk]
      unfold word
      have : ¬ (k = 1 ∧ pal = 2) := fun hh => hp ⟨by omega, hh.2⟩
      simp [this]
  refine ⟨o2, ?_, ?_⟩
  · unfold to_u64_array
    simp only [ite_bind, ho1, ho2, Res.ok_bind]
    rfl
  · apply wbit_of_words (word pal v) _ (by simp) _ (word_bits h v)
    intro k hk
    simp [List.getD, hk, hw2 k hk]

/-- The check in front of `to_u64_array_opt` / `to_u64_slice_opt`. -/
theorem fits_iff {pal : Nat} (h : Ok w pal) (O : Nat) (v : BitVec w) :
    (∀ i, v.getLsbD i = true → i < 64 * O) ↔ ¬ (O = 0 ∧ v ≠ 0) ∧ ¬ (O = 1 ∧ hi v ≠ 0) := by
  have hle := h.le
  obtain rfl | rfl | hO : O = 0 ∨ O = 1 ∨ 2 ≤ O := by omega
  · have := eq_zero_iff_bits v
    simp only [Nat.mul_zero, Nat.not_lt_zero, imp_false, Bool.not_eq_true]
    rw [← this]
    simp
  · have := hi_zero_iff v hle
    simp only [Nat.mul_one]
    rw [← this]
    simp
  · constructor
    · intro _; omega
    · intro _ i hi
      have := BitVec.lt_of_getLsbD hi
      omega

theorem to_array_opt_ok {pal : Nat} (h : Ok w pal) (O : Nat) (v : BitVec w) :
    ((∀ i, v.getLsbD i = true → i < 64 * O) →
      ∃ x, to_u64_array_opt pal O v = .ok (some x) ∧ ∀ i, wbit x.toList i = v.getLsbD i) ∧
    (¬ (∀ i, v.getLsbD i = true → i < 64 * O) → to_u64_array_opt pal O v = .ok none) := by
  constructor
  · intro hf
    obtain ⟨h0, h1⟩ := (fits_iff h O v).mp hf
    obtain ⟨x, hx, hb⟩ := to_array_ok h O v
    refine ⟨x, ?_, ?_⟩
    · unfold to_u64_array_opt
      rw [if_neg h0, if_neg h1, hx]
      rfl
    · intro i
      rw [hb]
      cases hv : v.getLsbD i with
      | false => simp
      | true => simp [hf i hv]
  · intro hf
    rw [fits_iff h O v] at hf
    unfold to_u64_array_opt
    by_cases h0 : O = 0 ∧ v ≠ 0
    · rw [if_pos h0]
    · have h1 : O = 1 ∧ hi v ≠ 0 := by
        apply Classical.byContradiction
        intro hn; exact hf ⟨h0, hn⟩
      rw [if_neg h0, if_pos h1]

theorem to_slice_opt_ok {pal : Nat} (h : Ok w pal) (v : BitVec w) (out : List U64) :
    ((∀ i, v.getLsbD i = true → i < 64 * out.length) →
      ∃ x, to_u64_slice_opt pal v out = .ok (some (), x) ∧ x.length = out.length ∧
        ∀ i, wbit x i = v.getLsbD i) ∧
    (¬ (∀ i, v.getLsbD i = true → i < 64 * out.length) →
      to_u64_slice_opt pal v out = .ok (none, out)) := by
  constructor
  · intro hf
    obtain ⟨h0, h1⟩ := (fits_iff h out.length v).mp hf
    obtain ⟨x, hx, hl, hb⟩ := to_slice_ok h v out
    refine ⟨x, ?_, hl, ?_⟩
    · unfold to_u64_slice_opt
      rw [if_neg h0, if_neg h1, hx]
      rfl
    · intro i
      rw [hb]
      cases hv : v.getLsbD i with
      | false => simp
      | true => simp [hf i hv]
  · intro hf
    rw [fits_iff h out.length v] at hf
    unfold to_u64_slice_opt
    by_cases h0 : out.length = 0 ∧ v ≠ 0
    · rw [if_pos h0]
    · have h1 : out.length = 1 ∧ hi v ≠ 0 := by
        apply Classical.byContradiction
        intro hn; exact hf ⟨h0, hn⟩
      rw [if_neg h0, if_pos h1]

/-- A subset is numerically at most its superset. -/
theorem toNat_le_of_subset {a b : BitVec w}
    (h : ∀ i, a.getLsbD i = true → b.getLsbD i = true) : a.toNat ≤ b.toNat := by
  have e : a = a &&& b := by
    apply BitVec.eq_of_getLsbD_eq
    intro i _
    rw [BitVec.getLsbD_and]
    cases ha : a.getLsbD i with
    | false => simp
    | true => simp [h i ha]
  rw [e, BitVec.toNat_and]
  exact Nat.and_le_right

end prim

theorem compare_ne_gt {a b : Nat} : compare a b ≠ .gt ↔ a ≤ b := by
  rw [Ne, Nat.compare_eq_gt]; omega

/-- The integer representations are lawful. -/
@[instance_reducible] def lawfulPrim [Platform] {w pal : Nat} (hw : prim.Ok w pal) : LawfulRepr (Prim w pal) where
  bit r i := r.v.getLsbD i
  Inv _ := True
  ibit it i := BitVec.getLsbD (w := w) it i
  bit_lt h := BitVec.lt_of_getLsbD h
  ext {a b} h := by
    cases a; cases b
    congr 1
    exact BitVec.eq_of_getLsbD_eq fun i _ => h i
  width_pos := hw.pos
  width_lt := Nat.lt_of_le_of_lt hw.le (by decide)
  width_le := by
    change w ≤ 64 * pal
    rcases hw with h | h <;> omega
  eq_iff {a b} := by cases a; cases b; simp [EnumSetTypeRepr.eq]
  hash_inj {a b} h := by
    cases a; cases b
    simp only [EnumSetTypeRepr.hash, List.cons.injEq, HashWrite.int.injEq] at h
    congr 1
    exact BitVec.eq_of_toNat_eq h.1.2
  partial_cmp_eq a b := rfl
  cmp_eq_iff {a b} := by
    cases a; cases b
    simp only [EnumSetTypeRepr.cmp, Nat.compare_eq_eq, Prim.mk.injEq]
    exact BitVec.toNat_inj
  cmp_swap a b := (Nat.compare_swap a.v.toNat b.v.toNat).symm
  cmp_trans {a b c} h1 h2 := by
    simp only [EnumSetTypeRepr.cmp, compare_ne_gt] at *
    omega
  cmp_subset {a b} h := by
    simp only [EnumSetTypeRepr.cmp, compare_ne_gt]
    exact prim.toNat_le_of_subset h
  bit_empty i := by simp [EnumSetTypeRepr.EMPTY]
  bitand_ok a b := ⟨_, rfl, fun i => BitVec.getLsbD_and⟩
  bitor_ok a b := ⟨_, rfl, fun i => BitVec.getLsbD_or⟩
  bitxor_ok a b := ⟨_, rfl, fun i => BitVec.getLsbD_xor⟩
  not_ok a := ⟨_, rfl, fun i => BitVec.getLsbD_not⟩
  and_not_ok a b := by
    refine ⟨_, rfl, fun i => ?_⟩
    simp only [prim.and_not, BitVec.getLsbD_and, BitVec.getLsbD_not]
    cases ha : a.v.getLsbD i with
    | false => simp
    | true => simp [BitVec.lt_of_getLsbD ha]
  is_empty_ok a := ⟨_, rfl, by simp only [prim.is_empty, beq_iff_eq, eq_zero_iff_bits]⟩
  add_bit_ok a b hb _ := by
    obtain ⟨r, hr, h⟩ := prim.add_bit_ok a.v b hb
    exact ⟨⟨r⟩, by simp [EnumSetTypeRepr.add_bit, hr], h⟩
  remove_bit_ok a b hb _ := by
    obtain ⟨r, hr, h⟩ := prim.remove_bit_ok a.v b hb
    exact ⟨⟨r⟩, by simp [EnumSetTypeRepr.remove_bit, hr], h⟩
  has_bit_ok a b hb _ := prim.has_bit_ok a.v b hb
  count_ones_ok a := rfl
  trailing_zeros_ok a := by
    refine ⟨_, rfl, ?_⟩
    change trailingZeros a.v ≤ w ∧ _ ∧ (trailingZeros a.v < w → _)
    by_cases h : a.v = 0
    · rw [h, trailingZeros_zero]
      exact ⟨Nat.le_refl _, by intros; simp, fun h => absurd h (Nat.lt_irrefl _)⟩
    · obtain ⟨h1, h2, h3⟩ := trailingZeros_spec h
      exact ⟨by omega, h3, fun _ => h2⟩
  leading_zeros_ok a := by
    refine ⟨_, rfl, ?_⟩
    change leadingZeros a.v ≤ w ∧ (∀ i, w - leadingZeros a.v ≤ i → _) ∧
      (leadingZeros a.v < w → a.v.getLsbD (w - 1 - leadingZeros a.v) = true)
    by_cases h : a.v = 0
    · rw [h, leadingZeros_zero]
      exact ⟨Nat.le_refl _, by intros; simp, fun h => absurd h (Nat.lt_irrefl _)⟩
    · obtain ⟨h1, h2, h3⟩ := leadingZeros_spec h
      exact ⟨by omega, fun i hi => h3 i (by omega), fun _ => h2⟩
  ibit_lt {it i} h := BitVec.lt_of_getLsbD (w := w) h
  iter_ok a := ⟨a.v, rfl, trivial, fun _ => rfl⟩
  next_ok it _ := by
    obtain ⟨o, it', h, hs⟩ := prim.next_ok (w := w) it
    exact ⟨o, it', h, trivial, hs⟩
  next_back_ok it _ := by
    obtain ⟨o, it', h, hs⟩ := prim.next_back_ok (w := w) it
    exact ⟨o, it', h, trivial, hs⟩
  size_hint_ok it _ h := by
    change Res.ok (prim.iter_size_hint (w := w) it) = _
    unfold prim.iter_size_hint
    have : castW usizeBits (prim.count_ones (w := w) it) = _ := castW_of_lt h
    rw [this]
    rfl
  from_num_ok n v := ⟨_, rfl, fun i => getLsbD_castBV v i⟩
  from_num_opt_ok n v := by
    obtain ⟨h1, h2⟩ := tryInto_spec (b := w) v
    constructor
    · intro h
      refine ⟨⟨v.setWidth w⟩, ?_, ?_⟩
      · simp [EnumSetTypeRepr.from_num_opt, prim.from_num_opt, h1 h]
      · intro i
        simp only [BitVec.getLsbD_setWidth]
        cases hv : v.getLsbD i with
        | false => simp
        | true => have : i < w := h i hv; simpa using this
    · intro h
      simp [EnumSetTypeRepr.from_num_opt, prim.from_num_opt, h2 h]
  to_num_ok n a := ⟨_, rfl, fun i => getLsbD_castBV a.v i⟩
  to_num_opt_ok n a := by
    obtain ⟨h1, h2⟩ := tryInto_spec (b := n.bits) a.v
    constructor
    · intro h
      refine ⟨a.v.setWidth n.bits, ?_, ?_⟩
      · simp [EnumSetTypeRepr.to_num_opt, prim.to_num_opt, h1 h]
      · intro i
        simp only [BitVec.getLsbD_setWidth]
        cases hv : a.v.getLsbD i with
        | false => simp
        | true => have := h i hv; simpa using this
    · intro h
      simp [EnumSetTypeRepr.to_num_opt, prim.to_num_opt, h2 h]
  to_array_ok O a := prim.to_array_ok hw O a.v
  to_array_opt_ok O a := prim.to_array_opt_ok hw O a.v
  from_array_ok O v := by
    obtain ⟨r, hr, h⟩ := prim.from_slice_ok hw v.toList
    exact ⟨⟨r⟩, by simp [EnumSetTypeRepr.from_u64_array, prim.from_array_eq, hr], h⟩
  from_array_opt_ok O v := by
    obtain ⟨h1, h2⟩ := prim.from_slice_opt_ok hw v.toList
    constructor
    · intro h
      obtain ⟨r, hr, hb⟩ := h1 h
      exact ⟨⟨r⟩, by simp [EnumSetTypeRepr.from_u64_array_opt, prim.from_array_opt_eq, hr], hb⟩
    · intro h
      simp [EnumSetTypeRepr.from_u64_array_opt, prim.from_array_opt_eq, h2 h]
  to_slice_ok a out := prim.to_slice_ok hw a.v out
  to_slice_opt_ok a out := prim.to_slice_opt_ok hw a.v out
  from_slice_ok v := by
    obtain ⟨r, hr, h⟩ := prim.from_slice_ok hw v
    exact ⟨⟨r⟩, by simp [EnumSetTypeRepr.from_u64_slice, hr], h⟩
  from_slice_opt_ok v := by
    obtain ⟨h1, h2⟩ := prim.from_slice_opt_ok hw v
    constructor
    · intro h
      obtain ⟨r, hr, hb⟩ := h1 h
      exact ⟨⟨r⟩, by simp [EnumSetTypeRepr.from_u64_slice_opt, hr], hb⟩
    · intro h
      simp [EnumSetTypeRepr.from_u64_slice_opt, h2 h]

end Enumset
