import Verif.LawfulPrim
import Verif.ArrayRepr
/-!
# `ArrayRepr N` is a lawful representation
-/
set_option autoImplicit false
set_option linter.unusedSectionVars false

namespace Enumset

/-! ### words of a vector -/

theorem wbit_vec {N : Nat} (v : Vector U64 N) (i : Nat) (h : i / 64 < N) :
    wbit v.toList i = (v[i / 64]).getLsbD (i % 64) := by
  unfold wbit
  simp [List.getD, h]

theorem wbit_vec_ge {N : Nat} (v : Vector U64 N) (i : Nat) (h : ¬ i / 64 < N) :
    wbit v.toList i = false := wbit_of_ge (by simp; omega)

theorem wbit_vec_word {N : Nat} (v : Vector U64 N) {k j : Nat} (hj : j < 64) (hk : k < N) :
    wbit v.toList (64 * k + j) = (v[k]).getLsbD j := by
  rw [wbit_word hj (by simpa using hk)]; simp

theorem wbit_set {N : Nat} (v : Vector U64 N) (k : Nat) (hk : k < N) (x : U64) (i : Nat) :
    wbit (v.set k x).toList i =
      if i / 64 = k then x.getLsbD (i % 64) else wbit v.toList i := by
  by_cases h : i / 64 < N
  · rw [wbit_vec _ i h, wbit_vec _ i h, Vector.getElem_set]
    by_cases e : i / 64 = k
    · simp [e]
    · simp [e, Ne.symm e]
  · rw [wbit_vec_ge _ i h, wbit_vec_ge _ i h]
    have : i / 64 ≠ k := by omega
    simp [this]

theorem vec_ext {N : Nat} {a b : Vector U64 N} (h : ∀ i, wbit a.toList i = wbit b.toList i) :
    a = b := by
  apply Vector.toList_inj.mp
  exact words_ext (by simp) h

theorem word_zero_iff {N : Nat} (v : Vector U64 N) (k : Nat) (hk : k < N) :
    v[k] = 0 ↔ ∀ i, i / 64 = k → wbit v.toList i = false := by
  rw [eq_zero_iff_bits]
  constructor
  · intro h i hi
    subst hi
    rw [wbit_vec v i hk]
    exact h _
  · intro h j
    by_cases hj : j < 64
    · rw [← wbit_vec_word v hj hk]
      exact h _ (by omega)
    · exact BitVec.getLsbD_of_ge _ _ (by omega)

/-! ### counting -/

theorem wbit_cons (x : U64) (ws : List U64) (i : Nat) :
    wbit (x :: ws) i = if i < 64 then x.getLsbD i else wbit ws (i - 64) := by
  unfold wbit
  by_cases h : i < 64
  · have e1 : i / 64 = 0 := by omega
    have e2 : i % 64 = i := by omega
    simp [h, e1, e2]
  · have e1 : i / 64 = (i - 64) / 64 + 1 := by omega
    have e2 : i % 64 = (i - 64) % 64 := by omega
    simp [h, e1, e2]

theorem countP_words (ws : List U64) :
    (List.range (64 * ws.length)).countP (wbit ws) = (ws.map countOnes).sum := by
  induction ws with
  | nil => simp
  | cons x ws ih =>
    have e : 64 * (x :: ws).length = 64 + 64 * ws.length := by simp; omega
    rw [e, List.range_add, List.countP_append, List.countP_map, List.map_cons, List.sum_cons, ← ih]
    have h1 : (List.range 64).countP (wbit (x :: ws)) = countOnes x := by
      unfold countOnes
      apply List.countP_congr
      intro i hi
      have : i < 64 := by simpa using hi
      rw [wbit_cons]; simp [this]
    have h2 : (List.range (64 * ws.length)).countP (wbit (x :: ws) ∘ fun x => 64 + x) =
        (List.range (64 * ws.length)).countP (wbit ws) := by
      apply List.countP_congr
      intro i _
      simp [wbit_cons]
    rw [h1, h2]

theorem sum_take_succ (ws : List U64) (i : Nat) (h : i < ws.length) :
    ((ws.take (i + 1)).map countOnes).sum = ((ws.take i).map countOnes).sum + countOnes ws[i] := by
  rw [List.take_succ_eq_append_getElem h, List.map_append, List.sum_append]
  simp only [List.map_cons, List.map_nil, List.sum_cons, List.sum_nil]
  omega

theorem sum_take_le (ws : List U64) (i : Nat) :
    ((ws.take i).map countOnes).sum ≤ (ws.map countOnes).sum := by
  conv => rhs; rw [← List.take_append_drop i ws]
  rw [List.map_append, List.sum_append]
  omega

theorem sum_zero_of_zero (ws : List U64) (h : ∀ x ∈ ws, x = 0) :
    (ws.map countOnes).sum = 0 := by
  induction ws with
  | nil => rfl
  | cons x ws ih =>
    have hx : x = 0 := h x (by simp)
    subst hx
    rw [List.map_cons, List.sum_cons, ih (fun y hy => h y (by simp [hy]))]
    simp [countOnes]

theorem countOnes_le64 (x : U64) : countOnes x ≤ 64 := prim.countOnes_le x

theorem sum_le (ws : List U64) : (ws.map countOnes).sum ≤ 64 * ws.length := by
  rw [← countP_words]
  exact Nat.le_trans List.countP_le_length (by simp)

/-! ### loops over the words -/

/-- A loop that rewrites word `i` in iteration `i`. -/
theorem mapLoop {N : Nat} (f : Nat → ArrayRepr N → Res (ArrayRepr N)) (g : Nat → U64 → U64)
    (hf : ∀ i (hi : i < N) (s : ArrayRepr N), f i s = .ok ⟨s.a.set i (g i s.a[i])⟩)
    (s : ArrayRepr N) :
    ∃ r, forEach (range 0 N) s f = .ok r ∧ ∀ k (hk : k < N), r.a[k] = g k s.a[k] := by
  obtain ⟨r, hr, hP⟩ := forEach_range f
    (fun j t => ∀ k (hk : k < N), t.a[k] = if k < j then g k s.a[k] else s.a[k]) N N 0 s rfl
    (Nat.zero_le _) (by simp) (by
      intro i t _ hi ht
      refine ⟨_, hf i hi t, ?_⟩
      intro k hk
      simp only [Vector.getElem_set]
      by_cases hki : i = k
      · subst hki
        have := ht i hi
        simp at this
        simp [this]
      · rw [if_neg hki, ht k hk]
        by_cases hlt : k < i
        · have : k < i + 1 := by omega
          simp [hlt, this]
        · have : ¬ k < i + 1 := by omega
          simp [hlt, this])
  exact ⟨r, hr, fun k hk => by simpa [hk] using hP k hk⟩

theorem mapLoop_bits {N : Nat} (f : Nat → ArrayRepr N → Res (ArrayRepr N)) (g : Nat → U64 → U64)
    (b : Nat → Bool)
    (hf : ∀ i (hi : i < N) (s : ArrayRepr N), f i s = .ok ⟨s.a.set i (g i s.a[i])⟩)
    (s : ArrayRepr N)
    (hb : ∀ i (hi : i / 64 < N), (g (i / 64) s.a[i / 64]).getLsbD (i % 64) = b i)
    (hge : ∀ i, ¬ i / 64 < N → b i = false) :
    ∃ r, forEach (range 0 N) s f = .ok r ∧ ∀ i, wbit r.a.toList i = b i := by
  obtain ⟨r, hr, hw⟩ := mapLoop f g hf s
  refine ⟨r, hr, fun i => ?_⟩
  by_cases h : i / 64 < N
  · rw [wbit_vec _ i h, hw _ h, hb i h]
  · rw [wbit_vec_ge _ i h, hge i h]

theorem range_snoc (b : Nat) : range 0 (b + 1) = range 0 b ++ [b] := by
  simp [range, ← List.range_eq_range', List.range_succ]

namespace ArrayRepr

variable [Platform] {N : Nat}

theorem WIDTH_eq (h : 64 * N < 2 ^ 32) : WIDTH N = 64 * N := by
  unfold WIDTH
  rw [castW_of_lt (by omega : N < 2 ^ 32), castW_of_lt (by omega)]
  omega

theorem bitand_ok (a b : ArrayRepr N) : ∃ r, bitand a b = .ok r ∧
    ∀ i, wbit r.a.toList i = (wbit a.a.toList i && wbit b.a.toList i) := by
  apply mapLoop_bits _ (fun i x => x &&& b.a.getD i 0)
  · intro i hi s
    rw [idxV_ok hi, Res.ok_bind, idxV_ok hi, Res.ok_bind, setV_ok hi]
    simp [Vector.getD, hi]
  · intro i hi
    rw [wbit_vec _ i hi, wbit_vec _ i hi]
    simp [Vector.getD, hi]
  · intro i hi
    simp [wbit_vec_ge _ i hi]

theorem bitor_ok (a b : ArrayRepr N) : ∃ r, bitor a b = .ok r ∧
    ∀ i, wbit r.a.toList i = (wbit a.a.toList i || wbit b.a.toList i) := by
  apply mapLoop_bits _ (fun i x => x ||| b.a.getD i 0)
  · intro i hi s
    rw [idxV_ok hi, Res.ok_bind, idxV_ok hi, Res.ok_bind, setV_ok hi]
    simp [Vector.getD, hi]
  · intro i hi
    rw [wbit_vec _ i hi, wbit_vec _ i hi]
    simp [Vector.getD, hi]
  · intro i hi
    simp [wbit_vec_ge _ i hi]

theorem bitxor_ok (a b : ArrayRepr N) : ∃ r, bitxor a b = .ok r ∧
    ∀ i, wbit r.a.toList i = (wbit a.a.toList i ^^ wbit b.a.toList i) := by
  apply mapLoop_bits _ (fun i x => x ^^^ b.a.getD i 0)
  · intro i hi s
    rw [idxV_ok hi, Res.ok_bind, idxV_ok hi, Res.ok_bind, setV_ok hi]
    simp [Vector.getD, hi]
  · intro i hi
    rw [wbit_vec _ i hi, wbit_vec _ i hi]
    simp [Vector.getD, hi]
  · intro i hi
    simp [wbit_vec_ge _ i hi]

theorem not_ok (a : ArrayRepr N) : ∃ r, not a = .ok r ∧
    ∀ i, wbit r.a.toList i = (decide (i < 64 * N) && !wbit a.a.toList i) := by
  apply mapLoop_bits _ (fun i x => ~~~ x)
  · intro i hi s
    rw [idxV_ok hi, Res.ok_bind, setV_ok hi]
    rfl
  · intro i hi
    have h1 : i < 64 * N := by omega
    have h2 : i % 64 < 64 := by omega
    rw [wbit_vec _ i hi]
    simp [h1, h2]
  · intro i hi
    have h1 : ¬ i < 64 * N := by omega
    simp [h1]

theorem and_not_ok (a b : ArrayRepr N) : ∃ r, and_not a b = .ok r ∧
    ∀ i, wbit r.a.toList i = (wbit a.a.toList i && !wbit b.a.toList i) := by
  apply mapLoop_bits _ (fun i _ => a.a.getD i 0 &&& ~~~ b.a.getD i 0)
  · intro i hi s
    rw [idxV_ok hi, Res.ok_bind, idxV_ok hi, Res.ok_bind, setV_ok hi]
    simp [Vector.getD, hi]
  · intro i hi
    have h2 : i % 64 < 64 := by omega
    rw [wbit_vec _ i hi, wbit_vec _ i hi]
    simp [Vector.getD, hi, h2]
  · intro i hi
    simp [wbit_vec_ge _ i hi]

theorem is_empty_iff (a : ArrayRepr N) : is_empty a = true ↔ ∀ i, wbit a.a.toList i = false := by
  unfold is_empty
  rw [List.all_eq_true]
  constructor
  · intro h i
    by_cases hi : i / 64 < N
    · rw [wbit_vec _ i hi]
      have := h a.a[i / 64] (by simp)
      rw [beq_iff_eq.mp this]; simp
    · exact wbit_vec_ge _ i hi
  · intro h x hx
    obtain ⟨k, hk, rfl⟩ := List.mem_iff_getElem.mp hx
    have hk' : k < N := by simpa using hk
    have := (word_zero_iff a.a k hk').mpr (fun i _ => h i)
    simpa using this

theorem split_ok {b : Nat} (h : b < 2 ^ usizeBits) : split_bit b = (b / 64, b % 64) := by
  simp [split_bit, castW_of_lt h]

theorem add_bit_ok (a : ArrayRepr N) (b : Nat) (h : b < 64 * N) (hu : b < 2 ^ usizeBits) :
    ∃ r, add_bit a b = .ok r ∧
      ∀ i, wbit r.a.toList i = (wbit a.a.toList i || decide (i = b)) := by
  have hk : b / 64 < N := by omega
  obtain ⟨x, hx, hb⟩ := prim.add_bit_ok a.a[b / 64] (b % 64) (by omega)
  refine ⟨⟨a.a.set (b / 64) x⟩, ?_, ?_⟩
  · simp [add_bit, split_ok hu, idxV_ok hk, hx, setV_ok hk]
  · intro i
    simp only [wbit_set _ _ hk]
    by_cases e : i / 64 = b / 64
    · rw [if_pos e, hb, wbit_vec _ i (by omega)]
      have : (i % 64 = b % 64) ↔ i = b := by omega
      simp [e, this]
    · rw [if_neg e]
      have : i ≠ b := fun hh => e (by rw [hh])
      simp [this]

theorem remove_bit_ok (a : ArrayRepr N) (b : Nat) (h : b < 64 * N) (hu : b < 2 ^ usizeBits) :
    ∃ r, remove_bit a b = .ok r ∧
      ∀ i, wbit r.a.toList i = (wbit a.a.toList i && !decide (i = b)) := by
  have hk : b / 64 < N := by omega
  obtain ⟨x, hx, hb⟩ := prim.remove_bit_ok a.a[b / 64] (b % 64) (by omega)
  refine ⟨⟨a.a.set (b / 64) x⟩, ?_, ?_⟩
  · simp [remove_bit, split_ok hu, idxV_ok hk, hx, setV_ok hk]
  · intro i
    simp only [wbit_set _ _ hk]
    by_cases e : i / 64 = b / 64
    · rw [if_pos e, hb, wbit_vec _ i (by omega)]
      have : (i % 64 = b % 64) ↔ i = b := by omega
      simp [e, this]
    · rw [if_neg e]
      have : i ≠ b := fun hh => e (by rw [hh])
      simp [this]

theorem has_bit_ok (a : ArrayRepr N) (b : Nat) (h : b < 64 * N) (hu : b < 2 ^ usizeBits) :
    has_bit a b = .ok (wbit a.a.toList b) := by
  have hk : b / 64 < N := by omega
  simp [has_bit, split_ok hu, idxV_ok hk, prim.has_bit_ok _ _ (by omega : b % 64 < 64),
    wbit_vec _ b hk]

theorem count_loop (ws : List U64) (acc : Nat) (h : acc + 64 * ws.length < 2 ^ 32) :
    forEach ws acc (fun x acc => addW 32 acc (prim.count_ones x)) =
      .ok (acc + (ws.map countOnes).sum) := by
  induction ws generalizing acc with
  | nil => simp [forEach]
  | cons x ws ih =>
    have hx := countOnes_le64 x
    have e : 64 * (x :: ws).length = 64 * ws.length + 64 := by simp; omega
    rw [e] at h
    rw [forEach, prim.count_ones, addW_ok (by omega), Res.ok_bind,
      ih (acc + countOnes x) (by omega), List.map_cons, List.sum_cons]
    congr 1
    omega

theorem count_ones_ok (hN : 64 * N < 2 ^ 32) (a : ArrayRepr N) :
    count_ones a = .ok ((List.range (64 * N)).countP (wbit a.a.toList)) := by
  unfold count_ones
  have hl : a.a.toList.length = N := by simp
  rw [count_loop _ _ (by rw [hl]; omega), ← countP_words, hl]
  simp

theorem trailing_loop (hN : 64 * N < 2 ^ 32) (self : ArrayRepr N)
    (f : Nat → Nat → Res (Flow Nat Nat))
    (hf : ∀ i (hi : i < N) acc, acc + 64 < 2 ^ 32 → f i acc =
      .ok (if self.a[i] ≠ 0 then .ret (acc + trailingZeros self.a[i]) else .next (acc + 64))) :
    ∀ k a, N - a = k → a ≤ N → (∀ i, i < 64 * a → wbit self.a.toList i = false) →
      ∃ o, forEachRet (range a N) (64 * a) f = .ok o ∧
        ((∃ t, o = .ret t ∧ t < 64 * N ∧ (∀ i, i < t → wbit self.a.toList i = false) ∧
          wbit self.a.toList t = true) ∨
         (∃ s, o = .next s ∧ ∀ i, wbit self.a.toList i = false)) := by
  intro k
  induction k with
  | zero =>
    intro a hk ha hz
    have : a = N := by omega
    subst this
    refine ⟨.next (64 * a), by rw [range_self]; rfl, .inr ⟨_, rfl, fun i => ?_⟩⟩
    by_cases hi : i < 64 * a
    · exact hz i hi
    · exact wbit_vec_ge _ i (by omega)
  | succ k ih =>
    intro a hk ha hz
    have hlt : a < N := by omega
    rw [range_cons hlt]
    simp only [forEachRet]
    rw [hf a hlt _ (by omega)]
    by_cases h0 : self.a[a] = 0
    · simp only [h0, ne_eq, not_true_eq_false, if_false, Res.ok_bind]
      have e : 64 * a + 64 = 64 * (a + 1) := by omega
      rw [e]
      apply ih (a + 1) (by omega) (by omega)
      intro i hi
      by_cases hia : i < 64 * a
      · exact hz i hia
      · exact (word_zero_iff self.a a hlt).mp h0 i (by omega)
    · obtain ⟨h1, h2, h3⟩ := trailingZeros_spec h0
      refine ⟨.ret (64 * a + trailingZeros self.a[a]), by rw [if_pos h0]; rfl, .inl ⟨_, rfl, by omega, ?_, ?_⟩⟩
      · intro i hi
        by_cases hia : i < 64 * a
        · exact hz i hia
        · rw [wbit_vec _ i (by omega)]
          have e : i / 64 = a := by omega
          simp only [e]
          exact h3 _ (by omega)
      · rw [wbit_vec_word _ h1 hlt]; exact h2

theorem trailing_zeros_ok (hN : 64 * N < 2 ^ 32) (a : ArrayRepr N) :
    ∃ t, trailing_zeros a = .ok t ∧ t ≤ 64 * N ∧
      (∀ i, i < t → wbit a.a.toList i = false) ∧
      (t < 64 * N → wbit a.a.toList t = true) := by
  obtain ⟨o, ho, hs⟩ := trailing_loop hN a (fun i accum => do
      let x ← idxV a.a i
      if x ≠ 0 then do
        let r ← addW 32 accum (prim.trailing_zeros x)
        pure (.ret r)
      else do
        let accum ← addW 32 accum 64
        pure (.next accum)) (by
    intro i hi acc hacc
    rw [idxV_ok hi, Res.ok_bind]
    by_cases h0 : a.a[i] = 0
    · rw [if_neg (by simp [h0]), if_neg (by simp [h0]), addW_ok hacc]; rfl
    · have := (trailingZeros_spec h0).1
      rw [if_pos h0, if_pos h0, prim.trailing_zeros, addW_ok (by omega)]; rfl)
    N 0 rfl (by omega) (by intro i hi; omega)
  simp only [Nat.mul_zero] at ho
  unfold trailing_zeros
  rw [ho]
  rcases hs with ⟨t, rfl, ht, hz, hb⟩ | ⟨s, rfl, hz⟩
  · exact ⟨t, rfl, by omega, hz, fun _ => hb⟩
  · exact ⟨64 * N, by rw [← WIDTH_eq hN]; rfl, by omega, fun i _ => hz i,
      fun h => absurd h (Nat.lt_irrefl _)⟩

theorem leading_loop (hN : 64 * N < 2 ^ 32) (self : ArrayRepr N)
    (f : Nat → Nat → Res (Flow Nat Nat))
    (hf : ∀ i (hi : i < N) acc, acc + 64 < 2 ^ 32 → f i acc =
      .ok (if self.a[i] ≠ 0 then .ret (acc + leadingZeros self.a[i]) else .next (acc + 64))) :
    ∀ b, b ≤ N → (∀ i, 64 * b ≤ i → wbit self.a.toList i = false) →
      ∃ o, forEachRet (range 0 b).reverse (64 * (N - b)) f = .ok o ∧
        ((∃ t, o = .ret t ∧ t < 64 * N ∧ (∀ i, 64 * N - t ≤ i → wbit self.a.toList i = false) ∧
          wbit self.a.toList (64 * N - 1 - t) = true) ∨
         (∃ s, o = .next s ∧ ∀ i, wbit self.a.toList i = false)) := by
  intro b
  induction b with
  | zero =>
    intro _ hz
    exact ⟨.next _, by rw [range_self]; rfl, .inr ⟨_, rfl, fun i => hz i (by omega)⟩⟩
  | succ b ih =>
    intro hb hz
    have hlt : b < N := by omega
    rw [range_snoc, List.reverse_append]
    simp only [List.reverse_singleton, List.singleton_append, forEachRet]
    rw [hf b hlt _ (by omega)]
    by_cases h0 : self.a[b] = 0
    · simp only [h0, ne_eq, not_true_eq_false, if_false, Res.ok_bind]
      have e : 64 * (N - (b + 1)) + 64 = 64 * (N - b) := by omega
      rw [e]
      apply ih (by omega)
      intro i hi
      by_cases hia : 64 * (b + 1) ≤ i
      · exact hz i hia
      · exact (word_zero_iff self.a b hlt).mp h0 i (by omega)
    · obtain ⟨h1, h2, h3⟩ := leadingZeros_spec h0
      refine ⟨.ret (64 * (N - (b + 1)) + leadingZeros self.a[b]), by rw [if_pos h0]; rfl,
        .inl ⟨_, rfl, by omega, ?_, ?_⟩⟩
      · intro i hi
        by_cases hia : 64 * (b + 1) ≤ i
        · exact hz i hia
        · rw [wbit_vec _ i (by omega)]
          have e : i / 64 = b := by omega
          simp only [e]
          exact h3 _ (by omega)
      · have e : 64 * N - 1 - (64 * (N - (b + 1)) + leadingZeros self.a[b]) =
            64 * b + (64 - 1 - leadingZeros self.a[b]) := by omega
        rw [e, wbit_vec_word _ (by omega) hlt]; exact h2

theorem leading_zeros_ok (hN : 64 * N < 2 ^ 32) (a : ArrayRepr N) :
    ∃ t, leading_zeros a = .ok t ∧ t ≤ 64 * N ∧
      (∀ i, 64 * N - t ≤ i → wbit a.a.toList i = false) ∧
      (t < 64 * N → wbit a.a.toList (64 * N - 1 - t) = true) := by
  obtain ⟨o, ho, hs⟩ := leading_loop hN a (fun i accum => do
      let x ← idxV a.a i
      if x ≠ 0 then do
        let r ← addW 32 accum (prim.leading_zeros x)
        pure (.ret r)
      else do
        let accum ← addW 32 accum 64
        pure (.next accum)) (by
    intro i hi acc hacc
    rw [idxV_ok hi, Res.ok_bind]
    by_cases h0 : a.a[i] = 0
    · rw [if_neg (by simp [h0]), if_neg (by simp [h0]), addW_ok hacc]; rfl
    · have := (leadingZeros_spec h0).1
      rw [if_pos h0, if_pos h0, prim.leading_zeros, addW_ok (by omega)]; rfl)
    N (by omega) (by intro i hi; exact wbit_vec_ge _ i (by omega))
  simp only [Nat.sub_self, Nat.mul_zero] at ho
  unfold leading_zeros
  rw [ho]
  rcases hs with ⟨t, rfl, ht, hz, hb⟩ | ⟨s, rfl, hz⟩
  · exact ⟨t, rfl, by omega, hz, fun _ => hb⟩
  · exact ⟨64 * N, by rw [← WIDTH_eq hN]; rfl, by omega, fun i _ => hz i,
      fun h => absurd h (Nat.lt_irrefl _)⟩

/-! conversions -/

theorem wbit_replicate_vec (i : Nat) : wbit (Vector.replicate N (0 : U64)).toList i = false := by
  rw [Vector.toList_replicate]; exact wbit_replicate N i

theorem from_u64_ok (h0 : 0 < N) (v : U64) : ∃ r : ArrayRepr N, from_u64 v = .ok r ∧
    ∀ i, wbit r.a.toList i = v.getLsbD i := by
  refine ⟨⟨(Vector.replicate N 0).set 0 v⟩, by simp [from_u64, setV_ok h0], fun i => ?_⟩
  simp only [wbit_set _ _ h0, wbit_replicate_vec]
  by_cases h : i < 64
  · have e1 : i / 64 = 0 := by omega
    have e2 : i % 64 = i := by omega
    simp [e1, e2]
  · have e1 : ¬ i / 64 = 0 := by omega
    simp [e1, BitVec.getLsbD_of_ge v i (by omega)]

theorem from_u128_ok (h0 : 0 < N) (v : U128) : ∃ r : ArrayRepr N, from_u128 v = .ok r ∧
    ∀ i, wbit r.a.toList i = (decide (i < 64 * N) && v.getLsbD i) := by
  by_cases h1 : N = 1
  · refine ⟨⟨(Vector.replicate N 0).set 0 (castBV 64 v)⟩, by simp [from_u128, setV_ok h0, h1],
      fun i => ?_⟩
    simp only [wbit_set _ _ h0, wbit_replicate_vec, getLsbD_castBV]
    by_cases h : i < 64
    · have e1 : i / 64 = 0 := by omega
      have e2 : i % 64 = i := by omega
      simp [e1, e2, h1]
    · have e1 : ¬ i / 64 = 0 := by omega
      have e2 : ¬ i < 64 * N := by omega
      simp [e1, e2]
  · have h2 : 1 < N := by omega
    refine ⟨⟨((Vector.replicate N 0).set 0 (castBV 64 v)).set 1 (castBV 64 (v >>> 64))⟩,
      by simp [from_u128, setV_ok h0, setV_ok h2, h1], fun i => ?_⟩
    simp only [wbit_set _ _ h2, wbit_set _ _ h0, wbit_replicate_vec, getLsbD_castBV,
      BitVec.getLsbD_ushiftRight]
    by_cases h : i < 64
    · have e1 : i / 64 = 0 := by omega
      have e2 : i % 64 = i := by omega
      have e3 : i < 64 * N := by omega
      simp [e1, e2, h, e3]
    · by_cases h' : i < 128
      · have e1 : i / 64 = 1 := by omega
        have e2 : 64 + i % 64 = i := by omega
        have e3 : i < 64 * N := by omega
        have e4 : i % 64 < 64 := by omega
        simp [e1, e2, e3, e4]
      · have e1 : ¬ i / 64 = 0 := by omega
        have e2 : ¬ i / 64 = 1 := by omega
        simp [e1, e2, BitVec.getLsbD_of_ge v i (by omega)]

theorem usize_le : usizeBits ≤ 64 := by
  have := Target.usize_ok
  unfold usizeBits; omega

theorem usize_ge : 16 ≤ usizeBits := by
  have := Target.usize_ok
  unfold usizeBits; omega

theorem from_num_ok (h0 : 0 < N) (n : NumTy) (v : BitVec n.bits) :
    ∃ r : ArrayRepr N, from_num n v = .ok r ∧
      ∀ i, wbit r.a.toList i = (decide (i < 64 * N) && v.getLsbD i) := by
  have key : ∀ {w : Nat} (v : BitVec w), w ≤ 64 → ∃ r : ArrayRepr N,
      from_u64 (castBV 64 v) = .ok r ∧
      ∀ i, wbit r.a.toList i = (decide (i < 64 * N) && v.getLsbD i) := by
    intro w v hw
    obtain ⟨r, hr, hb⟩ := from_u64_ok (N := N) h0 (castBV 64 v)
    refine ⟨r, hr, fun i => ?_⟩
    rw [hb, getLsbD_castBV]
    cases hv : v.getLsbD i with
    | false => simp
    | true =>
      have := BitVec.lt_of_getLsbD hv
      have e1 : i < 64 := by omega
      have e2 : i < 64 * N := by omega
      simp [e1, e2]
  cases n with
  | u8 => exact key (w := 8) v (by omega)
  | u16 => exact key (w := 16) v (by omega)
  | u32 => exact key (w := 32) v (by omega)
  | u64 =>
    have h : ∀ v : BitVec 64, ∃ r : ArrayRepr N, from_u64 v = .ok r ∧
        ∀ i, wbit r.a.toList i = (decide (i < 64 * N) && v.getLsbD i) := fun v => by
      have := key v (by omega)
      rwa [castBV, BitVec.setWidth_eq] at this
    exact h v
  | u128 => exact from_u128_ok h0 v
  | usize => exact key (w := usizeBits) v usize_le

theorem from_u128_opt_ok (h0 : 0 < N) (v : U128) :
    ((∀ i, v.getLsbD i = true → i < 64 * N) →
      ∃ r : ArrayRepr N, from_u128_opt v = .ok (some r) ∧
        ∀ i, wbit r.a.toList i = v.getLsbD i) ∧
    (¬ (∀ i, v.getLsbD i = true → i < 64 * N) →
      (from_u128_opt v : Res (Option (ArrayRepr N))) = .ok none) := by
  obtain ⟨r, hr, hb⟩ := from_u128_ok (N := N) h0 v
  have hlt : ∀ i, v.getLsbD i = true → i < 128 := fun i hi => BitVec.lt_of_getLsbD hi
  have hshift : v >>> 64 = 0 ↔ ∀ i, v.getLsbD i = true → i < 64 := by
    rw [eq_zero_iff_bits]
    constructor
    · intro h i hi
      apply Classical.byContradiction
      intro hn
      have := h (i - 64)
      have e : 64 + (i - 64) = i := by omega
      rw [BitVec.getLsbD_ushiftRight, e, hi] at this
      exact Bool.noConfusion this
    · intro h i
      rw [BitVec.getLsbD_ushiftRight]
      cases hv : v.getLsbD (64 + i) with
      | false => rfl
      | true => have := h _ hv; omega
  unfold from_u128_opt
  constructor
  · intro h
    have hc : ¬ (N = 1 ∧ v >>> 64 ≠ 0) := by
      rintro ⟨h1, h2⟩
      apply h2
      rw [hshift]
      intro i hi
      have := h i hi
      omega
    refine ⟨r, by rw [if_neg hc, hr]; rfl, fun i => ?_⟩
    rw [hb]
    cases hv : v.getLsbD i with
    | false => simp
    | true => simp [h i hv]
  · intro h
    have h1 : N = 1 := by
      apply Classical.byContradiction
      intro hn
      exact h (fun i hi => by have := hlt i hi; omega)
    refine if_pos ⟨h1, fun hz => ?_⟩
    rw [hshift] at hz
    exact h (fun i hi => by have := hz i hi; omega)

theorem from_num_opt_ok (h0 : 0 < N) (n : NumTy) (v : BitVec n.bits) :
    ((∀ i, v.getLsbD i = true → i < 64 * N) →
      ∃ r : ArrayRepr N, from_num_opt n v = .ok (some r) ∧
        ∀ i, wbit r.a.toList i = v.getLsbD i) ∧
    (¬ (∀ i, v.getLsbD i = true → i < 64 * N) →
      (from_num_opt n v : Res (Option (ArrayRepr N))) = .ok none) := by
  obtain ⟨r, hr, hb⟩ := from_num_ok (N := N) h0 n v
  have hb' : (∀ i, v.getLsbD i = true → i < 64 * N) → ∀ i, wbit r.a.toList i = v.getLsbD i := by
    intro h i
    rw [hb]
    cases hv : v.getLsbD i with
    | false => simp
    | true => simp [h i hv]
  have small : n.bits ≤ 64 → (from_num_opt n v : Res (Option (ArrayRepr N))) = .ok (some r) →
      ((∀ i, v.getLsbD i = true → i < 64 * N) →
        ∃ r : ArrayRepr N, from_num_opt n v = .ok (some r) ∧
          ∀ i, wbit r.a.toList i = v.getLsbD i) ∧
      (¬ (∀ i, v.getLsbD i = true → i < 64 * N) →
        (from_num_opt n v : Res (Option (ArrayRepr N))) = .ok none) := by
    intro hw he
    refine ⟨fun h => ⟨r, he, hb' h⟩, fun h => absurd (fun i hi => ?_) h⟩
    have := BitVec.lt_of_getLsbD hi
    omega
  cases n with
  | u8 => exact small (by simp [NumTy.bits]) (by simp [from_num_opt, hr])
  | u16 => exact small (by simp [NumTy.bits]) (by simp [from_num_opt, hr])
  | u32 => exact small (by simp [NumTy.bits]) (by simp [from_num_opt, hr])
  | u64 => exact small (by simp [NumTy.bits]) (by simp [from_num_opt, hr])
  | usize => exact small usize_le (by simp [from_num_opt, hr])
  | u128 => exact from_u128_opt_ok h0 v

theorem to_u64_ok (h0 : 0 < N) (a : ArrayRepr N) : ∃ x, to_u64 a = .ok x ∧
    ∀ i, x.getLsbD i = (decide (i < 64) && wbit a.a.toList i) := by
  refine ⟨a.a[0], by simp [to_u64, idxV_ok h0], fun i => ?_⟩
  by_cases h : i < 64
  · rw [wbit_vec _ i (by omega)]
    have e1 : i / 64 = 0 := by omega
    have e2 : i % 64 = i := by omega
    simp [h, e1, e2]
  · simp [h, BitVec.getLsbD_of_ge (a.a[0]) i (by omega)]

theorem to_u128_ok (h0 : 0 < N) (a : ArrayRepr N) : ∃ x, to_u128 a = .ok x ∧
    ∀ i, x.getLsbD i = (decide (i < 128) && wbit a.a.toList i) := by
  by_cases h1 : N = 1
  · refine ⟨castBV 128 a.a[0] ||| 0, by simp [to_u128, idxV_ok h0, h1], fun i => ?_⟩
    rw [BitVec.getLsbD_or, getLsbD_castBV]
    by_cases h : i < 64
    · rw [wbit_vec _ i (by omega)]
      have e1 : i / 64 = 0 := by omega
      have e2 : i % 64 = i := by omega
      simp [e1, e2]
    · rw [wbit_vec_ge _ i (by omega), BitVec.getLsbD_of_ge (a.a[0]) i (by omega)]
      simp
  · have h2 : 1 < N := by omega
    refine ⟨castBV 128 a.a[0] ||| castBV 128 a.a[1] <<< 64,
      by simp [to_u128, idxV_ok h0, idxV_ok h2, h1], fun i => ?_⟩
    rw [getLsbD_two]
    by_cases h : i < 64
    · rw [wbit_vec _ i (by omega)]
      have e1 : i / 64 = 0 := by omega
      have e2 : i % 64 = i := by omega
      have e3 : i < 128 := by omega
      simp [h, e1, e2, e3]
    · by_cases h' : i < 128
      · rw [wbit_vec _ i (by omega)]
        have e1 : i / 64 = 1 := by omega
        have e2 : i % 64 = i - 64 := by omega
        simp [h, e1, e2, h']
      · rw [if_neg h, BitVec.getLsbD_of_ge _ _ (by omega)]
        simp [h']

theorem to_num_ok (h0 : 0 < N) (n : NumTy) (a : ArrayRepr N) : ∃ x, to_num n a = .ok x ∧
    ∀ i, x.getLsbD i = (decide (i < n.bits) && wbit a.a.toList i) := by
  obtain ⟨x, hx, hb⟩ := to_u64_ok h0 a
  have key : ∀ w, w ≤ 64 → ∀ i, (castBV w x).getLsbD i = (decide (i < w) && wbit a.a.toList i) := by
    intro w hw i
    rw [getLsbD_castBV, hb]
    by_cases h : i < w
    · have : i < 64 := by omega
      simp [h, this]
    · simp [h]
  cases n with
  | u8 => exact ⟨castBV 8 x, by simp [to_num, hx, prim.to_num, NumTy.bits], key 8 (by omega)⟩
  | u16 => exact ⟨castBV 16 x, by simp [to_num, hx, prim.to_num, NumTy.bits], key 16 (by omega)⟩
  | u32 => exact ⟨castBV 32 x, by simp [to_num, hx, prim.to_num, NumTy.bits], key 32 (by omega)⟩
  | u64 => exact ⟨x, hx, hb⟩
  | u128 => exact to_u128_ok h0 a
  | usize =>
    exact ⟨castBV usizeBits x, by simp [to_num, hx, prim.to_num, NumTy.bits], key _ usize_le⟩

theorem zeroFrom_ok (self : ArrayRepr N) (k : Nat) :
    ∃ b, zeroFrom self k = .ok b ∧
      (b = true ↔ ∀ i, wbit self.a.toList i = true → i < 64 * k) := by
  have hl : forEachRet (ρ := Unit) (range k N) () (fun i _ => do
      let x ← idxV self.a i
      pure (if x ≠ 0 then .ret () else .next ())) =
      .ok (if (range k N).any (fun i => self.a.getD i 0 != 0) then .ret () else .next ()) := by
    apply forEachRet_any
    intro i hi
    have hi' := (mem_range.mp hi).2
    rw [idxV_ok hi']
    simp [Vector.getD, hi']
  refine ⟨!(range k N).any (fun i => self.a.getD i 0 != 0), ?_, ?_⟩
  · unfold zeroFrom
    rw [hl]
    cases (range k N).any (fun i => self.a.getD i 0 != 0) <;> rfl
  · rw [Bool.not_eq_true', List.any_eq_false]
    constructor
    · intro h i hi
      apply Classical.byContradiction
      intro hn
      have hlt := wbit_lt hi
      simp at hlt
      have hk : i / 64 < N := by omega
      have hz := h (i / 64) (mem_range.mpr ⟨by omega, hk⟩)
      have hz : self.a[i / 64] = 0 := by simpa [Vector.getD, hk] using hz
      have := (word_zero_iff self.a _ hk).mp hz i rfl
      simp [this] at hi
    · intro h j hj
      obtain ⟨hj1, hj2⟩ := mem_range.mp hj
      have : self.a[j] = 0 := by
        rw [word_zero_iff self.a j hj2]
        intro i hi
        cases hw : wbit self.a.toList i with
        | false => rfl
        | true => have := h i hw; omega
      simp [Vector.getD, hj2, this]

theorem to_u64_opt_ok (h0 : 0 < N) (a : ArrayRepr N) :
    ((∀ i, wbit a.a.toList i = true → i < 64) →
      ∃ x, to_u64_opt a = .ok (some x) ∧ ∀ i, x.getLsbD i = wbit a.a.toList i) ∧
    (¬ (∀ i, wbit a.a.toList i = true → i < 64) → to_u64_opt a = .ok none) := by
  obtain ⟨b, hb, hiff⟩ := zeroFrom_ok a 1
  obtain ⟨x, hx, hxb⟩ := to_u64_ok h0 a
  simp only [Nat.mul_one] at hiff
  unfold to_u64_opt
  rw [hb]
  constructor
  · intro h
    rw [hiff.mpr h]
    refine ⟨x, by simp [hx], fun i => ?_⟩
    rw [hxb]
    cases hv : wbit a.a.toList i with
    | false => simp
    | true => simp [h i hv]
  · intro h
    have : b = false := by
      cases hbb : b with
      | false => rfl
      | true => exact absurd (hiff.mp hbb) h
    simp [this]

theorem to_u128_opt_ok (h0 : 0 < N) (a : ArrayRepr N) :
    ((∀ i, wbit a.a.toList i = true → i < 128) →
      ∃ x, to_u128_opt a = .ok (some x) ∧ ∀ i, x.getLsbD i = wbit a.a.toList i) ∧
    (¬ (∀ i, wbit a.a.toList i = true → i < 128) → to_u128_opt a = .ok none) := by
  obtain ⟨b, hb, hiff⟩ := zeroFrom_ok a 2
  obtain ⟨x, hx, hxb⟩ := to_u128_ok h0 a
  simp only [show 64 * 2 = 128 from rfl] at hiff
  unfold to_u128_opt
  rw [hb]
  constructor
  · intro h
    rw [hiff.mpr h]
    refine ⟨x, by simp [hx], fun i => ?_⟩
    rw [hxb]
    cases hv : wbit a.a.toList i with
    | false => simp
    | true => simp [h i hv]
  · intro h
    have : b = false := by
      cases hbb : b with
      | false => rfl
      | true => exact absurd (hiff.mp hbb) h
    simp [this]

theorem to_num_opt_ok (h0 : 0 < N) (n : NumTy) (a : ArrayRepr N) :
    ((∀ i, wbit a.a.toList i = true → i < n.bits) →
      ∃ x, to_num_opt n a = .ok (some x) ∧ ∀ i, x.getLsbD i = wbit a.a.toList i) ∧
    (¬ (∀ i, wbit a.a.toList i = true → i < n.bits) → to_num_opt n a = .ok none) := by
  obtain ⟨u1, u2⟩ := to_u64_opt_ok h0 a
  have small : ∀ w, w ≤ 64 →
      ((∀ i, wbit a.a.toList i = true → i < w) →
        ∃ x, (do let x ← to_u64_opt a; pure (x.bind (fun x => tryInto w x))) = .ok (some x) ∧
          ∀ i, x.getLsbD i = wbit a.a.toList i) ∧
      (¬ (∀ i, wbit a.a.toList i = true → i < w) →
        (do let x ← to_u64_opt a; pure (x.bind (fun x => tryInto w x))) = .ok none) := by
    intro w hw
    by_cases h64 : ∀ i, wbit a.a.toList i = true → i < 64
    · obtain ⟨x, hx, hb⟩ := u1 h64
      obtain ⟨t1, t2⟩ := tryInto_spec (b := w) x
      constructor
      · intro h
        have hx' : ∀ i, x.getLsbD i = true → i < w := fun i hi => h i (by rw [← hb]; exact hi)
        refine ⟨x.setWidth w, by simp [hx, t1 hx'], fun i => ?_⟩
        rw [BitVec.getLsbD_setWidth, hb]
        cases hv : wbit a.a.toList i with
        | false => simp
        | true => simp [h i hv]
      · intro h
        have hx' : ¬ ∀ i, x.getLsbD i = true → i < w :=
          fun hh => h (fun i hi => hh i (by rw [hb]; exact hi))
        simp [hx, t2 hx']
    · constructor
      · intro h
        exact absurd (fun i hi => by have := h i hi; omega) h64
      · intro _
        simp [u2 h64]
  cases n with
  | u8 => exact small 8 (by omega)
  | u16 => exact small 16 (by omega)
  | u32 => exact small 32 (by omega)
  | u64 => exact ⟨u1, u2⟩
  | u128 => exact to_u128_opt_ok h0 a
  | usize => exact small usizeBits usize_le

theorem to_array_ok (O : Nat) (a : ArrayRepr N) : ∃ x, to_u64_array O a = .ok x ∧
    ∀ i, wbit x.toList i = (decide (i < 64 * O) && wbit a.a.toList i) := by
  have hc : (if N < O then N else O) ≤ O ∧ (if N < O then N else O) ≤ N := by split <;> omega
  refine ⟨_, by simp only [to_u64_array, copyPrefixVV]; rw [dif_pos hc], fun i => ?_⟩
  by_cases h : i / 64 < O
  · rw [wbit_vec _ i h]
    have : i < 64 * O := by omega
    simp only [Vector.getElem_ofFn, this, decide_true, Bool.true_and]
    by_cases hN : i / 64 < N
    · have : i / 64 < (if N < O then N else O) := by split <;> omega
      rw [dif_pos this, wbit_vec _ i hN]
    · have : ¬ i / 64 < (if N < O then N else O) := by split <;> omega
      rw [dif_neg this, wbit_vec_ge _ i hN]
      simp
  · rw [wbit_vec_ge _ i h]
    have : ¬ i < 64 * O := by omega
    simp [this]

theorem to_array_opt_ok (O : Nat) (a : ArrayRepr N) :
    ((∀ i, wbit a.a.toList i = true → i < 64 * O) →
      ∃ x, to_u64_array_opt O a = .ok (some x) ∧ ∀ i, wbit x.toList i = wbit a.a.toList i) ∧
    (¬ (∀ i, wbit a.a.toList i = true → i < 64 * O) → to_u64_array_opt O a = .ok none) := by
  obtain ⟨x, hx, hb⟩ := to_array_ok O a
  obtain ⟨b, hb', hiff⟩ := zeroFrom_ok a O
  obtain ⟨c, hc, hciff⟩ : ∃ c, (if N > O then zeroFrom a O else pure true) = .ok c ∧
      (c = true ↔ ∀ i, wbit a.a.toList i = true → i < 64 * O) := by
    by_cases h : N > O
    · exact ⟨b, by rw [if_pos h, hb'], hiff⟩
    · refine ⟨true, by rw [if_neg h]; rfl, ?_⟩
      simp only [true_iff]
      intro i hi
      have := wbit_lt hi
      simp at this
      omega
  have e : to_u64_array_opt O a = if c then .ok (some x) else .ok none := by
    unfold to_u64_array_opt
    simp only [ite_bind, hc, Res.ok_bind, hx]
    cases c <;> rfl
  constructor
  · intro h
    refine ⟨x, by rw [e, hciff.mpr h]; rfl, fun i => ?_⟩
    rw [hb]
    cases hv : wbit a.a.toList i with
    | false => simp
    | true => simp [h i hv]
  · intro h
    have : c = false := by
      cases hbb : c with
      | false => rfl
      | true => exact absurd (hciff.mp hbb) h
    rw [e, this]; rfl

theorem to_slice_ok (a : ArrayRepr N) (out : List U64) : ∃ x, to_u64_slice a out = .ok x ∧
    x.length = out.length ∧
    ∀ i, wbit x i = (decide (i < 64 * out.length) && wbit a.a.toList i) := by
  have hc : (if N < out.length then N else out.length) ≤ out.length ∧
      (if N < out.length then N else out.length) ≤ N := by split <;> omega
  have hcv : (if N < out.length then N else out.length) = N ∨
      (if N < out.length then N else out.length) = out.length := by split <;> omega
  generalize hcl : (if N < out.length then N else out.length) = c at hc hcv
  let o1 := a.a.toList.take c ++ out.drop c
  have ho1 : copyPrefixLV out a.a c = .ok o1 := by simp [copyPrefixLV, hc, o1]
  have hl1 : o1.length = out.length := by simp [o1]; omega
  have hw1 : ∀ k, k < c → o1.getD k 0 = a.a.toList.getD k 0 := by
    intro k hk
    have : k < (a.a.toList.take c).length := by simp; omega
    simp only [o1, List.getD, List.getElem?_append_left this]
    rw [List.getElem?_take_of_lt hk]
  obtain ⟨x, hx, hxl, hxw⟩ := forEach_range (fun i out => setL out i (0 : U64))
    (fun j s => s.length = out.length ∧ ∀ k, k < j → s.getD k 0 = a.a.toList.getD k 0)
    o1.length (o1.length - c) c o1 rfl (by omega) ⟨hl1, hw1⟩ (by
      intro i s hi hil ⟨hsl, hsw⟩
      refine ⟨s.set i 0, setL_ok (by omega), by simp [hsl], ?_⟩
      intro k hk
      by_cases hki : k = i
      · subst hki
        have hk' : k < s.length := by omega
        have : N ≤ k := by omega
        simp [List.getD, hk', this]
      · have := hsw k (by omega)
        simp only [List.getD, List.getElem?_set] at this ⊢
        simpa [Ne.symm hki] using this)
  refine ⟨x, ?_, hxl, ?_⟩
  · unfold to_u64_slice
    simp only [hcl, ho1, Res.ok_bind, hx]
  · exact wbit_of_words (fun k => a.a.toList.getD k 0) _ hxl (fun k hk => hxw k (by omega))
      (fun i => rfl)

theorem to_slice_opt_ok (a : ArrayRepr N) (out : List U64) :
    ((∀ i, wbit a.a.toList i = true → i < 64 * out.length) →
      ∃ x, to_u64_slice_opt a out = .ok (some (), x) ∧ x.length = out.length ∧
        ∀ i, wbit x i = wbit a.a.toList i) ∧
    (¬ (∀ i, wbit a.a.toList i = true → i < 64 * out.length) →
      to_u64_slice_opt a out = .ok (none, out)) := by
  obtain ⟨x, hx, hl, hb⟩ := to_slice_ok a out
  obtain ⟨b, hb', hiff⟩ := zeroFrom_ok a out.length
  obtain ⟨c, hc, hciff⟩ : ∃ c, (if N > out.length then zeroFrom a out.length else pure true) = .ok c
      ∧ (c = true ↔ ∀ i, wbit a.a.toList i = true → i < 64 * out.length) := by
    by_cases h : N > out.length
    · exact ⟨b, by rw [if_pos h, hb'], hiff⟩
    · refine ⟨true, by rw [if_neg h]; rfl, ?_⟩
      simp only [true_iff]
      intro i hi
      have := wbit_lt hi
      simp at this
      omega
  have e : to_u64_slice_opt a out = if c then .ok (some (), x) else .ok (none, out) := by
    unfold to_u64_slice_opt
    simp only [ite_bind, hc, Res.ok_bind, hx]
    cases c <;> rfl
  constructor
  · intro h
    refine ⟨x, by rw [e, hciff.mpr h]; rfl, hl, fun i => ?_⟩
    rw [hb]
    cases hv : wbit a.a.toList i with
    | false => simp
    | true => simp [h i hv]
  · intro h
    have : c = false := by
      cases hbb : c with
      | false => rfl
      | true => exact absurd (hciff.mp hbb) h
    rw [e, this]; rfl

theorem from_slice_ok (v : List U64) : ∃ r : ArrayRepr N, from_u64_slice v = .ok r ∧
    ∀ i, wbit r.a.toList i = (decide (i < 64 * N) && wbit v i) := by
  have hc : (if N < v.length then N else v.length) ≤ N ∧
      (if N < v.length then N else v.length) ≤ v.length := by split <;> omega
  refine ⟨⟨_⟩, by simp only [from_u64_slice, copyPrefixVL]; rw [dif_pos hc]; rfl, fun i => ?_⟩
  by_cases h : i / 64 < N
  · rw [wbit_vec _ i h]
    have : i < 64 * N := by omega
    simp only [Vector.getElem_ofFn, this, decide_true, Bool.true_and]
    by_cases hl : i / 64 < v.length
    · have : i / 64 < (if N < v.length then N else v.length) := by split <;> omega
      rw [dif_pos this]
      simp [wbit, List.getD, hl]
    · have : ¬ i / 64 < (if N < v.length then N else v.length) := by split <;> omega
      rw [dif_neg this, wbit_of_ge (by omega)]
      simp
  · rw [wbit_vec_ge _ i h]
    have : ¬ i < 64 * N := by omega
    simp [this]

theorem from_slice_opt_ok (v : List U64) :
    ((∀ i, wbit v i = true → i < 64 * N) →
      ∃ r : ArrayRepr N, from_u64_slice_opt v = .ok (some r) ∧ ∀ i, wbit r.a.toList i = wbit v i) ∧
    (¬ (∀ i, wbit v i = true → i < 64 * N) →
      (from_u64_slice_opt v : Res (Option (ArrayRepr N))) = .ok none) := by
  obtain ⟨x, hx, hb⟩ := from_slice_ok (N := N) v
  have hl : forEachRet (ρ := Unit) (range N v.length) () (fun i _ => do
      let x ← idxL v i
      pure (if x ≠ 0 then .ret () else .next ())) =
      .ok (if (range N v.length).any (fun i => v.getD i 0 != 0) then .ret () else .next ()) := by
    apply forEachRet_any
    intro i hi
    have hi' := (mem_range.mp hi).2
    rw [idxL_ok hi']
    simp [List.getD, hi']
  have hany : (range N v.length).any (fun i => v.getD i 0 != 0) = false ↔
      ∀ i, wbit v i = true → i < 64 * N := by
    rw [List.any_eq_false]
    constructor
    · intro h i hi
      apply Classical.byContradiction
      intro hn
      have hlt := wbit_lt hi
      have := h (i / 64) (mem_range.mpr ⟨by omega, by omega⟩)
      have : v.getD (i / 64) 0 = 0 := by simpa using this
      unfold wbit at hi
      rw [this] at hi
      simp at hi
    · intro h j hj
      obtain ⟨hj1, hj2⟩ := mem_range.mp hj
      have : v[j] = 0 := by
        rw [eq_zero_iff_bits]
        intro k
        by_cases hk : k < 64
        · rw [← wbit_word hk hj2]
          cases hw : wbit v (64 * j + k) with
          | false => rfl
          | true => have := h _ hw; omega
        · exact BitVec.getLsbD_of_ge _ _ (by omega)
      simp [List.getD, hj2, this]
  obtain ⟨c, hc, hciff⟩ : ∃ c : Bool, (if v.length > N then
        forEachRet (ρ := Unit) (range N v.length) () (fun i _ => do
          let x ← idxL v i
          pure (if x ≠ 0 then .ret () else .next ()))
      else pure (.next ())) = .ok (if c then .next () else .ret ()) ∧
      (c = true ↔ ∀ i, wbit v i = true → i < 64 * N) := by
    by_cases h : v.length > N
    · refine ⟨!(range N v.length).any (fun i => v.getD i 0 != 0), ?_, ?_⟩
      · rw [if_pos h, hl]
        cases (range N v.length).any (fun i => v.getD i 0 != 0) <;> rfl
      · rw [Bool.not_eq_true', hany]
    · refine ⟨true, by rw [if_neg h]; rfl, ?_⟩
      simp only [true_iff]
      intro i hi
      have := wbit_lt hi
      omega
  have e : (from_u64_slice_opt v : Res (Option (ArrayRepr N))) =
      if c then .ok (some x) else .ok none := by
    unfold from_u64_slice_opt
    simp only [ite_bind, hc, Res.ok_bind, hx]
    cases c <;> rfl
  constructor
  · intro h
    refine ⟨x, by rw [e, hciff.mpr h]; rfl, fun i => ?_⟩
    rw [hb]
    cases hv : wbit v i with
    | false => simp
    | true => simp [h i hv]
  · intro h
    have : c = false := by
      cases hbb : c with
      | false => rfl
      | true => exact absurd (hciff.mp hbb) h
    rw [e, this]; rfl

end ArrayRepr

/-! ### the iterator -/

namespace ArrayIter

variable [Platform] {N : Nat}

/-- Invariant of `ArrayIter`. -/
structure Inv (it : ArrayIter N) : Prop where
  r_lt : it.idx_r < N
  f_le : it.idx_f ≤ it.idx_r + 1
  out : ∀ k (hk : k < N), k < it.idx_f ∨ it.idx_r < k → it.data[k] = 0
  fin : it.done = true → ∀ k (hk : k < N), it.data[k] = 0

theorem new_ok (h0 : 0 < N) (a : ArrayRepr N) : ∃ it, new a = .ok it ∧ Inv it ∧
    ∀ i, wbit it.data.toList i = wbit a.a.toList i := by
  obtain ⟨r, hr, hP⟩ := forEach_range
    (fun i (new : Vector U64 N) => do
      let x ← idxV a.a i
      setV new i x)
    (fun j t => ∀ k (hk : k < N), k < j → t[k] = a.a[k]) N N 0 (Vector.replicate N (0 : U64)) rfl
    (Nat.zero_le _) (by intro k hk h; omega) (by
      intro i t _ hi ht
      refine ⟨t.set i a.a[i], by rw [idxV_ok hi, Res.ok_bind, setV_ok hi], ?_⟩
      intro k hk hkj
      rw [Vector.getElem_set]
      by_cases hki : i = k
      · subst hki; simp
      · rw [if_neg hki]
        exact ht k hk (by omega))
  have hra : r = a.a := by
    apply Vector.ext
    intro k hk
    exact hP k hk hk
  subst hra
  refine ⟨{ data := a.a, done := false, idx_f := 0, idx_r := N - 1 }, ?_, ⟨?_, ?_, ?_, ?_⟩,
    fun i => rfl⟩
  · unfold new
    rw [hr, Res.ok_bind, subW_ok (by omega)]
    rfl
  · change N - 1 < N; omega
  · exact Nat.zero_le _
  · intro k hk h
    change k < 0 ∨ N - 1 < k at h
    omega
  · intro h; exact Bool.noConfusion h

/-- What `next` does to the bits still to come. -/
def NextSpec (before : Nat → Bool) (o : Option Nat) (after : Nat → Bool) : Prop :=
  (o = none ∧ (∀ i, before i = false) ∧ ∀ i, after i = false) ∨
    (∃ b, o = some b ∧ before b = true ∧ (∀ i, i < b → before i = false) ∧
      ∀ i, after i = (before i && !decide (i = b)))

/-- What `next_back` does to the bits still to come. -/
def BackSpec (before : Nat → Bool) (o : Option Nat) (after : Nat → Bool) : Prop :=
  (o = none ∧ (∀ i, before i = false) ∧ ∀ i, after i = false) ∨
    (∃ b, o = some b ∧ before b = true ∧ (∀ i, b < i → before i = false) ∧
      ∀ i, after i = (before i && !decide (i = b)))

theorem all_zero_bits {it : ArrayIter N} (h : ∀ k (hk : k < N), it.data[k] = 0) (i : Nat) :
    wbit it.data.toList i = false := by
  by_cases hi : i / 64 < N
  · exact (word_zero_iff it.data _ hi).mp (h _ hi) i rfl
  · exact wbit_vec_ge _ i hi

theorem data_set_zero {v : Vector U64 N} {k : Nat} (hk : k < N) {x : U64} (hz : v[k] = 0)
    (hx : x = 0) : v.set k x = v := by
  apply Vector.ext
  intro j hj
  rw [Vector.getElem_set]
  by_cases h : k = j
  · subst h; simp [hx, hz]
  · simp [h]

theorem wbit_remove {v : Vector U64 N} {k b : Nat} (hk : k < N) (hb64 : b < 64) {x : U64}
    (hx : ∀ i, x.getLsbD i = (v[k].getLsbD i && !decide (i = b))) (i : Nat) :
    wbit (v.set k x).toList i = (wbit v.toList i && !decide (i = k * 64 + b)) := by
  rw [wbit_set _ _ hk]
  by_cases e : i / 64 = k
  · rw [if_pos e, hx, wbit_vec _ i (by omega)]
    have : (i % 64 = b) ↔ i = k * 64 + b := by omega
    simp [e, this]
  · rw [if_neg e]
    have : i ≠ k * 64 + b := by omega
    simp [this]

theorem nextLoop_ok (hN : 64 * N < 2 ^ 32) (hu : N < 2 ^ usizeBits) :
    ∀ (fuel : Nat) (it : ArrayIter N), it.idx_r + 1 - it.idx_f < fuel → Inv it → it.done = false →
      ∃ o it', nextLoop fuel it = .ok (o, it') ∧ Inv it' ∧
        NextSpec (wbit it.data.toList) o (wbit it'.data.toList) := by
  intro fuel
  induction fuel with
  | zero => intro it h; omega
  | succ fuel ih =>
    intro it hfuel hI hd
    have hr := hI.r_lt
    unfold nextLoop
    by_cases hle : it.idx_f ≤ it.idx_r
    · rw [if_pos hle]
      have hf : it.idx_f < N := by omega
      obtain ⟨o, x', hx', hs⟩ := prim.next_ok it.data[it.idx_f]
      rw [idxV_ok hf, Res.ok_bind, hx', Res.ok_bind]
      simp only [setV_ok hf, Res.ok_bind]
      rcases hs with ⟨rfl, hz, hz'⟩ | ⟨b, rfl, hb, hmin, hrem⟩
      · have hz0 : it.data[it.idx_f] = 0 := (eq_zero_iff_bits _).mpr hz
        have hz0' : x' = 0 := (eq_zero_iff_bits _).mpr hz'
        have hds : it.data.set it.idx_f x' = it.data := data_set_zero hf hz0 hz0'
        simp only [addW_ok (show it.idx_f + 1 < 2 ^ usizeBits by omega), Res.ok_bind, hds]
        have hI' : Inv { it with idx_f := it.idx_f + 1 } := by
          refine ⟨hr, ?_, ?_, ?_⟩
          · change it.idx_f + 1 ≤ it.idx_r + 1; omega
          · intro k hk h
            change k < it.idx_f + 1 ∨ it.idx_r < k at h
            by_cases hkf : k = it.idx_f
            · subst hkf; exact hz0
            · exact hI.out k hk (by omega)
          · exact hI.fin
        obtain ⟨o, it', h1, h2, h3⟩ := ih { it with idx_f := it.idx_f + 1 }
          (by change it.idx_r + 1 - (it.idx_f + 1) < fuel; omega) hI' hd
        exact ⟨o, it', h1, h2, h3⟩
      · have hb64 : b < 64 := BitVec.lt_of_getLsbD hb
        have hc : castW 32 it.idx_f = it.idx_f := castW_of_lt (by omega)
        have hwb : wbit it.data.toList (it.idx_f * 64 + b) = true := by
          rw [Nat.mul_comm, wbit_vec_word _ hb64 hf]; exact hb
        simp only [hc, mulW_ok (show it.idx_f * 64 < 2 ^ 32 by omega), Res.ok_bind,
          addW_ok (show it.idx_f * 64 + b < 2 ^ 32 by omega)]
        refine ⟨_, _, rfl, ⟨hr, hI.f_le, ?_, ?_⟩, .inr ⟨_, rfl, hwb, ?_, ?_⟩⟩
        · intro k hk h
          have h : k < it.idx_f ∨ it.idx_r < k := h
          change (it.data.set it.idx_f x')[k] = 0
          rw [Vector.getElem_set, if_neg (by omega)]
          exact hI.out k hk h
        · intro h
          have h : it.done = true := h
          rw [hd] at h; exact Bool.noConfusion h
        · intro i hi
          by_cases hif : i / 64 < it.idx_f
          · exact (word_zero_iff it.data _ (by omega)).mp (hI.out (i / 64) (by omega) (.inl hif)) i rfl
          · have e : i / 64 = it.idx_f := by omega
            rw [wbit_vec _ i (by omega)]
            simp only [e]
            exact hmin _ (by omega)
        · exact wbit_remove hf hb64 hrem
    · rw [if_neg hle]
      have hz : ∀ k (hk : k < N), it.data[k] = 0 := fun k hk => hI.out k hk (by omega)
      exact ⟨none, _, rfl, ⟨hr, hI.f_le, hI.out, fun _ => hz⟩,
        .inl ⟨rfl, all_zero_bits hz, all_zero_bits hz⟩⟩

theorem next_ok (hN : 64 * N < 2 ^ 32) (hu : N < 2 ^ usizeBits) (it : ArrayIter N) (hI : Inv it) :
    ∃ o it', next it = .ok (o, it') ∧ Inv it' ∧
      NextSpec (wbit it.data.toList) o (wbit it'.data.toList) := by
  unfold next
  by_cases hd : it.done = true
  · rw [if_pos hd]
    have hz := hI.fin hd
    exact ⟨none, it, rfl, hI, .inl ⟨rfl, all_zero_bits hz, all_zero_bits hz⟩⟩
  · rw [if_neg hd]
    exact nextLoop_ok hN hu _ it (by omega) hI (by simpa using hd)

theorem nextBackLoop_ok (hN : 64 * N < 2 ^ 32) :
    ∀ (fuel : Nat) (it : ArrayIter N), it.idx_r + 1 - it.idx_f < fuel → Inv it → it.done = false →
      ∃ o it', nextBackLoop fuel it = .ok (o, it') ∧ Inv it' ∧
        BackSpec (wbit it.data.toList) o (wbit it'.data.toList) := by
  intro fuel
  induction fuel with
  | zero => intro it h; omega
  | succ fuel ih =>
    intro it hfuel hI hd
    have hr := hI.r_lt
    unfold nextBackLoop
    by_cases hle : it.idx_f ≤ it.idx_r
    · rw [if_pos hle]
      obtain ⟨o, x', hx', hs⟩ := prim.next_back_ok it.data[it.idx_r]
      rw [idxV_ok hr, Res.ok_bind, hx', Res.ok_bind]
      simp only [setV_ok hr, Res.ok_bind]
      rcases hs with ⟨rfl, hz, hz'⟩ | ⟨b, rfl, hb, hmax, hrem⟩
      · have hz0 : it.data[it.idx_r] = 0 := (eq_zero_iff_bits _).mpr hz
        have hz0' : x' = 0 := (eq_zero_iff_bits _).mpr hz'
        have hds : it.data.set it.idx_r x' = it.data := data_set_zero hr hz0 hz0'
        simp only [hds]
        by_cases hr0 : it.idx_r = 0
        · rw [if_pos hr0]
          have hz : ∀ k (hk : k < N), it.data[k] = 0 := by
            intro k hk
            by_cases hk0 : k = it.idx_r
            · subst hk0; exact hz0
            · exact hI.out k hk (by omega)
          exact ⟨none, _, rfl, ⟨hr, hI.f_le, hI.out, fun _ => hz⟩,
            .inl ⟨rfl, all_zero_bits hz, all_zero_bits hz⟩⟩
        · rw [if_neg hr0]
          simp only [subW_ok (show 1 ≤ it.idx_r by omega), Res.ok_bind]
          have hI' : Inv { it with idx_r := it.idx_r - 1 } := by
            refine ⟨?_, ?_, ?_, ?_⟩
            · change it.idx_r - 1 < N; omega
            · change it.idx_f ≤ it.idx_r - 1 + 1; omega
            · intro k hk h
              change k < it.idx_f ∨ it.idx_r - 1 < k at h
              by_cases hkf : k = it.idx_r
              · subst hkf; exact hz0
              · exact hI.out k hk (by omega)
            · exact hI.fin
          obtain ⟨o, it', h1, h2, h3⟩ := ih { it with idx_r := it.idx_r - 1 }
            (by change it.idx_r - 1 + 1 - it.idx_f < fuel; omega) hI' hd
          exact ⟨o, it', h1, h2, h3⟩
      · have hb64 : b < 64 := BitVec.lt_of_getLsbD hb
        have hc : castW 32 it.idx_r = it.idx_r := castW_of_lt (by omega)
        have hwb : wbit it.data.toList (it.idx_r * 64 + b) = true := by
          rw [Nat.mul_comm, wbit_vec_word _ hb64 hr]; exact hb
        simp only [hc, mulW_ok (show it.idx_r * 64 < 2 ^ 32 by omega), Res.ok_bind,
          addW_ok (show it.idx_r * 64 + b < 2 ^ 32 by omega)]
        refine ⟨_, _, rfl, ⟨hr, hI.f_le, ?_, ?_⟩, .inr ⟨_, rfl, hwb, ?_, ?_⟩⟩
        · intro k hk h
          have h : k < it.idx_f ∨ it.idx_r < k := h
          change (it.data.set it.idx_r x')[k] = 0
          rw [Vector.getElem_set, if_neg (by omega)]
          exact hI.out k hk h
        · intro h
          have h : it.done = true := h
          rw [hd] at h; exact Bool.noConfusion h
        · intro i hi
          by_cases hiN : i / 64 < N
          · by_cases hif : it.idx_r < i / 64
            · exact (word_zero_iff it.data _ hiN).mp (hI.out (i / 64) hiN (.inr hif)) i rfl
            · have e : i / 64 = it.idx_r := by omega
              rw [wbit_vec _ i hiN]
              simp only [e]
              exact hmax _ (by omega)
          · exact wbit_vec_ge _ i hiN
        · exact wbit_remove hr hb64 hrem
    · rw [if_neg hle]
      have hz : ∀ k (hk : k < N), it.data[k] = 0 := fun k hk => hI.out k hk (by omega)
      exact ⟨none, _, rfl, ⟨hr, hI.f_le, hI.out, fun _ => hz⟩,
        .inl ⟨rfl, all_zero_bits hz, all_zero_bits hz⟩⟩

theorem next_back_ok (hN : 64 * N < 2 ^ 32) (it : ArrayIter N) (hI : Inv it) :
    ∃ o it', next_back it = .ok (o, it') ∧ Inv it' ∧
      BackSpec (wbit it.data.toList) o (wbit it'.data.toList) := by
  unfold next_back
  by_cases hd : it.done = true
  · rw [if_pos hd]
    have hz := hI.fin hd
    exact ⟨none, it, rfl, hI, .inl ⟨rfl, all_zero_bits hz, all_zero_bits hz⟩⟩
  · rw [if_neg hd]
    exact nextBackLoop_ok hN _ it (by omega) hI (by simpa using hd)

theorem size_hint_ok (hu : N < 2 ^ usizeBits) (it : ArrayIter N) (hI : Inv it)
    (hc : (List.range (64 * N)).countP (wbit it.data.toList) < 2 ^ usizeBits) :
    size_hint it = .ok ((List.range (64 * N)).countP (wbit it.data.toList),
      some ((List.range (64 * N)).countP (wbit it.data.toList))) := by
  have hr := hI.r_lt
  have hl : it.data.toList.length = N := by simp
  have htot : (List.range (64 * N)).countP (wbit it.data.toList) =
      (it.data.toList.map countOnes).sum := by rw [← countP_words, hl]
  rw [htot] at hc ⊢
  have h16 : (64 : Nat) < 2 ^ usizeBits :=
    Nat.lt_of_lt_of_le (by decide : 64 < 2 ^ 16) (Nat.pow_le_pow_right (by omega) ArrayRepr.usize_ge)
  have hzero : ((it.data.toList.take it.idx_f).map countOnes).sum = 0 := by
    apply sum_zero_of_zero
    intro x hx
    obtain ⟨k, hk, rfl⟩ := List.mem_iff_getElem.mp hx
    have hk' : k < it.idx_f ∧ k < N := by simp at hk; omega
    simpa using hI.out k hk'.2 (.inl hk'.1)
  have hlast : ((it.data.toList.take (it.idx_r + 1)).map countOnes).sum =
      (it.data.toList.map countOnes).sum := by
    conv => rhs; rw [← List.take_append_drop (it.idx_r + 1) it.data.toList]
    rw [List.map_append, List.sum_append]
    have : ((it.data.toList.drop (it.idx_r + 1)).map countOnes).sum = 0 := by
      apply sum_zero_of_zero
      intro x hx
      obtain ⟨k, hk, rfl⟩ := List.mem_iff_getElem.mp hx
      have hk' : it.idx_r + 1 + k < N := by simp at hk; omega
      simpa using hI.out (it.idx_r + 1 + k) hk' (.inr (by omega))
    omega
  obtain ⟨s, hs, hP⟩ := forEach_range
    (fun i sum => do
      let x ← idxV it.data i
      addW usizeBits sum (castW usizeBits (prim.count_ones x)))
    (fun j s => s = ((it.data.toList.take j).map countOnes).sum)
    (it.idx_r + 1) (it.idx_r + 1 - it.idx_f) it.idx_f 0 rfl hI.f_le hzero.symm (by
      intro i s hi hir hs
      have hiN : i < N := by omega
      have hx := countOnes_le64 it.data[i]
      have hsucc := sum_take_succ it.data.toList i (by omega)
      have hle := sum_take_le it.data.toList (i + 1)
      simp only [Vector.getElem_toList] at hsucc
      refine ⟨_, ?_, rfl⟩
      rw [idxV_ok hiN, Res.ok_bind, prim.count_ones, castW_of_lt (by omega), hsucc, ← hs]
      exact addW_ok (by omega))
  unfold size_hint
  rw [addW_ok (by omega), Res.ok_bind, hs, Res.ok_bind, hP, hlast]
  rfl

end ArrayIter

/-! ### the order -/

theorem partialCmpWords_eq (a b : List U64) : partialCmpWords a b = some (cmpWords a b) := by
  induction a generalizing b with
  | nil => cases b <;> rfl
  | cons x xs ih =>
    cases b with
    | nil => rfl
    | cons y ys =>
      simp only [partialCmpWords, cmpWords]
      cases h : compare x.toNat y.toNat <;> simp [ih]

theorem cmpWords_eq_iff {a b : List U64} : cmpWords a b = .eq ↔ a = b := by
  induction a generalizing b with
  | nil => cases b <;> simp [cmpWords]
  | cons x xs ih =>
    cases b with
    | nil => simp [cmpWords]
    | cons y ys =>
      simp only [cmpWords, List.cons.injEq]
      cases h : compare x.toNat y.toNat with
      | eq =>
        have : x = y := BitVec.toNat_inj.mp (Nat.compare_eq_eq.mp h)
        simp [ih, this]
      | lt =>
        have : x ≠ y := by rintro rfl; simp at h
        simp [this]
      | gt =>
        have : x ≠ y := by rintro rfl; simp at h
        simp [this]

theorem cmpWords_swap (a b : List U64) : cmpWords b a = (cmpWords a b).swap := by
  induction a generalizing b with
  | nil => cases b <;> rfl
  | cons x xs ih =>
    cases b with
    | nil => rfl
    | cons y ys =>
      simp only [cmpWords]
      rw [← Nat.compare_swap x.toNat y.toNat]
      cases h : compare x.toNat y.toNat <;> simp [ih]

theorem cmpWords_trans {a b c : List U64} (h1 : cmpWords a b ≠ .gt) (h2 : cmpWords b c ≠ .gt) :
    cmpWords a c ≠ .gt := by
  induction a generalizing b c with
  | nil => cases c <;> simp [cmpWords]
  | cons x xs ih =>
    cases b with
    | nil => simp [cmpWords] at h1
    | cons y ys =>
      cases c with
      | nil => simp [cmpWords] at h2
      | cons z zs =>
        simp only [cmpWords] at h1 h2 ⊢
        cases hxy : compare x.toNat y.toNat with
        | gt => simp [hxy] at h1
        | lt =>
          have hxy := Nat.compare_eq_lt.mp hxy
          cases hyz : compare y.toNat z.toNat with
          | gt => simp [hyz] at h2
          | lt =>
            have hyz := Nat.compare_eq_lt.mp hyz
            have : compare x.toNat z.toNat = .lt := Nat.compare_eq_lt.mpr (by omega)
            simp [this]
          | eq =>
            have hyz := Nat.compare_eq_eq.mp hyz
            have : compare x.toNat z.toNat = .lt := Nat.compare_eq_lt.mpr (by omega)
            simp [this]
        | eq =>
          rw [hxy] at h1
          have hxy := Nat.compare_eq_eq.mp hxy
          rw [hxy]
          cases hyz : compare y.toNat z.toNat with
          | gt => simp [hyz] at h2
          | lt => simp
          | eq =>
            rw [hyz] at h2
            exact ih h1 h2

theorem cmpWords_subset {a b : List U64} (hl : a.length = b.length)
    (h : ∀ i, wbit a i = true → wbit b i = true) : cmpWords a b ≠ .gt := by
  induction a generalizing b with
  | nil => cases b <;> simp [cmpWords]
  | cons x xs ih =>
    cases b with
    | nil => simp at hl
    | cons y ys =>
      have hxy : x.toNat ≤ y.toNat := by
        apply prim.toNat_le_of_subset
        intro i hi
        have hi64 : i < 64 := BitVec.lt_of_getLsbD hi
        have := h i
        rw [wbit_cons, wbit_cons, if_pos hi64, if_pos hi64] at this
        exact this hi
      simp only [cmpWords]
      cases hc : compare x.toNat y.toNat with
      | gt => have := Nat.compare_eq_gt.mp hc; omega
      | lt => simp
      | eq =>
        apply ih (by simpa using hl)
        intro i hi
        have := h (i + 64)
        rw [wbit_cons, wbit_cons, if_neg (by omega), if_neg (by omega)] at this
        simpa using this (by simpa using hi)

/-- The array representation is lawful. -/
@[instance_reducible] def lawfulArray [Platform] {N : Nat} (h0 : 0 < N) (hN : 64 * N < 2 ^ 32)
    (hu : N < 2 ^ usizeBits) : LawfulRepr (ArrayRepr N) :=
  have hW : EnumSetTypeRepr.WIDTH (ArrayRepr N) = 64 * N := ArrayRepr.WIDTH_eq hN
  { bit := fun r i => wbit r.a.toList i
    Inv := ArrayIter.Inv
    ibit := fun it i => wbit (ArrayIter.data it).toList i
    bit_lt := fun {r i} h => by rw [hW]; simpa using wbit_lt h
    ext := fun {a b} h => by
      cases a; cases b
      congr 1
      exact vec_ext h
    width_pos := by rw [hW]; omega
    width_lt := by rw [hW]; exact hN
    width_le := by rw [hW]; exact Nat.le_refl _
    eq_iff := fun {a b} => by
      cases a; cases b
      simp [EnumSetTypeRepr.eq]
    hash_inj := fun {a b} h => by
      cases a; cases b
      simp only [EnumSetTypeRepr.hash, List.cons.injEq, HashWrite.words.injEq] at h
      congr 1
      exact Vector.toList_inj.mp h.2.1
    partial_cmp_eq := fun a b => partialCmpWords_eq _ _
    cmp_eq_iff := fun {a b} => by
      cases a; cases b
      simp only [EnumSetTypeRepr.cmp, cmpWords_eq_iff, ArrayRepr.mk.injEq]
      exact Vector.toList_inj
    cmp_swap := fun a b => cmpWords_swap _ _
    cmp_trans := fun {a b c} h1 h2 => cmpWords_trans h1 h2
    cmp_subset := fun {a b} h => cmpWords_subset (by simp) h
    bit_empty := fun i => ArrayRepr.wbit_replicate_vec i
    bitand_ok := ArrayRepr.bitand_ok
    bitor_ok := ArrayRepr.bitor_ok
    bitxor_ok := ArrayRepr.bitxor_ok
    not_ok := fun a => by rw [hW]; exact ArrayRepr.not_ok a
    and_not_ok := ArrayRepr.and_not_ok
    is_empty_ok := fun a => ⟨_, rfl, ArrayRepr.is_empty_iff a⟩
    add_bit_ok := fun a b hb hbu => ArrayRepr.add_bit_ok a b (by rwa [hW] at hb) hbu
    remove_bit_ok := fun a b hb hbu => ArrayRepr.remove_bit_ok a b (by rwa [hW] at hb) hbu
    has_bit_ok := fun a b hb hbu => ArrayRepr.has_bit_ok a b (by rwa [hW] at hb) hbu
    count_ones_ok := fun a => by rw [hW]; exact ArrayRepr.count_ones_ok hN a
    trailing_zeros_ok := fun a => by rw [hW]; exact ArrayRepr.trailing_zeros_ok hN a
    leading_zeros_ok := fun a => by rw [hW]; exact ArrayRepr.leading_zeros_ok hN a
    ibit_lt := fun {it i} h => by rw [hW]; simpa using wbit_lt h
    iter_ok := ArrayIter.new_ok h0
    next_ok := ArrayIter.next_ok hN hu
    next_back_ok := ArrayIter.next_back_ok hN
    size_hint_ok := fun it hI hc => by
      rw [hW] at hc ⊢
      exact ArrayIter.size_hint_ok hu it hI hc
    from_num_ok := fun n v => by rw [hW]; exact ArrayRepr.from_num_ok h0 n v
    from_num_opt_ok := fun n v => by rw [hW]; exact ArrayRepr.from_num_opt_ok h0 n v
    to_num_ok := ArrayRepr.to_num_ok h0
    to_num_opt_ok := ArrayRepr.to_num_opt_ok h0
    to_array_ok := ArrayRepr.to_array_ok
    to_array_opt_ok := ArrayRepr.to_array_opt_ok
    from_array_ok := fun O v => by
      rw [hW]
      obtain ⟨x, hx, hb⟩ := ArrayRepr.to_array_ok N (⟨v⟩ : ArrayRepr O)
      exact ⟨⟨x⟩, by simp [EnumSetTypeRepr.from_u64_array, ArrayRepr.from_u64_array, hx], hb⟩
    from_array_opt_ok := fun O v => by
      rw [hW]
      obtain ⟨h1, h2⟩ := ArrayRepr.to_array_opt_ok N (⟨v⟩ : ArrayRepr O)
      constructor
      · intro h
        obtain ⟨x, hx, hb⟩ := h1 h
        exact ⟨⟨x⟩, by simp [EnumSetTypeRepr.from_u64_array_opt, ArrayRepr.from_u64_array_opt, hx], hb⟩
      · intro h
        simp [EnumSetTypeRepr.from_u64_array_opt, ArrayRepr.from_u64_array_opt, h2 h]
    to_slice_ok := ArrayRepr.to_slice_ok
    to_slice_opt_ok := ArrayRepr.to_slice_opt_ok
    from_slice_ok := fun v => by rw [hW]; exact ArrayRepr.from_slice_ok v
    from_slice_opt_ok := fun v => by rw [hW]; exact ArrayRepr.from_slice_opt_ok v }

end Enumset
