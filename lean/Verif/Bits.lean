import Verif.SpecWords
/-!
# Helper lemmas about the Rust fragment: loops, bit intrinsics, word lists
-/
set_option autoImplicit false

namespace Enumset

/-! ### loops -/

theorem range_self (a : Nat) : range a a = [] := by simp [range]

theorem range_cons {a b : Nat} (h : a < b) : range a b = a :: range (a + 1) b := by
  unfold range
  obtain ⟨k, hk⟩ : ∃ k, b - a = k + 1 := ⟨b - a - 1, by omega⟩
  have : b - (a + 1) = k := by omega
  rw [hk, this, List.range'_succ]

theorem range_of_le {a b : Nat} (h : b ≤ a) : range a b = [] := by
  unfold range
  have : b - a = 0 := by omega
  simp [this]

theorem mem_range {a b i : Nat} : i ∈ range a b ↔ a ≤ i ∧ i < b := by
  unfold range
  rw [List.mem_range'_1]
  omega

/-- Loop rule for `for i in a..b`. -/
theorem forEach_range {σ : Type} (f : Nat → σ → Res σ) (P : Nat → σ → Prop) (b : Nat) :
    ∀ (k a : Nat) (s : σ), b - a = k → a ≤ b → P a s →
      (∀ i s, a ≤ i → i < b → P i s → ∃ s', f i s = .ok s' ∧ P (i + 1) s') →
      ∃ s', forEach (range a b) s f = .ok s' ∧ P b s' := by
  intro k
  induction k with
  | zero =>
    intro a s hk hab hP _
    have : a = b := by omega
    subst this
    exact ⟨s, by rw [range_self]; rfl, hP⟩
  | succ k ih =>
    intro a s hk hab hP hstep
    have hlt : a < b := by omega
    obtain ⟨s1, h1, hP1⟩ := hstep a s (Nat.le_refl a) hlt hP
    obtain ⟨s2, h2, hP2⟩ := ih (a + 1) s1 (by omega) hlt hP1
      (fun i s hi hb hp => hstep i s (by omega) hb hp)
    refine ⟨s2, ?_, hP2⟩
    rw [range_cons hlt]
    simp only [forEach, h1, Res.ok_bind]
    exact h2

/-- A loop that returns early iff some element satisfies `p`. -/
theorem forEachRet_any {ι ρ : Type} (p : ι → Bool) (r : ρ) (f : ι → Unit → Res (Flow ρ Unit))
    (is : List ι)
    (h : ∀ i ∈ is, f i () = .ok (if p i then .ret r else .next ())) :
    forEachRet is () f = .ok (if is.any p then .ret r else .next ()) := by
  induction is with
  | nil => simp [forEachRet]
  | cons i is ih =>
    have hi := h i (by simp)
    have ih := ih (fun j hj => h j (by simp [hj]))
    simp only [forEachRet, hi]
    cases hp : p i <;> simp [hp, ih]

theorem forEach_append {ι σ : Type} (f : ι → σ → Res σ) (l₁ l₂ : List ι) (s : σ) :
    forEach (l₁ ++ l₂) s f = (forEach l₁ s f >>= fun s => forEach l₂ s f) := by
  induction l₁ generalizing s with
  | nil => rfl
  | cons i is ih =>
    simp only [List.cons_append, forEach]
    cases f i s <;> simp [ih] <;> rfl

theorem ite_bind {α β : Type} {c : Prop} [Decidable c] (x y : Res α) (k : α → Res β) :
    (if c then x >>= k else y >>= k) = ((if c then x else y) >>= k) := by split <;> rfl

/-! ### indexing -/

theorem idxV_ok {α : Type} {n i : Nat} {v : Vector α n} (h : i < n) : idxV v i = .ok v[i] := by
  simp [idxV, h]
theorem setV_ok {α : Type} {n i : Nat} {v : Vector α n} {x : α} (h : i < n) :
    setV v i x = .ok (v.set i x) := by simp [setV, h]
theorem idxL_ok {α : Type} {i : Nat} {v : List α} (h : i < v.length) : idxL v i = .ok v[i] := by
  simp [idxL, h]
theorem setL_ok {α : Type} {i : Nat} {v : List α} {x : α} (h : i < v.length) :
    setL v i x = .ok (v.set i x) := by simp [setL, h]

theorem castW_of_lt {w x : Nat} (h : x < 2 ^ w) : castW w x = x := Nat.mod_eq_of_lt h
theorem addW_ok [Platform] {w a b : Nat} (h : a + b < 2 ^ w) : addW w a b = .ok (a + b) := by simp [addW, h]
theorem mulW_ok [Platform] {w a b : Nat} (h : a * b < 2 ^ w) : mulW w a b = .ok (a * b) := by simp [mulW, h]
theorem subW_ok [Platform] {w a b : Nat} (h : b ≤ a) : subW w a b = .ok (a - b) := by simp [subW, h]
theorem shl1_ok [Platform] {w s : Nat} (h : s < w) : shl1 w s = .ok (1#w <<< s) := by simp [shl1, h]

/-! ### bits -/

theorem getLsbD_shl1 {w : Nat} (s i : Nat) (h : s < w) :
    (1#w <<< s).getLsbD i = decide (i = s) := by
  rw [BitVec.getLsbD_shiftLeft]
  by_cases hi : i = s
  · subst hi; simp [h]; omega
  · simp only [hi, decide_false]
    by_cases h1 : i < s
    · simp [h1]
    · have : i - s ≠ 0 := by omega
      simp [BitVec.getLsbD_one, this]

theorem eq_zero_iff_bits {w : Nat} (x : BitVec w) : x = 0 ↔ ∀ i, x.getLsbD i = false := by
  constructor
  · rintro rfl i; simp
  · intro h
    apply BitVec.eq_of_getLsbD_eq
    intro i _
    simp [h i]

theorem exists_bit_of_ne_zero {w : Nat} {x : BitVec w} (h : x ≠ 0) :
    ∃ i, i < w ∧ x.getLsbD i = true := by
  apply Classical.byContradiction
  intro hn
  apply h
  rw [eq_zero_iff_bits]
  intro i
  cases hx : x.getLsbD i with
  | false => rfl
  | true => exact absurd ⟨i, BitVec.lt_of_getLsbD hx, hx⟩ hn

theorem takeWhile_length_spec {α : Type} (p : α → Bool) (l : List α) :
    (l.takeWhile p).length ≤ l.length ∧
    (∀ i (h : i < l.length), i < (l.takeWhile p).length → p l[i] = true) ∧
    (∀ h : (l.takeWhile p).length < l.length, p (l[(l.takeWhile p).length]) = false) := by
  induction l with
  | nil => simp
  | cons a l ih =>
    obtain ⟨h0, h1, h2⟩ := ih
    cases hp : p a with
    | false => simp [hp]
    | true =>
      simp only [List.takeWhile_cons, hp, if_true, List.length_cons]
      refine ⟨by omega, ?_, ?_⟩
      · intro i h hi
        cases i with
        | zero => simpa using hp
        | succ i => simpa using h1 i (by simpa using h) (by omega)
      · intro h
        simpa using h2 (by omega)

theorem takeWhile_all {α : Type} {p : α → Bool} {l : List α} (h : ∀ x ∈ l, p x = true) :
    l.takeWhile p = l := by
  induction l with
  | nil => rfl
  | cons a l ih =>
    simp only [List.takeWhile_cons, h a (by simp), if_true]
    rw [ih (fun x hx => h x (by simp [hx]))]

theorem trailingZeros_spec {w : Nat} {x : BitVec w} (h : x ≠ 0) :
    trailingZeros x < w ∧ x.getLsbD (trailingZeros x) = true ∧
      ∀ i, i < trailingZeros x → x.getLsbD i = false := by
  obtain ⟨h0, h1, h2⟩ := takeWhile_length_spec (fun i => !x.getLsbD i) (List.range w)
  change trailingZeros x ≤ _ at h0
  obtain ⟨k, hk, hx⟩ := exists_bit_of_ne_zero h
  have hlt : trailingZeros x < w := by
    apply Classical.byContradiction
    intro hn
    have := h1 k (by simpa using hk) (by unfold trailingZeros at hn; omega)
    simp [hx] at this
  refine ⟨hlt, ?_, ?_⟩
  · have := h2 (by unfold trailingZeros at hlt; simpa using hlt)
    simpa [trailingZeros] using this
  · intro i hi
    have := h1 i (by simp; omega) hi
    simpa using this

theorem trailingZeros_zero {w : Nat} : trailingZeros (0 : BitVec w) = w := by
  unfold trailingZeros
  rw [takeWhile_all (by simp)]
  simp

theorem leadingZeros_spec {w : Nat} {x : BitVec w} (h : x ≠ 0) :
    leadingZeros x < w ∧ x.getLsbD (w - 1 - leadingZeros x) = true ∧
      ∀ i, w - 1 - leadingZeros x < i → x.getLsbD i = false := by
  obtain ⟨h0, h1, h2⟩ := takeWhile_length_spec (fun i => !x.getLsbD i) (List.range w).reverse
  change leadingZeros x ≤ _ at h0
  simp only [List.length_reverse, List.length_range, List.getElem_reverse, List.getElem_range]
    at h0 h1 h2
  obtain ⟨k, hk, hx⟩ := exists_bit_of_ne_zero h
  have hlt : leadingZeros x < w := by
    apply Classical.byContradiction
    intro hn
    have := h1 (w - 1 - k) (by omega) (by unfold leadingZeros at hn; omega)
    have e : w - 1 - (w - 1 - k) = k := by omega
    simp [e, hx] at this
  refine ⟨hlt, ?_, ?_⟩
  · have := h2 hlt
    simpa [leadingZeros] using this
  · intro i hi
    by_cases hiw : i < w
    · have := h1 (w - 1 - i) (by omega) (by unfold leadingZeros at hi; omega)
      have e : w - 1 - (w - 1 - i) = i := by omega
      simpa [e] using this
    · exact BitVec.getLsbD_of_ge x i (by omega)

theorem leadingZeros_zero {w : Nat} : leadingZeros (0 : BitVec w) = w := by
  unfold leadingZeros
  rw [takeWhile_all (by simp)]
  simp

theorem tryInto_spec {a b : Nat} (v : BitVec a) :
    ((∀ i, v.getLsbD i = true → i < b) → tryInto b v = some (v.setWidth b)) ∧
    (¬ (∀ i, v.getLsbD i = true → i < b) → tryInto b v = none) := by
  have key : v.toNat < 2 ^ b ↔ ∀ i, v.getLsbD i = true → i < b := by
    constructor
    · intro h i hi
      apply Classical.byContradiction
      intro hn
      have : v.toNat.testBit i = false :=
        Nat.testBit_lt_two_pow (Nat.lt_of_lt_of_le h (Nat.pow_le_pow_right (by omega) (by omega)))
      rw [BitVec.getLsbD] at hi
      simp [this] at hi
    · intro h
      apply Nat.lt_pow_two_of_testBit
      intro i hi
      cases hv : v.toNat.testBit i with
      | false => rfl
      | true => exact absurd (h i hv) (by omega)
  constructor
  · intro h; simp [tryInto, key.mpr h]
  · intro h
    have : ¬ v.toNat < 2 ^ b := fun hh => h (key.mp hh)
    simp [tryInto, this]

/-! ### words -/

theorem wbit_of_ge {ws : List U64} {i : Nat} (h : 64 * ws.length ≤ i) : wbit ws i = false := by
  unfold wbit
  have : ws.length ≤ i / 64 := by omega
  simp [List.getD, List.getElem?_eq_none this]

theorem wbit_lt {ws : List U64} {i : Nat} (h : wbit ws i = true) : i < 64 * ws.length := by
  apply Classical.byContradiction
  intro hn
  simp [wbit_of_ge (Nat.le_of_not_lt hn)] at h

theorem wbit_word {ws : List U64} {k j : Nat} (hj : j < 64) (hk : k < ws.length) :
    wbit ws (64 * k + j) = (ws[k]).getLsbD j := by
  unfold wbit
  have h1 : (64 * k + j) / 64 = k := by omega
  have h2 : (64 * k + j) % 64 = j := by omega
  simp [h1, h2, List.getD, hk]

theorem words_ext {a b : List U64} (hl : a.length = b.length) (h : ∀ i, wbit a i = wbit b i) :
    a = b := by
  apply List.ext_getElem hl
  intro k h1 h2
  apply BitVec.eq_of_getLsbD_eq
  intro j hj
  have := h (64 * k + j)
  rwa [wbit_word hj h1, wbit_word hj h2] at this

theorem wbit_replicate (n i : Nat) : wbit (List.replicate n 0) i = false := by
  unfold wbit
  rw [List.getD, List.getElem?_replicate]
  split <;> simp

end Enumset
