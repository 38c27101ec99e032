import Verif.Machine
import Verif.Props.Iter
import Verif.Props.Conv
/-!
# Helper lemmas for histories: numbers made of discriminants, iterator steps
-/
set_option autoImplicit false
set_option linter.unusedSectionVars false

namespace Enumset

namespace Hist

variable [Platform]

theorem mask_fold {n : Nat} (discr : Fin n → Nat) (l : List (Fin n)) (m i : Nat) :
    (l.foldl (fun m v => m ||| 1 <<< discr v) m).testBit i = true ↔
      m.testBit i = true ∨ ∃ v ∈ l, discr v = i := by
  induction l generalizing m with
  | nil => simp
  | cons v l ih =>
    rw [List.foldl_cons, ih, Nat.testBit_or, Bool.or_eq_true, Nat.one_shiftLeft,
      Nat.testBit_two_pow, decide_eq_true_iff]
    simp only [List.mem_cons, exists_eq_or_imp, or_assoc]

theorem mask_testBit {n : Nat} (discr : Fin n → Nat) (A : Fin n → Bool) (i : Nat) :
    (mask discr A).testBit i = true ↔ ∃ v, discr v = i ∧ A v = true := by
  unfold mask
  rw [mask_fold]
  simp only [Nat.zero_testBit, Bool.false_eq_true, false_or, List.mem_filter, List.mem_finRange,
    true_and]
  constructor
  · rintro ⟨v, h1, h2⟩; exact ⟨v, h2, h1⟩
  · rintro ⟨v, h1, h2⟩; exact ⟨v, h2, h1⟩

theorem mask_lt {n : Nat} (discr : Fin n → Nat) (A : Fin n → Bool) (k : Nat) :
    mask discr A < 2 ^ k ↔ ∀ v, A v = true → discr v < k := by
  constructor
  · intro h v hv
    apply Classical.byContradiction
    intro hn
    have h1 : (mask discr A).testBit (discr v) = true := (mask_testBit _ _ _).mpr ⟨v, rfl, hv⟩
    have h2 : mask discr A < 2 ^ discr v :=
      Nat.lt_of_lt_of_le h (Nat.pow_le_pow_right (by decide) (Nat.le_of_not_lt hn))
    rw [Nat.testBit_lt_two_pow h2] at h1
    cases h1
  · intro h
    apply Nat.lt_pow_two_of_testBit
    intro i hi
    cases hb : (mask discr A).testBit i with
    | false => rfl
    | true =>
      obtain ⟨v, rfl, hv⟩ := (mask_testBit _ _ _).mp hb
      have := h v hv
      omega

theorem ofWords_testBit (ws : List U64) (i : Nat) : (ofWords ws).testBit i = wbit ws i := by
  induction ws generalizing i with
  | nil => simp [ofWords, wbit]
  | cons w ws ih =>
    rw [wbit_cons, ofWords, Nat.add_comm, Nat.testBit_two_pow_mul_add _ w.isLt]
    split
    · rw [BitVec.testBit_toNat]
    · exact ih _

theorem known_iff {n : Nat} (discr : Fin n → Nat) (x : Nat) :
    known discr x = true ↔ ∀ i, x.testBit i = true → ∃ v, discr v = i := by
  unfold known
  rw [decide_eq_true_iff]
  constructor
  · intro h i hi
    rw [← h, Nat.testBit_and, Bool.and_eq_true, mask_testBit] at hi
    obtain ⟨-, v, hv, -⟩ := hi
    exact ⟨v, hv⟩
  · intro h
    apply Nat.eq_of_testBit_eq
    intro i
    rw [Nat.testBit_and]
    cases hb : x.testBit i with
    | false => rfl
    | true =>
      obtain ⟨v, hv⟩ := h i hb
      rw [Bool.true_and]
      exact (mask_testBit _ _ _).mpr ⟨v, hv, rfl⟩

theorem toWords_length (k m : Nat) : (toWords k m).length = k := by simp [toWords]

theorem toWords_wbit (k m i : Nat) : wbit (toWords k m) i = (decide (i < 64 * k) && m.testBit i) := by
  by_cases h : i < 64 * k
  · have hk : i / 64 < (toWords k m).length := by rw [toWords_length]; omega
    rw [decide_eq_true h, Bool.true_and]
    have := wbit_word (ws := toWords k m) (k := i / 64) (j := i % 64) (by omega) hk
    rw [show 64 * (i / 64) + i % 64 = i by omega] at this
    rw [this]
    simp only [toWords, List.getElem_map, List.getElem_range, BitVec.getLsbD_ofNat,
      Nat.testBit_shiftRight]
    rw [show 64 * (i / 64) + i % 64 = i by omega, decide_eq_true (by omega), Bool.true_and]
  · rw [wbit_of_ge (by rw [toWords_length]; omega), decide_eq_false h, Bool.false_and]

/-- A word list is determined by its length and the discriminants of a set. -/
theorem words_eq {n : Nat} {discr : Fin n → Nat} {A : Fin n → Bool} {ws : List U64} {k : Nat}
    (hl : ws.length = k)
    (h : ∀ j (hj : j < ws.length) b, b < 64 →
      (ws[j].getLsbD b = true ↔ ∃ v, discr v = 64 * j + b ∧ A v = true)) :
    ws = toWords k (mask discr A) := by
  apply words_ext (by rw [hl, toWords_length])
  intro i
  rw [toWords_wbit]
  by_cases hi : i < 64 * k
  · have hk : i / 64 < ws.length := by omega
    have hw := wbit_word (ws := ws) (k := i / 64) (j := i % 64) (by omega) hk
    have e : 64 * (i / 64) + i % 64 = i := by omega
    rw [e] at hw
    rw [hw, decide_eq_true hi, Bool.true_and, Bool.eq_iff_iff, h _ hk _ (by omega), mask_testBit, e]
  · rw [wbit_of_ge (by omega), decide_eq_false hi, Bool.false_and]

end Hist

namespace WF

variable [Platform] {T : EnumSetType} (W : WF T)
include W

theorem next_ok {it : EnumSetIter T} {L : List T.Val} (h : W.ItRep it L) :
    ∃ it', it.next = .ok (L.head?, it') ∧ W.ItRep it' L.tail := by
  cases L with
  | nil => exact W.next_nil h
  | cons v L => exact W.next_cons h

theorem next_back_ok {it : EnumSetIter T} {L : List T.Val} (h : W.ItRep it L) :
    ∃ it', it.next_back = .ok (L.getLast?, it') ∧ W.ItRep it' L.dropLast := by
  rcases snoc_cases L with rfl | ⟨L, v, rfl⟩
  · exact W.next_back_nil h
  · obtain ⟨it', e, h'⟩ := W.next_back_concat h
    exact ⟨it', by rw [e, List.getLast?_concat], by rw [List.dropLast_concat]; exact h'⟩

theorem nth_ok (k : Nat) {it : EnumSetIter T} {L : List T.Val} (h : W.ItRep it L) :
    ∃ it', it.nth k = .ok (L[k]?, it') ∧ W.ItRep it' (L.drop (k + 1)) := by
  induction k generalizing it L with
  | zero =>
    obtain ⟨it', e, h'⟩ := W.next_ok h
    exact ⟨it', by rw [← List.head?_eq_getElem?]; exact e, by rw [List.drop_one]; exact h'⟩
  | succ k ih =>
    cases L with
    | nil =>
      obtain ⟨it1, e1, h1⟩ := W.next_nil h
      exact ⟨it1, by simp only [EnumSetIter.nth, e1, Res.ok_bind]; rfl, h1⟩
    | cons v L =>
      obtain ⟨it1, e1, h1⟩ := W.next_cons h
      obtain ⟨it2, e2, h2⟩ := ih h1
      exact ⟨it2, by simp only [EnumSetIter.nth, e1, Res.ok_bind, e2]; rfl, h2⟩

theorem nth_back_ok (k : Nat) {it : EnumSetIter T} {L : List T.Val} (h : W.ItRep it L) :
    ∃ it', it.nth_back k = .ok (L.reverse[k]?, it') ∧
      W.ItRep it' (L.reverse.drop (k + 1)).reverse := by
  induction k generalizing it L with
  | zero =>
    obtain ⟨it', e, h'⟩ := W.next_back_ok h
    refine ⟨it', ?_, ?_⟩
    · rw [← List.head?_eq_getElem?, List.head?_reverse]; exact e
    · rw [Nat.zero_add, List.drop_one, List.tail_reverse, List.reverse_reverse]; exact h'
  | succ k ih =>
    rcases snoc_cases L with rfl | ⟨L, v, rfl⟩
    · obtain ⟨it1, e1, h1⟩ := W.next_back_nil h
      exact ⟨it1, by simp only [EnumSetIter.nth_back, e1, Res.ok_bind]; rfl, h1⟩
    · obtain ⟨it1, e1, h1⟩ := W.next_back_concat h
      obtain ⟨it2, e2, h2⟩ := ih h1
      refine ⟨it2, ?_, ?_⟩
      · simp only [EnumSetIter.nth_back, e1, Res.ok_bind, e2]; simp
      · rw [List.reverse_append]; exact h2

theorem find_ok (p : T.Val → Bool) (L : List T.Val) : ∀ {it : EnumSetIter T} {fuel : Nat},
    W.ItRep it L → L.length < fuel →
    ∃ it', EnumSetIter.find p fuel it = .ok (L.find? p, it') ∧
      W.ItRep it' (L.dropWhile fun v => !p v).tail := by
  induction L with
  | nil =>
    intro it fuel h hf
    obtain ⟨fuel, rfl⟩ : ∃ k, fuel = k + 1 := ⟨fuel - 1, by omega⟩
    obtain ⟨it1, e1, h1⟩ := W.next_nil h
    exact ⟨it1, by simp only [EnumSetIter.find, e1, Res.ok_bind]; rfl, h1⟩
  | cons v L ih =>
    intro it fuel h hf
    obtain ⟨fuel, rfl⟩ : ∃ k, fuel = k + 1 := ⟨fuel - 1, by omega⟩
    obtain ⟨it1, e1, h1⟩ := W.next_cons h
    simp only [EnumSetIter.find, e1, Res.ok_bind]
    cases hp : p v with
    | true => exact ⟨it1, by simp [hp], by simpa [hp] using h1⟩
    | false =>
      obtain ⟨it2, e2, h2⟩ := ih h1 (by simpa using hf)
      exact ⟨it2, by simpa [hp] using e2, by simpa [hp] using h2⟩

theorem rfind_ok (p : T.Val → Bool) : ∀ (fuel : Nat) {L : List T.Val} {it : EnumSetIter T},
    W.ItRep it L → L.length < fuel →
    ∃ it', EnumSetIter.rfind p fuel it = .ok (L.reverse.find? p, it') ∧
      W.ItRep it' ((L.reverse.dropWhile fun v => !p v).tail).reverse := by
  intro fuel
  induction fuel with
  | zero => intro L it _ hf; omega
  | succ fuel ih =>
    intro L it h hf
    rcases snoc_cases L with rfl | ⟨L, v, rfl⟩
    · obtain ⟨it1, e1, h1⟩ := W.next_back_nil h
      exact ⟨it1, by simp only [EnumSetIter.rfind, e1, Res.ok_bind]; rfl, h1⟩
    · obtain ⟨it1, e1, h1⟩ := W.next_back_concat h
      simp only [EnumSetIter.rfind, e1, Res.ok_bind]
      cases hp : p v with
      | true => exact ⟨it1, by simp [hp], by simpa [hp] using h1⟩
      | false =>
        obtain ⟨it2, e2, h2⟩ := ih h1 (by simp at hf; omega)
        exact ⟨it2, by simpa [hp] using e2, by simpa [hp] using h2⟩

end WF

end Enumset
