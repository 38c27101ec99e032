import Verif.SetLemmas
/-!
# Helper lemmas: iteration over sets of a well-formed type
-/
set_option autoImplicit false
set_option linter.unusedSectionVars false

namespace Enumset

open EnumSetTypeRepr (WIDTH)

theorem sorted_ext {l m : List Nat} (hl : l.Pairwise (· < ·)) (hm : m.Pairwise (· < ·))
    (h : ∀ i, i ∈ l ↔ i ∈ m) : l = m := by
  induction l generalizing m with
  | nil =>
    cases m with
    | nil => rfl
    | cons b m => exact absurd ((h b).mpr (by simp)) (by simp)
  | cons a l ih =>
    cases m with
    | nil => exact absurd ((h a).mp (by simp)) (by simp)
    | cons b m =>
      rw [List.pairwise_cons] at hl hm
      have hab : a = b := by
        have h1 := (h a).mp (by simp)
        have h2 := (h b).mpr (by simp)
        rcases List.mem_cons.mp h1 with e | e
        · exact e
        · rcases List.mem_cons.mp h2 with e' | e'
          · exact e'.symm
          · have := hm.1 a e
            have := hl.1 b e'
            omega
      subst hab
      congr 1
      apply ih hl.2 hm.2
      intro i
      constructor
      · intro hi
        have := hl.1 i hi
        rcases List.mem_cons.mp ((h i).mp (by simp [hi])) with e | e
        · omega
        · exact e
      · intro hi
        have := hm.1 i hi
        rcases List.mem_cons.mp ((h i).mpr (by simp [hi])) with e | e
        · omega
        · exact e

variable [Platform] {T : EnumSetType}

/-- Strictly increasing in discriminants. -/
def Ascending (L : List T.Val) : Prop := L.Pairwise (fun a b => T.discr a < T.discr b)

theorem Ascending.nodup {L : List T.Val} (h : Ascending L) : L.Nodup :=
  h.imp (fun hab e => by rw [e] at hab; omega)

theorem Ascending.map {L : List T.Val} (h : Ascending L) : (L.map T.discr).Pairwise (· < ·) :=
  List.pairwise_map.mpr h

/-- The members of `A` in iteration order. -/
def ascList (T : EnumSetType) (A : T.Val → Bool) : List T.Val :=
  (List.range T.BIT_WIDTH).filterMap fun i =>
    (List.finRange T.n).find? fun v => T.discr v == i && A v

namespace WF

variable (W : WF T)
include W

theorem asc_ext {L M : List T.Val} (hL : Ascending L) (hM : Ascending M)
    (h : ∀ v, v ∈ L ↔ v ∈ M) : L = M := by
  have e : L.map T.discr = M.map T.discr := by
    apply sorted_ext hL.map hM.map
    intro i
    simp only [List.mem_map]
    constructor
    · rintro ⟨v, hv, rfl⟩; exact ⟨v, (h v).mp hv, rfl⟩
    · rintro ⟨v, hv, rfl⟩; exact ⟨v, (h v).mpr hv, rfl⟩
  have hinj : Function.Injective T.discr := fun u v => W.discr_inj
  exact (List.map_inj_right (f := T.discr) (fun {x y} hxy => W.discr_inj hxy)).mp e

theorem find_discr (A : T.Val → Bool) (i : Nat) (v : T.Val) :
    ((List.finRange T.n).find? fun v => T.discr v == i && A v) = some v ↔
      T.discr v = i ∧ A v = true := by
  constructor
  · intro h
    have := List.find?_some h
    simpa using this
  · rintro ⟨rfl, hA⟩
    cases hf : (List.finRange T.n).find? (fun u => T.discr u == T.discr v && A u) with
    | none =>
      have := List.find?_eq_none.mp hf v (by simp)
      simp [hA] at this
    | some u =>
      have := List.find?_some hf
      simp at this
      rw [W.discr_inj this.1]

theorem mem_ascList (A : T.Val → Bool) (v : T.Val) : v ∈ ascList T A ↔ A v = true := by
  unfold ascList
  rw [List.mem_filterMap]
  simp only [W.find_discr]
  constructor
  · rintro ⟨i, -, -, h⟩; exact h
  · intro h; exact ⟨T.discr v, by simpa using W.discr_lt v, rfl, h⟩

theorem ascList_asc (A : T.Val → Bool) : Ascending (ascList T A) := by
  unfold Ascending ascList
  rw [List.pairwise_filterMap]
  refine List.Pairwise.imp ?_ (List.pairwise_lt_range (n := T.BIT_WIDTH))
  intro a b hab u hu v hv
  rw [((W.find_discr A a u).mp hu).1, ((W.find_discr A b v).mp hv).1]
  exact hab

/-- `it` has exactly the variants `L` left, in this order. -/
def ItRep (W : WF T) (it : EnumSetIter T) (L : List T.Val) : Prop :=
  W.lawful.Inv it.iter ∧ Ascending L ∧
    ∀ i, W.lawful.ibit it.iter i = true ↔ ∃ v ∈ L, T.discr v = i

theorem iter_ok (s : EnumSet T) (hs : W.Clean s) :
    ∃ it, s.iter = .ok it ∧ W.ItRep it (ascList T (W.mem s)) := by
  obtain ⟨it, e, hinv, hb⟩ := W.lawful.iter_ok s.priv_repr
  refine ⟨⟨it⟩, by unfold EnumSet.iter; rw [e]; rfl, hinv, W.ascList_asc _, ?_⟩
  intro i
  rw [hb]
  constructor
  · intro h
    obtain ⟨v, rfl⟩ := hs i h
    exact ⟨v, (W.mem_ascList _ v).mpr h, rfl⟩
  · rintro ⟨v, hv, rfl⟩
    exact (W.mem_ascList _ v).mp hv

theorem next_nil {it : EnumSetIter T} (h : W.ItRep it []) :
    ∃ it', it.next = .ok (none, it') ∧ W.ItRep it' [] := by
  obtain ⟨hinv, hL, hb⟩ := h
  obtain ⟨o, it', e, hinv', h'⟩ := W.lawful.next_ok it.iter hinv
  rcases h' with ⟨rfl, -, h2⟩ | ⟨b, rfl, h1, -⟩
  · refine ⟨⟨it'⟩, by unfold EnumSetIter.next; rw [e]; rfl, hinv', hL, ?_⟩
    intro i
    rw [h2 i]
    simp
  · obtain ⟨v, hv, -⟩ := (hb b).mp h1
    cases hv

theorem next_cons {it : EnumSetIter T} {v : T.Val} {L : List T.Val} (h : W.ItRep it (v :: L)) :
    ∃ it', it.next = .ok (some v, it') ∧ W.ItRep it' L := by
  obtain ⟨hinv, hL, hb⟩ := h
  obtain ⟨o, it', e, hinv', h'⟩ := W.lawful.next_ok it.iter hinv
  have hv := (hb (T.discr v)).mpr ⟨v, by simp, rfl⟩
  have hL' := List.pairwise_cons.mp hL
  rcases h' with ⟨rfl, h1, -⟩ | ⟨b, rfl, h1, h2, h3⟩
  · rw [h1] at hv; cases hv
  · have hbv : b = T.discr v := by
      obtain ⟨u, hu, hub⟩ := (hb b).mp h1
      rcases List.mem_cons.mp hu with rfl | hu
      · exact hub.symm
      · have := hL'.1 u hu
        rw [hub] at this
        rw [h2 _ this] at hv
        cases hv
    subst hbv
    refine ⟨⟨it'⟩, by unfold EnumSetIter.next; rw [e]; simp [W.from_ok], hinv', hL'.2, ?_⟩
    intro i
    rw [h3]
    simp only [Bool.and_eq_true, hb, Bool.not_eq_true', decide_eq_false_iff_not]
    constructor
    · rintro ⟨⟨u, hu, rfl⟩, hne⟩
      rcases List.mem_cons.mp hu with rfl | hu
      · exact absurd rfl hne
      · exact ⟨u, hu, rfl⟩
    · rintro ⟨u, hu, rfl⟩
      have := hL'.1 u hu
      exact ⟨⟨u, by simp [hu], rfl⟩, by omega⟩

theorem next_back_nil {it : EnumSetIter T} (h : W.ItRep it []) :
    ∃ it', it.next_back = .ok (none, it') ∧ W.ItRep it' [] := by
  obtain ⟨hinv, hL, hb⟩ := h
  obtain ⟨o, it', e, hinv', h'⟩ := W.lawful.next_back_ok it.iter hinv
  rcases h' with ⟨rfl, -, h2⟩ | ⟨b, rfl, h1, -⟩
  · refine ⟨⟨it'⟩, by unfold EnumSetIter.next_back; rw [e]; rfl, hinv', hL, ?_⟩
    intro i
    rw [h2 i]
    simp
  · obtain ⟨v, hv, -⟩ := (hb b).mp h1
    cases hv

theorem next_back_concat {it : EnumSetIter T} {v : T.Val} {L : List T.Val}
    (h : W.ItRep it (L ++ [v])) : ∃ it', it.next_back = .ok (some v, it') ∧ W.ItRep it' L := by
  obtain ⟨hinv, hL, hb⟩ := h
  obtain ⟨o, it', e, hinv', h'⟩ := W.lawful.next_back_ok it.iter hinv
  have hv := (hb (T.discr v)).mpr ⟨v, by simp, rfl⟩
  have hL' := List.pairwise_append.mp hL
  have hlt : ∀ u ∈ L, T.discr u < T.discr v := fun u hu => hL'.2.2 u hu v (by simp)
  rcases h' with ⟨rfl, h1, -⟩ | ⟨b, rfl, h1, h2, h3⟩
  · rw [h1] at hv; cases hv
  · have hbv : b = T.discr v := by
      obtain ⟨u, hu, hub⟩ := (hb b).mp h1
      rcases List.mem_append.mp hu with hu | hu
      · have := hlt u hu
        rw [hub] at this
        rw [h2 _ this] at hv
        cases hv
      · rw [List.mem_singleton] at hu
        subst hu
        exact hub.symm
    subst hbv
    refine ⟨⟨it'⟩, by unfold EnumSetIter.next_back; rw [e]; simp [W.from_ok], hinv', hL'.1, ?_⟩
    intro i
    rw [h3]
    simp only [Bool.and_eq_true, hb, Bool.not_eq_true', decide_eq_false_iff_not]
    constructor
    · rintro ⟨⟨u, hu, rfl⟩, hne⟩
      rcases List.mem_append.mp hu with hu | hu
      · exact ⟨u, hu, rfl⟩
      · rw [List.mem_singleton] at hu
        subst hu
        exact absurd rfl hne
    · rintro ⟨u, hu, rfl⟩
      have := hlt u hu
      exact ⟨⟨u, by simp [hu], rfl⟩, by omega⟩

/-! ### counting -/

theorem asc_length_le {L : List T.Val} (hL : Ascending L) : L.length ≤ T.BIT_WIDTH := by
  have := nodup_length_le T.BIT_WIDTH (L.map T.discr)
    (hL.map.imp (fun h e => by omega)) (by
      intro d hd
      obtain ⟨v, -, rfl⟩ := List.mem_map.mp hd
      exact W.discr_lt v)
  simpa using this

theorem count_of_list {p : Nat → Bool} {L : List T.Val} (hL : Ascending L)
    (h : ∀ i, p i = true ↔ ∃ v ∈ L, T.discr v = i) :
    (List.range (WIDTH T.Repr)).countP p = L.length := by
  rw [List.countP_eq_length_filter]
  have : (List.range (WIDTH T.Repr)).filter p = L.map T.discr := by
    apply sorted_ext (List.Pairwise.filter _ List.pairwise_lt_range) hL.map
    intro i
    rw [List.mem_filter, List.mem_range, h, List.mem_map]
    constructor
    · exact fun h => h.2
    · rintro ⟨v, hv, rfl⟩
      exact ⟨W.discr_lt_width v, v, hv, rfl⟩
  rw [this, List.length_map]

theorem size_hint_ok {it : EnumSetIter T} {L : List T.Val} (h : W.ItRep it L) :
    it.size_hint = .ok (L.length, some L.length) := by
  obtain ⟨hinv, hL, hb⟩ := h
  have hc := W.count_of_list hL hb
  have := W.lawful.size_hint_ok it.iter hinv (by
    rw [hc]
    exact Nat.lt_of_le_of_lt (W.asc_length_le hL) W.bw_lt)
  rw [hc] at this
  exact this

theorem len_ok {s : EnumSet T} (hs : W.Clean s) : s.len = .ok (ascList T (W.mem s)).length := by
  have hc : (List.range (WIDTH T.Repr)).countP (W.lawful.bit s.priv_repr) =
      (ascList T (W.mem s)).length := by
    apply W.count_of_list (W.ascList_asc _)
    intro i
    constructor
    · intro h
      obtain ⟨v, rfl⟩ := hs i h
      exact ⟨v, (W.mem_ascList _ v).mpr h, rfl⟩
    · rintro ⟨v, hv, rfl⟩
      exact (W.mem_ascList _ v).mp hv
  unfold EnumSet.len
  rw [W.lawful.count_ones_ok, Res.ok_bind, hc, castW_of_lt]
  · rfl
  · exact Nat.lt_of_le_of_lt (W.asc_length_le (W.ascList_asc _)) W.bw_lt

theorem ascList_length (A : T.Val → Bool) :
    (ascList T A).length = (List.finRange T.n).countP A := by
  rw [List.countP_eq_length_filter]
  apply List.Perm.length_eq
  rw [List.perm_ext_iff_of_nodup (W.ascList_asc A).nodup
    ((List.nodup_finRange T.n).filter _)]
  intro v
  rw [W.mem_ascList]
  simp

/-! ### loops -/

theorem fuel_ok (L : List T.Val) (hL : Ascending L) : L.length < EnumSetIter.fuel T := by
  have := W.asc_length_le hL
  have := W.bw_le
  unfold EnumSetIter.fuel
  omega

theorem forLoop_ok {σ : Type} (f : T.Val → σ → Res σ) (L : List T.Val) :
    ∀ (fuel : Nat) (it : EnumSetIter T) (s : σ), W.ItRep it L → L.length < fuel →
      EnumSetIter.forLoop fuel it s f = forEach L s f := by
  induction L with
  | nil =>
    intro fuel it s h hf
    obtain ⟨fuel, rfl⟩ : ∃ k, fuel = k + 1 := ⟨fuel - 1, by simp at hf; omega⟩
    obtain ⟨it', e, -⟩ := W.next_nil h
    simp [EnumSetIter.forLoop, e, forEach]
  | cons v L ih =>
    intro fuel it s h hf
    obtain ⟨fuel, rfl⟩ : ∃ k, fuel = k + 1 := ⟨fuel - 1, by simp at hf; omega⟩
    obtain ⟨it', e, h'⟩ := W.next_cons h
    simp only [EnumSetIter.forLoop, e, Res.ok_bind, forEach]
    congr 1
    funext s'
    exact ih fuel it' s' h' (by simp at hf; omega)

theorem forLoopBack_ok {σ : Type} (f : T.Val → σ → Res σ) (L : List T.Val) :
    ∀ (fuel : Nat) (it : EnumSetIter T) (s : σ), W.ItRep it L.reverse → L.length < fuel →
      EnumSetIter.forLoopBack fuel it s f = forEach L s f := by
  induction L with
  | nil =>
    intro fuel it s h hf
    obtain ⟨fuel, rfl⟩ : ∃ k, fuel = k + 1 := ⟨fuel - 1, by simp at hf; omega⟩
    obtain ⟨it', e, -⟩ := W.next_back_nil h
    simp [EnumSetIter.forLoopBack, e, forEach]
  | cons v L ih =>
    intro fuel it s h hf
    obtain ⟨fuel, rfl⟩ : ∃ k, fuel = k + 1 := ⟨fuel - 1, by simp at hf; omega⟩
    rw [List.reverse_cons] at h
    obtain ⟨it', e, h'⟩ := W.next_back_concat h
    simp only [EnumSetIter.forLoopBack, e, Res.ok_bind, forEach]
    congr 1
    funext s'
    exact ih fuel it' s' h' (by simp at hf; omega)

omit W in
theorem forEach_push {α : Type} (L acc : List α) :
    forEach L acc (fun v acc => .ok (acc ++ [v])) = .ok (acc ++ L) := by
  induction L generalizing acc with
  | nil => simp [forEach]
  | cons v L ih => simp [forEach, ih]

theorem collectVec_ok {it : EnumSetIter T} {L : List T.Val} (h : W.ItRep it L) :
    it.collectVec = .ok L := by
  unfold EnumSetIter.collectVec
  rw [W.forLoop_ok _ L _ _ _ h (W.fuel_ok L h.2.1), forEach_push]
  simp

theorem collectVecRev_ok {it : EnumSetIter T} {L : List T.Val} (h : W.ItRep it L) :
    it.collectVecRev = .ok L.reverse := by
  unfold EnumSetIter.collectVecRev
  have := W.fuel_ok L h.2.1
  rw [W.forLoopBack_ok _ L.reverse _ _ _ (by simpa using h) (by simpa using this), forEach_push]
  simp

/-! ### extending and collecting -/

theorem extend_ok (L : List T.Val) (s : EnumSet T) : ∃ s', s.extend L = .ok s' ∧
    ∀ i, W.bit s' i = true ↔ W.bit s i = true ∨ ∃ v ∈ L, T.discr v = i := by
  unfold EnumSet.extend
  induction L generalizing s with
  | nil => exact ⟨s, rfl, by simp⟩
  | cons v L ih =>
    obtain ⟨s1, e1, h1⟩ := W.insert_ok s v
    obtain ⟨s2, e2, h2⟩ := ih s1
    refine ⟨s2, ?_, ?_⟩
    · simp only [forEach, e1, Res.ok_bind]
      exact e2
    · intro i
      rw [h2, h1]
      simp only [Bool.or_eq_true, decide_eq_true_eq, List.mem_cons]
      constructor
      · rintro ((h | h) | ⟨u, hu, rfl⟩)
        · exact .inl h
        · exact .inr ⟨v, .inl rfl, h.symm⟩
        · exact .inr ⟨u, .inr hu, rfl⟩
      · rintro (h | ⟨u, rfl | hu, rfl⟩)
        · exact .inl (.inl h)
        · exact .inl (.inr rfl)
        · exact .inr ⟨u, hu, rfl⟩

theorem extend_iter_eq {it : EnumSetIter T} {L : List T.Val} (h : W.ItRep it L) (s : EnumSet T) :
    s.extend_iter it = s.extend L := by
  unfold EnumSet.extend_iter EnumSet.extend
  exact W.forLoop_ok _ L _ _ _ h (W.fuel_ok L h.2.1)

theorem extend_sets_ok (l : List (EnumSet T)) (s : EnumSet T) : ∃ s', s.extend_sets l = .ok s' ∧
    ∀ i, W.bit s' i = true ↔ W.bit s i = true ∨ ∃ x ∈ l, W.bit x i = true := by
  unfold EnumSet.extend_sets
  induction l generalizing s with
  | nil => exact ⟨s, rfl, by simp⟩
  | cons x l ih =>
    obtain ⟨s1, e1, h1⟩ := W.union_set_ok s x
    obtain ⟨s2, e2, h2⟩ := ih s1
    refine ⟨s2, ?_, ?_⟩
    · simp only [forEach, insert_all_eq, e1, Res.ok_bind]
      exact e2
    · intro i
      rw [h2, h1]
      simp only [Bool.or_eq_true, List.mem_cons]
      constructor
      · rintro ((h | h) | ⟨u, hu, h⟩)
        · exact .inl h
        · exact .inr ⟨x, .inl rfl, h⟩
        · exact .inr ⟨u, .inr hu, h⟩
      · rintro (h | ⟨u, rfl | hu, h⟩)
        · exact .inl (.inl h)
        · exact .inl (.inr h)
        · exact .inr ⟨u, hu, h⟩

theorem sum_loop_ok (l : List (Operand T)) (s : EnumSet T) : ∃ s',
    (forEach l s fun v a => EnumSet.bitor a v) = .ok s' ∧
    ∀ i, W.bit s' i = true ↔ W.bit s i = true ∨ ∃ x ∈ l, W.obit x i = true := by
  induction l generalizing s with
  | nil => exact ⟨s, rfl, by simp⟩
  | cons x l ih =>
    obtain ⟨s1, e1, h1⟩ := W.bitor_ok s x
    obtain ⟨s2, e2, h2⟩ := ih s1
    refine ⟨s2, ?_, ?_⟩
    · simp only [forEach, e1, Res.ok_bind]
      exact e2
    · intro i
      rw [h2, h1]
      simp only [Bool.or_eq_true, List.mem_cons]
      constructor
      · rintro ((h | h) | ⟨u, hu, h⟩)
        · exact .inl h
        · exact .inr ⟨x, .inl rfl, h⟩
        · exact .inr ⟨u, .inr hu, h⟩
      · rintro (h | ⟨u, rfl | hu, h⟩)
        · exact .inl (.inl h)
        · exact .inl (.inr h)
        · exact .inr ⟨u, hu, h⟩

omit W in
theorem forEach_map {α β σ : Type} (g : α → β) (f : β → σ → Res σ) (l : List α) (s : σ) :
    forEach (l.map g) s f = forEach l s (fun x s => f (g x) s) := by
  induction l generalizing s with
  | nil => rfl
  | cons x l ih => simp only [List.map_cons, forEach, ih]

theorem sum_sets_ok (l : List (EnumSet T)) : ∃ s', EnumSet.sum_sets l = .ok s' ∧
    ∀ i, W.bit s' i = true ↔ ∃ x ∈ l, W.bit x i = true := by
  obtain ⟨s, e, h⟩ := W.sum_loop_ok (l.map Operand.set) EnumSet.empty
  refine ⟨s, ?_, ?_⟩
  · rw [forEach_map] at e
    exact e
  · intro i
    rw [h, show W.bit EnumSet.empty i = false from W.bit_empty i]
    constructor
    · rintro (h | ⟨x, hx, hb⟩)
      · cases h
      · obtain ⟨y, hy, rfl⟩ := List.mem_map.mp hx
        exact ⟨y, hy, hb⟩
    · rintro ⟨y, hy, hb⟩
      exact .inr ⟨.set y, List.mem_map_of_mem hy, hb⟩

theorem sum_ok (l : List T.Val) : ∃ s', EnumSet.sum l = .ok s' ∧
    ∀ i, W.bit s' i = true ↔ ∃ v ∈ l, T.discr v = i := by
  obtain ⟨s, e, h⟩ := W.sum_loop_ok (l.map Operand.val) EnumSet.empty
  refine ⟨s, ?_, ?_⟩
  · rw [forEach_map] at e
    exact e
  · intro i
    rw [h, show W.bit EnumSet.empty i = false from W.bit_empty i]
    constructor
    · rintro (h | ⟨x, hx, hb⟩)
      · cases h
      · obtain ⟨y, hy, rfl⟩ := List.mem_map.mp hx
        exact ⟨y, hy, (of_decide_eq_true hb).symm⟩
    · rintro ⟨y, hy, rfl⟩
      exact .inr ⟨.val y, List.mem_map_of_mem hy, decide_eq_true rfl⟩

end WF

end Enumset
