import Verif.Props.Examples
/-!
# Properties C11–C17: iterators and collecting
-/
set_option autoImplicit false

namespace Enumset

/-! ## helper -/

theorem snoc_cases {α : Type} (L : List α) : L = [] ∨ ∃ L' v, L = L' ++ [v] := by
  rcases List.eq_nil_or_concat L with h | ⟨L', v, h⟩
  · exact .inl h
  · exact .inr ⟨L', v, by rw [h, List.concat_eq_append]⟩

/-- An iterator with the variants `L` to come behaves as the queue `L` under every program. -/
theorem WF.runIter_ok [Platform] {T : EnumSetType} (W : WF T) (ops : List IterOp) :
    ∀ (it : EnumSetIter T) (L : List T.Val), W.ItRep it L →
      ∃ it', runIter ops it = .ok ((runDeque ops L).1, it') ∧ W.ItRep it' (runDeque ops L).2 := by
  induction ops with
  | nil => intro it L h; exact ⟨it, rfl, h⟩
  | cons op ops ih =>
    intro it L h
    cases op with
    | next =>
      cases L with
      | nil =>
        obtain ⟨it1, e1, h1⟩ := W.next_nil h
        obtain ⟨it2, e2, h2⟩ := ih it1 [] h1
        refine ⟨it2, ?_, h2⟩
        simp only [runIter, e1, Res.ok_bind, e2, runDeque]
        rfl
      | cons v L =>
        obtain ⟨it1, e1, h1⟩ := W.next_cons h
        obtain ⟨it2, e2, h2⟩ := ih it1 L h1
        refine ⟨it2, ?_, h2⟩
        simp only [runIter, e1, Res.ok_bind, e2, runDeque]
        rfl
    | nextBack =>
      rcases snoc_cases L with rfl | ⟨L, v, rfl⟩
      · obtain ⟨it1, e1, h1⟩ := W.next_back_nil h
        obtain ⟨it2, e2, h2⟩ := ih it1 [] h1
        refine ⟨it2, ?_, h2⟩
        simp only [runIter, e1, Res.ok_bind, e2, runDeque]
        rfl
      · obtain ⟨it1, e1, h1⟩ := W.next_back_concat h
        obtain ⟨it2, e2, h2⟩ := ih it1 L h1
        refine ⟨it2, ?_, ?_⟩
        · simp only [runIter, e1, Res.ok_bind, e2, runDeque, List.dropLast_concat,
            List.getLast?_concat]
          rfl
        · simpa only [runDeque, List.dropLast_concat] using h2
    | sizeHint =>
      obtain ⟨it2, e2, h2⟩ := ih it L h
      refine ⟨it2, ?_, h2⟩
      simp only [runIter, W.size_hint_ok h, Res.ok_bind, e2, runDeque]
      rfl

theorem WF.iter_sorted [Platform] {T : EnumSetType} (W : WF T) {s : EnumSet T} (hs : Safe s)
    {A : T.Val → Bool} (hA : Members s A) :
    ∃ it, s.iter = .ok it ∧ W.ItRep it (sortedMembers T.discr A) := by
  obtain ⟨it, e, h⟩ := W.iter_ok s (W.clean_of_safe hs)
  rw [W.mem_funext hA] at h
  exact ⟨it, e, by rw [W.sortedMembers_eq]; exact h⟩

/-! ## C11 Iteration order and completeness -/

/-- Running `iter()` to the end gives the contained variants, each once, in strictly increasing
order of discriminant. -/
theorem C11_iter [Platform] {inp : DeriveInput} {T : EnumSetType}
    (hT : derive inp = .ok T) (hfit : Fits T) {s : EnumSet T} (hs : Safe s)
    {A : T.Val → Bool} (hA : Members s A) :
    ∃ L : List T.Val, (do let it ← s.iter; it.collectVec) = .ok L ∧
      (∀ v, v ∈ L ↔ A v = true) ∧ L.Pairwise (fun u v => T.discr u < T.discr v) ∧
      L = sortedMembers T.discr A := by
  obtain ⟨W⟩ := wf_of_derive hT hfit
  obtain ⟨it, e, h⟩ := W.iter_sorted hs hA
  refine ⟨_, ?_, mem_sortedMembers T.discr A, W.sortedMembers_asc A, rfl⟩
  rw [e]
  exact W.collectVec_ok h

open scoped Ex in
example := C11_iter Ex.hL Ex.fitL Ex.safe_rAC Ex.mem_rAC

/-! ## C12 Arbitrary interleaving of next and next_back -/

/-- Under every sequence of calls the iterator behaves as the queue of the contained variants, sorted
by discriminant: `next` takes the first and `next_back` the last element. -/
theorem C12_deque [Platform] {inp : DeriveInput} {T : EnumSetType}
    (hT : derive inp = .ok T) (hfit : Fits T) {s : EnumSet T} (hs : Safe s)
    {A : T.Val → Bool} (hA : Members s A) (ops : List IterOp) :
    ∃ it it', s.iter = .ok it ∧
      runIter ops it = .ok ((runDeque ops (sortedMembers T.discr A)).1, it') := by
  obtain ⟨W⟩ := wf_of_derive hT hfit
  obtain ⟨it, e, h⟩ := W.iter_sorted hs hA
  obtain ⟨it', e', -⟩ := W.runIter_ok ops it _ h
  exact ⟨it, it', e, e'⟩

/-- What that means: after every sequence of calls there is a list of variants not yet yielded such
that yielded and remaining variants together are the contained ones, each once; a further `next`
yields the smallest, a further `next_back` the largest remaining one, or `None` if none remains. -/
theorem C12_smallest_largest [Platform] {inp : DeriveInput} {T : EnumSetType}
    (hT : derive inp = .ok T) (hfit : Fits T) {s : EnumSet T} (hs : Safe s)
    {A : T.Val → Bool} (hA : Members s A) (ops : List IterOp) :
    ∃ it obs it' rest, s.iter = .ok it ∧ runIter ops it = .ok (obs, it') ∧
      (IterObs.items obs ++ rest).Nodup ∧
      (∀ v, v ∈ IterObs.items obs ++ rest ↔ A v = true) ∧
      (∃ r it'', it'.next = .ok (r, it'') ∧ (r = none ↔ rest = []) ∧
        ∀ v, r = some v → v ∈ rest ∧ ∀ u ∈ rest, T.discr v ≤ T.discr u) ∧
      (∃ r it'', it'.next_back = .ok (r, it'') ∧ (r = none ↔ rest = []) ∧
        ∀ v, r = some v → v ∈ rest ∧ ∀ u ∈ rest, T.discr u ≤ T.discr v) := by
  obtain ⟨W⟩ := wf_of_derive hT hfit
  obtain ⟨it, e, h⟩ := W.iter_sorted hs hA
  obtain ⟨it', e', h'⟩ := W.runIter_ok ops it _ h
  have hperm : ∀ (ops : List IterOp) (L : List T.Val),
      (IterObs.items (runDeque ops L).1 ++ (runDeque ops L).2).Perm L := by
    intro ops
    induction ops with
    | nil => intro L; exact List.Perm.refl _
    | cons op ops ih =>
      intro L
      cases op with
      | next =>
        cases L with
        | nil => exact ih []
        | cons v L => exact (ih L).cons v
      | nextBack =>
        rcases snoc_cases L with rfl | ⟨L, v, rfl⟩
        · exact ih []
        · simp only [runDeque, List.getLast?_concat, List.dropLast_concat, IterObs.items]
          exact ((ih L).cons v).trans (List.perm_append_singleton v L).symm
      | sizeHint => exact ih L
  have hp := hperm ops (sortedMembers T.discr A)
  refine ⟨it, _, it', (runDeque ops (sortedMembers T.discr A)).2, e, e', ?_, ?_, ?_, ?_⟩
  · rw [hp.nodup_iff]; exact nodup_sortedMembers _ _
  · intro v; rw [hp.mem_iff]; exact mem_sortedMembers _ _ v
  · generalize (runDeque ops (sortedMembers T.discr A)).2 = R at h'
    cases R with
    | nil =>
      obtain ⟨it2, e2, -⟩ := W.next_nil h'
      exact ⟨none, it2, e2, by simp, by simp⟩
    | cons v R =>
      obtain ⟨it2, e2, -⟩ := W.next_cons h'
      refine ⟨some v, it2, e2, by simp, ?_⟩
      intro u hu
      injection hu with hu
      subst hu
      refine ⟨by simp, ?_⟩
      intro u hu
      rcases List.mem_cons.mp hu with rfl | hu
      · exact Nat.le_refl _
      · exact Nat.le_of_lt ((List.pairwise_cons.mp h'.2.1).1 u hu)
  · generalize (runDeque ops (sortedMembers T.discr A)).2 = R at h'
    rcases snoc_cases R with rfl | ⟨R, v, rfl⟩
    · obtain ⟨it2, e2, -⟩ := W.next_back_nil h'
      exact ⟨none, it2, e2, by simp, by simp⟩
    · obtain ⟨it2, e2, -⟩ := W.next_back_concat h'
      refine ⟨some v, it2, e2, by simp, ?_⟩
      intro u hu
      injection hu with hu
      subst hu
      refine ⟨by simp, ?_⟩
      intro u hu
      rcases List.mem_append.mp hu with hu | hu
      · exact Nat.le_of_lt ((List.pairwise_append.mp h'.2.1).2.2 u hu v (by simp))
      · rw [List.mem_singleton.mp hu]; exact Nat.le_refl _

open scoped Ex in
example := C12_deque Ex.hL Ex.fitL Ex.safe_rAC Ex.mem_rAC [.next, .nextBack, .sizeHint, .next]
open scoped Ex in
example := C12_smallest_largest Ex.hL Ex.fitL Ex.safe_rAC Ex.mem_rAC [.nextBack, .sizeHint]

/-! ## C13 Exact size and fused iterator -/

/-- After every sequence of calls `size_hint()` is `(k, Some(k))` where `k` is the number of
variants not yet yielded, which starts as `len()`; `ExactSizeIterator::len` is `k`. -/
theorem C13_size_hint [Platform] {inp : DeriveInput} {T : EnumSetType}
    (hT : derive inp = .ok T) (hfit : Fits T) {s : EnumSet T} (hs : Safe s) (ops : List IterOp) :
    ∃ it obs it' n k, s.iter = .ok it ∧ runIter ops it = .ok (obs, it') ∧ s.len = .ok n ∧
      (IterObs.items obs).length + k = n ∧
      it'.size_hint = .ok (k, some k) ∧ it'.len = .ok k := by
  obtain ⟨W⟩ := wf_of_derive hT hfit
  obtain ⟨it, e, h⟩ := W.iter_sorted hs (W.members_self s)
  obtain ⟨it', e', h'⟩ := W.runIter_ok ops it _ h
  have hlen : ∀ (ops : List IterOp) (L : List T.Val),
      (IterObs.items (runDeque ops L).1).length + (runDeque ops L).2.length = L.length := by
    intro ops
    induction ops with
    | nil => intro L; simp [runDeque, IterObs.items]
    | cons op ops ih =>
      intro L
      cases op with
      | next =>
        cases L with
        | nil => exact ih []
        | cons v L =>
          simp only [runDeque, List.head?_cons, List.tail_cons, IterObs.items, List.length_cons]
          have := ih L
          omega
      | nextBack =>
        rcases snoc_cases L with rfl | ⟨L, v, rfl⟩
        · exact ih []
        · simp only [runDeque, List.getLast?_concat, List.dropLast_concat, IterObs.items,
            List.length_cons, List.length_append, List.length_nil]
          have := ih L
          omega
      | sizeHint => exact ih L
  refine ⟨it, _, it', _, _, e, e', W.len_ok (W.clean_of_safe hs), ?_, W.size_hint_ok h', ?_⟩
  · rw [hlen, W.sortedMembers_eq]
  · unfold EnumSetIter.len
    rw [W.size_hint_ok h']
    simp

/-- Once a call has returned `None`, every later call does, and `size_hint` stays `(0, Some(0))`. -/
theorem C13_fused [Platform] {inp : DeriveInput} {T : EnumSetType}
    (hT : derive inp = .ok T) (hfit : Fits T) {s : EnumSet T} (hs : Safe s) (ops later : List IterOp)
    {it it' it'' : EnumSetIter T} {obs : List (IterObs T.Val)} (hit : s.iter = .ok it)
    (hrun : runIter ops it = .ok (obs, it'))
    (hnone : it'.next = .ok (none, it'') ∨ it'.next_back = .ok (none, it'')) :
    ∃ obs' end', runIter later it'' = .ok (obs', end') ∧ obs'.length = later.length ∧
      ∀ o ∈ obs', o.Exhausted := by
  obtain ⟨W⟩ := wf_of_derive hT hfit
  obtain ⟨it0, e, h⟩ := W.iter_sorted hs (W.members_self s)
  rw [hit] at e
  injection e with e
  subst e
  obtain ⟨it1, e1, h1⟩ := W.runIter_ok ops it _ h
  rw [hrun] at e1
  injection e1 with e1
  injection e1 with e1 e2
  subst e2
  generalize (runDeque ops (sortedMembers T.discr (W.mem s))).2 = R at h1
  have h2 : W.ItRep it'' [] := by
    rcases hnone with hn | hn
    · cases R with
      | nil =>
        obtain ⟨it2, e2, h2⟩ := W.next_nil h1
        rw [hn] at e2
        injection e2 with e2
        injection e2 with _ e2
        rw [e2]; exact h2
      | cons v R =>
        obtain ⟨it2, e2, -⟩ := W.next_cons h1
        rw [hn] at e2
        injection e2 with e2
        injection e2 with e2
        cases e2
    · rcases snoc_cases R with rfl | ⟨R, v, rfl⟩
      · obtain ⟨it2, e2, h2⟩ := W.next_back_nil h1
        rw [hn] at e2
        injection e2 with e2
        injection e2 with _ e2
        rw [e2]; exact h2
      · obtain ⟨it2, e2, -⟩ := W.next_back_concat h1
        rw [hn] at e2
        injection e2 with e2
        injection e2 with e2
        cases e2
  obtain ⟨it3, e3, -⟩ := W.runIter_ok later it'' [] h2
  refine ⟨_, it3, e3, ?_, ?_⟩
  · clear e3
    induction later with
    | nil => rfl
    | cons op later ih => cases op <;> simp [runDeque, ih]
  · clear e3
    induction later with
    | nil => simp [runDeque]
    | cons op later ih =>
      cases op <;> simp only [runDeque, List.mem_cons, forall_eq_or_imp]
      · exact ⟨rfl, ih⟩
      · exact ⟨rfl, ih⟩
      · exact ⟨⟨rfl, rfl⟩, ih⟩

open scoped Ex in
example := C13_size_hint Ex.hL Ex.fitL Ex.safe_rAC [.nextBack, .next, .next]
open scoped Ex in
example : ∃ it obs it' it'', EnumSet.iter Ex.rAC = .ok it ∧
    runIter [.next, .nextBack] it = .ok (obs, it') ∧ it'.next = .ok (none, it'') :=
  ⟨_, _, _, _, rfl, rfl, rfl⟩
open scoped Ex in
example := C13_fused Ex.hL Ex.fitL Ex.safe_rAC [.next, .nextBack] [.next, .sizeHint, .nextBack]
  rfl rfl (.inl rfl)

/-! ## C14 Reverse iteration and the provided methods -/

theorem C14_reverse [Platform] {inp : DeriveInput} {T : EnumSetType}
    (hT : derive inp = .ok T) (hfit : Fits T) {s : EnumSet T} (hs : Safe s) :
    ∃ it L, s.iter = .ok it ∧ it.collectVec = .ok L ∧ it.collectVecRev = .ok L.reverse := by
  obtain ⟨W⟩ := wf_of_derive hT hfit
  obtain ⟨it, e, h⟩ := W.iter_sorted hs (W.members_self s)
  exact ⟨it, _, e, W.collectVec_ok h, W.collectVecRev_ok h⟩

theorem WF.provided [Platform] {T : EnumSetType} (W : WF T) {it : EnumSetIter T} {L : List T.Val}
    (h : W.ItRep it L) :
    it.count = .ok L.length ∧ it.last = .ok L.getLast? ∧
      (∀ k, ∃ it', it.nth k = .ok (L[k]?, it')) ∧
      (∀ k, ∃ it', it.nth_back k = .ok (L.reverse[k]?, it')) ∧
      it.min_by_discr = .ok L.head? ∧ it.max_by_discr = .ok L.getLast? := by
  refine ⟨?_, ?_, ?_, ?_, ?_, ?_⟩
  · unfold EnumSetIter.count
    rw [W.forLoop_ok _ L _ _ _ h (W.fuel_ok L h.2.1)]
    have hb : L.length < 2 ^ usizeBits := Nat.lt_of_le_of_lt (W.asc_length_le h.2.1) W.bw_lt
    have key : ∀ (L : List T.Val) (c : Nat), c + L.length < 2 ^ usizeBits →
        (forEach L c fun _ c => addW usizeBits c 1) = .ok (c + L.length) := by
      intro L
      induction L with
      | nil => intro c _; rfl
      | cons v L ih =>
        intro c hc
        simp only [List.length_cons] at hc ⊢
        have ha : addW usizeBits c 1 = .ok (c + 1) := by
          unfold addW; exact if_pos (by omega)
        simp only [forEach]
        rw [ha, Res.ok_bind, ih _ (by omega)]
        congr 1
        omega
    rw [key L 0 (by omega), Nat.zero_add]
  · unfold EnumSetIter.last
    rw [W.forLoop_ok _ L _ _ _ h (W.fuel_ok L h.2.1)]
    have key : ∀ (L : List T.Val) (o : Option T.Val),
        (forEach L o fun v _ => .ok (some v)) = .ok (L.getLast?.or o) := by
      intro L
      induction L with
      | nil => intro o; rfl
      | cons v L ih =>
        intro o
        simp only [forEach, Res.ok_bind]
        rw [ih, List.getLast?_cons]
        cases L.getLast? <;> rfl
    rw [key L none]
    simp
  · intro k
    induction k generalizing it L with
    | zero =>
      cases L with
      | nil => obtain ⟨it1, e1, -⟩ := W.next_nil h; exact ⟨it1, e1⟩
      | cons v L => obtain ⟨it1, e1, -⟩ := W.next_cons h; exact ⟨it1, e1⟩
    | succ k ih =>
      cases L with
      | nil =>
        obtain ⟨it1, e1, -⟩ := W.next_nil h
        exact ⟨it1, by simp only [EnumSetIter.nth, e1, Res.ok_bind]; rfl⟩
      | cons v L =>
        obtain ⟨it1, e1, h1⟩ := W.next_cons h
        obtain ⟨it2, e2⟩ := ih h1
        exact ⟨it2, by simp only [EnumSetIter.nth, e1, Res.ok_bind, e2]; rfl⟩
  · intro k
    induction k generalizing it L with
    | zero =>
      rcases snoc_cases L with rfl | ⟨L, v, rfl⟩
      · obtain ⟨it1, e1, -⟩ := W.next_back_nil h; exact ⟨it1, e1⟩
      · obtain ⟨it1, e1, -⟩ := W.next_back_concat h; exact ⟨it1, by simpa [EnumSetIter.nth_back] using e1⟩
    | succ k ih =>
      rcases snoc_cases L with rfl | ⟨L, v, rfl⟩
      · obtain ⟨it1, e1, -⟩ := W.next_back_nil h
        exact ⟨it1, by simp only [EnumSetIter.nth_back, e1, Res.ok_bind]; rfl⟩
      · obtain ⟨it1, e1, h1⟩ := W.next_back_concat h
        obtain ⟨it2, e2⟩ := ih h1
        exact ⟨it2, by simp only [EnumSetIter.nth_back, e1, Res.ok_bind, e2]; simp⟩
  · unfold EnumSetIter.min_by_discr
    cases L with
    | nil => obtain ⟨it1, e1, -⟩ := W.next_nil h; rw [e1]; rfl
    | cons v L =>
      obtain ⟨it1, e1, h1⟩ := W.next_cons h
      simp only [e1, Res.ok_bind]
      rw [W.forLoop_ok _ L _ _ _ h1 (W.fuel_ok L h1.2.1)]
      have hv := (List.pairwise_cons.mp h.2.1).1
      have key : ∀ L : List T.Val, (∀ u ∈ L, T.discr v < T.discr u) →
          (forEach L v fun y x => .ok (if T.discr y < T.discr x then y else x)) = .ok v := by
        intro L
        induction L with
        | nil => intro _; rfl
        | cons u L ih =>
          intro hL
          have hu := hL u (by simp)
          simp only [forEach, Res.ok_bind]
          rw [if_neg (by omega)]
          exact ih fun x hx => hL x (by simp [hx])
      rw [key L hv]
      rfl
  · unfold EnumSetIter.max_by_discr
    cases L with
    | nil => obtain ⟨it1, e1, -⟩ := W.next_nil h; rw [e1]; rfl
    | cons v L =>
      obtain ⟨it1, e1, h1⟩ := W.next_cons h
      simp only [e1, Res.ok_bind]
      rw [W.forLoop_ok _ L _ _ _ h1 (W.fuel_ok L h1.2.1)]
      have key : ∀ (L : List T.Val) (v : T.Val), Ascending (v :: L) →
          (forEach L v fun y x => .ok (if T.discr y < T.discr x then x else y)) =
            .ok ((v :: L).getLast (by simp)) := by
        intro L
        induction L with
        | nil => intro v _; rfl
        | cons u L ih =>
          intro v hL
          have hu := (List.pairwise_cons.mp hL).1 u (by simp)
          simp only [forEach, Res.ok_bind]
          rw [if_neg (by omega), ih u (List.pairwise_cons.mp hL).2]
          simp
      rw [key L v h.2.1]
      simp [List.getLast?_eq_some_getLast]

/-- `count`, `last`, `nth`, `nth_back`, `min_by_key` and `max_by_key` (of the discriminant) answer
as the list of contained variants in increasing order of discriminant. -/
theorem C14_provided [Platform] {inp : DeriveInput} {T : EnumSetType}
    (hT : derive inp = .ok T) (hfit : Fits T) {s : EnumSet T} (hs : Safe s)
    {A : T.Val → Bool} (hA : Members s A) :
    ∃ it, s.iter = .ok it ∧ it.count = .ok (sortedMembers T.discr A).length ∧
      it.last = .ok (sortedMembers T.discr A).getLast? ∧
      (∀ k, ∃ it', it.nth k = .ok ((sortedMembers T.discr A)[k]?, it')) ∧
      (∀ k, ∃ it', it.nth_back k = .ok ((sortedMembers T.discr A).reverse[k]?, it')) ∧
      it.min_by_discr = .ok (sortedMembers T.discr A).head? ∧
      it.max_by_discr = .ok (sortedMembers T.discr A).getLast? := by
  obtain ⟨W⟩ := wf_of_derive hT hfit
  obtain ⟨it, e, h⟩ := W.iter_sorted hs hA
  exact ⟨it, e, W.provided h⟩

open scoped Ex in
example := C14_reverse Ex.hL Ex.fitL Ex.safe_rAC
open scoped Ex in
example := C14_provided Ex.hL Ex.fitL Ex.safe_rAC Ex.mem_rAC

/-! ## C15 Memory safety of enum reconstruction -/

/-- Whatever was done with the iterator of a set built without `unsafe`: the number the storage's
iterator hands to `enum_from_u32` (in `next` or `next_back`) is the discriminant of a variant, and
`enum_from_u32` returns that variant. -/
theorem C15_only_discriminants [Platform] {inp : DeriveInput} {T : EnumSetType}
    (hT : derive inp = .ok T) (hfit : Fits T) {s : EnumSet T} (hs : Safe s) (ops : List IterOp)
    {it it' : EnumSetIter T} {obs : List (IterObs T.Val)} (hit : s.iter = .ok it)
    (hrun : runIter ops it = .ok (obs, it')) {b : Nat} {raw : EnumSetTypeRepr.Iter T.Repr}
    (hb : EnumSetTypeRepr.iter_next it'.iter = .ok (some b, raw) ∨
      EnumSetTypeRepr.iter_next_back it'.iter = .ok (some b, raw)) :
    ∃ v, T.discr v = b ∧ T.enum_from_u32 b = .ok v := by
  obtain ⟨W⟩ := wf_of_derive hT hfit
  obtain ⟨it0, e, h⟩ := W.iter_sorted hs (W.members_self s)
  rw [hit] at e
  injection e with e
  subst e
  obtain ⟨it1, e1, h1⟩ := W.runIter_ok ops it _ h
  rw [hrun] at e1
  injection e1 with e1
  injection e1 with e1 e2
  subst e2
  have key : W.lawful.ibit it'.iter b = true := by
    rcases hb with hb | hb
    · obtain ⟨o, r, e, -, h'⟩ := W.lawful.next_ok it'.iter h1.1
      rw [hb] at e
      injection e with e
      injection e with e _
      rcases h' with ⟨h', -⟩ | ⟨c, h', hc, -⟩
      · rw [h'] at e; cases e
      · rw [h'] at e; injection e with e; rw [e]; exact hc
    · obtain ⟨o, r, e, -, h'⟩ := W.lawful.next_back_ok it'.iter h1.1
      rw [hb] at e
      injection e with e
      injection e with e _
      rcases h' with ⟨h', -⟩ | ⟨c, h', hc, -⟩
      · rw [h'] at e; cases e
      · rw [h'] at e; injection e with e; rw [e]; exact hc
  obtain ⟨v, -, rfl⟩ := (h1.2.2 b).mp key
  exact ⟨v, rfl, W.from_ok v⟩

/-- No call of the iterator of a set built without `unsafe` is undefined behaviour. -/
theorem C15_no_ub [Platform] {inp : DeriveInput} {T : EnumSetType}
    (hT : derive inp = .ok T) (hfit : Fits T) {s : EnumSet T} (hs : Safe s) (ops : List IterOp) :
    ∃ it r, s.iter = .ok it ∧ runIter ops it = .ok r := by
  obtain ⟨W⟩ := wf_of_derive hT hfit
  obtain ⟨it, it', h1, h2⟩ := C12_deque hT hfit hs (W.members_self s) ops
  exact ⟨it, _, h1, h2⟩

/-- The hypothesis matters: for an enum with at least two variants, `enum_from_u32` of anything that
is not a discriminant is undefined behaviour (or yields a variant the value does not denote). -/
theorem C15_danger [Platform] {inp : DeriveInput} {T : EnumSetType}
    (hT : derive inp = .ok T) (h2 : 2 ≤ T.n) {b : Nat} (hb : ∀ v, T.discr v ≠ b) :
    T.enum_from_u32 b = .ub := by
  obtain ⟨info, -, hok, hs⟩ := derive_shape hT
  have key : ∀ (n : Nat) (discr : Fin n → Nat), 2 ≤ n → (∀ v, discr v ≠ b) →
      genFrom n discr b = .ub := by
    intro n discr hn hd
    unfold genFrom
    rw [dif_neg (by omega), dif_neg (by omega)]
    have : (List.finRange n).find? (fun i => discr i == b) = none := by
      rw [List.find?_eq_none]
      intro v _
      simp [hd v]
    rw [this]
  cases hs with
  | prim => exact key _ _ h2 hb
  | array => exact key _ _ h2 hb

open scoped Ex in
example := C15_only_discriminants Ex.hL Ex.fitL Ex.safe_rAC [.next] rfl rfl (.inl rfl)
open scoped Ex in
example := C15_no_ub Ex.hL Ex.fitL Ex.safe_rAC [.next, .next, .nextBack]
open scoped Ex in
example := C15_danger Ex.hL (b := 5) (by decide) (by decide)

/-! ## C16 Collecting -/

theorem C16_collect [Platform] {inp : DeriveInput} {T : EnumSetType}
    (hT : derive inp = .ok T) (hfit : Fits T) (l : List T.Val) {s : EnumSet T}
    {A : T.Val → Bool} (hA : Members s A) :
    (∃ r, EnumSet.from_iter l = .ok r ∧ Members r fun v => decide (v ∈ l)) ∧
    (∃ r, EnumSet.sum l = .ok r ∧ Members r fun v => decide (v ∈ l)) ∧
    (∃ r, s.extend l = .ok r ∧ Members r fun v => A v || decide (v ∈ l)) := by
  obtain ⟨W⟩ := wf_of_derive hT hfit
  have hmem : ∀ v, (∃ u ∈ l, T.discr u = T.discr v) ↔ v ∈ l := by
    intro v
    constructor
    · rintro ⟨u, hu, e⟩; rw [← W.discr_inj e]; exact hu
    · intro h; exact ⟨v, h, rfl⟩
  refine ⟨?_, ?_, ?_⟩
  · obtain ⟨r, e, h⟩ := W.extend_ok l EnumSet.default
    refine ⟨r, e, W.members_of_bits fun v => ?_⟩
    rw [Bool.eq_iff_iff, h, show W.bit EnumSet.default (T.discr v) = false from W.bit_empty _, hmem]
    simp
  · obtain ⟨r, e, h⟩ := W.sum_ok l
    refine ⟨r, e, W.members_of_bits fun v => ?_⟩
    rw [Bool.eq_iff_iff, h, hmem]
    simp
  · obtain ⟨r, e, h⟩ := W.extend_ok l s
    refine ⟨r, e, W.members_of_bits fun v => ?_⟩
    rw [Bool.eq_iff_iff, h, hmem, ← W.members_iff.mp hA v]
    simp [WF.mem]

/-- Order and multiplicity do not matter. -/
theorem C16_order [Platform] {inp : DeriveInput} {T : EnumSetType}
    (hT : derive inp = .ok T) (hfit : Fits T) {l l' : List T.Val} (h : ∀ v, v ∈ l ↔ v ∈ l')
    (s : EnumSet T) :
    EnumSet.from_iter l = EnumSet.from_iter l' ∧ EnumSet.sum l = EnumSet.sum l' ∧
    s.extend l = s.extend l' := by
  obtain ⟨W⟩ := wf_of_derive hT hfit
  have hmem : ∀ i, (∃ u ∈ l, T.discr u = i) ↔ ∃ u ∈ l', T.discr u = i := by
    intro i
    constructor
    · rintro ⟨u, hu, e⟩; exact ⟨u, (h u).mp hu, e⟩
    · rintro ⟨u, hu, e⟩; exact ⟨u, (h u).mpr hu, e⟩
  have hext : ∀ s : EnumSet T, s.extend l = s.extend l' := by
    intro s
    obtain ⟨r, e, h⟩ := W.extend_ok l s
    obtain ⟨r', e', h'⟩ := W.extend_ok l' s
    rw [e, e']
    congr 1
    exact W.ext fun i => by rw [Bool.eq_iff_iff, h, h', hmem]
  refine ⟨hext _, ?_, hext s⟩
  obtain ⟨r, e, h⟩ := W.sum_ok l
  obtain ⟨r', e', h'⟩ := W.sum_ok l'
  rw [e, e']
  congr 1
  exact W.ext fun i => by rw [Bool.eq_iff_iff, h, h', hmem]

/-- Collecting a set's own iterator gives the set back; extending a set with it gives the union. -/
theorem C16_own_iter [Platform] {inp : DeriveInput} {T : EnumSetType}
    (hT : derive inp = .ok T) (hfit : Fits T) {s : EnumSet T} (hs : Safe s) (t : EnumSet T) :
    (do let it ← s.iter; EnumSet.collect it) = .ok s ∧
    (do let it ← s.iter; t.extend_iter it) = t.union s := by
  obtain ⟨W⟩ := wf_of_derive hT hfit
  obtain ⟨it, e, h⟩ := W.iter_sorted hs (W.members_self s)
  have hb : ∀ i, (∃ v ∈ sortedMembers T.discr (W.mem s), T.discr v = i) ↔ W.bit s i = true := by
    intro i
    rw [W.bit_eq_mem (W.clean_of_safe hs) (W.members_self s)]
    simp only [mem_sortedMembers]
    constructor
    · rintro ⟨v, h1, h2⟩; exact ⟨v, h2, h1⟩
    · rintro ⟨v, h1, h2⟩; exact ⟨v, h2, h1⟩
  rw [e]
  refine ⟨?_, ?_⟩
  · change EnumSet.collect it = _
    unfold EnumSet.collect
    rw [W.extend_iter_eq h]
    obtain ⟨r, e', h'⟩ := W.extend_ok (sortedMembers T.discr (W.mem s)) EnumSet.default
    rw [e']
    congr 1
    exact W.ext fun i => by
      rw [Bool.eq_iff_iff, h', hb, show W.bit EnumSet.default i = false from W.bit_empty i]
      simp
  · change t.extend_iter it = _
    rw [W.extend_iter_eq h]
    obtain ⟨r, e', h'⟩ := W.extend_ok (sortedMembers T.discr (W.mem s)) t
    obtain ⟨u, e'', h''⟩ := W.union_set_ok t s
    rw [e', e'']
    congr 1
    exact W.ext fun i => by rw [Bool.eq_iff_iff, h', hb, h'']; simp

open scoped Ex in
example := C16_collect Ex.hL Ex.fitL [Ex.lB, Ex.lC, Ex.lB] Ex.mem_rAC
open scoped Ex in
example := C16_order Ex.hL Ex.fitL (l := [Ex.lB, Ex.lA, Ex.lB]) (l' := [Ex.lA, Ex.lB])
  (by decide) Ex.rAC
open scoped Ex in
example := C16_own_iter Ex.hL Ex.fitL Ex.safe_rAC Ex.rB

/-! ## C17 Collecting sets -/

theorem C17_collect_sets [Platform] {inp : DeriveInput} {T : EnumSetType}
    (hT : derive inp = .ok T) (hfit : Fits T) (l : List (EnumSet T)) (s : EnumSet T) :
    (∃ r, EnumSet.from_iter_sets l = .ok r ∧
      ∀ v, r.contains v = .ok true ↔ ∃ x ∈ l, x.contains v = .ok true) ∧
    (∃ r, EnumSet.sum_sets l = .ok r ∧
      ∀ v, r.contains v = .ok true ↔ ∃ x ∈ l, x.contains v = .ok true) ∧
    (∃ r, s.extend_sets l = .ok r ∧ ∀ v, r.contains v = .ok true ↔
      s.contains v = .ok true ∨ ∃ x ∈ l, x.contains v = .ok true) := by
  obtain ⟨W⟩ := wf_of_derive hT hfit
  have hc : ∀ (x : EnumSet T) v, x.contains v = .ok true ↔ W.bit x (T.discr v) = true := by
    intro x v
    rw [W.contains_ok]
    constructor
    · intro h; injection h
    · intro h; rw [show W.mem x v = true from h]
  simp only [hc]
  refine ⟨?_, ?_, ?_⟩
  · obtain ⟨r, e, h⟩ := W.extend_sets_ok l EnumSet.default
    refine ⟨r, e, fun v => ?_⟩
    rw [h, show W.bit EnumSet.default (T.discr v) = false from W.bit_empty _]
    simp
  · obtain ⟨r, e, h⟩ := W.sum_sets_ok l
    exact ⟨r, e, fun v => h _⟩
  · obtain ⟨r, e, h⟩ := W.extend_sets_ok l s
    exact ⟨r, e, fun v => h _⟩

/-- Order and multiplicity do not matter. -/
theorem C17_order [Platform] {inp : DeriveInput} {T : EnumSetType}
    (hT : derive inp = .ok T) (hfit : Fits T) {l l' : List (EnumSet T)}
    (h : ∀ x, x ∈ l ↔ x ∈ l') (s : EnumSet T) :
    EnumSet.from_iter_sets l = EnumSet.from_iter_sets l' ∧
    EnumSet.sum_sets l = EnumSet.sum_sets l' ∧ s.extend_sets l = s.extend_sets l' := by
  obtain ⟨W⟩ := wf_of_derive hT hfit
  have hmem : ∀ i, (∃ u ∈ l, W.bit u i = true) ↔ ∃ u ∈ l', W.bit u i = true := by
    intro i
    constructor
    · rintro ⟨u, hu, e⟩; exact ⟨u, (h u).mp hu, e⟩
    · rintro ⟨u, hu, e⟩; exact ⟨u, (h u).mpr hu, e⟩
  have hext : ∀ s : EnumSet T, s.extend_sets l = s.extend_sets l' := by
    intro s
    obtain ⟨r, e, h⟩ := W.extend_sets_ok l s
    obtain ⟨r', e', h'⟩ := W.extend_sets_ok l' s
    rw [e, e']
    congr 1
    exact W.ext fun i => by rw [Bool.eq_iff_iff, h, h', hmem]
  refine ⟨hext _, ?_, hext s⟩
  obtain ⟨r, e, h⟩ := W.sum_sets_ok l
  obtain ⟨r', e', h'⟩ := W.sum_sets_ok l'
  rw [e, e']
  congr 1
  exact W.ext fun i => by rw [Bool.eq_iff_iff, h, h', hmem]

open scoped Ex in
example := C17_collect_sets Ex.hL Ex.fitL [Ex.rAC, Ex.rB, Ex.rAC] Ex.rB
open scoped Ex in
example := C17_order Ex.hL Ex.fitL (l := [Ex.rAC, Ex.rB, Ex.rAC]) (l' := [Ex.rB, Ex.rAC])
  (by simp [or_comm]) Ex.rB

end Enumset
