import Verif.SetLemmas
import Verif.Macros
/-!
# Helper lemmas: the const macros
-/
set_option autoImplicit false
set_option linter.unusedSectionVars false

namespace Enumset

namespace Tok

variable {α : Type}

theorem bars_iff (ts : List (Tok α)) : bars ts = true ↔ ∃ k, ts = List.replicate k .bar := by
  induction ts with
  | nil => exact ⟨fun _ => ⟨0, rfl⟩, fun _ => rfl⟩
  | cons t ts ih =>
    constructor
    · intro h
      cases t with
      | bar =>
        obtain ⟨k, rfl⟩ := ih.mp h
        exact ⟨k + 1, rfl⟩
      | path a => cases h
      | comma => cases h
      | other => cases h
    · rintro ⟨k, h⟩
      cases k with
      | zero => cases h
      | succ k =>
        rw [List.replicate_succ] at h
        injection h with h1 h2
        subst h1
        exact ih.mpr ⟨k, h2⟩

theorem optComma_iff (ts : List (Tok α)) : optComma ts = true ↔ ts = [] ∨ ts = [.comma] := by
  unfold optComma
  split
  · simp
  · simp
  · rename_i h1 h2
    constructor
    · intro h; cases h
    · rintro (h | h)
      · exact absurd h h1
      · exact absurd h h2

/-- Each operand preceded by a separator. -/
def sepTail (sep : Tok α) (l : List α) : List (Tok α) := l.flatMap fun a => [sep, .path a]

theorem intersperse_eq (sep : Tok α) (a : α) (l : List α) :
    List.intersperse sep ((a :: l).map .path) = .path a :: sepTail sep l := by
  induction l generalizing a with
  | nil => rfl
  | cons b l ih =>
    rw [List.map_cons, List.map_cons, List.intersperse_cons_cons, ← List.map_cons, ih]
    rfl

theorem barTail_iff (ts : List (Tok α)) (l : List α) :
    barTail ts = some l ↔ ∃ k, ts = sepTail .bar l ++ List.replicate k .bar := by
  fun_induction barTail ts generalizing l with
  | case1 a ts ih =>
    rw [Option.map_eq_some_iff]
    constructor
    · rintro ⟨m, hm, rfl⟩
      obtain ⟨k, rfl⟩ := (ih m).mp hm
      exact ⟨k, rfl⟩
    · rintro ⟨k, h⟩
      cases l with
      | nil =>
        match k, h with
        | 0, h => cases h
        | 1, h => cases h
        | k + 2, h => cases h
      | cons b l =>
        have h : Tok.bar :: .path a :: ts =
          .bar :: .path b :: (sepTail .bar l ++ List.replicate k .bar) := h
        injection h with _ h
        injection h with h1 h2
        injection h1 with h1
        subst h1
        exact ⟨l, (ih l).mpr ⟨k, h2⟩, rfl⟩
  | case2 ts hne hb =>
    constructor
    · intro h
      injection h with h
      subst h
      obtain ⟨k, rfl⟩ := (bars_iff ts).mp hb
      exact ⟨k, rfl⟩
    · rintro ⟨k, h⟩
      cases l with
      | nil => rfl
      | cons b l => exact absurd h (hne b _)
  | case3 ts hne hb =>
    constructor
    · intro h; cases h
    · rintro ⟨k, h⟩
      cases l with
      | nil => exact absurd ((bars_iff ts).mpr ⟨k, h⟩) hb
      | cons b l => exact absurd h (hne b _)

theorem commaTail_iff (ts : List (Tok α)) (l : List α) :
    commaTail ts = some l ↔ ts = sepTail .comma l ∨ ts = sepTail .comma l ++ [.comma] := by
  fun_induction commaTail ts generalizing l with
  | case1 a ts ih =>
    rw [Option.map_eq_some_iff]
    constructor
    · rintro ⟨m, hm, rfl⟩
      rcases (ih m).mp hm with rfl | rfl
      · exact .inl rfl
      · exact .inr rfl
    · intro h
      cases l with
      | nil => rcases h with h | h <;> cases h
      | cons b l =>
        have h : Tok.comma :: .path a :: ts = .comma :: .path b :: sepTail .comma l ∨
          Tok.comma :: .path a :: ts = .comma :: .path b :: (sepTail .comma l ++ [.comma]) := h
        have : a = b ∧ (ts = sepTail .comma l ∨ ts = sepTail .comma l ++ [.comma]) := by
          rcases h with h | h
          · injection h with _ h
            injection h with h1 h2
            injection h1 with h1
            exact ⟨h1, .inl h2⟩
          · injection h with _ h
            injection h with h1 h2
            injection h1 with h1
            exact ⟨h1, .inr h2⟩
        obtain ⟨rfl, h'⟩ := this
        exact ⟨l, (ih l).mpr h', rfl⟩
  | case2 ts hne hb =>
    constructor
    · intro h
      injection h with h
      subst h
      exact (optComma_iff ts).mp hb
    · intro h
      cases l with
      | nil => rfl
      | cons b l =>
        rcases h with h | h
        · exact absurd h (hne b _)
        · exact absurd h (hne b _)
  | case3 ts hne hb =>
    constructor
    · intro h; cases h
    · intro h
      cases l with
      | nil => exact absurd ((optComma_iff ts).mpr h) hb
      | cons b l =>
        rcases h with h | h
        · exact absurd h (hne b _)
        · exact absurd h (hne b _)

theorem bars_sepTail_cons (a : α) (l : List α) (ts : List (Tok α)) :
    bars (sepTail .bar (a :: l) ++ ts) = false := rfl

theorem expandEnumSet_iff (ts : List (Tok α)) (l : List α) :
    expandEnumSet ts = some l ↔
      ∃ k, ts = List.intersperse .bar (l.map .path) ++ List.replicate k .bar := by
  unfold expandEnumSet
  by_cases hb : bars ts = true
  · rw [if_pos hb]
    obtain ⟨k, rfl⟩ := (bars_iff ts).mp hb
    constructor
    · intro h
      injection h with h
      subst h
      exact ⟨k, rfl⟩
    · rintro ⟨k', h⟩
      cases l with
      | nil => rfl
      | cons a l =>
        rw [intersperse_eq] at h
        cases k with
        | zero => cases h
        | succ k => cases h
  · rw [if_neg hb]
    cases ts with
    | nil => exact absurd rfl hb
    | cons t ts' =>
      cases t with
      | bar =>
        simp only [reduceCtorEq, false_iff, not_exists]
        intro k h
        cases l with
        | nil => exact hb ((bars_iff _).mpr ⟨k, h⟩)
        | cons a l => rw [intersperse_eq] at h; cases h
      | comma =>
        simp only [reduceCtorEq, false_iff, not_exists]
        intro k h
        cases l with
        | nil => exact hb ((bars_iff _).mpr ⟨k, h⟩)
        | cons a l => rw [intersperse_eq] at h; cases h
      | other =>
        simp only [reduceCtorEq, false_iff, not_exists]
        intro k h
        cases l with
        | nil => exact hb ((bars_iff _).mpr ⟨k, h⟩)
        | cons a l => rw [intersperse_eq] at h; cases h
      | path a =>
        simp only
        -- in terms of the tail
        have key : (∃ k, Tok.path a :: ts' = List.intersperse .bar (l.map .path) ++
            List.replicate k .bar) ↔ ∃ m, l = a :: m ∧ barTail ts' = some m := by
          constructor
          · rintro ⟨k, h⟩
            cases l with
            | nil =>
              cases k with
              | zero => cases h
              | succ k => cases h
            | cons b m =>
              rw [intersperse_eq] at h
              have h : Tok.path a :: ts' = .path b :: (sepTail .bar m ++ List.replicate k .bar) := h
              injection h with h1 h2
              injection h1 with h1
              subst h1
              exact ⟨m, rfl, (barTail_iff _ _).mpr ⟨k, h2⟩⟩
          · rintro ⟨m, rfl, h⟩
            obtain ⟨k, rfl⟩ := (barTail_iff _ _).mp h
            exact ⟨k, by rw [intersperse_eq]; rfl⟩
        rw [key]
        by_cases hb' : bars ts' = true
        · rw [if_pos hb']
          obtain ⟨k, hk⟩ := (bars_iff ts').mp hb'
          have h0 : barTail ts' = some [] := (barTail_iff _ _).mpr ⟨k, hk⟩
          rw [h0]
          constructor
          · intro h; injection h with h; exact ⟨[], h.symm, rfl⟩
          · rintro ⟨m, rfl, h⟩; injection h with h; rw [h]
        · rw [if_neg hb']
          cases ts' with
          | nil => exact absurd rfl hb'
          | cons t2 ts2 =>
            cases t2 with
            | bar =>
              simp only
              have : barTail (.bar :: ts2) = barList ts2 := by
                cases ts2 with
                | nil => rfl
                | cons t3 ts3 => cases t3 <;> rfl
              rw [this, Option.map_eq_some_iff]
              constructor
              · rintro ⟨m, h, rfl⟩; exact ⟨m, rfl, h⟩
              · rintro ⟨m, rfl, h⟩; exact ⟨m, h, rfl⟩
            | path b => simp [barTail, bars]
            | comma => simp [barTail, bars]
            | other => simp [barTail, bars]

/-- The token lists accepted by the comma macros. -/
theorem expandList_iff (ts : List (Tok α)) (l : List α) :
    expandList ts = some l ↔ l ≠ [] ∧
      (ts = List.intersperse .comma (l.map .path) ∨
       ts = List.intersperse .comma (l.map .path) ++ [.comma] ∨
       (∃ a, l = [a] ∧ ts = [.path a, .comma, .comma])) := by
  unfold expandList
  cases l with
  | nil =>
    simp only [ne_eq, not_true_eq_false, false_and, iff_false]
    split
    · split
      · simp
      · split
        · simp
        · simp
    · simp
  | cons a l =>
    simp only [ne_eq, reduceCtorEq, not_false_eq_true, true_and, intersperse_eq]
    cases ts with
    | nil => simp
    | cons t ts' =>
      cases t with
      | bar => simp
      | comma => simp
      | other => simp
      | path b =>
        simp only
        by_cases ho : optComma ts' = true
        · rw [if_pos ho]
          rcases (optComma_iff ts').mp ho with rfl | rfl
          · cases l with
            | nil =>
              simp [sepTail]
              try exact eq_comm
            | cons c l => simp [sepTail]
          · cases l with
            | nil =>
              simp [sepTail]
              try exact eq_comm
            | cons c l => simp [sepTail]
        · rw [if_neg ho]
          cases ts' with
          | nil => exact absurd rfl ho
          | cons t2 ts2 =>
            cases t2 with
            | path c =>
              cases l <;> simp [sepTail]
            | bar => cases l <;> simp [sepTail]
            | other => cases l <;> simp [sepTail]
            | comma =>
              simp only
              rw [Option.map_eq_some_iff]
              cases ts2 with
              | nil => exact absurd rfl ho
              | cons t3 ts3 =>
                cases t3 with
                | path c =>
                  have : commaList (.path c :: ts3) = commaTail (.comma :: .path c :: ts3) := rfl
                  rw [this]
                  constructor
                  · rintro ⟨m, h, he⟩
                    injection he with h1 h2
                    subst h1; subst h2
                    rcases (commaTail_iff _ _).mp h with h | h
                    · exact .inl (by rw [h])
                    · exact .inr (.inl (by rw [h]; rfl))
                  · rintro (h | h | ⟨a', -, h⟩)
                    · injection h with h1 h2
                      injection h1 with h1
                      subst h1
                      exact ⟨l, (commaTail_iff _ _).mpr (.inl h2), rfl⟩
                    · have h : Tok.path b :: .comma :: .path c :: ts3 =
                        .path a :: (sepTail .comma l ++ [.comma]) := h
                      injection h with h1 h2
                      injection h1 with h1
                      subst h1
                      exact ⟨l, (commaTail_iff _ _).mpr (.inr h2), rfl⟩
                    · cases h
                | comma =>
                  cases ts3 with
                  | nil =>
                    cases l with
                    | nil => simp [sepTail, commaList, optComma]; try exact ⟨fun h => ⟨h, h.symm⟩, fun h => h.1⟩
                    | cons c l => simp [sepTail, commaList, optComma]
                  | cons t4 ts4 =>
                    cases l <;> simp [sepTail, commaList, optComma]
                | bar => cases l <;> simp [sepTail, commaList, optComma]
                | other => cases l <;> simp [sepTail, commaList, optComma]

theorem expandComplement_iff (ts : List (Tok α)) (a : α) :
    expandComplement ts = some a ↔ ts = [.path a] ∨ ts = [.path a, .comma] := by
  unfold expandComplement
  cases ts with
  | nil => simp
  | cons t ts =>
    cases t with
    | bar => simp
    | comma => simp
    | other => simp
    | path b =>
      simp only
      by_cases ho : optComma ts = true
      · rw [if_pos ho]
        rcases (optComma_iff ts).mp ho with rfl | rfl
        · simp
        · simp
      · rw [if_neg ho]
        constructor
        · intro h; cases h
        · intro h
          exact absurd ((optComma_iff ts).mpr (by rcases h with h | h <;> simp_all)) ho

theorem mem_intersperse (sep : Tok α) (a : α) (l : List α) (h : a ∈ l) :
    Tok.path a ∈ List.intersperse sep (l.map .path) := by
  cases l with
  | nil => cases h
  | cons b l =>
    rw [intersperse_eq]
    rcases List.mem_cons.mp h with rfl | h
    · simp
    · refine List.mem_cons_of_mem _ ?_
      unfold sepTail
      rw [List.mem_flatMap]
      exact ⟨a, h, by simp⟩

theorem expandEnumSet_mem {ts : List (Tok α)} {l : List α} (h : expandEnumSet ts = some l) :
    ∀ a ∈ l, Tok.path a ∈ ts := by
  intro a ha
  obtain ⟨k, rfl⟩ := (expandEnumSet_iff ts l).mp h
  exact List.mem_append_left _ (mem_intersperse _ _ _ ha)

theorem expandList_mem {ts : List (Tok α)} {l : List α} (h : expandList ts = some l) :
    ∀ a ∈ l, Tok.path a ∈ ts := by
  intro a ha
  obtain ⟨-, rfl | rfl | ⟨b, rfl, rfl⟩⟩ := (expandList_iff ts l).mp h
  · exact mem_intersperse _ _ _ ha
  · exact List.mem_append_left _ (mem_intersperse _ _ _ ha)
  · simp at ha; simp [ha]

theorem expandComplement_mem {ts : List (Tok α)} {a : α} (h : expandComplement ts = some a) :
    Tok.path a ∈ ts := by
  rcases (expandComplement_iff ts a).mp h with rfl | rfl <;> simp

end Tok

open ConstMacro

variable [Platform] {T : EnumSetType}

namespace WF

variable (W : WF T)
include W

theorem const_only_ok (o : Operand T) : ∃ s, ConstMacro.const_only o = .ok s ∧
    ∀ i, W.bit s i = W.obit o i := by
  cases o with
  | val v =>
    obtain ⟨r, e, hr⟩ := W.only_ok v
    exact ⟨⟨r⟩, by unfold ConstMacro.const_only; simp only; rw [e]; rfl, hr⟩
  | set s => exact ⟨s, rfl, fun _ => rfl⟩

theorem const_union_ok (a b : EnumSet T) : ∃ s, ConstMacro.const_union a b = .ok s ∧
    ∀ i, W.bit s i = (W.bit a i || W.bit b i) := by
  obtain ⟨r, e, hr⟩ := W.union_ok a.priv_repr b.priv_repr
  exact ⟨⟨r⟩, by unfold ConstMacro.const_union; rw [e]; rfl, hr⟩

theorem const_intersection_ok (a b : EnumSet T) : ∃ s, ConstMacro.const_intersection a b = .ok s ∧
    ∀ i, W.bit s i = (W.bit a i && W.bit b i) := by
  obtain ⟨r, e, hr⟩ := W.inter_ok a.priv_repr b.priv_repr
  exact ⟨⟨r⟩, by unfold ConstMacro.const_intersection; rw [e]; rfl, hr⟩

theorem const_symmetric_difference_ok (a b : EnumSet T) :
    ∃ s, ConstMacro.const_symmetric_difference a b = .ok s ∧
    ∀ i, W.bit s i = (W.bit a i ^^ W.bit b i) := by
  obtain ⟨r, e, hr⟩ := W.symm_ok a.priv_repr b.priv_repr
  exact ⟨⟨r⟩, by unfold ConstMacro.const_symmetric_difference; rw [e]; rfl, hr⟩

theorem const_complement_ok (a : EnumSet T) : ∃ s, ConstMacro.const_complement a = .ok s ∧
    ∀ i, W.bit s i = (!W.bit a i && W.bit EnumSet.ALL_REPR i) := by
  obtain ⟨r, e, hr⟩ := W.compl_ok a.priv_repr
  exact ⟨⟨r⟩, by unfold ConstMacro.const_complement; rw [e]; rfl, hr⟩

theorem diff_step_ok (a b : EnumSet T) : ∃ s,
    (do let c ← ConstMacro.const_complement b; ConstMacro.const_intersection a c) = .ok s ∧
    ∀ i, W.bit s i = (W.bit a i && (!W.bit b i && W.bit EnumSet.ALL_REPR i)) := by
  obtain ⟨c, e, hc⟩ := W.const_complement_ok b
  obtain ⟨s, e', hs⟩ := W.const_intersection_ok a c
  exact ⟨s, by rw [e, Res.ok_bind, e'], fun i => by rw [hs, hc]⟩

/-- The bits of a chain of binary operations. -/
theorem chain_ok (f : EnumSet T → EnumSet T → Res (EnumSet T)) (g : Nat → Bool → Bool → Bool)
    (hf : ∀ a b, ∃ s, f a b = .ok s ∧ ∀ i, W.bit s i = g i (W.bit a i) (W.bit b i))
    (v : Operand T) (rest : List (Operand T)) : ∃ s, chain f v rest = .ok s ∧
    ∀ i, W.bit s i = rest.foldl (fun b o => g i b (W.obit o i)) (W.obit v i) := by
  obtain ⟨s0, e0, h0⟩ := W.const_only_ok v
  have key : ∀ (rest : List (Operand T)) (s0 : EnumSet T), ∃ s,
      (forEach rest s0 fun r value => do
        let new ← ConstMacro.const_only r
        f value new) = .ok s ∧
      ∀ i, W.bit s i = rest.foldl (fun b o => g i b (W.obit o i)) (W.bit s0 i) := by
    intro rest
    induction rest with
    | nil => exact fun s0 => ⟨s0, rfl, fun _ => rfl⟩
    | cons r rest ih =>
      intro s0
      obtain ⟨n, en, hn⟩ := W.const_only_ok r
      obtain ⟨s1, e1, h1⟩ := hf s0 n
      obtain ⟨s2, e2, h2⟩ := ih s1
      refine ⟨s2, ?_, ?_⟩
      · simp only [forEach, en, Res.ok_bind, e1]
        exact e2
      · intro i
        rw [h2, List.foldl_cons, h1, hn]
  obtain ⟨s, e, h⟩ := key rest s0
  refine ⟨s, ?_, fun i => by rw [h, h0]⟩
  unfold chain
  rw [e0, Res.ok_bind, e]

theorem enum_set_union_ok (v : Operand T) (rest : List (Operand T)) :
    ∃ s, enum_set_union v rest = .ok s ∧
    ∀ i, W.bit s i = rest.foldl (fun b o => b || W.obit o i) (W.obit v i) :=
  W.chain_ok _ (fun _ a b => a || b) W.const_union_ok v rest

theorem enum_set_intersection_ok (v : Operand T) (rest : List (Operand T)) :
    ∃ s, enum_set_intersection v rest = .ok s ∧
    ∀ i, W.bit s i = rest.foldl (fun b o => b && W.obit o i) (W.obit v i) :=
  W.chain_ok _ (fun _ a b => a && b) W.const_intersection_ok v rest

theorem enum_set_symmetric_difference_ok (v : Operand T) (rest : List (Operand T)) :
    ∃ s, enum_set_symmetric_difference v rest = .ok s ∧
    ∀ i, W.bit s i = rest.foldl (fun b o => b ^^ W.obit o i) (W.obit v i) :=
  W.chain_ok _ (fun _ a b => a ^^ b) W.const_symmetric_difference_ok v rest

theorem enum_set_difference_ok (v : Operand T) (rest : List (Operand T)) :
    ∃ s, enum_set_difference v rest = .ok s ∧
    ∀ i, W.bit s i = rest.foldl
      (fun b o => b && (!W.obit o i && W.bit EnumSet.ALL_REPR i)) (W.obit v i) :=
  W.chain_ok _ (fun i a b => a && (!b && W.bit EnumSet.ALL_REPR i)) W.diff_step_ok v rest

theorem enum_set_complement_ok (v : Operand T) : ∃ s, enum_set_complement v = .ok s ∧
    ∀ i, W.bit s i = (!W.obit v i && W.bit EnumSet.ALL_REPR i) := by
  obtain ⟨s0, e0, h0⟩ := W.const_only_ok v
  obtain ⟨s, e, h⟩ := W.const_complement_ok s0
  exact ⟨s, by unfold enum_set_complement; rw [e0, Res.ok_bind, e], fun i => by rw [h, h0]⟩

theorem enum_set_ok (l : List (Operand T)) : ∃ s, enum_set l = .ok s ∧
    ∀ i, W.bit s i = l.any (fun o => W.obit o i) := by
  match l with
  | [] => exact ⟨_, rfl, W.bit_empty⟩
  | [v] =>
    obtain ⟨s, e, h⟩ := W.const_only_ok v
    exact ⟨s, e, fun i => by rw [h]; simp⟩
  | v :: w :: rest =>
    obtain ⟨s, e, h⟩ := W.enum_set_union_ok v (w :: rest)
    refine ⟨s, e, ?_⟩
    intro i
    rw [h, List.any_cons]
    have : ∀ (l : List (Operand T)) (b : Bool),
        l.foldl (fun b o => b || W.obit o i) b = (b || l.any fun o => W.obit o i) := by
      intro l
      induction l with
      | nil => simp
      | cons o l ih => intro b; rw [List.foldl_cons, ih, List.any_cons, Bool.or_assoc]
    exact this _ _

/-- Operands that denote sets of variants only. -/
def OClean (W : WF T) (o : Operand T) : Prop := ∀ i, W.obit o i = true → ∃ v, T.discr v = i

theorem oclean_of {o : Operand T} (h : ∀ b, o = .set b → W.Clean b) : W.OClean o := by
  cases o with
  | val v =>
    intro i hi
    exact ⟨v, (of_decide_eq_true hi).symm⟩
  | set b => exact h b rfl

/-- A chain stays clean if the operation maps `false, false` to `false`. -/
theorem chain_clean {g : Nat → Bool → Bool → Bool} (hg : ∀ i, g i false false = false)
    {v : Operand T} {rest : List (Operand T)} (hv : W.OClean v) (hr : ∀ o ∈ rest, W.OClean o)
    {s : EnumSet T}
    (h : ∀ i, W.bit s i = rest.foldl (fun b o => g i b (W.obit o i)) (W.obit v i)) :
    W.Clean s := by
  intro i hi
  apply Classical.byContradiction
  intro hn
  have hz : ∀ o, W.OClean o → W.obit o i = false := by
    intro o ho
    cases hb : W.obit o i with
    | false => rfl
    | true => exact absurd (ho i hb) hn
  have : rest.foldl (fun b o => g i b (W.obit o i)) false = false := by
    clear h
    induction rest with
    | nil => rfl
    | cons o rest ih =>
      rw [List.foldl_cons, hz o (hr o (by simp)), hg]
      exact ih (fun o ho => hr o (by simp [ho]))
  rw [h, hz v hv, this] at hi
  cases hi

theorem evalKind_clean {k : Kind} {l : List (Operand T)} (hl : ∀ o ∈ l, W.OClean o)
    {s : EnumSet T} (h : evalKind k l = some (.ok s)) : W.Clean s := by
  cases l with
  | nil => cases k <;> cases h
  | cons v rest =>
    have hv := hl v (by simp)
    have hr : ∀ o ∈ rest, W.OClean o := fun o ho => hl o (by simp [ho])
    cases k with
    | union =>
      obtain ⟨s', e, hs⟩ := W.enum_set_union_ok v rest
      injection h with h
      rw [e] at h; injection h with h; subst h
      exact W.chain_clean (g := fun _ a b => a || b) (fun _ => rfl) hv hr hs
    | intersection =>
      obtain ⟨s', e, hs⟩ := W.enum_set_intersection_ok v rest
      injection h with h
      rw [e] at h; injection h with h; subst h
      exact W.chain_clean (g := fun _ a b => a && b) (fun _ => rfl) hv hr hs
    | difference =>
      obtain ⟨s', e, hs⟩ := W.enum_set_difference_ok v rest
      injection h with h
      rw [e] at h; injection h with h; subst h
      exact W.chain_clean (g := fun i a b => a && (!b && W.bit EnumSet.ALL_REPR i))
        (fun _ => rfl) hv hr hs
    | symmetric_difference =>
      obtain ⟨s', e, hs⟩ := W.enum_set_symmetric_difference_ok v rest
      injection h with h
      rw [e] at h; injection h with h; subst h
      exact W.chain_clean (g := fun _ a b => a ^^ b) (fun _ => rfl) hv hr hs

theorem enum_set_clean {l : List (Operand T)} (hl : ∀ o ∈ l, W.OClean o) {s : EnumSet T}
    (h : enum_set l = .ok s) : W.Clean s := by
  obtain ⟨s', e, hs⟩ := W.enum_set_ok l
  rw [e] at h; injection h with h; subst h
  intro i hi
  rw [hs, List.any_eq_true] at hi
  obtain ⟨o, ho, hb⟩ := hi
  exact hl o ho i hb

end WF

end Enumset
