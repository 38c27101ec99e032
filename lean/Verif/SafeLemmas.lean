import Verif.Safe
import Verif.MacroLemmas
import Verif.SerdeLemmas
/-!
# Helper: sets built without `unsafe` have no stray bits
-/
set_option autoImplicit false
set_option linter.unusedSectionVars false

namespace Enumset

variable [Platform] {T : EnumSetType}

namespace WF

variable (W : WF T)
include W

/-- From the bits of the result to cleanness, given the call's outcome. -/
theorem clean_res {r : Res (EnumSet T)} {s : EnumSet T} {p : Nat → Bool} (h : r = .ok s)
    (ok : ∃ s', r = .ok s' ∧ ∀ i, W.bit s' i = p i) (hp : ∀ i, p i = true → ∃ v, T.discr v = i) :
    W.Clean s := by
  obtain ⟨s', e, hs⟩ := ok
  rw [h] at e
  injection e with e
  subst e
  intro i hi
  rw [hs] at hi
  exact hp i hi

theorem clean_prod {r : Res (Bool × EnumSet T)} {b b' : Bool} {s : EnumSet T} {p : Nat → Bool}
    (h : r = .ok (b, s)) (ok : ∃ s', r = .ok (b', s') ∧ ∀ i, W.bit s' i = p i)
    (hp : ∀ i, p i = true → ∃ v, T.discr v = i) : W.Clean s := by
  obtain ⟨s', e, hs⟩ := ok
  rw [h] at e
  injection e with e
  injection e with _ e
  subst e
  intro i hi
  rw [hs] at hi
  exact hp i hi

theorem clean_iff_res {r : Res (EnumSet T)} {s : EnumSet T} {p : Nat → Prop} (h : r = .ok s)
    (ok : ∃ s', r = .ok s' ∧ ∀ i, W.bit s' i = true ↔ p i) (hp : ∀ i, p i → ∃ v, T.discr v = i) :
    W.Clean s := by
  obtain ⟨s', e, hs⟩ := ok
  rw [h] at e
  injection e with e
  subst e
  exact fun i hi => hp i ((hs i).mp hi)

theorem or_clean {p q : Nat → Bool} (hp : ∀ i, p i = true → ∃ v, T.discr v = i)
    (hq : ∀ i, q i = true → ∃ v, T.discr v = i) (i : Nat) (h : (p i || q i) = true) :
    ∃ v, T.discr v = i := by
  rcases Bool.or_eq_true_iff.mp h with h | h
  · exact hp i h
  · exact hq i h

theorem and_clean {p : Nat → Bool} {q : Nat → Bool} (hp : ∀ i, p i = true → ∃ v, T.discr v = i)
    (i : Nat) (h : (p i && q i) = true) : ∃ v, T.discr v = i :=
  hp i (Bool.and_eq_true_iff.mp h).1

theorem and_clean' {p : Nat → Bool} {q : Nat → Bool} (hq : ∀ i, q i = true → ∃ v, T.discr v = i)
    (i : Nat) (h : (p i && q i) = true) : ∃ v, T.discr v = i :=
  hq i (Bool.and_eq_true_iff.mp h).2

theorem xor_clean {p q : Nat → Bool} (hp : ∀ i, p i = true → ∃ v, T.discr v = i)
    (hq : ∀ i, q i = true → ∃ v, T.discr v = i) (i : Nat) (h : (p i ^^ q i) = true) :
    ∃ v, T.discr v = i := by
  cases hb : p i with
  | true => exact hp i hb
  | false => rw [hb, Bool.false_xor] at h; exact hq i h

theorem only_clean (v : T.Val) (i : Nat) (h : decide (i = T.discr v) = true) :
    ∃ v, T.discr v = i := ⟨v, (of_decide_eq_true h).symm⟩

theorem val_sub_ok (v : T.Val) (o : Operand T) : ∃ s, EnumVal.sub v o = .ok s ∧
    ∀ i, W.bit s i = (decide (i = T.discr v) && !W.obit o i) := by
  obtain ⟨a, ea, ha⟩ := W.only_set_ok v
  obtain ⟨b, eb, hb⟩ := W.into_set_ok o
  obtain ⟨s, e, h⟩ := W.sub_ok a (.set b)
  refine ⟨s, by unfold EnumVal.sub; rw [ea, Res.ok_bind, eb, Res.ok_bind, e], ?_⟩
  intro i
  rw [h, ha, ← hb]
  rfl

theorem val_bitand_ok (v : T.Val) (o : Operand T) : ∃ s, EnumVal.bitand v o = .ok s ∧
    ∀ i, W.bit s i = (decide (i = T.discr v) && W.obit o i) := by
  obtain ⟨a, ea, ha⟩ := W.only_set_ok v
  obtain ⟨b, eb, hb⟩ := W.into_set_ok o
  obtain ⟨s, e, h⟩ := W.bitand_ok a (.set b)
  refine ⟨s, by unfold EnumVal.bitand; rw [ea, Res.ok_bind, eb, Res.ok_bind, e], ?_⟩
  intro i
  rw [h, ha, ← hb]
  rfl

theorem val_bitor_ok (v : T.Val) (o : Operand T) : ∃ s, EnumVal.bitor v o = .ok s ∧
    ∀ i, W.bit s i = (decide (i = T.discr v) || W.obit o i) := by
  obtain ⟨a, ea, ha⟩ := W.only_set_ok v
  obtain ⟨b, eb, hb⟩ := W.into_set_ok o
  obtain ⟨s, e, h⟩ := W.bitor_ok a (.set b)
  refine ⟨s, by unfold EnumVal.bitor; rw [ea, Res.ok_bind, eb, Res.ok_bind, e], ?_⟩
  intro i
  rw [h, ha, ← hb]
  rfl

theorem val_bitxor_ok (v : T.Val) (o : Operand T) : ∃ s, EnumVal.bitxor v o = .ok s ∧
    ∀ i, W.bit s i = (decide (i = T.discr v) ^^ W.obit o i) := by
  obtain ⟨a, ea, ha⟩ := W.only_set_ok v
  obtain ⟨b, eb, hb⟩ := W.into_set_ok o
  obtain ⟨s, e, h⟩ := W.bitxor_ok a (.set b)
  refine ⟨s, by unfold EnumVal.bitxor; rw [ea, Res.ok_bind, eb, Res.ok_bind, e], ?_⟩
  intro i
  rw [h, ha, ← hb]
  rfl

theorem val_not_ok (v : T.Val) : ∃ s, EnumVal.not v = .ok s ∧
    ∀ i, W.bit s i = (!decide (i = T.discr v) && W.bit EnumSet.ALL_REPR i) := by
  obtain ⟨a, ea, ha⟩ := W.only_set_ok v
  obtain ⟨s, e, h⟩ := W.complement_ok a
  refine ⟨s, by unfold EnumVal.not EnumSet.not; rw [ea, Res.ok_bind, e], ?_⟩
  intro i
  rw [h, ha]

theorem clean_opt {r : Res (Option (EnumSet T))} {s : EnumSet T} {p : Nat → Bool}
    (h : r = .ok (some s))
    (h1 : OnlyVariants T p → ∃ s', r = .ok (some s') ∧ ∀ i, W.bit s' i = p i)
    (h2 : ¬ OnlyVariants T p → r = .ok none) : W.Clean s := by
  by_cases hp : OnlyVariants T p
  · obtain ⟨s', e, hs⟩ := h1 hp
    rw [h] at e
    injection e with e
    injection e with e
    subst e
    intro i hi
    rw [hs] at hi
    exact hp i hi
  · rw [h2 hp] at h
    injection h with h
    cases h

omit W in
theorem expect_ok {α : Type} {m : String} {r : Res (Option α)} {s : α}
    (h : (do let x ← r; Res.expect m x) = .ok s) : r = .ok (some s) := by
  cases r with
  | ok o =>
    cases o with
    | none => cases h
    | some a =>
      injection h with h
      rw [h]
  | panic p => cases h
  | ub => cases h
  | diverge => cases h

theorem forLoop_clean (fuel : Nat) : ∀ (it : EnumSetIter T) (a s : EnumSet T), W.Clean a →
    EnumSetIter.forLoop fuel it a (fun v self => do
      let (_, self) ← EnumSet.insert self v
      pure self) = .ok s → W.Clean s := by
  induction fuel with
  | zero => intro it a s _ h; cases h
  | succ fuel ih =>
    intro it a s ha h
    rw [EnumSetIter.forLoop] at h
    cases hn : it.next with
    | panic p => rw [hn] at h; cases h
    | ub => rw [hn] at h; cases h
    | diverge => rw [hn] at h; cases h
    | ok r =>
      obtain ⟨r, it'⟩ := r
      rw [hn] at h
      cases r with
      | none => injection h with h; subst h; exact ha
      | some v =>
        obtain ⟨s1, e1, h1⟩ := W.insert_ok a v
        simp only [Res.ok_bind, e1, Res.pure_eq] at h
        exact ih it' s1 s (W.clean_insert ha h1) h

theorem array_clean {E : Type} (items : List (Except E U64)) {s : EnumSet T}
    (h : Serde.deserializeArray items = .ok (.ok s)) : W.Clean s := by
  rcases stream_cases items with ⟨ws, rfl⟩ | ⟨ws, e, rest, rfl⟩
  · rw [W.deserializeArray_eq] at h
    cases hf : (EnumSet.from_array (T := T) _
        (padded (EnumSetTypeRepr.PREFERRED_ARRAY_LEN T.Repr) ws)) with
    | ok s' =>
      rw [hf] at h
      injection h with h
      injection h with h
      subst h
      have := expect_ok hf
      exact W.clean_opt this (W.try_from_array_ok _ _).1 (W.try_from_array_ok _ _).2
    | panic p => rw [hf] at h; cases h
    | ub => rw [hf] at h; cases h
    | diverge => rw [hf] at h; cases h
  · rw [W.deserializeArray_err] at h
    injection h with h
    cases h

theorem deserialize_clean {E : Type} {i : DeInput T.Val E} {s : EnumSet T}
    (h : Serde.deserialize i = some (.ok (.ok s))) : W.Clean s := by
  unfold Serde.deserialize at h
  split at h
  · injection h with h; exact W.deserializeInt_clean _ _ h
  · injection h with h; exact W.deserializeInt_clean _ _ h
  · injection h with h; exact W.deserializeInt_clean _ _ h
  · injection h with h; exact W.deserializeInt_clean _ _ h
  · injection h with h; exact W.deserializeInt_clean _ _ h
  · rename_i items _
    injection h with h
    rcases stream_cases items with ⟨vs, rfl⟩ | ⟨vs, e, rest, rfl⟩
    · obtain ⟨s', e', hs⟩ := W.deserializeList_ok (E := E) vs
      rw [e'] at h
      injection h with h
      injection h with h
      subst h
      intro i hi
      obtain ⟨v, -, hv⟩ := (hs i).mp hi
      exact ⟨v, hv⟩
    · rw [W.deserializeList_err] at h
      injection h with h
      cases h
  · rename_i items _
    injection h with h
    rcases stream_cases items with ⟨vs, rfl⟩ | ⟨vs, e, rest, rfl⟩
    · obtain ⟨s', e', hs⟩ := W.deserializeMap_ok (E := E) vs
      rw [e'] at h
      injection h with h
      injection h with h
      subst h
      intro i hi
      obtain ⟨v, -, hv⟩ := (hs i).mp hi
      exact ⟨v, hv⟩
    · rw [W.deserializeMap_err] at h
      injection h with h
      cases h
  · injection h with h; exact W.array_clean _ h
  · cases h

theorem oclean {o : Operand T} (h : ∀ b, o = .set b → W.Clean b) :
    ∀ i, W.obit o i = true → ∃ v, T.discr v = i := W.oclean_of h

theorem clean_of_safe {s : EnumSet T} (h : Safe s) : W.Clean s := by
  induction h with
  | new => exact W.clean_empty
  | empty => exact W.clean_empty
  | all => exact W.clean_all
  | EMPTY => exact W.clean_empty
  | ALL => exact W.clean_all
  | default => exact W.clean_empty
  | only e => exact W.clean_res e (W.only_set_ok _) (W.only_clean _)
  | clear _ _ => exact W.clean_empty
  | insert _ e ih => exact W.clean_prod e (W.insert_ok _ _) (W.or_clean ih (W.only_clean _))
  | remove _ e ih => exact W.clean_prod e (W.remove_ok _ _) (W.and_clean ih)
  | union _ _ e ih1 ih2 => exact W.clean_res e (W.union_set_ok _ _) (W.or_clean ih1 ih2)
  | intersection _ _ e ih1 ih2 => exact W.clean_res e (W.intersection_ok _ _) (W.and_clean ih1)
  | difference _ _ e ih1 ih2 => exact W.clean_res e (W.difference_ok _ _) (W.and_clean ih1)
  | symmetrical_difference _ _ e ih1 ih2 =>
    exact W.clean_res e (W.symmetrical_difference_ok _ _) (W.xor_clean ih1 ih2)
  | complement _ e ih => exact W.clean_res e (W.complement_ok _) (W.and_clean' W.clean_all)
  | insert_all _ _ e ih1 ih2 => exact W.clean_res e (W.union_set_ok _ _) (W.or_clean ih1 ih2)
  | remove_all _ _ e ih1 ih2 => exact W.clean_res e (W.difference_ok _ _) (W.and_clean ih1)
  | into _ e ih => exact W.clean_res e (W.into_set_ok _) (W.oclean ih)
  | sub _ _ e ih1 ih2 => exact W.clean_res e (W.sub_ok _ _) (W.and_clean ih1)
  | bitand _ _ e ih1 ih2 => exact W.clean_res e (W.bitand_ok _ _) (W.and_clean ih1)
  | bitor _ _ e ih1 ih2 => exact W.clean_res e (W.bitor_ok _ _) (W.or_clean ih1 (W.oclean ih2))
  | bitxor _ _ e ih1 ih2 => exact W.clean_res e (W.bitxor_ok _ _) (W.xor_clean ih1 (W.oclean ih2))
  | sub_assign _ _ e ih1 ih2 => exact W.clean_res e (W.sub_ok _ _) (W.and_clean ih1)
  | bitand_assign _ _ e ih1 ih2 => exact W.clean_res e (W.bitand_ok _ _) (W.and_clean ih1)
  | bitor_assign _ _ e ih1 ih2 =>
    exact W.clean_res e (W.bitor_ok _ _) (W.or_clean ih1 (W.oclean ih2))
  | bitxor_assign _ _ e ih1 ih2 =>
    exact W.clean_res e (W.bitxor_ok _ _) (W.xor_clean ih1 (W.oclean ih2))
  | not _ e ih => exact W.clean_res e (W.complement_ok _) (W.and_clean' W.clean_all)
  | val_sub _ e ih => exact W.clean_res e (W.val_sub_ok _ _) (W.and_clean (W.only_clean _))
  | val_bitand _ e ih => exact W.clean_res e (W.val_bitand_ok _ _) (W.and_clean (W.only_clean _))
  | val_bitor _ e ih =>
    exact W.clean_res e (W.val_bitor_ok _ _) (W.or_clean (W.only_clean _) (W.oclean ih))
  | val_bitxor _ e ih =>
    exact W.clean_res e (W.val_bitxor_ok _ _) (W.xor_clean (W.only_clean _) (W.oclean ih))
  | val_not e => exact W.clean_res e (W.val_not_ok _) (W.and_clean' W.clean_all)
  | @try_from_repr r s e =>
    exact W.clean_opt e (fun h => ⟨⟨r⟩, (W.try_from_repr_ok r).1 h, fun _ => rfl⟩)
      (W.try_from_repr_ok r).2
  | @from_repr r s e =>
    exact W.clean_opt (expect_ok e) (fun h => ⟨⟨r⟩, (W.try_from_repr_ok r).1 h, fun _ => rfl⟩)
      (W.try_from_repr_ok r).2
  | from_repr_truncated e =>
    exact W.clean_res e (W.from_repr_truncated_ok _) (W.and_clean' W.clean_all)
  | try_from_num e => exact W.clean_opt e (W.try_from_num_ok _ _).1 (W.try_from_num_ok _ _).2
  | from_num e =>
    exact W.clean_opt (expect_ok e) (W.try_from_num_ok _ _).1 (W.try_from_num_ok _ _).2
  | from_num_truncated e =>
    exact W.clean_res e (W.from_num_truncated_ok _ _) (W.and_clean' W.clean_all)
  | try_from_array e => exact W.clean_opt e (W.try_from_array_ok _ _).1 (W.try_from_array_ok _ _).2
  | from_array e =>
    exact W.clean_opt (expect_ok e) (W.try_from_array_ok _ _).1 (W.try_from_array_ok _ _).2
  | from_array_truncated e =>
    exact W.clean_res e (W.from_array_truncated_ok _ _) (W.and_clean' W.clean_all)
  | try_from_slice e => exact W.clean_opt e (W.try_from_slice_ok _).1 (W.try_from_slice_ok _).2
  | from_slice e =>
    exact W.clean_opt (expect_ok e) (W.try_from_slice_ok _).1 (W.try_from_slice_ok _).2
  | from_slice_truncated e =>
    exact W.clean_res e (W.from_slice_truncated_ok _) (W.and_clean' W.clean_all)
  | extend _ e ih =>
    exact W.clean_iff_res e (W.extend_ok _ _) (fun i h => h.elim (ih i) (fun ⟨v, _, hv⟩ => ⟨v, hv⟩))
  | from_iter e =>
    exact W.clean_iff_res e (W.extend_ok _ _)
      (fun i h => h.elim (W.clean_empty i) (fun ⟨v, _, hv⟩ => ⟨v, hv⟩))
  | extend_sets _ _ e ih1 ih2 =>
    exact W.clean_iff_res e (W.extend_sets_ok _ _)
      (fun i h => h.elim (ih1 i) (fun ⟨x, hx, hv⟩ => ih2 x hx i hv))
  | from_iter_sets _ e ih =>
    exact W.clean_iff_res e (W.extend_sets_ok _ _)
      (fun i h => h.elim (W.clean_empty i) (fun ⟨x, hx, hv⟩ => ih x hx i hv))
  | sum_sets _ e ih =>
    exact W.clean_iff_res e (W.sum_sets_ok _) (fun i ⟨x, hx, hv⟩ => ih x hx i hv)
  | sum e => exact W.clean_iff_res e (W.sum_ok _) (fun i ⟨v, _, hv⟩ => ⟨v, hv⟩)
  | extend_iter _ e ih => exact W.forLoop_clean _ _ _ _ ih e
  | collect e => exact W.forLoop_clean _ _ _ _ W.clean_empty e
  | @enum_set s ts _ e ih =>
    obtain ⟨l, hl, hs⟩ := Option.map_eq_some_iff.mp e
    refine W.enum_set_clean (l := l) ?_ hs
    intro o ho
    have := Tok.expandEnumSet_mem hl o ho
    exact W.oclean_of (fun b hb => ih b (hb ▸ this))
  | @list_macro s k ts _ e ih =>
    obtain ⟨l, hl, hs⟩ := Option.bind_eq_some_iff.mp e
    refine W.evalKind_clean (l := l) ?_ hs
    intro o ho
    have := Tok.expandList_mem hl o ho
    exact W.oclean_of (fun b hb => ih b (hb ▸ this))
  | @complement_macro s ts _ e ih =>
    obtain ⟨o, ho, hs⟩ := Option.map_eq_some_iff.mp e
    exact W.clean_res hs (W.enum_set_complement_ok o) (W.and_clean' W.clean_all)
  | deserialize e => exact W.deserialize_clean e

end WF

end Enumset
