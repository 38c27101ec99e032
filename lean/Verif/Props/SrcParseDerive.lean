import Verif.Props.SrcParseSerdePathStd
/-!
# C76, the derive macro
-/
set_option autoImplicit false

namespace Enumset.Src
open Parse

theorem parses (s w p : Bool) : Parses s w p := by
  cases s <;> cases w <;> cases p
  · exact parses_plain
  · exact parses_path
  · exact parses_std
  · exact parses_path_std
  · exact parses_serde
  · exact parses_serde_path
  · exact parses_serde_std
  · exact parses_serde_path_std

theorem parseMacro_eq (s w p : Bool) :
    parseMacro (featureNames s w p) quoteNames DeriveRs.text = some (textFile s w p) := by
  rw [DeriveRs.text_eq, parseMacro, lex_ofList]
  exact (congrArg (parseMacroToks (featureNames s w p) quoteNames) deriveToks_eq).trans (Same.eq _ (parses s w p))

theorem lookup_iff_mem {α β : Type} [BEq α] [LawfulBEq α] (l : List (α × β)) (h : (l.map (·.1)).Nodup)
    (k : α) (d : β) : l.lookup k = some d ↔ (k, d) ∈ l := by
  induction l with
  | nil => simp
  | cons x l ih =>
    obtain ⟨k', d'⟩ := x
    simp only [List.map_cons, List.nodup_cons, List.mem_map, not_exists, not_and] at h
    rw [List.lookup_cons]
    by_cases e : k = k'
    · subst e
      simp only [beq_self_eq_true, Option.some.injEq, List.mem_cons, Prod.mk.injEq, true_and]
      constructor
      · exact fun e => .inl e.symm
      · rintro (e | e)
        · exact e.symm
        · exact absurd rfl (h.1 _ e)
    · have : (k == k') = false := by simpa using e
      simp only [this, List.mem_cons, Prod.mk.injEq, e, false_and, false_or]
      exact ih h.2

theorem fns_nodup : (DeriveRs.fns.map (·.1)).Nodup := by decide +kernel

theorem textFns_nodup (s w p : Bool) : ((textFns s w p).map (·.1)).Nodup := by
  have : (textFns s w p).map (·.1) = DeriveRs.fns.map (·.1) := rfl
  rw [this]
  exact fns_nodup

theorem tmpls_nodup : (DeriveRs.tmpls.map (·.1)).Nodup := by decide +kernel

theorem lookup_none {α β : Type} [BEq α] [LawfulBEq α] (l : List (α × β)) (k : α) (h : k ∉ l.map (·.1)) :
    l.lookup k = none := by
  rw [List.lookup_eq_none_iff]
  intro x hx
  by_cases e : x.1 = k
  · exact absurd (e ▸ List.mem_map_of_mem hx) h
  · exact bne_iff_ne.mpr (fun e' => e e'.symm)

theorem macroDecl_other [Host] (ty f : String) (h : (ty, f) ∉ DeriveRs.fns.map (·.1)) : macroDecl ty f = none := by
  unfold macroDecl
  split
  · exact absurd (by decide) h
  · exact absurd (by decide) h
  · exact lookup_none _ _ h

theorem textFns_lookup [Host] (ty f : String) :
    (textFns Platform.serde Host.stdWarning Host.procMacroCrate).lookup (ty, f) = macroDecl ty f := by
  by_cases h : (ty, f) ∈ DeriveRs.fns.map (·.1)
  · simp only [DeriveRs.fns, List.map_cons, List.map_nil, List.mem_cons, Prod.mk.injEq, List.not_mem_nil, or_false] at h
    rcases h with ⟨rfl, rfl⟩ | ⟨rfl, rfl⟩ | ⟨rfl, rfl⟩ | ⟨rfl, rfl⟩ | ⟨rfl, rfl⟩ | ⟨rfl, rfl⟩ | ⟨rfl, rfl⟩ | ⟨rfl, rfl⟩ |
      ⟨rfl, rfl⟩ | ⟨rfl, rfl⟩ | ⟨rfl, rfl⟩ | ⟨rfl, rfl⟩ | ⟨rfl, rfl⟩ | ⟨rfl, rfl⟩
    case inr.inr.inr.inr.inr.inr.inr.inr.inr.inr.inr.inr.inr =>
      show some (if Host.stdWarning then _ else _) = some deriveFn
      unfold deriveFn
      cases (Host.stdWarning : Bool) <;> rfl
    all_goals rfl
  · rw [macroDecl_other ty f h]
    exact lookup_none _ _ h

/-- `enumset_derive/src/lib.rs`: its text parses, whichever features are on; the structs and enums, the functions
and the contents of the `quote!`s are those that C70 – C78 run. -/
theorem C76_derive [Host] : ∃ m,
    parseMacro (featureNames Platform.serde Host.stdWarning Host.procMacroCrate) quoteNames DeriveRs.text = some m ∧
    m.structs = DeriveRs.structs ∧ m.enums = DeriveRs.enums ∧
    (∀ ty f d, ((ty, f), d) ∈ m.fns ↔ macroDecl ty f = some d) ∧
    ∀ x t, (x, t) ∈ m.tmpls → DeriveRs.tmpls.lookup x = some t := by
  refine ⟨_, parseMacro_eq _ _ _, rfl, rfl, ?_, ?_⟩
  · intro ty f d
    rw [← textFns_lookup, lookup_iff_mem _ (textFns_nodup _ _ _)]
    rfl
  · intro x t h
    rw [lookup_iff_mem _ tmpls_nodup]
    have sub : ∀ {i j}, (x, t) ∈ tmplsFrom i j → (x, t) ∈ DeriveRs.tmpls := fun h =>
      List.mem_of_mem_take (List.mem_of_mem_drop h)
    simp only [textFile, textTmpls, List.mem_append] at h
    rcases h with h | h | h | h | h | h | h
    · exact sub h
    · split at h <;> exact sub h
    · exact sub h
    · split at h
      · exact sub h
      · cases h
    · exact sub h
    · split at h <;> exact sub h
    · exact sub h

end Enumset.Src
