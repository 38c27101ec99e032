import Verif.Props.SrcRulesRun
import Verif.Props.SrcGenHistory
/-!
# C73: histories with calls of the macros of macros.rs

The text of the macros is expanded by the matcher of `macro_rules!`; the expansion runs with the code that
the text of the derive macro returns and with the text of the crate.
-/
set_option autoImplicit false
set_option maxRecDepth 10000

namespace Enumset.Src
open MacrosRs

/-! ### tokens -/

/-- A token, with the operands written as code. -/
def tokOf {α : Type} (code : α → Expr) : Tok α → MTok
  | .path a => .path (code a)
  | .bar => .punct "|"
  | .comma => .punct ","
  | .other => .punct "||"

/-- A token with other operands. -/
def mapTok {α β : Type} (f : α → β) : Tok α → Tok β
  | .path a => .path (f a)
  | .bar => .bar
  | .comma => .comma
  | .other => .other

theorem tok_tokOf {α : Type} (code : α → Expr) (ts : List (Tok α)) :
    (ts.map (tokOf code)).map MTok.tok = ts.map (mapTok code) := by
  rw [List.map_map]
  apply List.map_congr_left
  intro t _
  cases t <;> rfl

theorem argTok_eq {n : Nat} (nm : Fin n → String) : argTok nm = tokOf (Arg.code nm) := by
  funext t; cases t <;> rfl

theorem map_intersperse {α β : Type} (f : α → β) (sep : α) :
    ∀ l : List α, (List.intersperse sep l).map f = List.intersperse (f sep) (l.map f)
  | [] => rfl
  | [a] => rfl
  | a :: b :: l => by
    exact congrArg (f a :: f sep :: ·) (map_intersperse f sep (b :: l))

theorem map_paths {α β : Type} (f : α → β) (l : List α) :
    (l.map Tok.path).map (mapTok f) = (l.map f).map Tok.path := by
  rw [List.map_map, List.map_map]; rfl

theorem grammar_map {α β : Type} (f : α → β) {m : ConstMac} {ts : List (Tok α)} {l : List α}
    (h : m.Grammar ts l) : m.Grammar (ts.map (mapTok f)) (l.map f) := by
  have hl : (l ≠ [] ∧ (ts = List.intersperse .comma (l.map .path) ∨ ts = List.intersperse .comma (l.map .path) ++ [.comma] ∨
        ∃ a, l = [a] ∧ ts = [.path a, .comma, .comma])) →
      (l.map f ≠ [] ∧ (ts.map (mapTok f) = List.intersperse .comma ((l.map f).map .path) ∨
        ts.map (mapTok f) = List.intersperse .comma ((l.map f).map .path) ++ [.comma] ∨
        ∃ a, l.map f = [a] ∧ ts.map (mapTok f) = [.path a, .comma, .comma])) := by
    rintro ⟨h0, h⟩
    refine ⟨by simpa using h0, ?_⟩
    rcases h with rfl | rfl | ⟨a, rfl, rfl⟩
    · exact .inl (by rw [map_intersperse, map_paths]; rfl)
    · exact .inr (.inl (by rw [List.map_append, map_intersperse, map_paths]; rfl))
    · exact .inr (.inr ⟨f a, rfl, rfl⟩)
  cases m with
  | enum_set =>
    obtain ⟨k, rfl⟩ := h
    exact ⟨k, by rw [List.map_append, map_intersperse, map_paths, List.map_replicate]; rfl⟩
  | enum_set_complement =>
    obtain ⟨a, rfl, h⟩ := h
    refine ⟨f a, rfl, ?_⟩
    rcases h with rfl | rfl
    · exact .inl rfl
    · exact .inr rfl
  | enum_set_union => exact hl h
  | enum_set_intersection => exact hl h
  | enum_set_difference => exact hl h
  | enum_set_symmetric_difference => exact hl h

theorem mapTok_sep {α β : Type} {f : α → β} {t : Tok α} {sep : Tok α} (hs : sep = .bar ∨ sep = .comma)
    (h : mapTok f t = mapTok f sep) : t = sep := by
  rcases hs with rfl | rfl <;> cases t <;> first | rfl | cases h

theorem unmap_intersperse {α β : Type} {f : α → β} {sep : Tok α} (hs : sep = .bar ∨ sep = .comma) :
    ∀ {l : List β} {ts : List (Tok α)}, ts.map (mapTok f) = List.intersperse (mapTok f sep) (l.map .path) →
      ∃ l' : List α, ts = List.intersperse sep (l'.map .path) ∧ l'.length = l.length
  | [], ts, h => ⟨[], by simpa using h, rfl⟩
  | [b], ts, h => by
    match ts, h with
    | [.path a], _ => exact ⟨[a], rfl, rfl⟩
  | b :: c :: l, ts, h => by
    match ts, h with
    | .path a :: t :: ts, h =>
      injection h with _ h
      injection h with h1 h
      obtain ⟨l', rfl, hl⟩ := unmap_intersperse hs (l := c :: l) h
      rw [mapTok_sep hs h1]
      match l', hl with
      | d :: l', hl => exact ⟨a :: d :: l', rfl, by simpa using hl⟩

theorem grammar_unmap {α β : Type} {f : α → β} {m : ConstMac} {ts : List (Tok α)} {l : List β}
    (h : m.Grammar (ts.map (mapTok f)) l) : ∃ l', m.Grammar ts l' := by
  have hl : (l ≠ [] ∧ (ts.map (mapTok f) = List.intersperse .comma (l.map .path) ∨
        ts.map (mapTok f) = List.intersperse .comma (l.map .path) ++ [.comma] ∨
        ∃ a, l = [a] ∧ ts.map (mapTok f) = [.path a, .comma, .comma])) →
      ∃ l', (l' ≠ [] ∧ (ts = List.intersperse .comma (l'.map .path) ∨ ts = List.intersperse .comma (l'.map .path) ++ [.comma] ∨
        ∃ a, l' = [a] ∧ ts = [.path a, .comma, .comma])) := by
    have hne : ∀ {l' : List α}, l'.length = l.length → l ≠ [] → l' ≠ [] := by
      rintro l' h h0 rfl; exact h0 (List.length_eq_zero_iff.1 h.symm)
    rintro ⟨h0, h | h | ⟨a, rfl, h⟩⟩
    · obtain ⟨l', rfl, hl⟩ := unmap_intersperse (sep := .comma) (.inr rfl) h
      exact ⟨l', hne hl h0, .inl rfl⟩
    · obtain ⟨t1, t2, rfl, h1, h2⟩ := List.map_eq_append_iff.1 h
      obtain ⟨l', rfl, hl⟩ := unmap_intersperse (sep := .comma) (.inr rfl) h1
      match t2, h2 with
      | [.comma], _ => exact ⟨l', hne hl h0, .inr (.inl rfl)⟩
    · match ts, h with
      | [.path a, .comma, .comma], _ => exact ⟨[a], nofun, .inr (.inr ⟨a, rfl, rfl⟩)⟩
  cases m with
  | enum_set =>
    obtain ⟨k, h⟩ := h
    obtain ⟨t1, t2, rfl, h1, h2⟩ := List.map_eq_append_iff.1 h
    obtain ⟨l', rfl, hl⟩ := unmap_intersperse (sep := .bar) (.inl rfl) h1
    refine ⟨l', k, ?_⟩
    congr 1
    rw [List.eq_replicate_iff] at h2 ⊢
    refine ⟨by simpa using h2.1, fun t ht => mapTok_sep (f := f) (.inl rfl) (h2.2 _ (List.mem_map_of_mem ht))⟩
  | enum_set_complement =>
    obtain ⟨a, rfl, h | h⟩ := h
    · match ts, h with
      | [.path a], _ => exact ⟨[a], a, rfl, .inl rfl⟩
    · match ts, h with
      | [.path a, .comma], _ => exact ⟨[a], a, rfl, .inr rfl⟩
  | enum_set_union => exact hl h
  | enum_set_intersection => exact hl h
  | enum_set_difference => exact hl h
  | enum_set_symmetric_difference => exact hl h

theorem pathsOf_append {α : Type} (a b : List (Tok α)) : pathsOf (a ++ b) = pathsOf a ++ pathsOf b := by
  induction a with
  | nil => rfl
  | cons t a ih => cases t <;> simp [pathsOf, ih]

theorem pathsOf_intersperse {α : Type} {sep : Tok α} (hs : pathsOf [sep] = []) :
    ∀ l : List α, pathsOf (List.intersperse sep (l.map .path)) = l
  | [] => rfl
  | [a] => rfl
  | a :: b :: l => by
    refine congrArg (a :: ·) (a₂ := b :: l) ?_
    refine (pathsOf_append [sep] (List.intersperse sep ((b :: l).map .path))).trans ?_
    rw [hs, List.nil_append, pathsOf_intersperse hs (b :: l)]

theorem pathsOf_grammar {α : Type} {m : ConstMac} {ts : List (Tok α)} {l : List α} (h : m.Grammar ts l) :
    pathsOf ts = l := by
  have hl : (l ≠ [] ∧ (ts = List.intersperse .comma (l.map .path) ∨ ts = List.intersperse .comma (l.map .path) ++ [.comma] ∨
        ∃ a, l = [a] ∧ ts = [.path a, .comma, .comma])) → pathsOf ts = l := by
    rintro ⟨-, rfl | rfl | ⟨a, rfl, rfl⟩⟩
    · exact pathsOf_intersperse rfl l
    · rw [pathsOf_append, pathsOf_intersperse rfl l]; exact List.append_nil l
    · rfl
  cases m with
  | enum_set =>
    obtain ⟨k, rfl⟩ := h
    rw [pathsOf_append, pathsOf_intersperse rfl l]
    have : pathsOf (List.replicate k (.bar : Tok α)) = [] := by
      clear hl
      induction k with
      | zero => rfl
      | succ k ih => exact ih
    rw [this, List.append_nil]
  | enum_set_complement => obtain ⟨a, rfl, rfl | rfl⟩ := h <;> rfl
  | enum_set_union => exact hl h
  | enum_set_intersection => exact hl h
  | enum_set_difference => exact hl h
  | enum_set_symmetric_difference => exact hl h

/-! ### the value of a call -/

/-- The macros that take a list. -/
def ConstMac.kind : ConstMac → Option ConstMacro.Kind
  | .enum_set_union => some .union
  | .enum_set_intersection => some .intersection
  | .enum_set_difference => some .difference
  | .enum_set_symmetric_difference => some .symmetric_difference
  | _ => none

theorem foldl_sem {n : Nat} {m : ConstMac} {k : ConstMacro.Kind} (hk : m.kind = some k) (A : Fin n → Bool)
    (As : List (Fin n → Bool)) (v : Fin n) :
    As.foldl (fun b B => k.bool b (B v)) (A v) = m.sem (A :: As) v := by
  cases m <;> cases hk
  · show _ = (A v || As.any fun A => A v)
    generalize A v = b
    induction As generalizing b with
    | nil => simp
    | cons B As ih => rw [List.foldl_cons, ih, List.any_cons, ← Bool.or_assoc]; rfl
  · show _ = (A v && As.all fun A => A v)
    generalize A v = b
    induction As generalizing b with
    | nil => simp
    | cons B As ih => rw [List.foldl_cons, ih, List.all_cons, ← Bool.and_assoc]; rfl
  · show _ = ((A v || false) && !As.any fun A => A v)
    rw [Bool.or_false]
    generalize A v = b
    induction As generalizing b with
    | nil => simp
    | cons B As ih =>
      rw [List.foldl_cons, ih, List.any_cons]
      show (b && !B v && _) = _
      cases b <;> cases B v <;> rfl
  · show _ = (((A :: As).filter fun A => A v).length % 2 == 1)
    have key : ∀ (As : List (Fin n → Bool)) (b : Bool), As.foldl (fun b B => ConstMacro.Kind.bool .symmetric_difference b (B v)) b =
        ((b.toNat + (As.filter fun A => A v).length) % 2 == 1) := by
      intro As
      induction As with
      | nil => intro b; cases b <;> rfl
      | cons B As ih =>
        intro b
        rw [List.foldl_cons, ih]
        show (((b != B v).toNat + _) % 2 == 1) = _
        rw [List.filter_cons]
        cases b <;> cases B v <;> simp [Nat.add_comm] <;> rw [Bool.eq_iff_iff, beq_iff_eq, beq_iff_eq] <;> omega
    rw [key, List.filter_cons]
    cases A v <;> simp [Nat.add_comm]

section
variable [Platform] {T : EnumSetType} {P : Prog T.Val} {enc : T.Repr → Val T.Val}
  {encI : EnumSetTypeRepr.Iter T.Repr → Val T.Val} {okI : EnumSetTypeRepr.Iter T.Repr → Prop}
  (S : Storage P T.Repr enc encI okI) (E : EnumItems P T enc id) (F : GenFns P T enc id) (k : Nat)
include S E F

/-- A well-formed call of a macro, with operands that are variants of the enum or sets, expands; the
expansion runs without a panic and without undefined behaviour, and is the set that `ConstMac.sem` says. -/
theorem C73_value {inp : DeriveInput} (hT : derive inp = .ok T) (hfit : Fits T) {m : ConstMac}
    {α : Type} {ts : List (Tok α)} {l : List α} (hg : m.Grammar ts l) {code : α → Expr} {op : α → Operand T}
    {A : α → T.Val → Bool} {env : Env T.Val} (hE : ∀ t, lookup "EnumSet" env ≠ some (.ty t))
    (hl : ∀ x ∈ l, Evals (P.userCtx (k + 6)) env (code x) (operandOf enc id (op x)))
    (hs : ∀ x ∈ l, ∀ s, op x = .set s → Safe s) (hA : ∀ x ∈ l, Denotes (op x) (A x)) :
    ∃ e s, expandMacro macros 128 m.name (ts.map (tokOf code)) = some e ∧
      eval (P.userCtx (k + 6)) e .any env = .ok (.val (setOf enc s) env) ∧
      Safe s ∧ Members s (m.sem (l.map A)) := by
  obtain ⟨W⟩ := wf_of_derive hT hfit
  have hg' := grammar_map code hg
  have hoc : ∀ o ∈ l.map op, W.OClean o := by
    intro o ho
    obtain ⟨x, hx, rfl⟩ := List.mem_map.1 ho
    exact W.oclean_of_safe (hs x hx)
  have hden : ∀ o ∈ l.map op, Denotes o fun u => W.obit o (T.discr u) := fun o _ => W.denotes_iff.2 fun _ => rfl
  have hval : ∀ x ∈ l, ∀ u, W.obit (op x) (T.discr u) = A x u := fun x hx => W.denotes_iff.1 (hA x hx)
  have hlist : ∀ {kind : ConstMacro.Kind} {f : Expr}, m.kind = some kind → listFn m.name = some f →
      (l ≠ [] ∧ ((ts.map (tokOf code)).map MTok.tok = List.intersperse .comma ((l.map code).map .path) ∨
        (ts.map (tokOf code)).map MTok.tok = List.intersperse .comma ((l.map code).map .path) ++ [.comma] ∨
        ∃ a, l.map code = [a] ∧ (ts.map (tokOf code)).map MTok.tok = [.path a, .comma, .comma])) →
      ∃ e s, expandMacro macros 128 m.name (ts.map (tokOf code)) = some e ∧
      eval (P.userCtx (k + 6)) e .any env = .ok (.val (setOf enc s) env) ∧
      Safe s ∧ Members s (m.sem (l.map A)) := by
    intro kind f hk hf ⟨h0, hg⟩
    cases l with
    | nil => exact absurd rfl h0
    | cons x l =>
    obtain ⟨kind', hname, hfn⟩ := fn_list S E F k hf
    have hkk : kind' = kind := by
      cases m <;> cases hk <;> cases kind' <;> first | rfl | exact absurd hname (by decide)
    subst hkk
    have hexp := (Tok.expandList_iff ((ts.map (tokOf code)).map MTok.tok) ((x :: l).map code)).2 ⟨by simp, hg⟩
    have hex := C73_list hf 126 (ts.map (tokOf code))
    rw [hexp, Option.bind_some, List.map_cons] at hex
    obtain ⟨s, es, -, hm⟩ := C34_list_macros hT hfit kind' (op x) (l.map op) (hs x (List.mem_cons_self ..))
      (B := fun o u => W.obit o (T.discr u)) hden
    have hsafe : Safe s := (W.safe_iff_clean _).2 (W.evalKind_clean hoc es)
    have hmem : Members s (m.sem ((x :: l).map A)) := by
      intro v
      refine (hm v).trans (congrArg Res.ok ?_)
      show List.foldl _ (W.obit (op x) (T.discr v)) _ = _
      rw [List.map_cons, ← foldl_sem hk, List.foldl_map, List.foldl_map, hval x (List.mem_cons_self ..)]
      have : ∀ (l' : List α), (∀ y ∈ l', y ∈ x :: l) → ∀ b,
          l'.foldl (fun b y => kind'.bool b (W.obit (op y) (T.discr v))) b =
          l'.foldl (fun b y => kind'.bool b (A y v)) b := by
        intro l' h
        induction l' with
        | nil => intro b; rfl
        | cons y l' ih =>
          intro b
          rw [List.foldl_cons, List.foldl_cons, hval y (h y (List.mem_cons_self ..)),
            ih fun z hz => h z (List.mem_cons_of_mem _ hz)]
      exact this l (fun y hy => List.mem_cons_of_mem _ hy) _
    refine ⟨_, s, hex, ?_, hsafe, hmem⟩
    obtain ⟨g, hfn, hchain⟩ : ∃ g, FnIs P enc (k + 6) f g ∧ ConstMacro.chain g (op x) (l.map op) = .ok s := by
      cases kind' <;> exact ⟨_, hfn, Option.some.inj es⟩
    split
    · rename_i ho
      have hnil : l = [] := by
        rcases hg with hg | hg | ⟨a, hg, -⟩
        · cases l with
          | nil => rfl
          | cons y l => rw [hg] at ho; cases l <;> cases ho
        · cases l with
          | nil => rfl
          | cons y l => rw [hg] at ho; cases l <;> cases ho
        · cases l with
          | nil => rfl
          | cons y l => cases hg
      subst hnil
      rw [eval_one S E F k (hl x (List.mem_cons_self ..))]
      rw [ConstMacro.chain] at hchain
      rw [show ConstMacro.const_only (op x) = .ok s from by
        revert hchain
        cases ConstMacro.const_only (op x) <;> exact id]
      rfl
    · rw [eval_chain S E F k hfn x l hl, hchain]; rfl
  cases m with
  | enum_set_union => exact hlist rfl rfl (by rw [tok_tokOf]; exact ⟨by simpa using hg'.1, hg'.2⟩)
  | enum_set_intersection => exact hlist rfl rfl (by rw [tok_tokOf]; exact ⟨by simpa using hg'.1, hg'.2⟩)
  | enum_set_difference => exact hlist rfl rfl (by rw [tok_tokOf]; exact ⟨by simpa using hg'.1, hg'.2⟩)
  | enum_set_symmetric_difference => exact hlist rfl rfl (by rw [tok_tokOf]; exact ⟨by simpa using hg'.1, hg'.2⟩)
  | enum_set_complement =>
    obtain ⟨x, rfl, h⟩ := hg
    have hexp := (Tok.expandComplement_iff ((ts.map (tokOf code)).map MTok.tok) (code x)).2 (by
      rw [tok_tokOf]; rcases h with rfl | rfl
      · exact .inl rfl
      · exact .inr rfl)
    have hex := C73_complement 127 (ts.map (tokOf code))
    rw [hexp, Option.map_some] at hex
    obtain ⟨s, es, -, hm⟩ := C34_complement hT hfit (op x) (hA x (List.mem_cons_self ..))
    refine ⟨_, s, hex, ?_, ?_, ?_⟩
    · rw [eval_complement S E F k (hl x (List.mem_cons_self ..)), es]; rfl
    · refine .complement_macro (ts := [.path (op x)]) (fun b hb => ?_) (congrArg some es)
      rcases List.mem_singleton.1 hb with hb
      injection hb with hb
      exact hs x (List.mem_cons_self ..) b hb.symm
    · intro v
      refine (hm v).trans (congrArg Res.ok ?_)
      show (!A x v) = !(A x v || false)
      rw [Bool.or_false]
  | enum_set =>
    have hexp := (Tok.expandEnumSet_iff ((ts.map (tokOf code)).map MTok.tok) (l.map code)).2 (by
      rw [tok_tokOf]; exact hg')
    have hex := C73_enum_set 125 (ts.map (tokOf code))
    rw [hexp, Option.map_some] at hex
    obtain ⟨s, es, -, hm⟩ := C34_enum_set hT hfit (l.map op) (B := fun o u => W.obit o (T.discr u)) hden
    have hsafe : Safe s := (W.safe_iff_clean _).2 (W.enum_set_clean hoc es)
    refine ⟨_, s, hex, ?_, hsafe, ?_⟩
    · match l, es, hl with
      | [], es, hl => cases es; exact eval_empty S E F k hE
      | [x], es, hl =>
        rw [show ConstMacro.enum_set ([x].map op) = ConstMacro.const_only (op x) from rfl] at es
        show eval (P.userCtx (k + 6)) (oneCode (code x)) .any env = _
        rw [eval_one S E F k (hl x (List.mem_cons_self ..)), es]; rfl
      | x :: y :: l, es, hl =>
        obtain ⟨kind, hname, hfn⟩ := fn_list S E F k (m := "enum_set_union") rfl
        have : kind = .union := by cases kind <;> first | rfl | exact absurd hname (by decide)
        subst this
        show eval (P.userCtx (k + 6)) (chainCode (helperCall "const_union") (code x) ((y :: l).map code)) .any env = _
        rw [eval_chain S E F k hfn x (y :: l) hl]
        rw [show ConstMacro.chain ConstMacro.const_union (op x) ((y :: l).map op) = .ok s from es]; rfl
    · intro v
      refine (hm v).trans (congrArg Res.ok ?_)
      show ((l.map op).any fun o => W.obit o (T.discr v)) = (l.map A).any fun A => A v
      rw [List.any_map, List.any_map, Bool.eq_iff_iff, List.any_eq_true, List.any_eq_true]
      constructor
      · rintro ⟨x, hx, h⟩; exact ⟨x, hx, (hval x hx v).symm.trans h⟩
      · rintro ⟨x, hx, h⟩; exact ⟨x, hx, (hval x hx v).trans h⟩

end

/-! ### histories -/

theorem varName_inj {a b : Nat} (h : varName a = varName b) : a = b := by
  have := congrArg (fun s => s.toList.length) h
  simpa [varName] using this

theorem varName_ne {x : String} (hx : x.toList.all (· == 'x') = false) (a : Nat) : varName a ≠ x := by
  rintro rfl
  simp [varName] at hx

theorem varName_own (a : Nat) : varName a ∉ ownVars := by
  intro h
  simp only [ownVars, List.mem_cons, List.not_mem_nil, or_false] at h
  rcases h with h | h | h <;> exact varName_ne (by decide) a h

theorem lookup_argEnv {n : Nat} {ρ : Nat → Val (Fin n)} {a : Nat} :
    ∀ {l : List (Arg n)}, .set a ∈ l → lookup (varName a) (argEnv ρ l) = some (ρ a)
  | [], h => by cases h
  | .val _ :: l, h => lookup_argEnv (l := l) ((List.mem_cons.1 h).resolve_left (by simp))
  | .set b :: l, h => by
    rw [argEnv, lookup]
    by_cases hab : a = b
    · rw [hab, if_pos rfl]
    · rw [if_neg fun h => hab (varName_inj h)]
      exact lookup_argEnv (l := l) ((List.mem_cons.1 h).resolve_left fun h => hab (by injection h))

theorem lookup_argEnv_none {n : Nat} {ρ : Nat → Val (Fin n)} {x : String} (hx : ∀ a, varName a ≠ x) :
    ∀ l : List (Arg n), lookup x (argEnv ρ l) = none
  | [] => rfl
  | .val _ :: l => lookup_argEnv_none hx l
  | .set b :: l => by
    rw [argEnv, lookup, if_neg fun h => hx b h.symm]
    exact lookup_argEnv_none hx l

/-- A variant of the enum. -/
theorem evals_variant [Platform] {n : Nat} {P : Prog (Fin n)} {nm : Fin n → String} {k : Nat}
    (hnm : ∀ env v, P.call k "enum T" (nm v) env [] [] = .ok (.host "T" v, [])) {ρ : Nat → Val (Fin n)}
    (l : List (Arg n)) (v : Fin n) : Evals (P.userCtx k) (argEnv ρ l) (.path "T" (nm v)) (.host "T" v) := by
  intro own ho
  have ht : (P.userCtx k).tyName (own ++ argEnv ρ l) "T" = "enum T" := by
    rw [Ctx.tyName, if_neg (by decide), lookup_own ho (by decide), lookup_argEnv_none (varName_ne (by decide))]
    rfl
  rw [eval, ht, show (P.userCtx k).call "enum T" (nm v) (own ++ argEnv ρ l) [] [] = _ from hnm _ v]
  rfl

section
variable [Platform] {T : EnumSetType} {P : Prog T.Val} {enc : T.Repr → Val T.Val}
  {encI : EnumSetTypeRepr.Iter T.Repr → Val T.Val} {okI : EnumSetTypeRepr.Iter T.Repr → Prop}
  (S : Storage P T.Repr enc encI okI) (E : EnumItems P T enc id) (F : GenFns P T enc id) (k : Nat)
include S E F

/-- One command. -/
theorem stepMac_sim {inp : DeriveInput} (hT : derive inp = .ok T) (hfit : Fits T) (hfuel : T.n < P.fuel)
    {nm : T.Val → String} (hnm : ∀ env v, P.call (k + 20) "enum T" (nm v) env [] [] = .ok (.host "T" v, []))
    (c : MacCmd T.n) (hc : c.Allowed inp.attrs) {ρ : Nat → Val T.Val} {σ : Nat → T.Val → Bool} (h : Rel enc ρ σ) :
    ∃ ρ', P.stepMac nm (k + 20) ρ c = .ok ((c.sem T.discr σ).1, ρ') ∧
      Rel enc ρ' (c.sem T.discr σ).2 := by
  cases c with
  | gen c => exact stepGen_sim S E F k hT hfit hfuel c hc h
  | mac m r ts =>
    obtain ⟨l, hg⟩ := hc
    have hp := pathsOf_grammar hg
    obtain ⟨e, s, hex, hev, hs, hA⟩ := C73_value S E F (k + 14) hT hfit hg (code := Arg.code nm)
      (op := fun o => Classical.choose (operand_arg h o)) (A := fun o => o.sem σ) (env := argEnv ρ l)
      (fun t => by rw [lookup_argEnv_none (varName_ne (by decide))]; exact nofun)
      (fun o ho => by
        rw [← (Classical.choose_spec (operand_arg h o)).1]
        cases o with
        | val v => exact evals_variant hnm l v
        | set a => exact evals_var _ (varName_own a) (lookup_argEnv ho))
      (fun o _ => (Classical.choose_spec (operand_arg h o)).2.1)
      (fun o _ => (Classical.choose_spec (operand_arg h o)).2.2)
    refine ⟨_, ?_, h.upd r hs (by rw [← hp] at hA; exact hA)⟩
    rw [← hp] at hev
    simp only [Prog.stepMac]
    rw [argTok_eq, hex]
    show (eval (P.userCtx (k + 20)) e .any (argEnv ρ (pathsOf ts)) >>= _) = _
    rw [hev]
    rfl

/-- C72 with calls of the macros among the commands. -/
theorem C73_program {inp : DeriveInput} (hT : derive inp = .ok T) (hfit : Fits T) (hfuel : T.n < P.fuel)
    {nm : T.Val → String} (hnm : ∀ env v, P.call (k + 20) "enum T" (nm v) env [] [] = .ok (.host "T" v, []))
    (cs : List (MacCmd T.n)) (hcs : ∀ c ∈ cs, c.Allowed inp.attrs) :
    P.runMac nm (k + 20) cs = .ok (macAnswers T.discr cs fun _ _ => false) := by
  obtain ⟨W⟩ := wf_of_derive hT hfit
  have key : ∀ (cs : List (MacCmd T.n)) ρ σ, (∀ c ∈ cs, c.Allowed inp.attrs) → Rel enc ρ σ →
      P.runMacFrom nm (k + 20) cs ρ = .ok (macAnswers T.discr cs σ) := by
    intro cs
    induction cs with
    | nil => intro ρ σ _ _; rfl
    | cons c cs ih =>
      intro ρ σ hcs h
      obtain ⟨ρ', e, h'⟩ := stepMac_sim S E F k hT hfit hfuel hnm c (hcs c (List.mem_cons_self ..)) h
      rw [Prog.runMacFrom, e, Res.ok_bind, ih _ _ (fun c hc => hcs c (List.mem_cons_of_mem _ hc)) h']
      rfl
  simp only [Prog.runMac, Prog.get, C68_new S (k + 15) [], Res.ok_bind]
  exact key cs _ _ hcs fun i => ⟨_, rfl, .new, W.members_of_bits fun v => W.bit_empty _⟩

end

/-- The code that the text of the derive macro returns, linked with the text of the crate and with the
enum of the item, answers every history of calls of functions and of macros as mathematical sets do; the
macro calls are expanded from the text of macros.rs. -/
theorem C73_history [Platform] {inp : DeriveInput} {tok : Val Code} (hx : Expands inp tok)
    {n : Nat} {E : EnumDef n} {lib : SerdeLib n} (hE : E.Of inp) (hu : ∀ t x, E.read t x = .ub)
    (hfit : ∀ i, E.discr i + 1 < 2 ^ usizeBits)
    {fuel : Nat} (hfuel : 1 < fuel ∧ ∀ i, E.discr i + 1 < fuel)
    (k k' : Nat) (cs : List (MacCmd n)) (hcs : ∀ c ∈ cs, c.Allowed inp.attrs) :
    ((Gen.mk (toItems tok) E fuel lib).toProg (k' + 10)).runMac E.name (k + 20) cs =
      .ok (macAnswers E.discr cs fun _ _ => false) := by
  refine hx.elim hE hu hfit hfuel k' (Q := fun n E lib => ∀ cs : List (MacCmd n), (∀ c ∈ cs, c.Allowed inp.attrs) →
    ((Gen.mk (toItems tok) E fuel lib).toProg (k' + 10)).runMac E.name (k + 20) cs =
      .ok (macAnswers E.discr cs fun _ _ => false)) ?_ cs hcs
  intro T E lib enc encI okI hT hfit hfuel hd hE S I F cs hcs
  obtain ⟨info, w, hi, -⟩ := hx.info
  have hinj : ∀ i j, E.name i = E.name j → i = j := hE.inj hi
  rw [hd]
  exact C73_program S I F k hT hfit hfuel (fun env v => enum_variant (G := Gen.mk (toItems tok) E fuel lib) hinj _ _ env v) cs hcs

/-- A call that is not well-formed does not compile. -/
theorem C73_rejects [Platform] {n : Nat} (P : Prog (Fin n)) (nm : Fin n → String) (k : Nat)
    {ρ : Nat → Val (Fin n)} {m : ConstMac} {r : Nat} {ts : List (Tok (Arg n))}
    (h : ¬ ∃ l, m.Grammar ts l) :
    expandMacro macros 128 m.name (ts.map (argTok nm)) = none ∧
      ¬ ∃ x, P.stepMac nm k ρ (.mac m r ts) = .ok x := by
  have : expandMacro macros 128 m.name (ts.map (argTok nm)) = none := by
    cases he : expandMacro macros 128 m.name (ts.map (argTok nm)) with
    | none => rfl
    | some e =>
      obtain ⟨l, hl⟩ := (C73_accepts m _).1 ⟨e, he⟩
      rw [argTok_eq, tok_tokOf] at hl
      exact absurd (grammar_unmap hl) h
  refine ⟨this, ?_⟩
  rintro ⟨x, hx⟩
  simp only [Prog.stepMac, this] at hx
  cases hx

/-! ### concrete cases -/

namespace Ex
open Enumset.Ex (inpT plat64)
open scoped Enumset.Ex

/-- `x = enum_set!(T::A | T::C |); y = enum_set_complement!(T::B,); x == y;
z = enum_set_symmetric_difference!(x, T::A, y, T::B); z.iter(); w = enum_set_difference!(y, T::A,); w.iter();
x = enum_set!(); x.len(); y = enum_set_intersection!(y, z, T::A); y.len()` -/
def macCmds : List (MacCmd 3) :=
  [.mac .enum_set 0 [.path (.val 0), .bar, .path (.val 2), .bar], .mac .enum_set_complement 1 [.path (.val 1), .comma],
   .gen (.set (.test .eq 0 1)),
   .mac .enum_set_symmetric_difference 2 [.path (.set 0), .comma, .path (.val 0), .comma, .path (.set 1), .comma, .path (.val 1)],
   .gen (.set (.items 2)),
   .mac .enum_set_difference 3 [.path (.set 1), .comma, .path (.val 0), .comma],
   .gen (.set (.items 3)), .mac .enum_set 0 [], .gen (.set (.len 0)),
   .mac .enum_set_intersection 1 [.path (.set 1), .comma, .path (.set 2), .comma, .path (.val 0)],
   .gen (.set (.len 1))]

example : macAnswers enumT.discr macCmds (fun _ _ => false) =
    [.unit, .unit, .bool true, .unit, .list [0, 1], .unit, .list [2], .unit, .num 0, .unit, .num 1] := by
  have h1 : enumT.discr (1 : Fin 3) = 3 := by rfl
  have h2 : enumT.discr (2 : Fin 3) = 4 := by rfl
  have hf : List.finRange 3 = [0, 1, 2] := by decide
  simp [macAnswers, macCmds, MacCmd.sem, ConstMac.sem, pathsOf, GenCmd.sem, Cmd.sem, Arg.sem, Test.sem, upd,
    sortedMembers, card, hf, List.mergeSort, List.filter, List.MergeSort.Internal.splitInTwo, List.splitAt,
    List.splitAt.go, h1, h2]
  exact ⟨by decide, by simp [List.merge, show enumT.discr (0 : Fin 3) = 0 from rfl]⟩

theorem macCmds_allowed (attrs : EnumsetAttrs) : ∀ c ∈ macCmds, c.Allowed attrs := by
  simp only [macCmds, List.forall_mem_cons, List.not_mem_nil, false_implies, implies_true, and_true]
  exact ⟨⟨[.val 0, .val 2], 1, rfl⟩, ⟨[.val 1], _, rfl, .inr rfl⟩, trivial,
    ⟨[.set 0, .val 0, .set 1, .val 1], by decide, .inl rfl⟩, trivial,
    ⟨[.set 1, .val 0], by decide, .inr (.inl rfl)⟩, trivial, ⟨[], 0, rfl⟩, trivial,
    ⟨[.set 1, .set 2, .val 0], by decide, .inl rfl⟩, trivial⟩

example (lib : SerdeLib 3) (fuel : Nat) (h : 5 < fuel) :
    ((Gen.mk (toItems (genTok "T" infoT [])) enumT fuel lib).toProg 10).runMac enumT.name 20 macCmds =
      .ok (macAnswers enumT.discr macCmds fun _ _ => false) :=
  C73_history expandsT enumT_of (fun _ _ => rfl) (by decide) ⟨by omega, fun i => by
    match i with
    | 0 => show 0 + 1 < fuel; omega
    | 1 => show 3 + 1 < fuel; omega
    | 2 => show 4 + 1 < fuel; omega⟩ 0 0 macCmds (macCmds_allowed _)

/-- `enum_set!(a | b | |)` -/
example (a b : Expr) : expandMacro macros 128 "enum_set" [.path a, .punct "|", .path b, .punct "|", .punct "|"] =
    some (chainCode (helperCall "const_union") a [b]) := (C73_enum_set 125 _).trans rfl
/-- `enum_set_difference!(a, b, c,)` -/
example (a b c : Expr) : expandMacro macros 128 "enum_set_difference"
    [.path a, .punct ",", .path b, .punct ",", .path c, .punct ","] =
    (listFn "enum_set_difference").map fun f => chainCode f a [b, c] := (C73_list rfl 126 _).trans rfl
/-- `enum_set_complement!(a, b)` -/
example (a b : Expr) : expandMacro macros 128 "enum_set_complement" [.path a, .punct ",", .path b] = none :=
  (C73_complement 127 _).trans rfl
/-- `enum_set!(a b)` -/
example (a b : Expr) : ¬ ∃ l, ConstMac.Grammar .enum_set [.path a, .path b] l := fun h => by
  obtain ⟨e, he⟩ := (C73_accepts .enum_set [.path a, .path b]).2 h
  rw [show expandMacro macros 128 ConstMac.enum_set.name [.path a, .path b] = none from (C73_enum_set 125 _).trans rfl] at he
  cases he

/-- `enum_set_union!()` does not compile. -/
example (nm : Fin 3 → String) : expandMacro macros 128 "enum_set_union" [] = none :=
  (C73_rejects (⟨fun _ _ => none, 0, id, []⟩ : Prog (Fin 3)) nm 0 (ρ := fun _ => .unit) (m := .enum_set_union) (r := 0) (ts := [])
    (by rintro ⟨l, h, h' | h' | ⟨a, -, h'⟩⟩
        · match l with
          | [a] => cases h'
          | a :: b :: l => cases h'
        · match l with
          | [a] => cases h'
          | a :: b :: l => cases h'
        · cases h')).1

end Ex
end Enumset.Src
