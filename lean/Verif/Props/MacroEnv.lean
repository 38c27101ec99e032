import Verif.MacroEnv
import Verif.EnumLayout
import Verif.Props.Options
import Verif.Props.Iter
/-!
# Property C63: `crate_name`, features and panics of the macro; `enum_from_u32` in full (C15)
-/
set_option autoImplicit false

namespace Enumset

/-! ## C63 The macro in its environment -/

/-- The name of the crate `enumset`, if it is given by the attribute `crate_name`, or else if the
feature `proc-macro-crate` is on and the manifest of the crate being compiled renames it. -/
def crateName (env : MacroEnv) (inp : DeriveInput) : Option String :=
  match inp.attrs.crate_name, env.procMacroCrate, env.found with
  | some s, _, _ => some s
  | none, true, some (.name s) => some s
  | none, _, _ => none

section helpers

variable [Platform]

theorem expand_generics {env : MacroEnv} {inp : DeriveInput} (h : inp.hasGenerics = true) :
    ∃ e, expand env inp = .ok (.error e) ∧ derive inp = .error e := by
  refine ⟨_, by unfold expand; rw [if_pos h], ?_⟩
  unfold derive
  rw [deriveInfo_eq, if_pos h]

theorem expand_struct {env : MacroEnv} {inp : DeriveInput} (h : inp.hasGenerics = false)
    (h' : inp.isEnum = false) :
    ∃ e, expand env inp = .ok (.error e) ∧ derive inp = .error e := by
  refine ⟨_, by unfold expand; rw [h, h']; rfl, ?_⟩
  unfold derive
  rw [deriveInfo_eq, h, h']
  rfl

/-- The four ways an expansion of an enum can go. -/
theorem expand_enum {env : MacroEnv} {inp : DeriveInput} (h : inp.hasGenerics = false)
    (h' : inp.isEnum = true) :
    (∃ s, inp.attrs.crate_name = some s ∧ env.isIdent s = false ∧
      expand env inp = .panic (.explicit "not a valid identifier")) ∨
    ((∀ s, inp.attrs.crate_name = some s → env.isIdent s = true) ∧
      ((∃ e, derive inp = .error e ∧ expand env inp = .ok (.error e)) ∨
       (∃ T info, derive inp = .ok T ∧ deriveInfo inp = .ok info ∧
        ((inp.attrs.crate_name = none ∧ ∃ s, crateName env inp = some s ∧ env.isIdent s = false ∧
          expand env inp = .panic (.explicit "not a valid identifier")) ∨
         ((∀ s, crateName env inp = some s → env.isIdent s = true) ∧
          expand env inp = .ok (.ok {
            path := (crateName env inp).getD "enumset"
            items := T
            serde := if env.serde then some info.serde_repr else none
            warnings := deriveWarnings env.stdWarning inp.attrs })))))) := by
  cases hc : inp.attrs.crate_name with
  | some s =>
    have hcn : crateName env inp = some s := by unfold crateName; rw [hc]
    cases hi : env.isIdent s with
    | false =>
      refine .inl ⟨s, rfl, hi, ?_⟩
      unfold expand infoCrateName MacroEnv.ident
      rw [h, h', hc]
      simp only [hi]
      rfl
    | true =>
      refine .inr ⟨?_, ?_⟩
      · intro s' e; injection e with e; rw [← e]; exact hi
      have hx : infoCrateName env inp.attrs = .ok (some s) := by
        unfold infoCrateName MacroEnv.ident
        rw [hc]
        simp only [hi]
        rfl
      cases hd : deriveInfo inp with
      | error e =>
        refine .inl ⟨e, by unfold derive; rw [hd], ?_⟩
        unfold expand
        rw [h, h', hx, hd]
        rfl
      | ok info =>
        obtain ⟨T, e, -⟩ := impl_ok (deriveInfo_ok hd)
        refine .inr ⟨T, info, by unfold derive; rw [hd]; exact e, rfl, .inr ⟨?_, ?_⟩⟩
        · intro s' e; rw [hcn] at e; injection e with e; rw [← e]; exact hi
        unfold expand
        rw [h, h', hx, hd, hcn]
        show (match enum_set_type_impl info _ with
          | .error .macroPanic => _ | .error e => _ | .ok items => _) = _
        rw [e]
        rfl
  | none =>
    refine .inr ⟨fun _ e => (by cases e), ?_⟩
    have hx : infoCrateName env inp.attrs = .ok none := by unfold infoCrateName; rw [hc]
    cases hd : deriveInfo inp with
    | error e =>
      refine .inl ⟨e, by unfold derive; rw [hd], ?_⟩
      unfold expand
      rw [h, h', hx, hd]
      rfl
    | ok info =>
      obtain ⟨T, e, -⟩ := impl_ok (deriveInfo_ok hd)
      refine .inr ⟨T, info, by unfold derive; rw [hd]; exact e, rfl, ?_⟩
      have plain : crateName env inp = none → enumsetPath env none = .ok "enumset" →
          expand env inp = .ok (.ok {
            path := (crateName env inp).getD "enumset"
            items := T
            serde := if env.serde then some info.serde_repr else none
            warnings := deriveWarnings env.stdWarning inp.attrs }) := by
        intro h1 h2
        unfold expand
        rw [h, h', hx, hd, h1]
        show (Res.andThen (enumsetPath env none) _) = _
        rw [h2]
        show (match enum_set_type_impl info _ with
          | .error .macroPanic => _ | .error e => _ | .ok items => _) = _
        rw [e]
        rfl
      cases hp : env.procMacroCrate with
      | false =>
        have h1 : crateName env inp = none := by unfold crateName; rw [hc, hp]
        refine .inr ⟨fun s e => (by rw [h1] at e; cases e), plain h1 ?_⟩
        unfold enumsetPath; simp [hp]
      | true =>
        cases hf : env.found with
        | none =>
          have h1 : crateName env inp = none := by unfold crateName; rw [hc, hp, hf]
          refine .inr ⟨fun s e => (by rw [h1] at e; cases e), plain h1 ?_⟩
          unfold enumsetPath; simp [hp, hf]
        | some fc => cases fc with
          | itself =>
            have h1 : crateName env inp = none := by unfold crateName; rw [hc, hp, hf]
            refine .inr ⟨fun s e => (by rw [h1] at e; cases e), plain h1 ?_⟩
            unfold enumsetPath; simp [hp, hf]
          | name s =>
            have h1 : crateName env inp = some s := by unfold crateName; rw [hc, hp, hf]
            cases hi : env.isIdent s with
            | false =>
              refine .inl ⟨rfl, s, h1, hi, ?_⟩
              unfold expand
              rw [h, h', hx, hd]
              show (Res.andThen (enumsetPath env none) _) = _
              unfold enumsetPath
              simp only [hp, hf, MacroEnv.ident, hi]
              rfl
            | true =>
              refine .inr ⟨fun s' e => (by rw [h1] at e; injection e with e; rw [← e]; exact hi), ?_⟩
              unfold expand
              rw [h, h', hx, hd, h1]
              show (Res.andThen (enumsetPath env none) _) = _
              have h2 : enumsetPath env none = .ok s := by
                unfold enumsetPath
                simp [hp, hf, MacroEnv.ident, hi]
              rw [h2]
              show (match enum_set_type_impl info _ with
                | .error .macroPanic => _ | .error e => _ | .ok items => _) = _
              rw [e]
              rfl

end helpers

/-- When the macro expands: the enum is acceptable and the name of the crate, if one is given or found,
is an identifier. -/
theorem C63_accepts [Platform] (env : MacroEnv) (inp : DeriveInput) :
    (∃ x, expand env inp = .ok (.ok x)) ↔
      Acceptable inp ∧ ∀ s, crateName env inp = some s → env.isIdent s = true := by
  rw [← C30_accepts]
  cases hg : inp.hasGenerics with
  | true =>
    obtain ⟨e, h1, h2⟩ := expand_generics (env := env) hg
    rw [h1, h2]
    exact ⟨fun ⟨x, h⟩ => (by cases h), fun ⟨⟨x, h⟩, _⟩ => (by cases h)⟩
  | false =>
    cases he : inp.isEnum with
    | false =>
      obtain ⟨e, h1, h2⟩ := expand_struct (env := env) hg he
      rw [h1, h2]
      exact ⟨fun ⟨x, h⟩ => (by cases h), fun ⟨⟨x, h⟩, _⟩ => (by cases h)⟩
    | true =>
      rcases expand_enum (env := env) hg he with ⟨s, h1, h2, h3⟩ | ⟨h1, ⟨e, h2, h3⟩ | ⟨T, info, h2, -, h3⟩⟩
      · rw [h3]
        refine ⟨fun ⟨x, h⟩ => (by cases h), fun ⟨_, h⟩ => ?_⟩
        have := h s (by unfold crateName; rw [h1])
        rw [h2] at this; cases this
      · rw [h2, h3]
        exact ⟨fun ⟨x, h⟩ => (by cases h), fun ⟨⟨x, h⟩, _⟩ => (by cases h)⟩
      · rcases h3 with ⟨-, s, h4, h5, h6⟩ | ⟨h4, h5⟩
        · rw [h6]
          refine ⟨fun ⟨x, h⟩ => (by cases h), fun ⟨_, h⟩ => ?_⟩
          have := h s h4
          rw [h5] at this; cases this
        · rw [h5]
          exact ⟨fun _ => ⟨⟨T, h2⟩, h4⟩, fun _ => ⟨_, rfl⟩⟩

/-- What it expands to: the items described by all other properties (`derive`), which refer to the
crate by that name, or by `enumset`; serde functions, in the format of the options, exactly if the
feature `serde` is on; and the warnings of C54. -/
theorem C63_expansion [Platform] {env : MacroEnv} {inp : DeriveInput} {x : Expansion}
    (h : expand env inp = .ok (.ok x)) :
    derive inp = .ok x.items ∧ x.path = (crateName env inp).getD "enumset" ∧
    x.serde.map SerdeRepr.format = (if env.serde then some (formatOf inp) else none) ∧
    (∀ f, x.serde = some f → x.items.serde = f) ∧
    ∃ info, derive_enum_set_type_0 env.stdWarning inp = .ok (info, x.warnings) := by
  cases hg : inp.hasGenerics with
  | true =>
    obtain ⟨e, h1, h2⟩ := expand_generics (env := env) hg
    rw [h1] at h; cases h
  | false =>
    cases he : inp.isEnum with
    | false =>
      obtain ⟨e, h1, h2⟩ := expand_struct (env := env) hg he
      rw [h1] at h; cases h
    | true =>
      rcases expand_enum (env := env) hg he with ⟨s, h1, h2, h3⟩ | ⟨h1, ⟨e, h2, h3⟩ | ⟨T, info, h2, hi, h3⟩⟩
      · rw [h3] at h; cases h
      · rw [h3] at h; cases h
      · rcases h3 with ⟨-, s, h4, h5, h6⟩ | ⟨h4, h5⟩
        · rw [h6] at h; cases h
        · rw [h5] at h
          injection h with h
          injection h with h
          subst h
          have hs : T.serde = info.serde_repr ∧ formatOf inp = T.serde.format := by
            obtain ⟨info', hi', hok, hs⟩ := derive_shape h2
            rw [hi] at hi'
            injection hi' with hi'
            subst hi'
            obtain ⟨_, _, _, _, hf⟩ := derive_storage h2
            exact ⟨by cases hs <;> rfl, hf⟩
          refine ⟨h2, rfl, ?_, ?_, info, ?_⟩
          · dsimp only
            cases env.serde
            · rfl
            · simp [hs.2, hs.1]
          · intro f hf
            dsimp only at hf ⊢
            cases hse : env.serde with
            | false => rw [hse] at hf; cases hf
            | true =>
              rw [hse] at hf
              injection hf with hf
              rw [hs.1, hf]
          · unfold derive_enum_set_type_0
            rw [hi]
            rfl

/-- Errors are those of C54; but a `crate_name` that is not an identifier hides all errors except the
first two kinds (type parameters; not an enum). -/
theorem C63_errors [Platform] (env : MacroEnv) (inp : DeriveInput) (e : DeriveErr) :
    expand env inp = .ok (.error e) ↔ derive inp = .error e ∧
      (inp.hasGenerics = true ∨ inp.isEnum = false ∨
        ∀ s, inp.attrs.crate_name = some s → env.isIdent s = true) := by
  cases hg : inp.hasGenerics with
  | true =>
    obtain ⟨e, h1, h2⟩ := expand_generics (env := env) hg
    rw [h1, h2]
    simp
  | false =>
    cases he : inp.isEnum with
    | false =>
      obtain ⟨e, h1, h2⟩ := expand_struct (env := env) hg he
      rw [h1, h2]
      simp
    | true =>
      rcases expand_enum (env := env) hg he with ⟨s, h1, h2, h3⟩ | ⟨h1, ⟨e, h2, h3⟩ | ⟨T, info, h2, hi, h3⟩⟩
      · rw [h3]
        refine ⟨fun h => (by cases h), fun ⟨_, h⟩ => ?_⟩
        rcases h with h | h | h
        · cases h
        · cases h
        · have := h s h1; rw [h2] at this; cases this
      · rw [h2, h3]
        constructor
        · intro h
          injection h with h
          injection h with h
          subst h
          exact ⟨rfl, .inr (.inr h1)⟩
        · rintro ⟨h, -⟩
          injection h with h
          subst h
          rfl
      · rw [h2]
        refine ⟨fun h => ?_, fun ⟨h, _⟩ => (by cases h)⟩
        rcases h3 with ⟨-, s, h4, h5, h6⟩ | ⟨h4, h5⟩
        · rw [h6] at h; cases h
        · rw [h5] at h; cases h

/-- The macro panics exactly if it is used on an enum without type parameters and either the
`crate_name` given is not an identifier, whatever else is wrong with the enum, or none is given, the
enum is acceptable, and the name found in the manifest is not an identifier. -/
theorem C63_panics [Platform] (env : MacroEnv) (inp : DeriveInput) :
    (∃ p, expand env inp = .panic p) ↔ inp.hasGenerics = false ∧ inp.isEnum = true ∧
      ((∃ s, inp.attrs.crate_name = some s ∧ env.isIdent s = false) ∨
       (inp.attrs.crate_name = none ∧ Acceptable inp ∧ env.procMacroCrate = true ∧
        ∃ s, env.found = some (.name s) ∧ env.isIdent s = false)) := by
  rw [← C30_accepts]
  cases hg : inp.hasGenerics with
  | true =>
    obtain ⟨e, h1, h2⟩ := expand_generics (env := env) hg
    rw [h1]
    exact ⟨fun ⟨p, h⟩ => (by cases h), fun ⟨h, _⟩ => (by cases h)⟩
  | false =>
    cases he : inp.isEnum with
    | false =>
      obtain ⟨e, h1, h2⟩ := expand_struct (env := env) hg he
      rw [h1]
      exact ⟨fun ⟨p, h⟩ => (by cases h), fun ⟨_, h, _⟩ => (by cases h)⟩
    | true =>
      rcases expand_enum (env := env) hg he with ⟨s, h1, h2, h3⟩ | ⟨h1, ⟨e, h2, h3⟩ | ⟨T, info, h2, hi, h3⟩⟩
      · exact ⟨fun _ => ⟨rfl, rfl, .inl ⟨s, h1, h2⟩⟩, fun _ => ⟨_, h3⟩⟩
      · rw [h3]
        refine ⟨fun ⟨p, h⟩ => (by cases h), fun ⟨_, _, h⟩ => ?_⟩
        rcases h with ⟨s, h4, h5⟩ | ⟨-, ⟨T, h⟩, -⟩
        · have := h1 s h4; rw [h5] at this; cases this
        · rw [h2] at h; cases h
      · rcases h3 with ⟨h0, s, h4, h5, h6⟩ | ⟨h4, h5⟩
        · refine ⟨fun _ => ⟨rfl, rfl, .inr ⟨h0, ⟨T, h2⟩, ?_⟩⟩, fun _ => ⟨_, h6⟩⟩
          unfold crateName at h4
          rw [h0] at h4
          split at h4
          · rename_i h; cases h
          · rename_i hp hf
            injection h4 with h4
            subst h4
            exact ⟨hp, _, hf, h5⟩
          · cases h4
        · rw [h5]
          refine ⟨fun ⟨p, h⟩ => (by cases h), fun ⟨_, _, h⟩ => ?_⟩
          rcases h with ⟨s, h6, h7⟩ | ⟨h0, -, hp, s, hf, h7⟩
          · have := h1 s h6; rw [h7] at this; cases this
          · have := h4 s (by unfold crateName; rw [h0, hp, hf])
            rw [h7] at this; cases this

/-- There are no other outcomes. -/
theorem C63_outcomes [Platform] (env : MacroEnv) (inp : DeriveInput) :
    (∃ x, expand env inp = .ok x) ∨ ∃ p, expand env inp = .panic p := by
  cases hg : inp.hasGenerics with
  | true =>
    obtain ⟨e, h1, h2⟩ := expand_generics (env := env) hg
    exact .inl ⟨_, h1⟩
  | false =>
    cases he : inp.isEnum with
    | false =>
      obtain ⟨e, h1, h2⟩ := expand_struct (env := env) hg he
      exact .inl ⟨_, h1⟩
    | true =>
      rcases expand_enum (env := env) hg he with ⟨s, h1, h2, h3⟩ | ⟨h1, ⟨e, h2, h3⟩ | ⟨T, info, h2, hi, h3⟩⟩
      · exact .inr ⟨_, h3⟩
      · exact .inl ⟨_, h3⟩
      · rcases h3 with ⟨h0, s, h4, h5, h6⟩ | ⟨h4, h5⟩
        · exact .inr ⟨_, h6⟩
        · exact .inl ⟨_, h5⟩

/-- `crate_name` has no other effect: the items and the errors are the same with any other. -/
theorem C63_only_path [Platform] (inp : DeriveInput) (c : Option String) :
    derive { inp with attrs := { inp.attrs with crate_name := c } } = derive inp := rfl

namespace Ex

/-- features off, nothing renamed; identifiers are the words of lower case letters -/
def env0 : MacroEnv where
  isIdent s := !s.isEmpty && s.toList.all Char.isLower
  serde := false
  stdWarning := false
  procMacroCrate := false
  found := none

/-- all features on, `enumset` renamed in the manifest -/
def env1 : MacroEnv := { env0 with
  serde := true, stdWarning := true, procMacroCrate := true, found := some (.name "es") }

/-- `#[enumset(crate_name = "a::b")] enum { A, A }` -/
def inpCN : DeriveInput where
  attrs := { crate_name := some "a::b" }
  variants := [{ ident := "A" }, { ident := "A" }]

end Ex

open scoped Ex

example : ∃ x, expand Ex.env1 Ex.inpL = .ok (.ok x) := ⟨_, rfl⟩
example : ∃ x, expand Ex.env1 Ex.inpL = .ok (.ok x) ∧ x.path = "es" ∧
    x.serde.isSome = true ∧ x.warnings.length = 1 := ⟨_, rfl, by decide, by decide, by decide⟩
example : ∃ x, expand Ex.env0 Ex.inpL = .ok (.ok x) ∧ x.path = "enumset" ∧
    x.serde.isSome = false ∧ x.warnings = [] := ⟨_, rfl, by decide, by decide, by decide⟩
example := (C63_accepts Ex.env1 Ex.inpL).mp ⟨_, rfl⟩
example := C63_expansion (env := Ex.env1) (inp := Ex.inpL) rfl
/-- The repeated name of the variants is not reported. -/
example : ∃ p, expand Ex.env0 Ex.inpCN = .panic p :=
  (C63_panics _ _).mpr ⟨rfl, rfl, .inl ⟨_, rfl, by decide⟩⟩
/-- Without the bad `crate_name`, it is. -/
example := (C63_errors Ex.env1 { Ex.inpCN with attrs := {} } _).mp rfl
example : ∃ e, derive Ex.inpCN = .error e := ⟨_, rfl⟩

/-! ## C15 `enum_from_u32` in full -/

/-- Counting all arms of `enum_from_u32` after those of the variants as undefined loses nothing: for
an enum of any size with room for the discriminants, and for every number that is the position of a
bit of the storage, the arms as they are give the same, a variant or undefined behaviour.
`info.variants` has the discriminants the macro computed, `T.discr` are rustc's. -/
theorem C15_exact [Platform] {inp : DeriveInput} {T : EnumSetType} (hT : derive inp = .ok T)
    {info : EnumSetInfo} (hi : deriveInfo inp = .ok info) (h2 : 2 ≤ T.n) {size : Nat} (hsize : ∀ v : T.Val, T.discr v < 2 ^ (8 * size)) {b : Nat}
    (hb : b < (storageOf inp).bits) :
    genFromSized size T.n T.discr (fun v => (info.variants.map (·.variant_repr)).getD v.val 0) b =
      T.enum_from_u32 b := by
  have hr : (fun v : T.Val => (info.variants.map (·.variant_repr)).getD v.val 0) = T.discr := by
    funext v
    have h1 := (core_of_derive hT).rustc v
    rw [← C29_recorded inp info hi, List.getElem?_map] at h1
    rw [List.getD_eq_getElem?_getD, List.getElem?_map]
    cases hx : info.variants[v.val]? with
    | none => rw [hx] at h1; cases h1
    | some x =>
      rw [hx] at h1
      simp only [Option.map_some, Option.some.injEq] at h1
      simp only [Option.map_some, Option.getD_some]
      exact Int.ofNat.inj h1
  rw [hr]
  by_cases hv : ∃ v, T.discr v = b
  · obtain ⟨v, rfl⟩ := hv
    have C := core_of_derive hT
    rw [C.from_ok]
    unfold genFromSized
    cases hf : (List.finRange T.n).find? (fun i => T.discr i == T.discr v) with
    | none =>
      rw [List.find?_eq_none] at hf
      exact absurd (beq_self_eq_true _) (hf v (List.mem_finRange v))
    | some i =>
      have := List.find?_some hf
      rw [beq_iff_eq] at this
      rw [C.inj _ _ this]
  · have hv' : ∀ v, T.discr v ≠ b := fun v h => hv ⟨v, h⟩
    rw [C15_danger hT h2 hv']
    have none_of : ∀ x, x = b → (List.finRange T.n).find? (fun i => T.discr i == x) = none := by
      rintro x rfl
      rw [List.find?_eq_none]
      intro v _
      simp [hv' v]
    have key : ∀ w, w = 8 * size → reinterpret T.n T.discr (castW w b) = .ub := by
      rintro w rfl
      have hlt : b < 2 ^ (8 * size) := by
        have C := core_of_derive hT
        have hmax : maxDiscr inp.variants < 2 ^ (8 * size) := by
          rcases C.attained with h | ⟨v, h⟩
          · rw [h]; exact Nat.two_pow_pos _
          · rw [← h]; exact hsize v
        have h1 : 1 ≤ size := by
          rcases Nat.eq_zero_or_pos size with h | h
          · subst h
            have a := hsize ⟨0, by omega⟩
            have b := hsize ⟨1, by omega⟩
            have := C.inj ⟨0, by omega⟩ ⟨1, by omega⟩ (by omega)
            simp at this
          · exact h
        have h256 : 2 ^ 8 ≤ 2 ^ (8 * size) := Nat.pow_le_pow_right (by omega) (by omega)
        have hint : ∀ w s, intWidth s = some w → w ≤ 128 := by
          intro w s h
          unfold intWidth at h
          repeat' split at h
          all_goals first | (injection h with h; omega) | cases h
        have harr : 64 * (maxDiscr inp.variants / 64 + 1) ≤ 2 ^ (8 * size) := by
          have : 2 ^ (8 * size) = 64 * (4 * 2 ^ (8 * (size - 1))) := by
            rw [show 8 * size = 8 * (size - 1) + 8 by omega, Nat.pow_add]
            omega
          omega
        have : (storageOf inp).bits ≤ 2 ^ (8 * size) := by
          unfold storageOf
          dsimp only
          split
          · split
            · rename_i w hw
              have := hint _ _ hw
              simp only [Storage.bits]
              omega
            · exact harr
          · split
            · rename_i w hw
              have := List.mem_of_find?_eq_some hw
              simp only [List.mem_cons, List.not_mem_nil, or_false] at this
              simp only [Storage.bits]
              omega
            · exact harr
        omega
      unfold reinterpret
      rw [none_of (castW (8 * size) b) (Nat.mod_eq_of_lt hlt)]
    unfold genFromSized
    rw [none_of b rfl]
    dsimp only
    split
    · exact key 8 (by omega)
    split
    · exact key 16 (by omega)
    split
    · exact key 32 (by omega)
    split
    · exact key 64 (by omega)
    split
    · exact key 128 (by omega)
    · rfl

example := C15_exact Ex.hL rfl (size := 1) (b := 5) (by decide) (by decide) (by decide)
/-- Beyond the storage the arms may find a variant that the number does not denote. -/
example : genFromSized 1 Ex.T.n Ex.T.discr Ex.T.discr 256 = .ok ⟨0, by decide⟩ := rfl

end Enumset
