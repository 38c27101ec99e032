import Verif.SpecGen
import Verif.Props.SrcGenAll
import Verif.Props.SrcMacroImpl
import Verif.Props.SrcHistory
import Verif.Props.Stray
import Verif.Props.Derive
import Verif.Props.Macros
import Verif.Props.Options
import Verif.StorageLemmas
/-!
# C72: from the text of the derive macro to answers

The text of the derive macro is run on an item; the code it returns is linked with the text of the crate
and run.  The statements mention no function of the model.
-/
set_option autoImplicit false
set_option maxRecDepth 10000

namespace Enumset.Src

section history
variable [Platform] {T : EnumSetType} {P : Prog T.Val} {enc : T.Repr → Val T.Val}
  {encI : EnumSetTypeRepr.Iter T.Repr → Val T.Val} {okI : EnumSetTypeRepr.Iter T.Repr → Prop}
  (S : Storage P T.Repr enc encI okI) (E : EnumItems P T enc id) (F : GenFns P T enc id) (k : Nat)
include S E F

/-- One command. -/
theorem stepGen_sim {inp : DeriveInput} (hT : derive inp = .ok T) (hfit : Fits T) (hfuel : T.n < P.fuel)
    (c : GenCmd T.n) (hc : c.Allowed inp.attrs) {ρ : Nat → Val T.Val} {σ : Nat → T.Val → Bool} (h : Rel enc ρ σ) :
    ∃ ρ', P.stepGen (k + 20) ρ c = .ok ((c.sem T.discr σ).1, ρ') ∧
      Rel enc ρ' (c.sem T.discr σ).2 := by
  obtain ⟨W⟩ := wf_of_derive hT hfit
  have hop : inp.attrs.no_ops = false → T.ops = true := fun h => by rw [(C58_switches hT).1, h]; rfl
  have hsup : inp.attrs.no_super_impls = false → T.superImpls = true := fun h => by rw [(C58_switches hT).2.1, h]; rfl
  have hclean : ∀ {s : EnumSet T}, W.Clean s → Safe s := fun h => (W.safe_iff_clean _).2 h
  have hbit : ∀ {s : EnumSet T} {A : T.Val → Bool}, Members s A → ∀ v, W.bit s (T.discr v) = A v :=
    fun h v => W.members_iff.1 h v
  cases c with
  | set c => exact step_sim S E k hT hfit hfuel c h
  | valOper f r v o =>
    obtain ⟨t, et, ht, hB⟩ := operand_arg h o
    cases f with
    | bitor =>
      obtain ⟨u, e, hu⟩ := (C35_members hT hfit v hB).1
      refine ⟨_, ?_, h.upd r (.val_bitor ht e) hu⟩
      simp only [Prog.stepGen, Prog.getOf, Oper.name, et]
      rw [show P.call (k + 20) "T" "bitor" [] [] [variant v, operandOf enc id t] = _ from F.bitor (hop hc) (k + 20) [] v t, e]
      rfl
    | bitand =>
      obtain ⟨u, e, hu⟩ := (C35_members hT hfit v hB).2.1
      refine ⟨_, ?_, h.upd r (.val_bitand ht e) hu⟩
      simp only [Prog.stepGen, Prog.getOf, Oper.name, et]
      rw [show P.call (k + 20) "T" "bitand" [] [] [variant v, operandOf enc id t] = _ from F.bitand (hop hc) (k + 20) [] v t, e]
      rfl
    | sub =>
      obtain ⟨u, e, hu⟩ := (C35_members hT hfit v hB).2.2.1
      refine ⟨_, ?_, h.upd r (.val_sub ht e) hu⟩
      simp only [Prog.stepGen, Prog.getOf, Oper.name, et]
      rw [show P.call (k + 20) "T" "sub" [] [] [variant v, operandOf enc id t] = _ from F.sub (hop hc) (k + 20) [] v t, e]
      rfl
    | bitxor =>
      obtain ⟨u, e, hu⟩ := (C35_members hT hfit v hB).2.2.2.1
      refine ⟨_, ?_, h.upd r (.val_bitxor ht e) hu⟩
      simp only [Prog.stepGen, Prog.getOf, Oper.name, et]
      rw [show P.call (k + 20) "T" "bitxor" [] [] [variant v, operandOf enc id t] = _ from F.bitxor (hop hc) (k + 20) [] v t, e]
      rfl
  | valNot r v =>
    obtain ⟨u, e, hu⟩ := (C35_members hT hfit v (o := .val v) (B := fun u => decide (u = v)) fun _ => rfl).2.2.2.2
    refine ⟨_, ?_, h.upd r (.val_not e) hu⟩
    simp only [Prog.stepGen, Prog.getOf]
    rw [show P.call (k + 20) "T" "not" [] [] [variant v] = _ from F.not (hop hc) (k + 20) [] v, e]
    rfl
  | valEqSet v a =>
    obtain ⟨s, es, hs, hA⟩ := h a
    obtain ⟨r, e, -, hr⟩ := C35_eq hT hfit hs hA v
    have he : r = decide (∀ u, σ a u = decide (u = v)) := by rw [Bool.eq_iff_iff, hr]; simp
    refine ⟨_, ?_, h⟩
    simp only [Prog.stepGen, Prog.getOf, es]
    rw [show P.call (k + 20) "T" "eq_set" [] [] [variant v, setOf enc s] = _ from F.eq_set (hop hc) (k + 20) [] v s,
      e, he]
    rfl
  | valEq v w =>
    have e := W.val_eq_ok v w
    refine ⟨_, ?_, h⟩
    simp only [Prog.stepGen, Prog.getOf, variant]
    rw [show P.call (k + 20) "T" "eq" [] [] [.host "T" v, .host "T" w] = _ from F.eq (hsup hc) (k + 20) [] v w, e]
    rfl
  | valClone v =>
    refine ⟨_, ?_, h⟩
    simp only [Prog.stepGen, Prog.getOf, variant]
    rw [show P.call (k + 20) "T" "clone" [] [] [.host "T" v] = _ from F.clone (hsup hc) (k + 20) [] v]
    rfl
  | constOnly r v =>
    obtain ⟨x, e, hx⟩ := W.only_ok v
    have hA : Members (⟨x⟩ : EnumSet T) fun u => decide (u = v) :=
      W.members_of_bits fun u => (hx _).trans (by rw [W.decide_discr])
    refine ⟨_, ?_, h.upd r (hclean fun i hi => ?_) hA⟩
    · simp only [Prog.stepGen, Prog.getOf, variant]
      rw [show P.call (k + 20) "T" "__impl_enumset_internal__const_only" [] [] [.host "T" v] = _ from
        F.const_only (k + 20) [] v, e]
      rfl
    · exact ⟨v, (of_decide_eq_true ((hx i).symm.trans hi)).symm⟩
  | constBin f r a b =>
    obtain ⟨s, es, hs, hA⟩ := h a
    obtain ⟨t, et, ht, hB⟩ := h b
    have hi := F.CONST_HELPER_INSTANCE (k + 20) []
    cases f with
    | const_union =>
      obtain ⟨x, e, hx⟩ := W.union_ok s.priv_repr t.priv_repr
      have hx : ∀ i, W.bit (⟨x⟩ : EnumSet T) i = _ := hx
      have hc := F.const_union (k + 20) [] s.priv_repr t.priv_repr
      rw [e] at hc
      refine ⟨_, ?_, h.upd r (hclean fun i hi => ?_) (W.members_of_bits fun v => ((hx _).trans ?_))⟩
      · simp only [Prog.stepGen, Prog.getOf, ConstBin.name, es, et, hi, Res.ok_bind]
        rw [show P.call (k + 20) "__EnumSetConstHelper" "const_union" [] [] [helperVal, setOf enc s, setOf enc t] = _ from hc]
        rfl
      · exact W.or_clean (W.clean_of_safe hs) (W.clean_of_safe ht) i ((hx i).symm.trans hi)
      · simp only [ConstBin.sem, ← hbit hA, ← hbit hB]; first | rfl | exact (Bool.bne_eq_xor ..).symm
    | const_intersection =>
      obtain ⟨x, e, hx⟩ := W.inter_ok s.priv_repr t.priv_repr
      have hx : ∀ i, W.bit (⟨x⟩ : EnumSet T) i = _ := hx
      have hc := F.const_intersection (k + 20) [] s.priv_repr t.priv_repr
      rw [e] at hc
      refine ⟨_, ?_, h.upd r (hclean fun i hi => ?_) (W.members_of_bits fun v => ((hx _).trans ?_))⟩
      · simp only [Prog.stepGen, Prog.getOf, ConstBin.name, es, et, hi, Res.ok_bind]
        rw [show P.call (k + 20) "__EnumSetConstHelper" "const_intersection" [] [] [helperVal, setOf enc s, setOf enc t] = _ from hc]
        rfl
      · exact W.and_clean (W.clean_of_safe hs) i ((hx i).symm.trans hi)
      · simp only [ConstBin.sem, ← hbit hA, ← hbit hB]; first | rfl | exact (Bool.bne_eq_xor ..).symm
    | const_symmetric_difference =>
      obtain ⟨x, e, hx⟩ := W.symm_ok s.priv_repr t.priv_repr
      have hx : ∀ i, W.bit (⟨x⟩ : EnumSet T) i = _ := hx
      have hc := F.const_symmetric_difference (k + 20) [] s.priv_repr t.priv_repr
      rw [e] at hc
      refine ⟨_, ?_, h.upd r (hclean fun i hi => ?_) (W.members_of_bits fun v => ((hx _).trans ?_))⟩
      · simp only [Prog.stepGen, Prog.getOf, ConstBin.name, es, et, hi, Res.ok_bind]
        rw [show P.call (k + 20) "__EnumSetConstHelper" "const_symmetric_difference" [] [] [helperVal, setOf enc s, setOf enc t] = _ from hc]
        rfl
      · exact W.xor_clean (W.clean_of_safe hs) (W.clean_of_safe ht) i ((hx i).symm.trans hi)
      · simp only [ConstBin.sem, ← hbit hA, ← hbit hB]; first | rfl | exact (Bool.bne_eq_xor ..).symm
  | constComplement r a =>
    obtain ⟨s, es, hs, hA⟩ := h a
    have hi := F.CONST_HELPER_INSTANCE (k + 20) []
    obtain ⟨x, e, hx⟩ := W.compl_ok s.priv_repr
    have hx : ∀ i, W.bit (⟨x⟩ : EnumSet T) i = (!W.bit s i && W.bit EnumSet.ALL_REPR i) := hx
    have hc := F.const_complement (k + 20) [] s.priv_repr
    rw [e] at hc
    refine ⟨_, ?_, h.upd r (hclean fun i hi => ?_) (W.members_of_bits fun v => ((hx _).trans ?_))⟩
    · simp only [Prog.stepGen, Prog.getOf, es, hi, Res.ok_bind]
      rw [show P.call (k + 20) "__EnumSetConstHelper" "const_complement" [] [] [helperVal, setOf enc s] = _ from hc]
      rfl
    · exact W.and_clean' (p := fun i => !W.bit s i) (q := W.bit EnumSet.ALL_REPR) (W.clean_of_safe .ALL) i ((hx i).symm.trans hi)
    · rw [hbit hA, show W.bit EnumSet.ALL_REPR (T.discr v) = true from W.mem_all v]; simp

/-- C69 with the generated functions among the commands. -/
theorem C72_program {inp : DeriveInput} (hT : derive inp = .ok T) (hfit : Fits T)
    (hfuel : T.n < P.fuel) (cs : List (GenCmd T.n)) (hcs : ∀ c ∈ cs, c.Allowed inp.attrs) :
    P.runGen (k + 20) cs = .ok (genAnswers T.discr cs fun _ _ => false) := by
  obtain ⟨W⟩ := wf_of_derive hT hfit
  have key : ∀ (cs : List (GenCmd T.n)) ρ σ, (∀ c ∈ cs, c.Allowed inp.attrs) → Rel enc ρ σ →
      P.runGenFrom (k + 20) cs ρ = .ok (genAnswers T.discr cs σ) := by
    intro cs
    induction cs with
    | nil => intro ρ σ _ _; rfl
    | cons c cs ih =>
      intro ρ σ hcs h
      obtain ⟨ρ', e, h'⟩ := stepGen_sim S E F k hT hfit hfuel c (hcs c (List.mem_cons_self ..)) h
      rw [Prog.runGenFrom, e, Res.ok_bind, ih _ _ (fun c hc => hcs c (List.mem_cons_of_mem _ hc)) h']
      rfl
  simp only [Prog.runGen, Prog.get, C68_new S (k + 15) [], Res.ok_bind]
  exact key cs _ _ hcs fun i => ⟨_, rfl, .new, W.members_of_bits fun v => W.bit_empty _⟩

end history

/-- Running the text of the derive macro on the item `inp`, which is called `T`, as `syn` presents it, on some machine that
compiles and with the same feature `serde`, returns the code `tok`. -/
def Expands [target : Platform] (inp : DeriveInput) (tok : Val Code) : Prop :=
  ∃ (host : Host) (fuel j : Nat) (c : Env Code) (gs : List (Val Code)) (vis v : Val Code),
    host.serde = target.serde ∧
    32 ≤ @usizeBits host.toTarget ∧ 2 ^ 26 ≤ fuel ∧ SynInput inp ⟨"T", vis⟩ v ∧
    @macroCall host fuel (j + 4) "crate" "derive_enum_set_type_0" c gs [v, encAttrs inp.attrs, encSpan .item] =
      .ok (.ok tok, [])

theorem genTok_host {target host : Platform} (h : host.serde = target.serde) (info : EnumSetInfo)
    (ws : List (Span × String)) : @genTok host "T" info ws = @genTok target "T" info ws := by
  unfold genTok genArgs serdeTok
  rw [h]

theorem andThen_const {α β : Type} {r : Res α} {y : Res β} {z : β} (h : (r.andThen fun _ => y) = .ok z) : y = .ok z := by
  cases r with
  | ok _ => exact h
  | _ => cases h

theorem Expands.info [Platform] {inp : DeriveInput} {tok : Val Code} (h : Expands inp tok) :
    ∃ info w, deriveInfo inp = .ok info ∧ tok = genTok "T" info (deriveWarnings w inp.attrs) := by
  obtain ⟨host, fuel, j, c, gs, vis, v, hserde, hhost, hf, hin, hmacro⟩ := h
  cases hi : deriveInfo inp with
  | error e =>
    rw [@C71_total host fuel j c gs ⟨"T", vis⟩ hf hhost inp v hin, hi] at hmacro
    cases andThen_const hmacro
  | ok info =>
    by_cases hn : @NamesOk host inp.attrs
    · rw [@C71_derive host fuel j c gs ⟨"T", vis⟩ hf hhost inp v hn hin, hi] at hmacro
      injection hmacro with hmacro
      injection hmacro with hmacro _
      injection hmacro with hmacro
      exact ⟨info, host.stdWarning, rfl, hmacro.symm.trans (genTok_host hserde _ _)⟩
    · rw [@C71_panics host fuel j c gs ⟨"T", vis⟩ hf hhost inp v _ hn hin hi] at hmacro
      cases hmacro

/-- If the names of the crate `enumset` are identifiers, the text of the macro returns code exactly for the
items that `Acceptable` describes, and an error for all others. -/
theorem C72_expands [target : Platform] (host : Host) (hserde : host.serde = target.serde)
    (hhost : 32 ≤ @usizeBits host.toTarget) {fuel : Nat} (hf : 2 ^ 26 ≤ fuel)
    (j : Nat) (c : Env Code) (gs : List (Val Code)) {inp : DeriveInput} {vis v : Val Code}
    (hn : @NamesOk host inp.attrs) (hin : SynInput inp ⟨"T", vis⟩ v) :
    (Acceptable inp ∧ ∃ tok, @Expands target inp tok ∧
      @macroCall host fuel (j + 4) "crate" "derive_enum_set_type_0" c gs [v, encAttrs inp.attrs, encSpan .item] =
        .ok (.ok tok, [])) ∨
    (¬ Acceptable inp ∧ ∃ e,
      @macroCall host fuel (j + 4) "crate" "derive_enum_set_type_0" c gs [v, encAttrs inp.attrs, encSpan .item] =
        .ok (.err e, [])) := by
  have h := @C71_derive host fuel j c gs ⟨"T", vis⟩ hf hhost inp v hn hin
  cases hi : deriveInfo inp with
  | ok info =>
    rw [hi] at h
    exact .inl ⟨(deriveInfo_iff inp).1 ⟨_, hi⟩, _, ⟨host, fuel, j, c, gs, vis, v, hserde, hhost, hf, hin, h⟩, h⟩
  | error e =>
    rw [hi] at h
    refine .inr ⟨fun ha => ?_, _, h⟩
    obtain ⟨info, hi'⟩ := (deriveInfo_iff inp).2 ha
    rw [hi] at hi'; cases hi'

/-- What holds of all derived types with a linked program holds of a program made from the code that the
text of the derive macro returns. -/
theorem Expands.elim [Platform] {inp : DeriveInput} {tok : Val Code} (hx : Expands inp tok)
    {n : Nat} {E : EnumDef n} {lib : SerdeLib n} (hE : E.Of inp) (hu : ∀ t x, E.read t x = .ub)
    (hfit : ∀ i, E.discr i + 1 < 2 ^ usizeBits)
    {fuel : Nat} (hfuel : 1 < fuel ∧ ∀ i, E.discr i + 1 < fuel) (k' : Nat) {Q : (n : Nat) → EnumDef n → SerdeLib n → Prop}
    (h : ∀ (T : EnumSetType) (E : EnumDef T.n) (lib : SerdeLib T.n) (enc : T.Repr → Val T.Val)
      (encI : EnumSetTypeRepr.Iter T.Repr → Val T.Val) (okI : EnumSetTypeRepr.Iter T.Repr → Prop),
      derive inp = .ok T → Fits T → T.n < fuel → E.discr = T.discr → E.Of inp →
      Storage ((Gen.mk (toItems tok) E fuel lib).toProg (k' + 10)) T.Repr enc encI okI →
      EnumItems ((Gen.mk (toItems tok) E fuel lib).toProg (k' + 10)) T enc id →
      GenFns ((Gen.mk (toItems tok) E fuel lib).toProg (k' + 10)) T enc id → Q T.n E lib) : Q n E lib := by
  obtain ⟨info, w, hi, htok⟩ := hx.info
  have hok := deriveInfo_ok hi
  obtain ⟨T, hT, -⟩ := impl_ok hok
  have hT : derive inp = .ok T := by rw [derive, hi]; exact hT
  have C := core_of_derive hT
  have hn : n = T.n := hE.count.trans C.n_eq.symm
  subst hn
  have hd : E.discr = T.discr := funext fun i => by
    have h1 := hE.discr i
    have h2 := C.rustc i
    rw [h1] at h2
    injection h2 with h2
    exact Int.ofNat_inj.1 h2
  have hbw : T.BIT_WIDTH = 1 ∨ ∃ i, T.BIT_WIDTH = E.discr i + 1 := by
    rcases C.attained with h | ⟨w, h⟩
    · exact .inl (by rw [C.bw, h])
    · exact .inr ⟨w, by rw [C.bw, ← h, hd]⟩
  have h16 : 1 < 2 ^ usizeBits := by rcases Target.usize_ok with h | h | h <;> rw [usizeBits, h] <;> decide
  have hfit : Fits T := by
    rcases hbw with h | ⟨i, h⟩
    · show T.BIT_WIDTH < _; rw [h]; exact h16
    · show T.BIT_WIDTH < _; rw [h]; exact hfit i
  have hbf : T.BIT_WIDTH < fuel := by
    rcases hbw with h | ⟨i, h⟩
    · rw [h]; exact hfuel.1
    · rw [h]; exact hfuel.2 i
  have hnb : T.n ≤ T.BIT_WIDTH := by
    have := nodup_length_le T.BIT_WIDTH ((List.finRange T.n).map T.discr)
      ((List.nodup_finRange T.n).map T.discr fun _ _ hne h => hne (C.inj _ _ h)) (by
        intro d hd; obtain ⟨v, -, rfl⟩ := List.mem_map.1 hd; exact C.lt v)
    simpa using this
  have hitems : toItems tok = genItems info (deriveWarnings w inp.attrs) := by
    rw [htok]
  obtain ⟨enc, encI, okI, S, I, F⟩ := C72_items (ws := deriveWarnings w inp.attrs) (lib := lib) hT hfit hi hE hu hbf k'
  rw [hitems] at h
  exact h T E lib enc encI okI hT hfit (Nat.lt_of_le_of_lt hnb hbf) hd hE S I F

/-- The code that the text of the derive macro returns, linked with the text of the crate and with the
enum of the item, and run on any target, answers every history of calls as mathematical sets do.  Reading
a number as a value of the enum counts as undefined behaviour (`hu`), so in particular the generated code
never does. -/
theorem C72_history [Platform] {inp : DeriveInput} {tok : Val Code} (hx : Expands inp tok)
    {n : Nat} {E : EnumDef n} {lib : SerdeLib n} (hE : E.Of inp) (hu : ∀ t x, E.read t x = .ub)
    (hfit : ∀ i, E.discr i + 1 < 2 ^ usizeBits)
    {fuel : Nat} (hfuel : 1 < fuel ∧ ∀ i, E.discr i + 1 < fuel)
    (k k' : Nat) (cs : List (GenCmd n)) (hcs : ∀ c ∈ cs, c.Allowed inp.attrs) :
    ((Gen.mk (toItems tok) E fuel lib).toProg (k' + 10)).runGen (k + 20) cs =
      .ok (genAnswers E.discr cs fun _ _ => false) := by
  refine hx.elim hE hu hfit hfuel k' (Q := fun n E lib => ∀ cs : List (GenCmd n), (∀ c ∈ cs, c.Allowed inp.attrs) →
    ((Gen.mk (toItems tok) E fuel lib).toProg (k' + 10)).runGen (k + 20) cs =
      .ok (genAnswers E.discr cs fun _ _ => false)) ?_ cs hcs
  intro T E lib enc encI okI hT hfit hfuel hd _ S I F cs hcs
  rw [hd]
  exact C72_program S I F k hT hfit hfuel cs hcs

/-- The variants have different names. -/
theorem EnumDef.Of.inj {inp : DeriveInput} {n : Nat} {E : EnumDef n} (hE : E.Of inp) {info : EnumSetInfo}
    (hi : deriveInfo inp = .ok info) (i j : Fin n) (h : E.name i = E.name j) : i = j := by
  obtain ⟨-, hnodup⟩ := deriveInfo_names hi
  have hi' := hE.name i
  have hj' := hE.name j
  rw [h, ← hj', ← List.getElem?_map, ← List.getElem?_map] at hi'
  have hlen : i.val < (inp.variants.map (·.ident)).length := by
    rw [List.length_map, ← hE.count]; exact i.isLt
  exact Fin.ext ((List.getElem?_inj hlen hnodup).1 hi')

/-- `enum_from_u32`, with the arms that read a number as a value of the enum: `genFromSized` (C15). -/
theorem C72_from [Platform] {inp : DeriveInput} {tok : Val Code} (hx : Expands inp tok)
    {n : Nat} {E : EnumDef n} {lib : SerdeLib n} (hE : E.Of inp) (hread : ∀ t x, E.read t x = reinterpret n E.discr x) (hn : 2 ≤ n)
    (fuel k j : Nat) (env : Env (Fin n)) (val : Nat) :
    ((Gen.mk (toItems tok) E fuel lib).toProg (k + 1)).call j "T" "enum_from_u32" env [] [.int .u32 val] =
      genFromSized E.size n E.discr E.discr val >>= fun v => .ok (.host "T" v, []) := by
  obtain ⟨info, w, hi, rfl⟩ := hx.info
  have hok := deriveInfo_ok hi
  obtain ⟨hnames, -⟩ := deriveInfo_names hi
  have hlen : n = info.variants.length := by
    have := congrArg List.length hnames
    rw [List.length_map, List.length_map] at this
    exact hE.count.trans this.symm
  subst hlen
  have hname : ∀ i : Fin info.variants.length, E.name i = info.variants[i].name := fun i => by
    have h1 := hE.name i
    rw [← List.getElem?_map, ← hnames, List.getElem?_map, List.getElem?_eq_getElem i.isLt] at h1
    simpa using h1.symm
  have hinj : ∀ i j, E.name i = E.name j → i = j := hE.inj hi
  have hd : ∀ i, E.discr i = info.variants[i].variant_repr := fun i => by
    have h1 := hok.discr_eq i
    rw [← h1, List.getD_eq_getElem?_getD, hE.discr i]; simp
  have := gen_enum_from_u32 (ws := deriveWarnings w inp.attrs) (E := E) (fuel := fuel) (lib := lib) hname hinj k j env val
  refine this.trans ?_
  rw [dif_neg (by omega), dif_neg (by omega), genFromSized]
  simp only [hd, fromOther, hread]
  generalize List.find? _ _ = o
  cases o <;> rfl

/-! ### traits and types -/

/-- The name of a storage in Rust. -/
def storageTy : Enumset.Storage → Ty
  | .int w => .name ("u" ++ toString w) []
  | .array n => .name "ArrayRepr" [.num n]

theorem itemTraits_append (l m : List Item) : itemTraits (l ++ m) = itemTraits l ++ itemTraits m := by
  induction l with
  | nil => rfl
  | cons x l ih =>
    cases x <;> simp only [List.cons_append, itemTraits, ih]
    split <;> rfl

/-- The traits that the generated code implements for the enum `T`. -/
theorem C72_traits [Platform] {inp : DeriveInput} {tok : Val Code} (hx : Expands inp tok) :
    itemTraits (toItems tok) =
      [("EnumSetTypePrivate", [], .name "T" []), ("EnumSetType", [], .name "T" [])] ++
      (if (inp.attrs.repr.bind intWidth).isSome then [("EnumSetTypeWithRepr", [], .name "T" [])] else []) ++
      (if inp.attrs.no_super_impls then [] else
        [("PartialEq", [], .name "T" []), ("Eq", [], .name "T" []), ("Clone", [], .name "T" []),
         ("Copy", [], .name "T" [])]) ++
      (if inp.attrs.no_ops then [] else
        [("Sub", [.name "O" []], .name "T" []), ("BitAnd", [.name "O" []], .name "T" []),
         ("BitOr", [.name "O" []], .name "T" []), ("BitXor", [.name "O" []], .name "T" []),
         ("Not", [], .name "T" []), ("PartialEq", [.name "EnumSet" [.name "T" []]], .name "T" [])]) := by
  obtain ⟨info, w, hi, rfl⟩ := hx.info
  have hok := deriveInfo_ok hi
  have he : info.explicit_internal_repr.isSome = (inp.attrs.repr.bind intWidth).isSome := by
    rw [hok.expl]
    cases inp.attrs.repr with
    | none => rfl
    | some s => simp only [Option.bind_some, ← internalOf_width, Option.isSome_map]
  rw [genTok_items, itemTraits_append, itemTraits_append, itemTraits_append, itemTraits_append, itemTraits_append,
    withReprTok_items, superTok_items, opsTok_items, inherentTok_items, he, hok.super, hok.ops]
  cases (inp.attrs.repr.bind intWidth).isSome <;> cases inp.attrs.no_super_impls <;> cases inp.attrs.no_ops <;> rfl

/-- `EnumSetTypePrivate::Repr` is the documented storage, and so is `EnumSetTypeWithRepr::Repr` if that
trait is implemented. -/
theorem C72_repr [Platform] {inp : DeriveInput} {tok : Val Code} (hx : Expands inp tok) :
    assocType "EnumSetTypePrivate" "Repr" (toItems tok) = some (storageTy (storageOf inp)) ∧
    assocType "EnumSetTypeWithRepr" "Repr" (toItems tok) =
      if (inp.attrs.repr.bind intWidth).isSome then some (storageTy (storageOf inp)) else none := by
  obtain ⟨info, w, hi, rfl⟩ := hx.info
  have hok := deriveInfo_ok hi
  have hs := hok.storage_eq ((deriveInfo_iff inp).1 ⟨_, hi⟩).repr_known
  have hr : reprTy info.internal_repr = storageTy (storageOf inp) := by
    rw [hs]; cases info.internal_repr <;> rfl
  have he : info.explicit_internal_repr.isSome = (inp.attrs.repr.bind intWidth).isSome := by
    rw [hok.expl]
    cases inp.attrs.repr with
    | none => rfl
    | some s => simp only [Option.bind_some, ← internalOf_width, Option.isSome_map]
  refine ⟨(gen_assoc info _).trans (by rw [hr]), ?_⟩
  rw [genTok_items, withReprTok_items, superTok_items, opsTok_items, inherentTok_items, he, hr]
  cases (inp.attrs.repr.bind intWidth).isSome <;> cases info.no_super_impls <;> cases info.no_ops <;> rfl

/-! ### concrete cases -/

namespace Ex
open Enumset.Ex (inpT inpL plat64)
open scoped Enumset.Ex

/-- `enum T { A, B = 3, C }` as rustc sees it -/
def enumT : EnumDef 3 := ⟨fun i => ["A", "B", "C"][i], fun i => [0, 3, 4][i], 1, fun _ _ => .ub⟩

theorem enumT_of : enumT.Of { inpT with hasGenerics := !(List.isEmpty (α := Val Code) []) } where
  count := rfl
  name i := by match i with | 0 => rfl | 1 => rfl | 2 => rfl
  discr i := by match i with | 0 => rfl | 1 => rfl | 2 => rfl

theorem expandsT : Expands { inpT with hasGenerics := !(List.isEmpty (α := Val Code) []) } (genTok "T" infoT []) :=
  ⟨host64, 2 ^ 26, 0, [], [], .unit, synT [], rfl, by decide, Nat.le_refl _, synT_ok [],
    (C71_derive (k := 0) (Nat.le_refl _) (by decide) _ _ (namesOff rfl rfl) (synT_ok [])).trans (by rw [infoT_ok]; rfl)⟩

/-- `x = A | C; y = !B; x == y; x = helper.const_complement(x); B == x; A == C; x.insert(C);
x.iter(); z = B ^ y` -/
def genCmds : List (GenCmd 3) :=
  [.valOper .bitor 0 0 (.val 2), .valNot 1 1, .set (.test .eq 0 1), .constComplement 0 0, .valEqSet 1 0,
   .valEq 0 2, .set (.insert 0 2), .set (.items 0), .valOper .bitxor 2 1 (.set 1), .set (.len 2)]

example : genAnswers enumT.discr genCmds (fun _ _ => false) =
    [.unit, .unit, .bool true, .unit, .bool true, .bool false, .bool true, .list [1, 2], .unit, .num 3] := by
  have h1 : enumT.discr (1 : Fin 3) = 3 := by rfl
  have h2 : enumT.discr (2 : Fin 3) = 4 := by rfl
  have hf : List.finRange 3 = [0, 1, 2] := by decide
  simp [genAnswers, genCmds, GenCmd.sem, Cmd.sem, Oper.sem, Arg.sem, Test.sem, upd, sortedMembers, card, hf,
    List.mergeSort, List.filter, List.MergeSort.Internal.splitInTwo, List.splitAt,
    List.splitAt.go, h1, h2]
  decide

example (lib : SerdeLib 3) (fuel : Nat) (h : 5 < fuel) :
    ((Gen.mk (toItems (genTok "T" infoT [])) enumT fuel lib).toProg 10).runGen 20 genCmds =
      .ok (genAnswers enumT.discr genCmds fun _ _ => false) :=
  C72_history expandsT enumT_of (fun _ _ => rfl) (by decide) ⟨by omega, fun i => by
    match i with
    | 0 => show 0 + 1 < fuel; omega
    | 1 => show 3 + 1 < fuel; omega
    | 2 => show 4 + 1 < fuel; omega⟩ 0 0 genCmds fun c _ => by
      cases c <;> first | rfl | trivial

/-- `= d` -/
def synLit (i d : Nat) : Val Code :=
  .some (.tup [.unit, .enum "Expr" "Lit" [("0", .struct "ExprLit" [("lit",
    .enum "Lit" "Int" [("0", .struct "LitInt" [("0", .lit d)])])]), ("span", encSpan (.discriminant i))]])

/-- What `syn` makes of `enum T { A, B = 64, C = 130 }`. -/
def synL : Val Code :=
  .struct "DeriveInput" [("attrs", .arr []), ("vis", visibility .unit), ("ident", ident "T"),
    ("generics", .struct "Generics" [("params", .arr []), ("span", encSpan .generics)]),
    ("data", .enum "Data" "Enum" [("0", .struct "DataEnum" [("variants", .arr
      [synUnit 0 "A" .none, synUnit 1 "B" (synLit 1 64), synUnit 2 "C" (synLit 2 130)])])]),
    ("span", encSpan .item), ("from_derive_input", .ok (encAttrs {}))]

theorem synL_ok : SynInput { inpL with hasGenerics := !(List.isEmpty (α := Val Code) []) } hdrT synL :=
  .mk _ [] _ (.nil 0) rfl
    (.enum _ rfl (.cons 0 _ _ _ _ (.mk "Unit" _ _ rfl .none)
      (.cons 1 _ _ _ _ (.mk "Unit" _ _ rfl (.some _ _ (.lit 64)))
        (.cons 2 _ _ _ _ (.mk "Unit" _ _ rfl (.some _ _ (.lit 130))) (.nil 3))))) _

/-- `enum T { A, B = 64, C = 130 }` as rustc sees it -/
def enumL : EnumDef 3 := ⟨fun i => ["A", "B", "C"][i], fun i => [0, 64, 130][i], 1, fun _ _ => .ub⟩

theorem enumL_of : enumL.Of { inpL with hasGenerics := !(List.isEmpty (α := Val Code) []) } where
  count := rfl
  name i := by match i with | 0 => rfl | 1 => rfl | 2 => rfl
  discr i := by match i with | 0 => rfl | 1 => rfl | 2 => rfl

/-- With three words of storage the answers are the same. -/
example (lib : SerdeLib 3) (fuel : Nat) (h : 131 < fuel) : ∃ tok, Expands { inpL with hasGenerics := !(List.isEmpty (α := Val Code) []) } tok ∧
    assocType "EnumSetTypePrivate" "Repr" (toItems tok) = some (.name "ArrayRepr" [.num 3]) ∧
    ((Gen.mk (toItems tok) enumL fuel lib).toProg 10).runGen 20 genCmds =
      .ok (genAnswers enumL.discr genCmds fun _ _ => false) := by
  rcases C72_expands host64 rfl (by decide) (Nat.le_refl (2 ^ 26)) 0 [] [] (namesOff rfl rfl) synL_ok with ⟨-, tok, hx, -⟩ | ⟨h, -⟩
  · refine ⟨tok, hx, (C72_repr hx).1, C72_history hx enumL_of (fun _ _ => rfl) (by decide) ⟨by omega, fun i => ?_⟩ 0 0 genCmds
      fun c _ => by cases c <;> first | rfl | trivial⟩
    match i with
    | 0 => show 0 + 1 < fuel; omega
    | 1 => show 64 + 1 < fuel; omega
    | 2 => show 130 + 1 < fuel; omega
  · exact absurd ((deriveInfo_iff _).1 ⟨_, rfl⟩) h

/-- The same, with the bytes of a value read as they are. -/
def enumR : EnumDef 3 := { enumT with read := fun _ => reinterpret 3 enumT.discr }

/-- With one byte per value, 256 is read as 0, the discriminant of `A`. -/
example (lib : SerdeLib 3) (fuel : Nat) : ((Gen.mk (toItems (genTok "T" infoT [])) enumR fuel lib).toProg 1).call 0 "T" "enum_from_u32" [] []
    [.int .u32 256] = .ok (.host "T" 0, []) := by
  have h := C72_from expandsT (E := enumR) (lib := lib) ⟨enumT_of.count, enumT_of.name, enumT_of.discr⟩ (fun _ _ => rfl)
    (by decide) fuel 0 0 [] 256
  rw [h, show genFromSized enumR.size 3 enumR.discr enumR.discr 256 = .ok 0 from rfl]
  rfl

example := C72_traits expandsT
example : assocType "EnumSetTypePrivate" "Repr" (toItems (genTok "T" infoT [])) = some (.name "u8" []) :=
  (C72_repr expandsT).1

end Ex
end Enumset.Src
