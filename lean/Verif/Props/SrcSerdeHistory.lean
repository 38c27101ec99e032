import Verif.SpecSerdeRun
import Verif.MachineSerde
import Verif.Props.SrcSerdeAll
import Verif.Props.SrcGenHistory
import Verif.Props.SerdeIO
import Verif.Props.Machine
/-!
# C74: the serde code the derive macro writes, from its text to what serializers see

The text of the derive macro, built with the feature `serde`, is run on an item; the code it returns is linked with
the text of the crate and run against an arbitrary serializer and deserializer.  The statements mention no function
of the model.
-/
set_option autoImplicit false
set_option maxRecDepth 10000

namespace Enumset.Src
open Hist

section loops
variable [Platform] {T : EnumSetType} {E σ : Type} (W : WF T)
include W

theorem listLoopFrom_read (next : Access E T.Val σ) (fuel : Nat) (acc : EnumSet T) (st : σ) :
    (Serde.listLoopFrom next fuel acc st >>= fun r => .ok r.1) = readAll next fuel st >>= fun
      | .error e => .ok (.error (.de e))
      | .ok vs => Serde.listLoop (vs.map .ok) acc := by
  induction fuel generalizing acc st with
  | zero => rfl
  | succ fuel ih =>
    rw [Serde.listLoopFrom, readAll]
    rcases next st with ⟨r, st1⟩
    rcases r with e | _ | v
    · rfl
    · rfl
    · obtain ⟨acc', e, -⟩ := W.bitor_val_ok acc v
      simp only [e, Res.ok_bind, ih, bind_assoc]
      refine bind_congr fun r => ?_
      cases r with
      | error e => rfl
      | ok vs => simp only [Except.map, List.map_cons, Serde.listLoop, e, Res.ok_bind]

theorem mapLoopFrom_read (next : Access E (T.Val × Bool) σ) (fuel : Nat) (acc : EnumSet T) (st : σ) :
    (Serde.mapLoopFrom next fuel acc st >>= fun r => .ok r.1) = readAll next fuel st >>= fun
      | .error e => .ok (.error (.de e))
      | .ok vs => Serde.mapLoop (vs.map .ok) acc := by
  induction fuel generalizing acc st with
  | zero => rfl
  | succ fuel ih =>
    rw [Serde.mapLoopFrom, readAll]
    rcases next st with ⟨r, st1⟩
    rcases r with e | _ | ⟨v, b⟩
    · rfl
    · rfl
    · obtain ⟨acc', e, -⟩ := W.bitor_val_ok acc v
      cases b
      · simp only [Bool.false_eq_true, if_false, ih, bind_assoc]
        refine bind_congr fun r => ?_
        cases r with
        | error e => rfl
        | ok vs => simp only [Res.ok_bind, Except.map, List.map_cons, Serde.mapLoop, Bool.false_eq_true, if_false]
      · simp only [if_true, e, Res.ok_bind, ih, bind_assoc]
        refine bind_congr fun r => ?_
        cases r with
        | error e => rfl
        | ok vs => simp only [Except.map, List.map_cons, Serde.mapLoop, if_true, e, Res.ok_bind]

omit [Platform] W in
theorem drainLoopFrom_read (next : Access E U64 σ) (fuel : Nat) (st : σ) :
    (Serde.drainLoopFrom next fuel st >>= fun r => .ok r.1) = readAll next fuel st >>= fun
      | .error e => .ok (.error (.de e))
      | .ok _ => .ok (.ok ()) := by
  induction fuel generalizing st with
  | zero => rfl
  | succ fuel ih =>
    rw [Serde.drainLoopFrom, readAll]
    rcases next st with ⟨r, st1⟩
    rcases r with e | _ | v
    · rfl
    · rfl
    · simp only [ih, bind_assoc]
      refine bind_congr fun r => ?_
      cases r <;> rfl

omit W in
theorem fillLoopFrom_read {P : Nat} (hP : P < 2 ^ usizeBits) (next : Access E U64 σ) (k : Nat) :
    ∀ (fuel : Nat) (acc : Vector U64 P) (i : Nat) (st : σ), i + (k + 1) = P → k + 1 ≤ fuel →
    match readUpTo next (k + 1) st with
    | .error e => ∃ st', Serde.fillLoopFrom next fuel acc i st = .ok (.error (.de e), st')
    | .ok (ws, st') => ws.length ≤ k + 1 ∧ ∃ acc' f, Serde.fillLoop (E := E) (ws.map .ok) acc i = .ok (.ok (acc', [])) ∧
        Serde.fillLoopFrom next fuel acc i st = .ok (.ok (acc', f), st') := by
  induction k with
  | zero =>
    intro fuel acc i st hi hf
    obtain ⟨fuel, rfl⟩ : ∃ f, fuel = f + 1 := ⟨fuel - 1, by omega⟩
    rw [readUpTo, Serde.fillLoopFrom]
    rcases next st with ⟨r, st1⟩
    rcases r with e | _ | v
    · exact ⟨_, rfl⟩
    · exact ⟨by simp, acc, _, rfl, rfl⟩
    · have h1 : i < P := by omega
      simp only [readUpTo, Except.map, List.map_cons, List.map_nil, Serde.fillLoop, setV, h1, dif_pos, Res.ok_bind,
        addW, hi, hP, if_pos]
      exact ⟨by simp, _, _, rfl, rfl⟩
  | succ k ih =>
    intro fuel acc i st hi hf
    obtain ⟨fuel, rfl⟩ : ∃ f, fuel = f + 1 := ⟨fuel - 1, by omega⟩
    rw [readUpTo, Serde.fillLoopFrom]
    rcases next st with ⟨r, st1⟩
    rcases r with e | _ | v
    · exact ⟨_, rfl⟩
    · exact ⟨by simp, acc, _, rfl, rfl⟩
    · have h1 : i < P := by omega
      have h2 : i + 1 < 2 ^ usizeBits := by omega
      have h3 : i + 1 ≠ P := by omega
      have := ih fuel (acc.set i v) (i + 1) st1 (by omega) (by omega)
      revert this
      simp only [setV, h1, dif_pos, Res.ok_bind, addW, h2, if_pos, if_neg h3]
      cases readUpTo next (k + 1) st1 with
      | error e => exact id
      | ok r =>
        rintro ⟨hl, acc', f, h5, h6⟩
        refine ⟨by simp; omega, acc', f, ?_, h6⟩
        simp only [List.map_cons, Serde.fillLoop, setV, h1, dif_pos, Res.ok_bind, addW, h2, if_pos, if_neg h3, h5]
end loops

section fetch
variable [Platform] {inp : DeriveInput} {T : EnumSetType} {E : Type}

/-- Complete data, as the model takes it. -/
def okInput (x : Data T.n) : DeInput T.Val E :=
  match x with
  | .int t x => .int t (.ok x)
  | .seq vs => .seq (vs.map .ok)
  | .map es => .map (es.map .ok)
  | .words ws => .words (ws.map .ok)

/-- What `deserialize` of the model gives for data with the given meaning. -/
def ReadsOk (r : Res (Except (DeError E) (EnumSet T))) : Read T.n → Prop
  | .set A => ∃ s, r = .ok (.ok s) ∧ Safe s ∧ Members s A
  | .refused _ => r = .ok (.error .unknownBits)
  | .panic p => r = .panic p
  | .unavailable => r = .ub

theorem read_ok (hT : derive inp = .ok T) (hfit : Fits T) (hc : (layoutOf inp).serializable = true) (x : Data T.n) :
    ReadsOk ((Serde.deserialize (T := T) (E := E) (okInput x)).getD .ub) (x.read T.discr (layoutOf inp) false) := by
  have hF := (serde_facts hT).format
  unfold Data.read
  rw [hc, if_pos rfl]
  cases hf : formatOf inp with
  | int w =>
    obtain ⟨t, ht, rfl, hw⟩ := numOfWidth_format hT hf
    have hnum := numTy_of_format ht (hF.symm.trans hf)
    have hN : ∀ i : DeInput T.Val E, (match i with | .int t' _ => t' ≠ t | _ => True) → Serde.deserialize (T := T) i = none := by
      intro i h
      unfold Serde.deserialize
      cases hs : T.serde <;> rw [hs] at hnum <;> cases hnum <;>
        cases i <;> first | rfl | (rename_i t' x; cases t' <;> first | rfl | exact absurd rfl h)
    cases x with
    | int t' x =>
      simp only [layoutOf, hf]
      by_cases htt : numOfWidth t.bits = some t'
      · rw [if_pos htt]
        obtain rfl : t = t' := by rw [hw] at htt; injection htt
        have hk : known T.discr x.toNat = true ↔ OnlyVariants T x.getLsbD := by
          rw [known_iff]
          unfold OnlyVariants
          simp only [BitVec.testBit_toNat]
        simp only [BitVec.testBit_toNat]
        cases hd : inp.attrs.serialize_deny_unknown with
        | false =>
          obtain ⟨-, h1, -⟩ := C36_default hT hfit ht hf hd (E := E)
          obtain ⟨s, e, hm⟩ := h1 x
          exact ⟨s, by rw [okInput, e]; rfl, .deserialize e, hm⟩
        | true =>
          have hcc : Serde.compiles T = true := (compiles_eq hT).trans hc
          obtain ⟨h1, h2, -⟩ := C36_deny_partial hT hfit ht hf hd hcc (E := E)
          cases hkn : known T.discr x.toNat with
          | true =>
            obtain ⟨s, e, hm⟩ := h1 x (hk.mp hkn)
            exact ⟨s, by rw [okInput, e]; rfl, .deserialize e, hm⟩
          | false =>
            have e := h2 x (fun h => by rw [hk.mpr h] at hkn; cases hkn)
            show Option.getD _ _ = _
            rw [okInput, e]; rfl
      · rw [if_neg htt]
        show Option.getD _ _ = _
        rw [okInput, hN]
        · rfl
        · exact fun h => htt (h ▸ hw)
    | seq vs => simp only [layoutOf, hf]; show Option.getD _ _ = _; rw [okInput, hN _ trivial]; rfl
    | map es => simp only [layoutOf, hf]; show Option.getD _ _ = _; rw [okInput, hN _ trivial]; rfl
    | words ws => simp only [layoutOf, hf]; show Option.getD _ _ = _; rw [okInput, hN _ trivial]; rfl
  | list =>
    have hs := format_list (hF.symm.trans hf)
    cases x with
    | seq vs =>
      simp only [layoutOf, hf]
      obtain ⟨⟨s, e, hm⟩, -⟩ := C37_deserialize_list hT hfit hf (E := E) vs
      exact ⟨s, by rw [okInput, e]; rfl, .deserialize e, hm⟩
    | int t x => simp only [layoutOf, hf, okInput, Serde.deserialize, hs]; rfl
    | map es => simp only [layoutOf, hf, okInput, Serde.deserialize, hs]; rfl
    | words ws => simp only [layoutOf, hf, okInput, Serde.deserialize, hs]; rfl
  | map =>
    have hs := format_map (hF.symm.trans hf)
    cases x with
    | map es =>
      simp only [layoutOf, hf]
      obtain ⟨⟨s, e, hm⟩, -⟩ := C37_deserialize_map hT hfit hf (E := E) es
      exact ⟨s, by rw [okInput, e]; rfl, .deserialize e, hm⟩
    | int t x => simp only [layoutOf, hf, okInput, Serde.deserialize, hs]; rfl
    | seq es => simp only [layoutOf, hf, okInput, Serde.deserialize, hs]; rfl
    | words ws => simp only [layoutOf, hf, okInput, Serde.deserialize, hs]; rfl
  | array =>
    have hs := format_array (hF.symm.trans hf)
    cases x with
    | words ws =>
      simp only [layoutOf, hf]
      obtain ⟨h1, h2⟩ := C50_reads hT hfit hf (E := E) ws
      have hk : known T.discr (ofWords (ws.take (storageOf inp).words)) = true ↔
          OnlyVariants T (wbit (ws.take (storageOf inp).words)) := by
        rw [known_iff]
        unfold OnlyVariants
        simp only [ofWords_testBit]
      simp only [ofWords_testBit]
      cases hkn : known T.discr (ofWords (ws.take (storageOf inp).words)) with
      | true =>
        obtain ⟨s, e, hm⟩ := h1 (hk.mp hkn)
        exact ⟨s, by rw [okInput, e]; rfl, .deserialize e, hm⟩
      | false =>
        have e := h2 (fun h => by rw [hk.mpr h] at hkn; cases hkn)
        show Option.getD _ _ = _
        rw [okInput, e]; rfl
    | int t x => simp only [layoutOf, hf, okInput, Serde.deserialize, hs]; rfl
    | seq es => simp only [layoutOf, hf, okInput, Serde.deserialize, hs]; rfl
    | map ws => simp only [layoutOf, hf, okInput, Serde.deserialize, hs]; rfl

/-- `deserialize` of the model is asking for data and taking it for a set. -/
theorem deserializeAt_fetch (hT : derive inp = .ok T) (hfit : Fits T) (L : SerdeLib T.n) {fuel : Nat}
    (hfuel : (storageOf inp).words ≤ fuel) (st : Val T.Val) :
    deserializeAt (T := T) L fuel st = fetch L fuel (layoutOf inp) st >>= fun
      | .error e => .ok (.error (.de e))
      | .ok x => (Serde.deserialize (okInput x)).getD .ub := by
  obtain ⟨W⟩ := wf_of_derive hT hfit
  have F := serde_facts hT
  unfold fetch
  cases hf : formatOf inp with
  | int w =>
    obtain ⟨t, ht, rfl, hw⟩ := numOfWidth_format hT hf
    have hnum := numTy_of_format ht (F.format.symm.trans hf)
    simp only [layoutOf, hf, hw, Res.ok_bind]
    rw [deserializeAt_num L fuel st hnum]
    cases L.deNum t st with
    | error e => rfl
    | ok x => simp only [Except.map, okInput]; rw [deserialize_num hnum]; rfl
  | list =>
    have hs := format_list (F.format.symm.trans hf)
    simp only [layoutOf, hf, deserializeAt, hs]
    cases L.deSeq st with
    | error e => rfl
    | ok st =>
      simp only [Serde.visitList, bind_assoc, Res.ok_bind]
      rw [listLoopFrom_read W]
      refine bind_congr fun r => ?_
      cases r with
      | error e => rfl
      | ok vs => simp only [Except.map, okInput, Serde.deserialize, hs]; rfl
  | map =>
    have hs := format_map (F.format.symm.trans hf)
    simp only [layoutOf, hf, deserializeAt, hs]
    cases L.deMap st with
    | error e => rfl
    | ok st =>
      simp only [Serde.visitMap, bind_assoc, Res.ok_bind]
      rw [mapLoopFrom_read W]
      refine bind_congr fun r => ?_
      cases r with
      | error e => rfl
      | ok vs => simp only [Except.map, okInput, Serde.deserialize, hs]; rfl
  | array =>
    have hs := format_array (F.format.symm.trans hf)
    simp only [layoutOf, hf, deserializeAt, hs]
    cases L.deSeq st with
    | error e => rfl
    | ok st =>
      obtain ⟨k, hk⟩ : ∃ k, EnumSetTypeRepr.PREFERRED_ARRAY_LEN T.Repr = k + 1 :=
        ⟨EnumSetTypeRepr.PREFERRED_ARRAY_LEN T.Repr - 1, by have := W.pref_pos; omega⟩
      have h := fillLoopFrom_read (E := Val T.Val) W.pref_lt L.nextWord k fuel (Vector.replicate _ 0) 0 st (by omega)
        (by rw [F.pref] at hk; omega)
      rw [← F.pref, hk]
      simp only [visitArrayAt]
      revert h
      cases readUpTo L.nextWord (k + 1) st with
      | error e => rintro ⟨st', h⟩; rw [h]; rfl
      | ok r =>
        rintro ⟨hl, acc, f, h1, h2⟩
        rw [h2]
        simp only [Res.ok_bind, fillRest, drainRest, bind_assoc]
        let g : Except (DeError (Val T.Val)) Unit → Res (Except (DeError (Val T.Val)) (EnumSet T)) := fun
          | .error e => .ok (.error e)
          | .ok () => EnumSet.from_array _ acc >>= fun s => .ok (.ok s)
        have hd := congrArg (· >>= g) (drainLoopFrom_read L.nextWord fuel r.2)
        simp only [bind_assoc, Res.ok_bind] at hd
        refine Eq.trans (bind_congr fun x => ?_) (hd.trans (bind_congr fun x => ?_))
        · rcases x with ⟨_ | _, _⟩ <;> rfl
        · cases x with
          | error e => rfl
          | ok l =>
            simp only [Except.map, okInput, Serde.deserialize, hs, Option.getD_some, Serde.deserializeArray, h1, Res.ok_bind,
              Serde.drainLoop, g]
            rfl
end fetch

section history
variable [Platform] {T : EnumSetType} {G : Gen T.n} {enc : T.Repr → Val T.Val}
  {encI : EnumSetTypeRepr.Iter T.Repr → Val T.Val} {okI : EnumSetTypeRepr.Iter T.Repr → Prop}

theorem handOver_value {inp : DeriveInput} (hT : derive inp = .ok T) (hfit : Fits T)
    (hc : (layoutOf inp).serializable = true) {s : EnumSet T} (hs : Safe s) {A : T.Val → Bool} (hA : Members s A)
    (L : SerdeLib T.n) (st : Val T.Val) :
    Serde.serializeTo L.ser s st ≠ .diverge ∧
    (Serde.serializeTo L.ser s st >>= fun r => .ok (serEnd r)) =
      handOver L st (serialized T.discr (layoutOf inp) A) := by
  obtain ⟨v, e, h⟩ := C48_serializer hT hfit hs
  have ha := serialize_agrees hT hfit hs hA hc
  rw [e] at ha
  injection ha with ha
  refine ⟨(by rw [h L.ser st]; intro h; cases h), ?_⟩
  rw [← ha, h L.ser st, Res.ok_bind]
  cases v with
  | int t x => rfl
  | seq len vs => simp only [serObs, ofVal_self, List.map_id]; rfl
  | map len es =>
    simp only [serObs, ofVal_self, id]
    rw [show es.map (fun x => (x.1, x.2)) = es from List.map_id _]; rfl
  | words ws => rfl

/-- One command. -/
theorem stepSerde_sim {inp : DeriveInput} (hT : derive inp = .ok T) (hfit : Fits T) (R : Runs G enc encI okI)
    (F : SerdeFns G enc) (hc : (layoutOf inp).serializable = true) (hn : T.n < G.fuel)
    (hw : (storageOf inp).words ≤ G.fuel) (k k' : Nat)
    (c : SerdeCmd T.n) (hcs : c.Allowed inp.attrs) {ρ : Nat → Val T.Val} {σ : Nat → T.Val → Bool} (h : Rel enc ρ σ)
    {β : Type} (f : SerdeAns T.n × (Nat → Val T.Val) → Res β) (g : SerdeAns T.n × (Nat → T.Val → Bool) → Res β)
    (hfg : ∀ a ρ σ, Rel enc ρ σ → f (a, ρ) = g (a, σ)) :
    ((G.toProg (k' + 13)).stepSerde (k + 20) ρ c >>= f) = c.sem G.lib G.fuel (layoutOf inp) T.discr σ >>= g := by
  cases c with
  | gen c =>
    obtain ⟨ρ', e, h'⟩ := stepGen_sim (R.storage (k' + 13)) (R.items (k' + 12)) (R.fns (k' + 3)) k hT hfit hn c hcs h
    rw [Prog.stepSerde, e]
    exact hfg _ _ _ h'
  | serialize a st =>
    obtain ⟨s, es, hs, hA⟩ := h a
    obtain ⟨hd, hv⟩ := handOver_value hT hfit hc hs hA G.lib st
    have e := F.serialize k' (k + 19) [] s st hd
    simp only [Prog.stepSerde, Prog.getOf, SerdeCmd.sem, es]
    rw [← hv, e]
    simp only [bind_assoc, Res.ok_bind]
    exact bind_congr fun r => hfg _ _ _ h
  | deserialize r st =>
    have e := F.deserialize k' (k + 19) [] st
    simp only [Prog.stepSerde, Prog.getOf, SerdeCmd.sem]
    rw [e, deserializeAt_fetch hT hfit G.lib hw]
    simp only [bind_assoc, Res.ok_bind]
    have ha : ∀ v, afterOf T G.lib st v = match v with
        | .ok v =>
          match endOf G.lib (layoutOf inp) st with
          | none => .ok v
          | some e => .err e
        | .err e => .err (errorOf G.lib (layoutOf inp) st e)
        | v => v := by
      have hF := (serde_facts hT).format
      intro v
      unfold afterOf endOf errorOf
      cases hf : formatOf inp with
      | int w =>
        obtain ⟨t, ht, rfl, hw⟩ := numOfWidth_format hT hf
        rw [numTy_of_format ht (hF.symm.trans hf)]
        simp only [layoutOf, hf]
        cases v <;> rfl
      | list => rw [format_list (hF.symm.trans hf)]; simp only [layoutOf, hf]; cases he : G.lib.deEnd st <;> cases v <;> simp only [SerdeRepr.numTy, SerdeLib.after, he]
      | map => rw [format_map (hF.symm.trans hf)]; simp only [layoutOf, hf]; cases he : G.lib.deEnd st <;> cases v <;> simp only [SerdeRepr.numTy, SerdeLib.after, he]
      | array => rw [format_array (hF.symm.trans hf)]; simp only [layoutOf, hf]; cases he : G.lib.deEnd st <;> cases v <;> simp only [SerdeRepr.numTy, SerdeLib.after, he]
    simp only [ha]
    refine bind_congr fun x => ?_
    cases x with
    | error e => exact hfg _ _ _ h
    | ok x =>
      have hr := read_ok (E := Val T.Val) hT hfit hc x
      simp only
      cases hx : x.read T.discr (layoutOf inp) false with
      | set A =>
        rw [hx] at hr
        obtain ⟨s, e, hs, hA⟩ := hr
        rw [e]
        simp only [Option.getD_some, Res.ok_bind, deVal]
        cases endOf G.lib (layoutOf inp) st with
        | none => exact hfg _ _ _ (h.upd r hs hA)
        | some e => exact hfg _ _ _ h
      | refused b =>
        rw [hx] at hr
        rw [show Option.getD _ _ = _ from hr]
        exact hfg _ _ _ h
      | panic p =>
        rw [hx] at hr
        rw [show Option.getD _ _ = _ from hr]
        rfl
      | unavailable =>
        rw [hx] at hr
        rw [show Option.getD _ _ = _ from hr]
        rfl

theorem program_serde {inp : DeriveInput} (hT : derive inp = .ok T) (hfit : Fits T) (R : Runs G enc encI okI)
    (F : SerdeFns G enc) (hc : (layoutOf inp).serializable = true) (hn : T.n < G.fuel)
    (hw : (storageOf inp).words ≤ G.fuel) (k k' : Nat)
    (cs : List (SerdeCmd T.n)) (hcs : ∀ c ∈ cs, c.Allowed inp.attrs) :
    (G.toProg (k' + 13)).runSerde (k + 20) cs =
      serdeAnswers G.lib G.fuel (layoutOf inp) T.discr cs fun _ _ => false := by
  obtain ⟨W⟩ := wf_of_derive hT hfit
  have key : ∀ (cs : List (SerdeCmd T.n)) ρ σ, (∀ c ∈ cs, c.Allowed inp.attrs) → Rel enc ρ σ →
      (G.toProg (k' + 13)).runSerdeFrom (k + 20) cs ρ = serdeAnswers G.lib G.fuel (layoutOf inp) T.discr cs σ := by
    intro cs
    induction cs with
    | nil => intro ρ σ _ _; rfl
    | cons c cs ih =>
      intro ρ σ hcs h
      rw [Prog.runSerdeFrom, serdeAnswers]
      refine stepSerde_sim hT hfit R F hc hn hw k k' c (hcs c (List.mem_cons_self ..)) h _ _ fun a ρ σ h => ?_
      rw [ih _ _ (fun c hc => hcs c (List.mem_cons_of_mem _ hc)) h]
  simp only [Prog.runSerde, Prog.get, C68_new (R.storage (k' + 13)) (k + 15) [], Res.ok_bind]
  exact key cs _ _ hcs fun i => ⟨_, rfl, .new, W.members_of_bits fun v => W.bit_empty _⟩
end history

/-- `Expands.elim` for programs with their serde code. -/
theorem Expands.elim_runs [Platform] {inp : DeriveInput} {tok : Val Code} (hx : Expands inp tok)
    {n : Nat} {E : EnumDef n} {lib : SerdeLib n} (hE : E.Of inp) (hu : ∀ t x, E.read t x = .ub)
    (hfit : ∀ i, E.discr i + 1 < 2 ^ usizeBits)
    {fuel : Nat} (hfuel : 64 * (storageOf inp).words < fuel) {Q : (n : Nat) → EnumDef n → SerdeLib n → Prop}
    (h : ∀ (T : EnumSetType) (E : EnumDef T.n) (lib : SerdeLib T.n) (enc : T.Repr → Val T.Val)
      (encI : EnumSetTypeRepr.Iter T.Repr → Val T.Val) (okI : EnumSetTypeRepr.Iter T.Repr → Prop),
      derive inp = .ok T → Fits T → T.n < fuel → EnumSetIter.fuel T ≤ fuel → E.discr = T.discr → E.Of inp →
      Runs (Gen.mk (toItems tok) E fuel lib) enc encI okI → Q T.n E lib) : Q n E lib := by
  obtain ⟨info, w, hi, htok⟩ := hx.info
  have hok := deriveInfo_ok hi
  obtain ⟨T, hT, -⟩ := impl_ok hok
  have hx : GenExact info _ T := impl_exact hT
  have hT : derive inp = .ok T := by rw [derive, hi]; exact hT
  have C := core_of_derive hT
  have hn : n = T.n := hE.count.trans C.n_eq.symm
  subst hn
  have hd : E.discr = T.discr := funext fun i => by
    have h1 := hE.discr i
    have h2 := C.rustc i
    rw [h1] at h2
    injection h2 with h2
    exact Int.ofNat_inj.1 h2
  have hbw : T.BIT_WIDTH = 1 ∨ ∃ i, T.BIT_WIDTH = E.discr i + 1 := by
    rcases C.attained with h | ⟨w, h⟩
    · exact .inl (by rw [C.bw, h])
    · exact .inr ⟨w, by rw [C.bw, ← h, hd]⟩
  have h16 : 1 < 2 ^ usizeBits := by rcases Target.usize_ok with h | h | h <;> rw [usizeBits, h] <;> decide
  have hfit : Fits T := by
    rcases hbw with h | ⟨i, h⟩
    · show T.BIT_WIDTH < _; rw [h]; exact h16
    · show T.BIT_WIDTH < _; rw [h]; exact hfit i
  obtain ⟨W⟩ := wf_of_derive hT hfit
  have hwf : EnumSetTypeRepr.WIDTH T.Repr ≤ 64 * (storageOf inp).words := by
    rw [← (serde_facts hT).pref]
    exact W.lawful.width_le
  have hbf : T.BIT_WIDTH < fuel := by have := W.bw_le; omega
  have hnb : T.n ≤ T.BIT_WIDTH := by
    have := nodup_length_le T.BIT_WIDTH ((List.finRange T.n).map T.discr)
      ((List.nodup_finRange T.n).map T.discr fun _ _ hne h => hne (C.inj _ _ h)) (by
        intro d hd; obtain ⟨v, -, rfl⟩ := List.mem_map.1 hd; exact C.lt v)
    simpa using this
  obtain ⟨hnames, hnodup⟩ := deriveInfo_names hi
  have hname : ∀ i : Fin T.n, (info.variants[i.val]?).map (·.name) = some (E.name i) := by
    intro i
    rw [← hE.name i, ← List.getElem?_map, hnames, List.getElem?_map]
  have hbw : T.BIT_WIDTH = info.max_discrim + 1 := by cases hx <;> rfl
  have hs : ∀ size, info.internal_repr = .array size → 0 < size ∧ size < 2 ^ usizeBits ∧ size < fuel := by
    intro size hr
    have hs := array_size hok hr
    have : T.BIT_WIDTH < 2 ^ usizeBits := hfit
    omega
  obtain ⟨enc, encI, okI, R⟩ := runs_of_exact (ws := deriveWarnings w inp.attrs) (fuel := fuel) hx W E lib
    (fun i => by rw [hd]) hname (hE.inj hi) hu hs
  rw [htok] at h
  exact h T E lib enc encI okI hT hfit (by omega) (by show _ + 1 ≤ _; omega) hd hE R

/-- The code that the text of the derive macro returns when it is built with the feature `serde`, linked with the text
of the crate and with the enum of the item, and run on any target against any serializer and deserializer: every
history of calls answers as mathematical sets do; a set is handed to the serializer in the documented form; what the
deserializer yields is taken for the set it means.  The answer may be that the program panics (words with unknown
bits) or that it runs for longer than `fuel` items (a sequence that does not end).  `hc` says that the code compiles,
see C40. -/
theorem C74_history [Platform] (hon : Platform.serde = true) {inp : DeriveInput} {tok : Val Code} (hx : Expands inp tok)
    {n : Nat} {E : EnumDef n} {lib : SerdeLib n} (hE : E.Of inp) (hu : ∀ t x, E.read t x = .ub)
    (hfit : ∀ i, E.discr i + 1 < 2 ^ usizeBits) (hc : (layoutOf inp).serializable = true)
    {fuel : Nat} (hfuel : 64 * (storageOf inp).words < fuel)
    (k k' : Nat) (cs : List (SerdeCmd n)) (hcs : ∀ c ∈ cs, c.Allowed inp.attrs) :
    ((Gen.mk (toItems tok) E fuel lib).toProg (k' + 13)).runSerde (k + 20) cs =
      serdeAnswers lib fuel (layoutOf inp) E.discr cs fun _ _ => false := by
  refine hx.elim_runs hE hu hfit hfuel (Q := fun n E lib => ∀ cs : List (SerdeCmd n), (∀ c ∈ cs, c.Allowed inp.attrs) →
    ((Gen.mk (toItems tok) E fuel lib).toProg (k' + 13)).runSerde (k + 20) cs =
      serdeAnswers lib fuel (layoutOf inp) E.discr cs fun _ _ => false) ?_ cs hcs
  intro T E lib enc encI okI hT hfit hn hf hd _ R cs hcs
  rw [hd]
  exact program_serde hT hfit R (R.serde hon ((compiles_eq hT).trans hc) hf) hc hn
    (by show _ ≤ fuel; omega) k k' cs hcs

/-- A deserializer that does not have data of the form that the enum asks for is told what was expected: its error may
mention a list or a map of the enum, or a list of `u64`; nothing else reaches the error, and no variable changes. -/
theorem C77_expecting [Platform] (hon : Platform.serde = true) {inp : DeriveInput} {tok : Val Code} (hx : Expands inp tok)
    {n : Nat} {E : EnumDef n} {lib : SerdeLib n} (hE : E.Of inp) (hu : ∀ t x, E.read t x = .ub)
    (hfit : ∀ i, E.discr i + 1 < 2 ^ usizeBits) (hc : (layoutOf inp).serializable = true)
    {fuel : Nat} (hfuel : 64 * (storageOf inp).words < fuel) (k k' : Nat) (r : Nat) (st e : Val (Fin n)) :
    (formatOf inp = .list → lib.deSeq st = .error e →
      ((Gen.mk (toItems tok) E fuel lib).toProg (k' + 13)).runSerde (k + 20) [.deserialize r st] =
        .ok [.deserialized (some (lib.deErr st (lib.expected e "a list of T")))]) ∧
    (formatOf inp = .map → lib.deMap st = .error e →
      ((Gen.mk (toItems tok) E fuel lib).toProg (k' + 13)).runSerde (k + 20) [.deserialize r st] =
        .ok [.deserialized (some (lib.deErr st (lib.expected e "a map from T to bool")))]) ∧
    (formatOf inp = .array → lib.deSeq st = .error e →
      ((Gen.mk (toItems tok) E fuel lib).toProg (k' + 13)).runSerde (k + 20) [.deserialize r st] =
        .ok [.deserialized (some (lib.deErr st (lib.expected e "a list of u64")))]) := by
  have h := C74_history hon hx hE hu hfit hc hfuel k k' [.deserialize r st] (lib := lib) (by
    intro c hc
    rw [List.mem_singleton.1 hc]
    trivial)
  refine ⟨fun hf he => ?_, fun hf he => ?_, fun hf he => ?_⟩ <;>
    simp only [h, serdeAnswers, SerdeCmd.sem, fetch, errorOf, layoutOf, hf, he, Res.ok_bind]

/-- What a set is serialized as means that set. -/
theorem C74_round_trip [Platform] {inp : DeriveInput} {tok : Val Code} (hx : Expands inp tok)
    {n : Nat} {E : EnumDef n} (hE : E.Of inp) (hfit : ∀ i, E.discr i + 1 < 2 ^ usizeBits)
    (hc : (layoutOf inp).serializable = true) (A : Fin n → Bool) :
    ∃ len x, serialized E.discr (layoutOf inp) A = .data len x ∧ x.read E.discr (layoutOf inp) false = .set A := by
  let E' : EnumDef n := { E with read := fun _ _ => .ub }
  have hE' : E'.Of inp := ⟨hE.count, hE.name, hE.discr⟩
  refine hx.elim_runs (E := E') (lib := {
      ser := ⟨fun _ _ x => (.ok x, x), fun _ x => (.ok (), x), fun _ x => (.ok (), x),
        fun x => (.ok x, x), fun _ x => (.ok (), x), fun _ _ x => (.ok (), x), fun x => (.ok x, x), fun _ x => (.ok x, x)⟩
      deNum := fun _ _ => .ok 0, deSeq := .ok, deMap := .ok, nextVariant := fun x => (.ok none, x)
      nextWord := fun x => (.ok none, x), nextEntry := fun x => (.ok none, x), custom := fun _ => .unit })
    hE' (fun _ _ => rfl) hfit (Nat.lt_succ_self _) (Q := fun n E _ => ∀ A : Fin n → Bool,
    ∃ len x, serialized E.discr (layoutOf inp) A = .data len x ∧ x.read E.discr (layoutOf inp) false = .set A) ?_ A
  intro T E lib enc encI okI hT hfit hn hf hd _ R A
  rw [hd]
  obtain ⟨W⟩ := wf_of_derive hT hfit
  obtain ⟨s, hs, hA⟩ := Hist.exists_safe hT hfit A
  have hrt : ∃ v, Serde.serialize s = .ok v ∧
      Serde.deserialize (E := Unit) (Serde.SerValue.read v) = some (.ok (.ok s)) := by
    cases hf : formatOf inp with
    | int w =>
      obtain ⟨t, ht, rfl, -⟩ := numOfWidth_format hT hf
      exact C36_round_trip_partial hT hfit ht hf ((compiles_eq hT).trans hc) hs
    | list => exact C37_round_trip hT hfit (.inl hf) hs
    | map => exact C37_round_trip hT hfit (.inr hf) hs
    | array => exact C38_round_trip hT hfit hf hs
  obtain ⟨v, e, hr⟩ := hrt
  have ha := serialize_agrees hT hfit hs hA hc
  rw [e] at ha
  injection ha with ha
  have key : ∃ len x, serObs rfl v = .data len x ∧ okInput (T := T) (E := Unit) x = Serde.SerValue.read v := by
    cases v with
    | int t x => exact ⟨_, _, rfl, rfl⟩
    | seq len vs => exact ⟨_, _, rfl, by simp only [ofVal_self, List.map_id, okInput, Serde.SerValue.read]⟩
    | map len es =>
      refine ⟨_, _, rfl, ?_⟩
      simp only [ofVal_self, id, okInput, Serde.SerValue.read]
      rw [show es.map (fun x => (x.1, x.2)) = es from List.map_id _]
    | words ws => exact ⟨_, _, rfl, rfl⟩
  obtain ⟨len, x, hv, hx⟩ := key
  refine ⟨len, x, ha.symm.trans hv, ?_⟩
  have hro := read_ok (E := Unit) hT hfit hc x
  rw [hx, hr] at hro
  cases hxr : x.read T.discr (layoutOf inp) false with
  | set B =>
    rw [hxr] at hro
    obtain ⟨s', e', -, hB⟩ := hro
    injection e' with e'
    injection e' with e'
    subst e'
    rw [Read.set.injEq]
    exact funext fun v => by
      have h := (hB v).symm.trans (hA v)
      injection h
  | refused b => rw [hxr] at hro; cases hro
  | panic p => rw [hxr] at hro; cases hro
  | unavailable => rw [hxr] at hro; cases hro

/-! ### concrete cases -/

namespace Ex
open Enumset.Ex (inpT inpL)

/-- 64-bit `usize`, with the feature `serde` -/
@[instance_reducible] def platS : Platform := { usizeBits := 64, usize_ok := .inr (.inr rfl), overflowChecks := true, serde := true }
@[reducible] def hostS : Host := { host64 with toPlatform := platS }

attribute [local instance] platS

def push (x : Val (Fin 3)) : Val (Fin 3) → Val (Fin 3)
  | .arr xs => .arr (xs ++ [x])
  | y => y

/-- A serializer that records the calls, and a deserializer that reads a list, does not like lists that consist of the
second variant only, and adds the list to errors. -/
def recorder : SerdeLib 3 where
  ser :=
    { serialize_num := fun t x st => (.ok (push (.int t x.toNat) st), st)
      serialize_seq := fun k st => (.ok (), push (.int .usize (k.getD 0)) st)
      serialize_element := fun v st => (.ok (), push (.host "T" v) st)
      seq_end := fun st => (.ok st, st)
      serialize_map := fun k st => (.ok (), push (.int .usize (k.getD 0)) st)
      serialize_entry := fun v b st => (.ok (), push (.tup [.host "T" v, .bool b]) st)
      map_end := fun st => (.ok st, st)
      serialize_words := fun ws st => (.ok (push (.arr (ws.map fun w => .int .u64 w.toNat)) st), st) }
  deNum t st := match st with | .arr [.int _ x] => .ok (BitVec.ofNat t.bits x) | _ => .error .unit
  deSeq st := match st with
    | .unit => .error (.str "unit")
    | st => .ok st
  deMap := .ok
  nextVariant st := match st with
    | .arr (.host _ v :: xs) => (.ok (some v), .arr xs)
    | .arr [] => (.ok none, .arr [])
    | _ => (.error .unit, st)
  nextWord st := match st with
    | .arr (.int _ x :: xs) => (.ok (some (BitVec.ofNat 64 x)), .arr xs)
    | .arr [] => (.ok none, .arr [])
    | _ => (.error .unit, st)
  nextEntry st := match st with
    | .arr (.tup [.host _ v, .bool b] :: xs) => (.ok (some (v, b)), .arr xs)
    | .arr [] => (.ok none, .arr [])
    | _ => (.error .unit, st)
  custom s := .str s
  deEnd st := match st with
    | .arr [.host _ 1] => some (.str "B")
    | _ => none
  deErr st e := .tup [st, e]
  expected e s := .tup [e, .str s]

/-- `enum T { A, B = 64, C = 130 }` with `serialize_repr = "list"` -/
def inpS : DeriveInput := { inpL with attrs := { serialize_repr := some "list" },
                                      hasGenerics := !(List.isEmpty (α := Val Code) []) }

theorem synS_ok : SynInput inpS hdrT synL :=
  .mk (inp := inpS) _ [] _ (.nil 0) rfl
    (.enum _ rfl (.cons 0 _ _ _ _ (.mk "Unit" _ _ rfl .none)
      (.cons 1 _ _ _ _ (.mk "Unit" _ _ rfl (.some _ _ (.lit 64)))
        (.cons 2 _ _ _ _ (.mk "Unit" _ _ rfl (.some _ _ (.lit 130))) (.nil 3))))) _

theorem allowedS : ∀ c : SerdeCmd 3, c.Allowed inpS.attrs
  | .gen c => by cases c <;> first | rfl | trivial
  | .serialize .. => trivial
  | .deserialize .. => trivial

/-- `x = A | C; x.serialize(..); y = deserialize(..); y == x; y = deserialize(..); y = deserialize(..); y == x;
y = deserialize(..)` -/
def serdeCmds : List (SerdeCmd 3) :=
  [.gen (.valOper .bitor 0 0 (.val 2)), .serialize 0 (.arr []), .deserialize 1 (.arr [.host "T" 2, .host "T" 0]),
   .gen (.set (.test .eq 0 1)), .deserialize 1 (.arr [.host "T" 2, .unit]), .deserialize 1 (.arr [.host "T" 1]),
   .gen (.set (.test .eq 0 1)), .deserialize 1 .unit]

example (fuel : Nat) (h : 192 < fuel) : ∃ tok, Expands inpS tok ∧
    ((Gen.mk (toItems tok) enumL fuel recorder).toProg 13).runSerde 20 serdeCmds =
      serdeAnswers recorder fuel (layoutOf inpS) enumL.discr serdeCmds fun _ _ => false := by
  rcases C72_expands hostS rfl (by decide) (Nat.le_refl (2 ^ 26)) 0 [] [] (namesOff rfl rfl) synS_ok with ⟨-, tok, hx, -⟩ | ⟨h, -⟩
  · exact ⟨tok, hx, C74_history rfl hx ⟨enumL_of.count, enumL_of.name, enumL_of.discr⟩ (fun _ _ => rfl) (by decide) rfl h 0 0
      serdeCmds fun c _ => allowedS c⟩
  · exact absurd ((deriveInfo_iff _).1 ⟨_, rfl⟩) h

example (fuel : Nat) (h : 192 < fuel) : ∃ tok, Expands inpS tok ∧
    ((Gen.mk (toItems tok) enumL fuel recorder).toProg 13).runSerde 20 [.deserialize 1 .unit] =
      .ok [.deserialized (some (.tup [.unit, .tup [.str "unit", .str "a list of T"]]))] := by
  rcases C72_expands hostS rfl (by decide) (Nat.le_refl (2 ^ 26)) 0 [] [] (namesOff rfl rfl) synS_ok with ⟨-, tok, hx, -⟩ | ⟨h, -⟩
  · exact ⟨tok, hx, (C77_expecting rfl hx ⟨enumL_of.count, enumL_of.name, enumL_of.discr⟩ (fun _ _ => rfl) (by decide) rfl h 0 0
      1 .unit _).1 rfl rfl⟩
  · exact absurd ((deriveInfo_iff _).1 ⟨_, rfl⟩) h

/-- `x.serialize(..)` -/
example : serialized enumL.discr (layoutOf inpS) (fun v => decide (v = 0) || decide (v = 2)) = .data (some 2) (.seq [0, 2]) := by
  have h2 : enumL.discr (2 : Fin 3) = 130 := by rfl
  have h0 : enumL.discr (0 : Fin 3) = 0 := by rfl
  have hr : List.finRange 3 = [0, 1, 2] := by decide
  simp [serialized, show (layoutOf inpS).serializable = true from rfl, show (layoutOf inpS).format = .list from rfl,
    sortedMembers, card, hr, List.mergeSort, List.filter, List.MergeSort.Internal.splitInTwo, List.splitAt,
    List.splitAt.go, h2, h0]

example : handOver recorder (.arr []) (.data (some 2) (.seq [0, 2])) =
    .ok (.ok (.tup [.arr [.int .usize 2, .host "T" 0, .host "T" 2], .arr [.int .usize 2, .host "T" 0, .host "T" 2]])) := rfl

/-- the first `deserialize(..)` -/
example (fuel : Nat) :
    fetch recorder (fuel + 3) (layoutOf inpS) (.arr [.host "T" 2, .host "T" 0]) = .ok (.ok (.seq [2, 0])) := rfl

/-- the second -/
example (fuel : Nat) :
    fetch recorder (fuel + 3) (layoutOf inpS) (.arr [.host "T" 2, .unit]) = .ok (.error .unit) := rfl

example (fuel : Nat) (σ : Nat → Fin 3 → Bool) :
    (SerdeCmd.deserialize 1 (.arr [.host "T" 2, .unit])).sem recorder (fuel + 3) (layoutOf inpS) enumL.discr σ =
      .ok (.deserialized (some (.tup [.arr [.host "T" 2, .unit], .unit])), σ) := rfl

/-- the third -/
example (fuel : Nat) (σ : Nat → Fin 3 → Bool) :
    (SerdeCmd.deserialize 1 (.arr [.host "T" 1])).sem recorder (fuel + 3) (layoutOf inpS) enumL.discr σ =
      .ok (.deserialized (some (.str "B")), σ) := rfl

/-- the last -/
example (fuel : Nat) (σ : Nat → Fin 3 → Bool) :
    (SerdeCmd.deserialize 1 .unit).sem recorder fuel (layoutOf inpS) enumL.discr σ =
      .ok (.deserialized (some (.tup [.unit, .tup [.str "unit", .str "a list of T"]])), σ) := rfl

example : ∃ tok, Expands inpS tok ∧ ∃ len x,
    serialized enumL.discr (layoutOf inpS) (fun v => decide (v = 0) || decide (v = 2)) = .data len x ∧
    x.read enumL.discr (layoutOf inpS) false = .set fun v => decide (v = 0) || decide (v = 2) := by
  rcases C72_expands hostS rfl (by decide) (Nat.le_refl (2 ^ 26)) 0 [] [] (namesOff rfl rfl) synS_ok with ⟨-, tok, hx, -⟩ | ⟨h, -⟩
  · exact ⟨tok, hx, C74_round_trip hx ⟨enumL_of.count, enumL_of.name, enumL_of.discr⟩ (by decide) rfl _⟩
  · exact absurd ((deriveInfo_iff _).1 ⟨_, rfl⟩) h

end Ex
end Enumset.Src
