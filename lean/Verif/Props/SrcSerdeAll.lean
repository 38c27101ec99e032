import Verif.Props.SrcSerdeDe
import Verif.Props.Serde
/-!
# The serde code the derive macro writes, for every format

The functions of SrcSerde.lean and SrcSerdeDe.lean put together: for a derived enum, whatever its storage and
its format, `serialize` and `deserialize` of the program that consists of the text of the crate and of the code
written by the derive macro are those of the model (SerdeIO.lean), for every serializer and deserializer.
-/
set_option autoImplicit false
set_option linter.unusedSimpArgs false
set_option linter.unusedSectionVars false
set_option maxRecDepth 10000

namespace Enumset.Src

section
variable [Platform] {T : EnumSetType}

/-- lib.rs:429-644, the function `deserialize` of the format chosen for the enum, against a deserializer; without what
`deserialize_seq` and `deserialize_map` do after the visitor returned (`afterOf`). -/
def deserializeAt (L : SerdeLib T.n) (fuel : Nat) (st : Val T.Val) :
    Res (Except (DeError (Val T.Val)) (EnumSet T)) :=
  match T.serde with
  | .u8 => Serde.deserializeInt .u8 (L.deNum .u8 st)
  | .u16 => Serde.deserializeInt .u16 (L.deNum .u16 st)
  | .u32 => Serde.deserializeInt .u32 (L.deNum .u32 st)
  | .u64 => Serde.deserializeInt .u64 (L.deNum .u64 st)
  | .u128 => Serde.deserializeInt .u128 (L.deNum .u128 st)
  | .list =>
    match L.deSeq st with
    | .error e => .ok (.error (.de (L.expected e "a list of T")))
    | .ok st => Serde.visitList L.nextVariant fuel st >>= fun r => .ok r.1
  | .map =>
    match L.deMap st with
    | .error e => .ok (.error (.de (L.expected e "a map from T to bool")))
    | .ok st => Serde.visitMap L.nextEntry fuel st >>= fun r => .ok r.1
  | .array =>
    match L.deSeq st with
    | .error e => .ok (.error (.de (L.expected e "a list of u64")))
    | .ok st => visitArrayAt L.nextWord fuel st

/-- What the deserializer makes of the result of the visitor, if the format has one. -/
def afterOf (T : EnumSetType) (L : SerdeLib T.n) (st v : Val T.Val) : Val T.Val :=
  match T.serde.numTy with
  | some _ => v
  | none => L.after st v

theorem deserializeAt_num (L : SerdeLib T.n) (fuel : Nat) (st : Val T.Val) {n : NumTy} (h : T.serde.numTy = some n) :
    deserializeAt L fuel st = Serde.deserializeInt n (L.deNum n st) := by
  unfold deserializeAt
  cases hs : T.serde <;> rw [hs] at h <;> cases h <;> rfl

theorem serializeTo_num {E Ok σ : Type} (k : Serializer T.Val Ok E σ) (s : EnumSet T) (st : σ) {n : NumTy}
    (h : T.serde.numTy = some n) : Serde.serializeTo k s st = Serde.serializeIntTo k n s st := by
  unfold Serde.serializeTo
  cases hs : T.serde <;> rw [hs] at h <;> cases h <;> rfl

variable {enc : T.Repr → Val T.Val} {encI : EnumSetTypeRepr.Iter T.Repr → Val T.Val}
  {okI : EnumSetTypeRepr.Iter T.Repr → Prop}

/-- `serialize` and `deserialize` of the sets of the enum are those of the model, for a program with enough levels
of calls. -/
structure SerdeFns (G : Gen T.n) (enc : T.Repr → Val T.Val) : Prop where
  serialize : ∀ k j caller (s : EnumSet T) st, Serde.serializeTo G.lib.ser s st ≠ .diverge →
    (G.toProg (k + 13)).call (j + 1) "EnumSet" "serialize" caller [] [setOf enc s, .struct "Serializer" [("0", st)]] =
      Serde.serializeTo G.lib.ser s st >>= fun r => .ok (serEnd r, [])
  deserialize : ∀ k j caller st,
    (G.toProg (k + 13)).call (j + 1) "EnumSet" "deserialize" caller [] [.struct "Deserializer" [("0", st)]] =
      deserializeAt (T := T) G.lib G.fuel st >>= fun r => .ok (afterOf T G.lib st (deVal G.lib enc r), [])

section sets
variable {H : Type} {P : Prog H} {enc' : T.Repr → Val H} {encI' : EnumSetTypeRepr.Iter T.Repr → Val H}
  (S : Storage P T.Repr enc' encI' okI) (k : Nat) (caller : Env H)
include S
theorem set_serialize (s : EnumSet T) (st : Val H) (r : Res (Val H)) (hT : P.alias "T" = "T")
    (hs : ∀ env, P.call k "T" "serialize" env [] [setOf enc' s, .struct "Serializer" [("0", st)]] =
      r >>= fun v => .ok (v, [])) :
    P.call (k + 1) "EnumSet" "serialize" caller [] [setOf enc' s, .struct "Serializer" [("0", st)]] =
      r >>= fun v => .ok (v, []) := by
  run_set S SetRs.EnumSet_serialize [hs, hT]
theorem set_deserialize (st : Val H) (r : Res (Val H)) (hT : P.alias "T" = "T")
    (hs : ∀ env, P.call k "T" "deserialize" env [] [.struct "Deserializer" [("0", st)]] = r >>= fun v => .ok (v, [])) :
    P.call (k + 1) "EnumSet" "deserialize" caller [] [.struct "Deserializer" [("0", st)]] =
      r >>= fun v => .ok (v, []) := by
  run_set S SetRs.EnumSet_deserialize [hs, hT]
end sets

theorem gen_serde {info : EnumSetInfo} {ws : List (Span × String)} {G : Gen T.n} (hG : G.items = genItems info ws)
    (hon : Platform.serde = true)
    (S : ∀ k, Storage (G.toProg k) T.Repr enc encI okI) (I : ∀ k, EnumItems (G.toProg (k + 1)) T enc id)
    (hsr : T.serde = info.serde_repr) (hdn : T.deny = info.serialize_deny_unknown)
    (hall : ∀ k r env, lookup "ArrayRepr" env = none → eval (G.ctx "T" ((G.toProg k).link k)) (allExpr info.variant_map info.internal_repr)
      (enc r).exp env = .ok (.val (enc T.ALL_BITS) env))
    (hdeny : ∀ n, T.serde.numTy = some n → T.deny = true → ∃ lit,
      allExpr info.variant_map info.internal_repr = .lit lit ∧ T.allLit = some lit ∧ lit < 2 ^ n.bits)
    (hc : Serde.compiles T = true) (hfuel : EnumSetIter.fuel T ≤ G.fuel) : SerdeFns G enc := by
  have hn : NoSerde G.items := hG ▸ gen_noSerde info ws
  have hst : NoStructs G.items := hG ▸ gen_noStructs info ws
  have hl : ∀ {k : String × String} {d : FnDecl}, (coreFns info).lookup k = none → (serdeFns info).lookup k = some d →
      (itemFns G.items).lookup k = some d := fun h1 h2 => by rw [hG]; exact gen_lookup_serde ws h1 h2
  have hr : (reprTy info.internal_repr).head ∈ reprNames := by
    cases info.internal_repr <;> simp [reprTy, Ty.head, reprNames]
  have ha : ∀ k, (G.toProg k).alias "T::Repr" = (reprTy info.internal_repr).head := fun k => by
    show (if "T::Repr" = "T::Repr" then ((assocType _ _ G.items).getD _ : Ty).head else "T::Repr") = _
    rw [if_pos rfl, hG, gen_assoc]; rfl
  have hv : info.serde_repr.numTy = none → "Visitor" ∈ itemStructs G.items := fun h => by
    rw [hG, gen_all_structs, serdeStructs_eq, if_pos ⟨hon, h⟩]; simp
  have hTs : ∀ k j caller (s : EnumSet T) st, Serde.serializeTo G.lib.ser s st ≠ .diverge →
      (G.toProg (k + 13)).call j "T" "serialize" caller [] [setOf enc s, .struct "Serializer" [("0", st)]] =
        Serde.serializeTo G.lib.ser s st >>= fun r => .ok (serEnd r, []) := by
    intro k j caller s st hd
    cases hnum : info.serde_repr.numTy with
    | some n =>
      rw [serializeTo_num _ _ _ (hsr ▸ hnum)]
      exact gen_ser_int (k := k + 2) (S _) hn hst hr (ha _) (hl rfl (serdeFns_num hon hnum).1) j caller s st
    | none =>
      unfold Serde.serializeTo at hd ⊢
      cases hf : info.serde_repr <;> rw [hf] at hnum <;> cases hnum <;> rw [hsr, hf] at hd ⊢
      · exact gen_ser_list (k := k + 2) (S _) (I _) hn (hl rfl (serdeFns_list hon hf).1) hfuel j caller s st hd
      · exact gen_ser_map (k := k + 2) (S _) (I _) hn (hl rfl (serdeFns_map hon hf).1) hfuel j caller s st hd
      · exact gen_ser_array (k := k + 2) (S _) hn hst (hl rfl (serdeFns_array hon hf).1) j caller s st
  have hTd : ∀ k j caller st,
      (G.toProg (k + 13)).call j "T" "deserialize" caller [] [.struct "Deserializer" [("0", st)]] =
        deserializeAt (T := T) G.lib G.fuel st >>= fun r => .ok (afterOf T G.lib st (deVal G.lib enc r), []) := by
    intro k j caller st
    unfold afterOf
    cases hnum : info.serde_repr.numTy with
    | some n =>
      rw [deserializeAt_num _ _ _ (hsr ▸ hnum), hsr, hnum]
      exact gen_de_int (k := k + 2) (S _) hn hst hr (ha _) (hdn ▸ hl rfl (serdeFns_num hon hnum).2) (hall _)
        (hdeny n (hsr ▸ hnum)) j caller st
    | none =>
      unfold deserializeAt
      have hv := hv hnum
      rw [show T.serde.numTy = none from hsr ▸ hnum]
      cases hf : info.serde_repr <;> rw [hf] at hnum <;> cases hnum <;> rw [hsr, hf]
      · refine (gen_de_seq (S _) hn hv (hl rfl (serdeFns_list hon hf).2.1)
          (fun caller => gen_expecting (S _) hn (hl rfl (serdeFns_list hon hf).2.2.2) _ caller)
          (f := fun st => Serde.visitList (T := T) G.lib.nextVariant G.fuel st >>= fun r => .ok (deVal G.lib enc r.1))
          (fun caller st => ?_) j caller st).trans ?_
        · rw [gen_visit_list (S _) (I _) hn (hl rfl (serdeFns_list hon hf).2.2.1)]
          simp only [bind_assoc, Res.ok_bind]
        · cases G.lib.deSeq st <;> simp only [bind_assoc, Res.ok_bind, deVal]
      · refine (gen_de_map (S _) hn hv (hl rfl (serdeFns_map hon hf).2.1)
          (fun caller => gen_expecting (S _) hn (hl rfl (serdeFns_map hon hf).2.2.2) _ caller)
          (f := fun st => Serde.visitMap (T := T) G.lib.nextEntry G.fuel st >>= fun r => .ok (deVal G.lib enc r.1))
          (fun caller st => ?_) j caller st).trans ?_
        · rw [gen_visit_map (S _) (I _) hn (hl rfl (serdeFns_map hon hf).2.2.1)]
          simp only [bind_assoc, Res.ok_bind]
        · cases G.lib.deMap st <;> simp only [bind_assoc, Res.ok_bind, deVal]
      · have hd : info.serialize_deny_unknown = false := by
          rw [← hdn]
          unfold Serde.compiles at hc
          rw [hsr, hf] at hc
          cases h : T.deny
          · rfl
          · rw [h] at hc; cases hc
        refine (gen_de_seq (S _) hn hv (hl rfl ((serdeFns_array hon hf).2 hd).1)
          (fun caller => gen_expecting (S _) hn (hl rfl ((serdeFns_array hon hf).2 hd).2.2) _ caller)
          (f := fun st => visitArrayAt (T := T) G.lib.nextWord G.fuel st >>= fun r => .ok (deVal G.lib enc r))
          (fun caller st => ?_) j caller st).trans ?_
        · rw [gen_visit_array (S _) (I _) hn hst (hl rfl ((serdeFns_array hon hf).2 hd).2.1)]
          simp only [bind_assoc, Res.ok_bind]
        · cases G.lib.deSeq st <;> simp only [bind_assoc, Res.ok_bind, deVal]
  refine ⟨fun k j caller s st hd => ?_, fun k j caller st => ?_⟩
  · have := set_serialize (S (k + 13)) j caller s st (Serde.serializeTo G.lib.ser s st >>= fun r => .ok (serEnd r)) rfl
      (fun env => by rw [hTs k j env s st hd]; simp only [bind_assoc, Res.ok_bind])
    rw [this]; simp only [bind_assoc, Res.ok_bind]
  · have := set_deserialize (S (k + 13)) j caller st
      (deserializeAt (T := T) G.lib G.fuel st >>= fun r => .ok (afterOf T G.lib st (deVal G.lib enc r))) rfl
      (fun env => by rw [hTd k j env st]; simp only [bind_assoc, Res.ok_bind])
    rw [this]; simp only [bind_assoc, Res.ok_bind]
end

/-- Everything about the program made of the crate and the code written for an enum, its serde code included. -/
structure Runs [Platform] {T : EnumSetType} (G : Gen T.n) (enc : T.Repr → Val T.Val)
    (encI : EnumSetTypeRepr.Iter T.Repr → Val T.Val) (okI : EnumSetTypeRepr.Iter T.Repr → Prop) : Prop where
  storage : ∀ k, Storage (G.toProg k) T.Repr enc encI okI
  items : ∀ k, EnumItems (G.toProg (k + 1)) T enc id
  fns : ∀ k, GenFns (G.toProg (k + 10)) T enc id
  serde : Platform.serde = true → Serde.compiles T = true → EnumSetIter.fuel T ≤ G.fuel → SerdeFns G enc
  write_str : ∀ k j caller st s,
    (G.toProg (k + 1)).call j "Formatter" "write_str" caller [] [.struct "Formatter" [("0", st)], .str s] =
      .ok (fmtResult (G.lib.write_str st s).1, [(0, .struct "Formatter" [("0", (G.lib.write_str st s).2)])])
  fmt : ∀ k j caller st (v : T.Val),
    (G.toProg (k + 1)).call j "T" "fmt" caller [] [.host "T" v, .struct "Formatter" [("0", st)]] =
      .ok (fmtResult (G.lib.fmtVariant v st).1, [(1, .struct "Formatter" [("0", (G.lib.fmtVariant v st).2)])])
  hash : ∀ k j caller st (r : T.Repr),
    (G.toProg (k + 1)).call j ((G.toProg (k + 1)).alias "T::Repr") "hash" caller [] [enc r, .struct "Hasher" [("0", st)]] =
      .ok (.unit, [(1, .struct "Hasher" [("0", (EnumSetTypeRepr.hash r).foldl (fun st w => G.lib.hashWrite w st) st)])])
  into_iter : ∀ k j caller it, (G.toProg (k + 1)).call j "UserIter" "into_iter" caller [] [it] = .ok (it, [])
  next : ∀ k j caller st,
    (G.toProg (k + 1)).call j "UserIter" "next" caller [] [.struct "UserIter" [("0", st)]] =
      G.lib.next caller st >>= fun r => .ok (opt id r.1, [(0, .struct "UserIter" [("0", r.2)])])

section
variable [Platform] {info : EnumSetInfo} {ws : List (Span × String)} {fuel : Nat}

theorem testBit_lt {lit n : Nat} (h : ∀ i, lit.testBit i = true → i < n) : lit < 2 ^ n := by
  refine Nat.lt_pow_two_of_testBit lit fun i hi => ?_
  cases hb : lit.testBit i
  · rfl
  · exact absurd (h i hb) (by omega)

theorem all_array {E : EnumDef info.variants.length} {lib : SerdeLib info.variants.length} {size : Nat}
    (hr : info.internal_repr = .array size) (k : Nat) (x : Exp) (env : Env (Fin info.variants.length))
    (henv : lookup "ArrayRepr" env = none) :
    eval ((genOf info ws E fuel lib).ctx "T" (((genOf info ws E fuel lib).toProg k).link k))
      (allExpr info.variant_map info.internal_repr) x env =
      .ok (.val (arrayRepr ⟨Vector.ofFn fun i : Fin size => info.variant_map.getD i.val 0⟩) env) := by
  have ha : allExpr info.variant_map info.internal_repr =
    .ctor "ArrayRepr" (.array ((List.range size).map fun i => .lit (info.variant_map.getD i 0#64).toNat)) := by
    rw [hr]; rfl
  have hw : ((List.range size).map fun i => (.int .u64 (info.variant_map.getD i 0#64).toNat : Val (Fin info.variants.length))) =
      (Vector.ofFn fun i : Fin size => info.variant_map.getD i.val 0#64).toList.map word := by
    apply List.ext_getElem <;> simp [word]
  have he := fun C env K => evalArgs_lits (n := info.variants.length) (C := C) (fun i => (info.variant_map.getD i 0#64).toNat) .u64 (List.range size) env K
  rw [List.length_range] at he
  rw [ha]
  simp only [eval, Res.ok_bind, Ctx.tyName, henv, gctx_structs, sd_array, List.length_map, List.length_range]
  simp [StructDecl.exp, sd_array, Ctx.exp, gctx_ty, ofName_u64, he, andThen_val, mutVals, arrayRepr, vec, words, hw, need_some,
    lookup, -List.getD_eq_getElem?_getD, -BitVec.ofNat_eq_ofNat]
  rw [henv]

theorem runs_of_exact {discr : Fin info.variants.length → Nat} {T : EnumSetType} (hx : GenExact info discr T) (W : WF T)
    (E : EnumDef T.n) (lib : SerdeLib T.n) (hd : ∀ i, E.discr i = T.discr i)
    (hname : ∀ i : Fin T.n, (info.variants[i.val]?).map (·.name) = some (E.name i))
    (hn : ∀ i j, E.name i = E.name j → i = j) (hu : ∀ t x, E.read t x = .ub)
    (hs : ∀ size, info.internal_repr = .array size → 0 < size ∧ size < 2 ^ usizeBits ∧ size < fuel) :
    ∃ enc encI okI, Runs (T := T) (Gen.mk (genItems info ws) E fuel lib) enc encI okI := by
  have hlit : ∀ lit n, T.allLit = some lit → T.serde.numTy = some n → lit < 2 ^ n.bits := by
    intro lit n h1 h2
    have hb := W.serde_fits n.bits (by cases h : T.serde <;> rw [h] at h2 <;> cases h2 <;> rfl)
    refine testBit_lt fun i hi => ?_
    rw [W.lit_ok lit h1 i, W.all_bit] at hi
    obtain ⟨v, rfl⟩ := hi
    exact Nat.lt_of_lt_of_le (W.discr_lt v) hb
  cases hx with
  | prim t hr hl =>
    have hE : ∀ i : Fin info.variants.length, E.name i = info.variants[i].name := fun i => by
      have := hname i
      rw [List.getElem?_eq_getElem i.isLt] at this
      simpa using this.symm
    have S := fun k => gen_storage_prim (ws := ws) (E := E) (fuel := fuel) (lib := lib) hr k
    have I := fun k => gen_items_prim (ws := ws) (E := E) (fuel := fuel) (lib := lib) hr hl hE hn hu (funext hd) k
    have ha : allExpr info.variant_map info.internal_repr = .lit (litOf info.variant_map info.internal_repr) := by
      cases h : info.internal_repr <;> rw [h] at hr <;> first | rfl | cases hr
    refine ⟨_, _, _, S, I, fun k => gen_fns_prim hr (funext hd) k (S (k + 9)) (I (k + 8)), fun hon hc hf =>
      gen_serde (ws := ws) rfl hon S I rfl rfl (fun k r env henv => ?_) (fun n hn _ => ⟨_, ha, rfl, hlit _ n rfl hn⟩) hc hf,
      fun k j c st s => lib_write_str (gen_noSerde info ws) k j c st s, fun k j c st v => lib_fmt k j c st (gen_no_fmt info ws) v,
      fun k j c st (r : Prim t.bits (pal t)) => ?_,
      fun k j c it => lib_user_into_iter (gen_noSerde info ws) k j c it, fun k j c st => lib_user_next (gen_noSerde info ws) k j c st⟩
    rotate_left
    · refine (congrArg (fun ty => Prog.call ((genOf info ws E fuel lib).toProg (k + 1)) j ty "hash" c []
        [bv t r.v, .struct "Hasher" [("0", st)]]) ((S (k + 1)).tag r).symm).trans ?_
      exact lib_hash_num (gen_noSerde info ws) k j c st t r.v
    rw [ha]
    show eval _ _ (bv t _).exp env = _
    rw [exp_bv]
    simp only [eval, adopt_lit]
    rw [bv_lit t _ hl]
    rfl
  | array size hr =>
    have hE : ∀ i : Fin info.variants.length, E.name i = info.variants[i].name := fun i => by
      have := hname i
      rw [List.getElem?_eq_getElem i.isLt] at this
      simpa using this.symm
    obtain ⟨h0, h1, h2⟩ := hs size hr
    have S := fun k => gen_storage_array (ws := ws) (E := E) (fuel := fuel) (lib := lib) hr h0 h1 h2 k
    have I := fun k => gen_items_array (ws := ws) (E := E) (fuel := fuel) (lib := lib) hr hE hn hu (funext hd) k
    refine ⟨_, _, _, S, I, fun k => gen_fns_array hr h1 h2 (funext hd) k (S (k + 9)) (I (k + 8)), fun hon hc hf =>
      gen_serde (ws := ws) rfl hon S I rfl rfl (fun k r env henv => ?_) (fun n hn hdn => ?_) hc hf,
      fun k j c st s => lib_write_str (gen_noSerde info ws) k j c st s, fun k j c st v => lib_fmt k j c st (gen_no_fmt info ws) v,
      fun k j c st (r : ArrayRepr size) => ?_,
      fun k j c it => lib_user_into_iter (gen_noSerde info ws) k j c it, fun k j c st => lib_user_next (gen_noSerde info ws) k j c st⟩
    · exact all_array hr k _ env henv
    · unfold Serde.compiles at hc
      rw [hdn] at hc
      cases h : info.serde_repr <;> rw [show (genArray size info.variants.length discr
        (fun i => info.variants[i].variant_repr)
        (Vector.ofFn fun i : Fin size => info.variant_map.getD i.val 0) (info.max_discrim + 1) info).serde = info.serde_repr from rfl, h] at hc hn <;>
        first | (cases hc; done) | (cases hn; done)
    · refine (congrArg (fun ty => Prog.call ((genOf info ws E fuel lib).toProg (k + 1)) j ty "hash" c []
        [arrayRepr r, .struct "Hasher" [("0", st)]]) ((S (k + 1)).tag r).symm).trans ?_
      exact lib_hash_array (gen_noSerde info ws) k j c st r
end
end Enumset.Src
