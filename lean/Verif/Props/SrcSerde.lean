import Verif.Props.SrcSerdeFns
/-!
# C74: the functions for serde that the derive macro writes are those of the model
-/
set_option autoImplicit false
set_option linter.unusedSimpArgs false
set_option linter.unusedSectionVars false
set_option maxRecDepth 10000

namespace Enumset.Src

theorem ofName_not_S : NumTy.ofName "S" = none := rfl
theorem ofName_not_D : NumTy.ofName "D" = none := rfl
theorem ofName_not_A : NumTy.ofName "A" = none := rfl
theorem ofName_not_S_Ok : NumTy.ofName "S::Ok" = none := rfl
theorem ofName_not_Self_Value : NumTy.ofName "Self::Value" = none := rfl
theorem sd_not_Visitor : structDecl "Visitor" = none := rfl
theorem sd_not_Serialize : structDecl "Serialize" = none := rfl
theorem sd_not_DError : structDecl "D::Error" = none := rfl

theorem tryVal_ok {H : Type} (v : Val H) (env : Env H) : tryVal (.ok v) env = .ok (.val v env) := rfl
theorem tryVal_err {H : Type} (v : Val H) (env : Env H) : tryVal (.err v) env = .ok (.ret (.err v) env) := rfl

/-- Evaluate code for serde. -/
macro "srun" s:ident "[" ls:Lean.Parser.Tactic.simpLemma,* "]" : tactic =>
  `(tactic| step_set $s [gctx_fuel, gctx_self, gctx_alias, gctx_ty, gctx_structs, gctx_call, ($s).params, ($s).adoptI, setTy, privRepr, mkSet,
    ofName_not_S, ofName_not_D, ofName_not_A, ofName_not_S_Ok, ofName_not_Self_Value, sd_not_Visitor, sd_not_Serialize, sd_not_DError,
    List.zip, List.zipWith, tryVal_ok, tryVal_err, $ls,*])

theorem method_len_set [Platform] {H : Type} {T : EnumSetType} {enc : T.Repr → Val H} (C : Ctx H) (s : EnumSet T)
    (env : Env H) : method C "len" [] (setOf enc s) [] env = C.call "EnumSet" "len" env [] [setOf enc s] := by
  simp [method, intrinsic, intrinsics, setOf, constArgs, tag_struct]
theorem method_len_vec [Platform] {H : Type} {N : Nat} (C : Ctx H) (a : Vector U64 N) (env : Env H) :
    method C "len" [] (vec a) [] env = .ok (.int .usize N, []) := by
  show Res.ok (Val.int .usize (a.toList.map word).length, []) = _
  simp
theorem method_rev_arr [Platform] {H : Type} (C : Ctx H) (xs : List (Val H)) (env : Env H) :
    method C "rev" [] (.arr xs) [] env = .ok (.arr xs.reverse, []) := rfl
section
variable [Platform] {T : EnumSetType} {E Ok σ : Type}

/-- `for bit in set { c(bit)?; } fin()` -/
def serLoop (c : T.Val → σ → Except E Unit × σ) (fin : σ → Except E Ok × σ) : Nat → EnumSetIter T → σ →
    Res (Except E Ok × σ)
  | 0, _, _ => .diverge
  | fuel + 1, it, st => do
    let (r, it) ← EnumSetIter.next it
    match r with
    | none => pure (fin st)
    | some bit => Serde.andThen (c bit st) fun st => serLoop c fin fuel it st

theorem seqLoop_eq (k : Serializer T.Val Ok E σ) (n : Nat) (it : EnumSetIter T) (st : σ) :
    Serde.seqLoop k n it st = serLoop k.serialize_element k.seq_end n it st := by
  induction n generalizing it st with
  | zero => rfl
  | succ n ih => simp only [Serde.seqLoop, serLoop, ih]; rfl
theorem entryLoop_eq (k : Serializer T.Val Ok E σ) (n : Nat) (it : EnumSetIter T) (st : σ) :
    Serde.entryLoop k n it st = serLoop (fun v => k.serialize_entry v true) k.map_end n it st := by
  induction n generalizing it st with
  | zero => rfl
  | succ n ih => simp only [Serde.entryLoop, serLoop, ih]; rfl

theorem serLoop_mono (c : T.Val → σ → Except E Unit × σ) (fin : σ → Except E Ok × σ) {n m : Nat} (hm : n ≤ m)
    (it : EnumSetIter T) (st : σ) (h : serLoop c fin n it st ≠ .diverge) :
    serLoop c fin m it st = serLoop c fin n it st := by
  induction n generalizing it m st with
  | zero => exact absurd rfl h
  | succ n ih =>
    obtain ⟨m, rfl⟩ : ∃ m', m = m' + 1 := ⟨m - 1, by omega⟩
    rw [serLoop] at h ⊢
    rw [serLoop]
    cases hn : it.next with
    | ok r =>
      obtain ⟨o, it'⟩ := r
      cases o with
      | none => rfl
      | some v =>
        rw [hn] at h
        simp only [Res.ok_bind] at h ⊢
        rcases hc : c v st with ⟨r, st'⟩
        rw [hc] at h
        cases r with
        | error e => rfl
        | ok u => exact ih (by omega) it' st' h
    | _ => rfl

end

section
variable [Platform] {T : EnumSetType} {G : Gen T.n} {enc : T.Repr → Val T.Val}
  {encI : EnumSetTypeRepr.Iter T.Repr → Val T.Val} {okI : EnumSetTypeRepr.Iter T.Repr → Prop} {k : Nat}
  (S : Storage (G.toProg (k + 10)) T.Repr enc encI okI) (I : EnumItems (G.toProg (k + 10)) T enc id)
  (hn : NoSerde G.items)

include S I in
theorem for_ser (n : Nat) {c : T.Val → Val T.Val → Except (Val T.Val) Unit × Val T.Val}
    {fin : Val T.Val → Except (Val T.Val) (Val T.Val) × Val T.Val}
    {f : Val T.Val → Env T.Val → Res (Out T.Val)} {env : Val T.Val → Env T.Val}
    {K' : Val T.Val → Env T.Val → Res (Out T.Val)} {K : Out T.Val → Res (Val T.Val × List (Nat × Val T.Val))}
    (hf : ∀ v st, f (.host "T" v) (env st) = match c v st with
      | (.ok _, st) => .ok (.val .unit (env st))
      | (.error e, st) => .ok (.ret (.err (.tup [e, st])) (env st)))
    (hR : ∀ e st, K (.ret (.err (.tup [e, st])) (env st)) = .ok (.err (.tup [e, st]), []))
    (hK : ∀ st, K' .unit (env st) >>= K = .ok (serEnd (fin st), [])) (it : EnumSetIter T) (h : okI it.iter)
    (st : Val T.Val) (s : String) :
    Out.andThen (forNext ((G.ctx s ((G.toProg (k + 10)).link (k + 10))).call "EnumSetIter" "next") f n
        (setIterOf encI it) (env st)) K' >>= K =
      serLoop c fin n it st >>= fun r => .ok (serEnd r, []) := by
  induction n generalizing it st with
  | zero => rfl
  | succ n ih =>
    rw [forNext, gctx_call, C68_next S I (k + 6) _ it h, serLoop]
    have ho := (iter_source S I).ok_next it
    rw [iterStep] at ho
    cases hn : it.next with
    | ok r =>
      obtain ⟨o, it'⟩ := r
      rw [hn] at ho
      cases o with
      | none => exact hK st
      | some v =>
        have ho := ho v h rfl
        simp only [Res.ok_bind, opt, id, hf]
        rcases hc : c v st with ⟨r, st'⟩
        cases r with
        | error e => exact hR _ _
        | ok u => exact ih it' ho st'
    | _ => rfl

include S I hn in
theorem gen_ser_list (hl : (itemFns G.items).lookup ("T", "serialize") = some listSer)
    (hfuel : EnumSetIter.fuel T ≤ G.fuel) (j : Nat) (caller : Env T.Val) (s : EnumSet T) (st : Val T.Val)
    (hd : Serde.serializeListTo G.lib.ser s st ≠ .diverge) :
    (G.toProg (k + 11)).call j "T" "serialize" caller [] [setOf enc s, .struct "Serializer" [("0", st)]] =
      Serde.serializeListTo G.lib.ser s st >>= fun r => .ok (serEnd r, []) := by
  rw [gen_call (k + 10) j caller [] _ rfl rfl rfl hl (G.toProg (k + 10)).params rfl]
  srun S [listSer, loopSer, serDecl, C68_len S (k + 6), lib_serialize_seq hn, method_len_set, method_into_iter_set]
  rw [Serde.serializeListTo] at hd ⊢
  simp only [bind_assoc]
  refine bind_congr_ok fun i hi => ?_
  rw [hi, Res.ok_bind] at hd
  rcases hb : G.lib.ser.serialize_seq (some i) st with ⟨r, st1⟩
  rw [hb] at hd
  cases r with
  | error e => srun S [serBegin, Serde.andThen, serEnd]
  | ok u =>
    simp only [Serde.andThen] at hd ⊢
    srun S [serBegin, method_into_iter_set, C68_into_iter S (k + 4)]
    refine bind_congr_ok fun it hi => ?_
    rw [hi, Res.ok_bind, seqLoop_eq] at hd
    rw [seqLoop_eq, ← serLoop_mono _ _ hfuel _ _ hd, iterate_single _ _ _ (by intro xs h; cases h), gctx_fuel]
    refine for_ser S I G.fuel
      (env := fun st1 => ("seq", .struct "SerializeSeq" [("0", st1)]) :: ("set", setOf enc s) ::
        ("ser", .struct "Serializer" [("0", st)]) :: (G.toProg (k + 10)).params) ?_ ?_ ?_ it ?_ st1 "T"
    · intro v st2
      srun S [lib_serialize_element hn]
      rcases G.lib.ser.serialize_element v st2 with ⟨r, st3⟩
      cases r <;> srun S [serStep]
    · intro e st2; srun S []
    · intro st2
      srun S [lib_seq_end hn]
    · exact (iterable_set S s).ok it hi
include S I hn in
theorem gen_ser_map (hl : (itemFns G.items).lookup ("T", "serialize") = some mapSer)
    (hfuel : EnumSetIter.fuel T ≤ G.fuel) (j : Nat) (caller : Env T.Val) (s : EnumSet T) (st : Val T.Val)
    (hd : Serde.serializeMapTo G.lib.ser s st ≠ .diverge) :
    (G.toProg (k + 11)).call j "T" "serialize" caller [] [setOf enc s, .struct "Serializer" [("0", st)]] =
      Serde.serializeMapTo G.lib.ser s st >>= fun r => .ok (serEnd r, []) := by
  rw [gen_call (k + 10) j caller [] _ rfl rfl rfl hl (G.toProg (k + 10)).params rfl]
  srun S [mapSer, loopSer, serDecl, C68_len S (k + 6), lib_serialize_map hn, method_len_set, method_into_iter_set]
  rw [Serde.serializeMapTo] at hd ⊢
  simp only [bind_assoc]
  refine bind_congr_ok fun i hi => ?_
  rw [hi, Res.ok_bind] at hd
  rcases hb : G.lib.ser.serialize_map (some i) st with ⟨r, st1⟩
  rw [hb] at hd
  cases r with
  | error e => srun S [serBegin, Serde.andThen, serEnd]
  | ok u =>
    simp only [Serde.andThen] at hd ⊢
    srun S [serBegin, method_into_iter_set, C68_into_iter S (k + 4)]
    refine bind_congr_ok fun it hi => ?_
    rw [hi, Res.ok_bind, entryLoop_eq] at hd
    rw [entryLoop_eq, ← serLoop_mono _ _ hfuel _ _ hd, iterate_single _ _ _ (by intro xs h; cases h), gctx_fuel]
    refine for_ser S I G.fuel
      (env := fun st1 => ("map", .struct "SerializeMap" [("0", st1)]) :: ("set", setOf enc s) ::
        ("ser", .struct "Serializer" [("0", st)]) :: (G.toProg (k + 10)).params) ?_ ?_ ?_ it ?_ st1 "T"
    · intro v st2
      srun S [lib_serialize_entry hn]
      rcases G.lib.ser.serialize_entry v true st2 with ⟨r, st3⟩
      cases r <;> srun S [serStep]
    · intro e st2; srun S []
    · intro st2
      srun S [lib_map_end hn]
    · exact (iterable_set S s).ok it hi

/-- The types that store a set, and the integer types. -/
def reprNames : List String := ["u8", "u16", "u32", "u64", "u128", "usize", "ArrayRepr"]

theorem name_mem (n : NumTy) : NumTy.name n ∈ reprNames := by cases n <;> decide
theorem reprNames_ne {r : String} (h : r ∈ reprNames) : r ≠ "Self" ∧ r ≠ "T" ∧ r ≠ "T::Repr" ∧ r ≠ "EnumSetTypeRepr" ∧
    r ≠ "set" ∧ r ≠ "ser" ∧ r ≠ "de" ∧ r ≠ "value" ∧ r ≠ "N" ∧ r ≠ "Visitor" ∧ r ≠ "__EnumSetConstHelper" := by
  revert r; decide

include S hn in
theorem gen_ser_int (hst : NoStructs G.items) {repr : String} (hr : repr ∈ reprNames)
    (ha : (G.toProg (k + 10)).alias "T::Repr" = repr) {n : NumTy}
    (hl : (itemFns G.items).lookup ("T", "serialize") = some (intSer repr n))
    (j : Nat) (caller : Env T.Val) (s : EnumSet T) (st : Val T.Val) :
    (G.toProg (k + 11)).call j "T" "serialize" caller [] [setOf enc s, .struct "Serializer" [("0", st)]] =
      Serde.serializeIntTo G.lib.ser n s st >>= fun r => .ok (serEnd r, []) := by
  rw [gen_call (k + 10) j caller [] _ rfl rfl rfl hl (G.toProg (k + 10)).params rfl]
  have ht := S.to_num (k + 7)
  rw [ha] at ht
  obtain ⟨h1, h2, h3, h4, h5, h6, _, _, h7, h8, h9⟩ := reprNames_ne hr
  cases hsd : structDecl repr <;>
    srun S [intSer, serDecl, ht, lib_serialize_num hn, Serde.serializeIntTo, hst "Serialize" (by decide) (by decide),
      hsd, h1, h2, h3, h4, h5, h6, S.params _ h7, hst _ h8 h9]

/-- What `deserialize` returns. -/
def deVal (L : SerdeLib T.n) (enc : T.Repr → Val T.Val) :
    Except (DeError (Val T.Val)) (EnumSet T) → Val T.Val
  | .ok s => .ok (setOf enc s)
  | .error (.de e) => .err e
  | .error .unknownBits => .err (L.custom "enumset contains unknown bits")

theorem binVal_fns {H : Type} {C D : Ctx H} (h : C.fns = D.fns) (op : BinOp) (a b : Val H) :
    binVal C op a b = binVal D op a b := by
  cases C; cases D; subst h; rfl

include S hn in
theorem gen_de_int (hst : NoStructs G.items) {repr : String} (hr : repr ∈ reprNames)
    (ha : (G.toProg (k + 10)).alias "T::Repr" = repr) {n : NumTy} {all : Expr}
    (hl : (itemFns G.items).lookup ("T", "deserialize") = some (intDe repr n T.deny all))
    (hall : ∀ r env, lookup "ArrayRepr" env = none → eval (G.ctx "T" ((G.toProg (k + 10)).link (k + 10))) all (enc r).exp env = .ok (.val (enc T.ALL_BITS) env))
    (hdeny : T.deny = true → ∃ lit, all = .lit lit ∧ T.allLit = some lit ∧ lit < 2 ^ n.bits)
    (j : Nat) (caller : Env T.Val) (st : Val T.Val) :
    (G.toProg (k + 11)).call j "T" "deserialize" caller [] [.struct "Deserializer" [("0", st)]] =
      Serde.deserializeInt (T := T) n (G.lib.deNum n st) >>= fun r => .ok (deVal G.lib enc r, []) := by
  rw [gen_call (k + 10) j caller [] _ rfl rfl rfl hl (G.toProg (k + 10)).params rfl]
  have ht := S.from_num (k + 7)
  rw [ha] at ht
  have hd := lib_deNum hn (k + 9) (k + 10)
  obtain ⟨h1, h2, h3, h4, _, _, h5, h6, h7, h8, h9⟩ := reprNames_ne hr
  obtain ⟨g1, g2, g3, g4, _, _, g5, g6, g7, g8, g9⟩ := reprNames_ne (name_mem n)
  have hsn : structDecl (NumTy.name n) = none := by cases n <;> rfl
  cases hx : G.lib.deNum n st with
  | error e =>
    srun S [intDe, deDecl, hd, hx, hsn, g1, g2, g3, g4, g5, g6, S.params _ g7, hst _ g8 g9]
    rfl
  | ok x =>
    cases hdn : T.deny with
    | false =>
      cases hsd : structDecl repr <;>
        srun S [intDe, deDecl, hd, hx, hsn, g1, g2, g3, g4, g5, g6, S.params _ g7, hst _ g8 g9, Serde.deserializeInt, hdn,
          ht, hsd, h1, h2, h3, h4, h5, h6, S.params _ h7, hst _ h8 h9, hall,
          S.params "ArrayRepr" (by decide),
          binVal_fns (C := G.ctx "T" ((G.toProg (k + 10)).link (k + 10))) (D := (G.toProg (k + 10)).ctx "T" ((G.toProg (k + 10)).link (k + 10))) rfl,
          S.bitand (k + 7), deVal]
    | true =>
      obtain ⟨lit, rfl, hlit, hb⟩ := hdeny hdn
      have hall' : ∀ r, (enc r).exp.adopt (.lit lit) = enc T.ALL_BITS := by
        intro r
        have := hall r [] rfl
        simpa [eval] using this
      have hz : ((x &&& ~~~ BitVec.ofNat n.bits lit) != 0) = decide ((x &&& ~~~ BitVec.ofNat n.bits lit) ≠ 0) := by
        simp [bne, BEq.beq]
      srun S [intDe, deDecl, hd, hx, hsn, g1, g2, g3, g4, g5, g6, S.params _ g7, hst _ g8 g9, hdn, checkStmt, exp_bv,
        lib_custom hn, bv_lit n lit hb, not_bv, band_bv, ne_bv_zero, hst "D::Error" (by decide) (by decide), hz]
      simp only [Serde.deserializeInt, hdn, hlit, Option.getD_some, true_and]
      by_cases hz : (x &&& ~~~ BitVec.ofNat n.bits lit) ≠ 0
      · rw [if_pos hz]
        refine (if_neg hz).trans ?_
        rfl
      · cases hsd : structDecl repr <;>
          srun S [if_neg hz, hz, ht, hsd, h1, h2, h3, h4, h5, h6, S.params _ h7, hst _ h8 h9, hall',
            binVal_fns (C := G.ctx "T" ((G.toProg (k + 10)).link (k + 10))) (D := (G.toProg (k + 10)).ctx "T" ((G.toProg (k + 10)).link (k + 10))) rfl,
            S.bitand (k + 7), deVal]

/-- A loop that may `break`. -/
theorem loop_brk_sim {H σ γ : Type} (enc : σ → Env H) {is : List Nat} {s : σ}
    {f : Val H → Env H → Res (Out H)} {g : Nat → σ → Res (Flow σ σ)} {env : Env H}
    {K : Val H → Env H → Res (Out H)} {fin : Out H → Res γ} {R : Flow σ σ → Res γ}
    (he : env = enc s)
    (h : ∀ i s, f (.int .usize i) (enc s) = g i s >>= fun
      | .ret s => .ok (.brk (enc s))
      | .next s => .ok (.val .unit (enc s)))
    (hK : ∀ s, K .unit (enc s) >>= fin = R (.next s)) (hR : ∀ s, R (.ret s) = R (.next s)) :
    Out.andThen (forItems f (is.map (.int .usize)) env) K >>= fin = forEachRet is s g >>= R := by
  subst he
  induction is generalizing s with
  | nil => exact hK s
  | cons i is ih =>
    simp only [List.map, forItems, forEachRet, h]
    cases hg : g i s with
    | ok s' =>
      cases s' with
      | ret r => simpa [andThen_val, hR] using hK r
      | next s' => simpa using ih
    | _ => rfl

include S hn in
theorem gen_ser_array (hst : NoStructs G.items)
    (hl : (itemFns G.items).lookup ("T", "serialize") = some arrSer)
    (j : Nat) (caller : Env T.Val) (s : EnumSet T) (st : Val T.Val) :
    (G.toProg (k + 11)).call j "T" "serialize" caller [] [setOf enc s, .struct "Serializer" [("0", st)]] =
      Serde.serializeArrayTo G.lib.ser s st >>= fun r => .ok (serEnd r, []) := by
  rw [gen_call (k + 10) j caller [] _ rfl rfl rfl hl (G.toProg (k + 10)).params rfl]
  have hp := S.PREFERRED_ARRAY_LEN (k + 7)
  have ha : (G.toProg (k + 10)).alias "T::Repr" = G.repr.head := rfl
  rw [ha] at hp
  srun S [arrSer, serDecl, prefLen, hp, C68_as_array S (k + 5), sd_not_Repr, hst "T::Repr" (by decide) (by decide)]
  rw [Serde.serializeArrayTo]
  simp only [bind_assoc]
  refine bind_congr fun a => ?_
  srun S [trimFor, method_len_vec, method_rev_arr, method_into_iter_arr, iterate]
  rw [Serde.trimLoop, bind_assoc, ← List.map_reverse]
  refine loop_brk_sim (fun i => ("end", .int .usize i) :: ("array", vec a) :: ("set", setOf enc s) ::
    ("ser", .struct "Serializer" [("0", st)]) :: (G.toProg (k + 10)).params) rfl ?_ ?_ ?_
  · intro i n
    srun S [index_vec, exp_word, ne_word_zero]
  · intro n
    srun S [to_get_vec, hst "Serialize" (by decide) (by decide), lib_serialize_words hn, Serde.slicePrefix]
  · intro n; rfl
end
end Enumset.Src
