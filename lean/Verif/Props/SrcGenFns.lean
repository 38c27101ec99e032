import Verif.Props.SrcGenRun
/-!
# The other functions the derive macro writes

The constant functions behind `enum_set!` and the operators of the enum.
-/
set_option autoImplicit false
set_option linter.unusedSimpArgs false
set_option linter.unusedSectionVars false
set_option maxRecDepth 10000

namespace Enumset.Src

theorem count_sim {H σ : Type} (enc : Nat → σ → Env H) {c body : Env H → Res (Out H)} {N : Nat} {g : Nat → σ → Res σ}
    (hc : ∀ i s, c (enc i s) = .ok (.val (.bool (i < N)) (enc i s)))
    (hb : ∀ i s, i < N → body (enc i s) = g i s >>= fun s' => .ok (.val .unit (enc (i + 1) s')))
    (fuel i : Nat) (s : σ) (hi : i ≤ N) (hf : N - i < fuel) :
    whileLoop c body fuel (enc i s) = forEach (range i N) s g >>= fun s' => .ok (.val .unit (enc N s')) := by
  induction fuel generalizing i s with
  | zero => omega
  | succ fuel ih =>
    rw [whileLoop, hc]
    by_cases h : i < N
    · have hr : range i N = i :: range (i + 1) N := by
        unfold range
        rw [show N - i = (N - (i + 1)) + 1 by omega, List.range'_succ]
      simp only [Res.ok_bind, h, decide_true, hb i s h, hr, forEach, bind_assoc]
      refine bind_congr fun s' => ?_
      exact ih (i + 1) s' (by omega) (by omega)
    · have : i = N := by omega
      subst this
      simp [range, forEach]

theorem addW_one [Platform] {i N : Nat} (h : i < N) (hN : N < 2 ^ usizeBits) : addW usizeBits i 1 = .ok (i + 1) := by
  unfold addW
  rw [if_pos (by omega)]

section
variable [Platform]
variable {info : EnumSetInfo} {ws : List (Span × String)} {E : EnumDef info.variants.length} {fuel : Nat}
  {lib : SerdeLib info.variants.length}

theorem maskExpr_some (vs : List EnumSetValue) (h : vs.length ≠ 0) (r : Ty) :
    maskExpr vs r = .bin .shl (.lit 1) (.cast (.var "self") r) := by
  cases vs with
  | nil => exact absurd rfl h
  | cons => rfl

theorem gen_only_prim {t : NumTy} (hr : numOf info.internal_repr = some t) (k j : Nat)
    (env : Env (Fin info.variants.length)) (v : Fin info.variants.length) :
    ((genOf info ws E fuel lib).toProg (k + 1)).call j "T" "__impl_enumset_internal__const_only" env [] [.host "T" v] =
      shl1 t.bits (castW t.bits (E.discr v)) >>= fun r =>
        .ok (.struct "EnumSet" [("__priv_repr", bv t r)], []) := by
  rw [gen_call k j env [] _ rfl rfl rfl (gen_lookup_inherent ws rfl rfl rfl rfl)]
  have hn : info.variants.length ≠ 0 := fun h => absurd v.isLt (by omega)
  have hb : helperBody info.variants info.internal_repr "const_only" = primOnly info.variants (.name (NumTy.name t) []) := by
    rw [← reprTy_num hr]
    cases h : info.internal_repr <;> rw [h] at hr <;> first | rfl | cases hr
  have ht : ∀ self, ((genOf info ws E fuel lib).ctx self (((genOf info ws E fuel lib).toProg k).link k)).ty "T::Repr" = some t := by
    intro self; rw [gctx_ty_repr _ _ _ (.inr rfl), reprTy_num hr]; exact ofName_name t
  have ht' : ∀ self, ((genOf info ws E fuel lib).ctx self (((genOf info ws E fuel lib).toProg k).link k)).ty (NumTy.name t) = some t := by
    intro self; rw [gctx_ty, if_neg (by cases t <;> decide)]; exact ofName_name t
  simp only [hb, primOnly, maskExpr_some _ hn, mkSet]
  have hg : (genOf info ws E fuel lib).enum = E := rfl
  simp [FnDecl.fn, onlyDecl, bindParams, bindGens, inferGens, inferGen, evalStmts, eval, evalArgs, gctx_structs, sd_set, StructDecl.exp, Ctx.exp, ht, ht',
    need_some, lookup, pure_ok, andThen_val, BinOp.isShift, cast_host, hg, exp_lit, exp_int, shl_one, pure_bind, bind_assoc, andThen_bind, adopt_lit, adopt_any,
    adopt_host, adopt_int, Ctx.tyName, mutVals]

/-- What `__EnumSetConstHelper {}` is. -/
abbrev helperVal {H : Type} : Val H := .struct "__EnumSetConstHelper" []

theorem gen_bin_prim {t : NumTy} (hr : numOf info.internal_repr = some t) {f : String} {op : BinOp}
    {g : BitVec t.bits → BitVec t.bits → BitVec t.bits}
    (hf : (f, op) = ("const_union", .bor) ∧ g = (· ||| ·) ∨ (f, op) = ("const_intersection", .band) ∧ g = (· &&& ·) ∨
      (f, op) = ("const_symmetric_difference", .bxor) ∧ g = (· ^^^ ·)) (k j : Nat)
    (env : Env (Fin info.variants.length)) (a b : BitVec t.bits) :
    ((genOf info ws E fuel lib).toProg (k + 1)).call j "__EnumSetConstHelper" f env []
      [helperVal, .struct "EnumSet" [("__priv_repr", bv t a)], .struct "EnumSet" [("__priv_repr", bv t b)]] =
        .ok (.struct "EnumSet" [("__priv_repr", bv t (g a b))], []) := by
  have ht : ∀ self, ((genOf info ws E fuel lib).ctx self (((genOf info ws E fuel lib).toProg k).link k)).ty "T::Repr" = some t := by
    intro self; rw [gctx_ty_repr _ _ _ (.inr rfl), reprTy_num hr]; exact ofName_name t
  have hb : (itemFns (genOf info ws E fuel lib).items).lookup ("__EnumSetConstHelper", f) = some (helperDecl (primBin op)) := by
    have h : (inherentFns info.variants info.internal_repr).lookup ("__EnumSetConstHelper", f) = some (helperDecl (primBin op)) := by
      rcases hf with ⟨h, _⟩ | ⟨h, _⟩ | ⟨h, _⟩ <;> cases h <;> cases h : info.internal_repr <;> rw [h] at hr <;> first | rfl | cases hr
    refine gen_lookup_inherent ws ?_ ?_ ?_ h ?_ <;>
      rcases hf with ⟨h, _⟩ | ⟨h, _⟩ | ⟨h, _⟩ <;> cases h <;> rfl
  have hd : fnDecl "__EnumSetConstHelper" f = none := by
    rcases hf with ⟨h, _⟩ | ⟨h, _⟩ | ⟨h, _⟩ <;> cases h <;> rfl
  have hd' : derivedFn (H := Fin info.variants.length) derives "__EnumSetConstHelper" f = none := by
    rcases hf with ⟨h, _⟩ | ⟨h, _⟩ | ⟨h, _⟩ <;> cases h <;> rfl
  have hd'' : (genOf info ws E fuel lib).enum.fn "__EnumSetConstHelper" f = none := rfl
  have hx : (genOf info ws E fuel lib).extra f = [] := by
    rcases hf with ⟨h, _⟩ | ⟨h, _⟩ | ⟨h, _⟩ <;> cases h <;> rfl
  rw [gen_call k j env [] _ hd hd' hd'' hb [] hx]
  rcases hf with ⟨h, hg⟩ | ⟨h, hg⟩ | ⟨h, hg⟩ <;> cases h <;> subst hg <;>
  simp [FnDecl.fn, helperDecl, primBin, privRepr, setTy, mkSet, bindParams, bindGens, inferGens, inferGen, evalStmts, eval, evalArgs, gctx_structs, sd_set, StructDecl.exp, Ctx.exp, ht,
    need_some, lookup, pure_ok, andThen_val, BinOp.isShift, pure_bind, bind_assoc, andThen_bind, adopt_struct, adopt_any, field_struct,
    adopt_bv, exp_bv, bor_bv, band_bv, bxor_bv, Ctx.tyName, mutVals]

theorem gen_complement_prim {t : NumTy} (hr : numOf info.internal_repr = some t) (k j : Nat)
    (hall : ∀ env, ((genOf info ws E fuel lib).toProg k).call k "EnumSet" "all" env [] [] =
      .ok (.struct "EnumSet" [("__priv_repr", bv t (BitVec.ofNat t.bits (litOf info.variant_map info.internal_repr)))], []))
    (env : Env (Fin info.variants.length)) (a : BitVec t.bits) :
    ((genOf info ws E fuel lib).toProg (k + 1)).call j "__EnumSetConstHelper" "const_complement" env []
      [helperVal, .struct "EnumSet" [("__priv_repr", bv t a)]] =
        .ok (.struct "EnumSet" [("__priv_repr", bv t (~~~ a &&& BitVec.ofNat t.bits (litOf info.variant_map info.internal_repr)))], []) := by
  have ht : ∀ self, ((genOf info ws E fuel lib).ctx self (((genOf info ws E fuel lib).toProg k).link k)).ty "T::Repr" = some t := by
    intro self; rw [gctx_ty_repr _ _ _ (.inr rfl), reprTy_num hr]; exact ofName_name t
  have hb : helperBody info.variants info.internal_repr "const_complement" = primComplement := by
    cases h : info.internal_repr <;> rw [h] at hr <;> first | rfl | cases hr
  rw [gen_call k j env [] _ rfl rfl rfl (gen_lookup_inherent ws rfl rfl rfl rfl), hb]
  simp [FnDecl.fn, complementDecl, primComplement, privRepr, setTy, mkSet, bindParams, bindGens, inferGens, inferGen, evalStmts, eval, evalArgs, gctx_structs, sd_set, StructDecl.exp, Ctx.exp, ht,
    need_some, lookup, pure_ok, andThen_val, BinOp.isShift, pure_bind, bind_assoc, andThen_bind, adopt_struct, adopt_any, field_struct,
    adopt_bv, exp_bv, band_bv, not_bv, Ctx.tyName, mutVals, gctx_call, hall, bindPat, constArgs, writeBacks]
theorem gen_bin_array {size : Nat} (hr : info.internal_repr = .array size) (hN : size < 2 ^ usizeBits) (hfu : size < fuel)
    {f : String} {op : BinOp} {g : U64 → U64 → U64}
    (hf : (f, op) = ("const_union", .bor) ∧ g = (· ||| ·) ∨ (f, op) = ("const_intersection", .band) ∧ g = (· &&& ·) ∨
      (f, op) = ("const_symmetric_difference", .bxor) ∧ g = (· ^^^ ·)) (k j : Nat)
    (env : Env (Fin info.variants.length)) (a b : ArrayRepr size) :
    ((genOf info ws E fuel lib).toProg (k + 1)).call j "__EnumSetConstHelper" f env []
      [helperVal, .struct "EnumSet" [("__priv_repr", arrayRepr a)], .struct "EnumSet" [("__priv_repr", arrayRepr b)]] =
        (forEach (range 0 size) a fun i a => do
          let x ← idxV a.a i
          let y ← idxV b.a i
          let a ← setV a.a i (g x y)
          pure (⟨a⟩ : ArrayRepr size)) >>= fun r => .ok (.struct "EnumSet" [("__priv_repr", arrayRepr r)], []) := by
  have hb : (itemFns (genOf info ws E fuel lib).items).lookup ("__EnumSetConstHelper", f) = some (helperDecl (arrayBin op size)) := by
    have h : (inherentFns info.variants info.internal_repr).lookup ("__EnumSetConstHelper", f) = some (helperDecl (arrayBin op size)) := by
      rw [hr]
      rcases hf with ⟨h, _⟩ | ⟨h, _⟩ | ⟨h, _⟩ <;> cases h <;> rfl
    refine gen_lookup_inherent ws ?_ ?_ ?_ h ?_ <;>
      rcases hf with ⟨h, _⟩ | ⟨h, _⟩ | ⟨h, _⟩ <;> cases h <;> rfl
  have hd : fnDecl "__EnumSetConstHelper" f = none := by
    rcases hf with ⟨h, _⟩ | ⟨h, _⟩ | ⟨h, _⟩ <;> cases h <;> rfl
  have hd' : derivedFn (H := Fin info.variants.length) derives "__EnumSetConstHelper" f = none := by
    rcases hf with ⟨h, _⟩ | ⟨h, _⟩ | ⟨h, _⟩ <;> cases h <;> rfl
  have hd'' : (genOf info ws E fuel lib).enum.fn "__EnumSetConstHelper" f = none := rfl
  have hx : (genOf info ws E fuel lib).extra f = [] := by
    rcases hf with ⟨h, _⟩ | ⟨h, _⟩ | ⟨h, _⟩ <;> cases h <;> rfl
  rw [gen_call k j env [] _ hd hd' hd'' hb [] hx]
  let enc : Nat → ArrayRepr size → Env (Fin info.variants.length) := fun i a =>
    [("i", .int .usize i), ("self", helperVal), ("chain_a", .struct "EnumSet" [("__priv_repr", arrayRepr a)]),
      ("chain_b", .struct "EnumSet" [("__priv_repr", arrayRepr b)])]
  have hw := count_sim enc (N := size)
    (c := fun env => eval ((genOf info ws E fuel lib).ctx "__EnumSetConstHelper" (((genOf info ws E fuel lib).toProg k).link k))
      (.bin .lt (.var "i") (.int .usize size)) .any env)
    (body := fun env => eval ((genOf info ws E fuel lib).ctx "__EnumSetConstHelper" (((genOf info ws E fuel lib).toProg k).link k))
      (.block [.semi (.assignOp op (privWord "chain_a" (.var "i")) (privWord "chain_b" (.var "i"))),
     .semi (.assignOp .add (.var "i") (.lit 1))]) .any env)
    (g := fun i a => do
          let x ← idxV a.a i
          let y ← idxV b.a i
          let a ← setV a.a i (g x y)
          pure (⟨a⟩ : ArrayRepr size))
    (by intro i s; grun [enc]) (by
      intro i s hi
      rcases hf with ⟨h, hg⟩ | ⟨h, hg⟩ | ⟨h, hg⟩ <;> cases h <;> subst hg <;>
      grun [enc, privWord, privRepr, arrayRepr, addW_one hi hN]) fuel 0 a (by omega) (by omega)
  simp only [FnDecl.fn, helperDecl, arrayBin, setTy]
  generalize hR : (_ >>= _ : Res (Out (Fin info.variants.length))) = RHS at hw
  have hW : ∀ e, eval ((genOf info ws E fuel lib).ctx "__EnumSetConstHelper" (((genOf info ws E fuel lib).toProg k).link k))
      (.while (.bin .lt (.var "i") (.int .usize size)) (.block
        [.semi (.assignOp op (privWord "chain_a" (.var "i")) (privWord "chain_b" (.var "i"))),
          .semi (.assignOp .add (.var "i") (.lit 1))])) e (enc 0 a) = RHS := fun e => by
    rw [eval]; exact hw
  generalize Expr.while _ _ = W at hW ⊢
  rw [← hR] at hW
  simp only [enc] at hW
  clear hw hR
  grun [hW]

theorem gen_complement_array {size : Nat} (hr : info.internal_repr = .array size) (hN : size < 2 ^ usizeBits) (hfu : size < fuel)
    (k j : Nat) {all : Vector U64 size}
    (hall : ∀ env, ((genOf info ws E fuel lib).toProg k).call k "EnumSet" "all" env [] [] =
      .ok (.struct "EnumSet" [("__priv_repr", arrayRepr ⟨all⟩)], []))
    (env : Env (Fin info.variants.length)) (a : ArrayRepr size) :
    ((genOf info ws E fuel lib).toProg (k + 1)).call j "__EnumSetConstHelper" "const_complement" env []
      [helperVal, .struct "EnumSet" [("__priv_repr", arrayRepr a)]] =
        (forEach (range 0 size) a fun i a => do
          let x ← idxV a.a i
          let y ← idxV all i
          let a ← setV a.a i (~~~ x &&& y)
          pure (⟨a⟩ : ArrayRepr size)) >>= fun r => .ok (.struct "EnumSet" [("__priv_repr", arrayRepr r)], []) := by
  have hb : helperBody info.variants info.internal_repr "const_complement" = arrayComplement size := by rw [hr]; rfl
  rw [gen_call k j env [] _ rfl rfl rfl (gen_lookup_inherent ws rfl rfl rfl rfl), hb]
  let enc : Nat → ArrayRepr size → Env (Fin info.variants.length) := fun i a =>
    [("i", .int .usize i), ("all", .struct "EnumSet" [("__priv_repr", arrayRepr ⟨all⟩)]), ("self", helperVal),
      ("chain", .struct "EnumSet" [("__priv_repr", arrayRepr a)])]
  have hw := count_sim enc (N := size)
    (c := fun env => eval ((genOf info ws E fuel lib).ctx "__EnumSetConstHelper" (((genOf info ws E fuel lib).toProg k).link k))
      (.bin .lt (.var "i") (.int .usize size)) .any env)
    (body := fun env => eval ((genOf info ws E fuel lib).ctx "__EnumSetConstHelper" (((genOf info ws E fuel lib).toProg k).link k))
      (.block [.let (.var "new") none (.bin .band (.un .not (privWord "chain" (.var "i"))) (privWord "all" (.var "i"))),
     .semi (.assign (privWord "chain" (.var "i")) (.var "new")),
     .semi (.assignOp .add (.var "i") (.lit 1))]) .any env)
    (g := fun i a => do
          let x ← idxV a.a i
          let y ← idxV all i
          let a ← setV a.a i (~~~ x &&& y)
          pure (⟨a⟩ : ArrayRepr size))
    (by intro i s; grun [enc]) (by
      intro i s hi
      grun [enc, privWord, privRepr, arrayRepr, addW_one hi hN]) fuel 0 a (by omega) (by omega)
  simp only [FnDecl.fn, complementDecl, arrayComplement, setTy]
  generalize hR : (_ >>= _ : Res (Out (Fin info.variants.length))) = RHS at hw
  have hW : ∀ e, eval ((genOf info ws E fuel lib).ctx "__EnumSetConstHelper" (((genOf info ws E fuel lib).toProg k).link k))
      (.while (.bin .lt (.var "i") (.int .usize size)) (.block
        [.let (.var "new") none (.bin .band (.un .not (privWord "chain" (.var "i"))) (privWord "all" (.var "i"))),
          .semi (.assign (privWord "chain" (.var "i")) (.var "new")),
          .semi (.assignOp .add (.var "i") (.lit 1))])) e (enc 0 a) = RHS := fun e => by
    rw [eval]; exact hw
  generalize Expr.while _ _ = W at hW ⊢
  rw [← hR] at hW
  simp only [enc] at hW
  clear hw hR
  grun [hall, hW]

theorem gen_only_array {size : Nat} (hr : info.internal_repr = .array size) (k j : Nat)
    (env : Env (Fin info.variants.length)) (v : Fin info.variants.length) :
    ((genOf info ws E fuel lib).toProg (k + 1)).call j "T" "__impl_enumset_internal__const_only" env [] [.host "T" v] =
      (do
        let set : Vector U64 size := Vector.replicate size 0
        let bit := castW 32 (E.discr v)
        let idx := castW usizeBits bit / 64
        let bit := bit % 64
        let m ← shl1 64 bit
        let x ← idxV set idx
        let set ← setV set idx (x ||| m)
        pure (⟨set⟩ : ArrayRepr size)) >>= fun r => .ok (.struct "EnumSet" [("__priv_repr", arrayRepr r)], []) := by
  have hb : helperBody info.variants info.internal_repr "const_only" = arrayOnly size := by rw [hr]; rfl
  rw [gen_call k j env [] _ rfl rfl rfl (gen_lookup_inherent ws rfl rfl rfl rfl), hb]
  have hg : (genOf info ws E fuel lib).enum = E := rfl
  have h1 : shl1 64 (castW 32 (E.discr v) % 64) = .ok (1#64 <<< (castW 32 (E.discr v) % 64)) := by
    unfold shl1; rw [if_pos (Nat.mod_lt _ (by decide))]
  have h3 : ∀ {β : Type} (f : BitVec NumTy.u64.bits → Res β),
      shl1 NumTy.u64.bits (castW 32 (E.discr v) % 64) >>= f = f (1#64 <<< (castW 32 (E.discr v) % 64)) := by
    intro β f
    rw [show shl1 NumTy.u64.bits (castW 32 (E.discr v) % 64) = .ok (1#64 <<< (castW 32 (E.discr v) % 64)) from h1]; rfl
  have h4 : ∀ (C : Ctx (Fin info.variants.length)) (x y : U64),
    binVal C .bor (word x) (bv .u64 y) = .ok (word (x ||| y)) := fun C x y => bor_word C x y
  have h2 : ∀ x : U64, (bv .u64 x : Val (Fin info.variants.length)) = word x := fun _ => rfl
  simp only [FnDecl.fn, onlyDecl, arrayOnly, setTy, mkSet]
  grun [cast_host, hg, privWord, privRepr, arrayRepr, h1, h3, h4]
end
section
variable [Platform] {n : Nat} {G : Gen n} {T : EnumSetType} {enc : T.Repr → Val (Fin n)}
  {encI : EnumSetTypeRepr.Iter T.Repr → Val (Fin n)} {okI : EnumSetTypeRepr.Iter T.Repr → Prop}
  {encV : T.Val → Fin n} {k : Nat}

theorem mcall_fn (C : Ctx (Fin n)) (o : Operand T) (env : Env (Fin n)) :
    method C "into" [] (operandOf enc encV o) [] env = C.call (operandOf enc encV o).tag "into" env [] [operandOf enc encV o] := by
  rw [method_not C (by decide)]; rfl
theorem adopt_operand (e : Exp) (o : Operand T) : e.adopt (operandOf enc encV o) = operandOf enc encV o := by
  cases o with
  | val v => exact adopt_host _ _ _
  | set s => exact adopt_set _ _

variable (S : Storage (G.toProg (k + 9)) T.Repr enc encI okI) (E : EnumItems (G.toProg (k + 9)) T enc encV)
include S E

theorem gen_sub (hl : (itemFns G.items).lookup ("T", "sub") = some (opDecl .sub)) (j : Nat) (env : Env (Fin n)) (v : T.Val)
    (o : Operand T) : (G.toProg (k + 10)).call j "T" "sub" env [] [.host "T" (encV v), operandOf enc encV o] =
      EnumVal.sub v o >>= fun r => .ok (setOf enc r, []) := by
  rw [gen_call (k + 9) j env [] _ rfl rfl rfl hl]
  have h1 := fun env => C68_only S E (k + 3) env v
  have h2 := fun env => operand_conv S E (k + 1) env o
  have h3 := fun env (a b : EnumSet T) => C68_sub_operand S E k env a (.set b)
  simp only [operandOf] at h3
  grun [opDecl, mcall_fn, adopt_operand, bin_set, op_set, BinOp.method, adopt_set, h1, h2, h3, EnumVal.sub, exp_set, constArgs]
theorem gen_bitand (hl : (itemFns G.items).lookup ("T", "bitand") = some (opDecl .band)) (j : Nat) (env : Env (Fin n)) (v : T.Val)
    (o : Operand T) : (G.toProg (k + 10)).call j "T" "bitand" env [] [.host "T" (encV v), operandOf enc encV o] =
      EnumVal.bitand v o >>= fun r => .ok (setOf enc r, []) := by
  rw [gen_call (k + 9) j env [] _ rfl rfl rfl hl]
  have h1 := fun env => C68_only S E (k + 3) env v
  have h2 := fun env => operand_conv S E (k + 1) env o
  have h3 := fun env (a b : EnumSet T) => C68_bitand_operand S E k env a (.set b)
  simp only [operandOf] at h3
  grun [opDecl, mcall_fn, adopt_operand, bin_set, op_set, BinOp.method, adopt_set, h1, h2, h3, EnumVal.bitand, exp_set, constArgs]
theorem gen_bitor (hl : (itemFns G.items).lookup ("T", "bitor") = some (opDecl .bor)) (j : Nat) (env : Env (Fin n)) (v : T.Val)
    (o : Operand T) : (G.toProg (k + 10)).call j "T" "bitor" env [] [.host "T" (encV v), operandOf enc encV o] =
      EnumVal.bitor v o >>= fun r => .ok (setOf enc r, []) := by
  rw [gen_call (k + 9) j env [] _ rfl rfl rfl hl]
  have h1 := fun env => C68_only S E (k + 3) env v
  have h2 := fun env => operand_conv S E (k + 1) env o
  have h3 := fun env (a b : EnumSet T) => C68_bitor_operand S E k env a (.set b)
  simp only [operandOf] at h3
  grun [opDecl, mcall_fn, adopt_operand, bin_set, op_set, BinOp.method, adopt_set, h1, h2, h3, EnumVal.bitor, exp_set, constArgs]
theorem gen_bitxor (hl : (itemFns G.items).lookup ("T", "bitxor") = some (opDecl .bxor)) (j : Nat) (env : Env (Fin n)) (v : T.Val)
    (o : Operand T) : (G.toProg (k + 10)).call j "T" "bitxor" env [] [.host "T" (encV v), operandOf enc encV o] =
      EnumVal.bitxor v o >>= fun r => .ok (setOf enc r, []) := by
  rw [gen_call (k + 9) j env [] _ rfl rfl rfl hl]
  have h1 := fun env => C68_only S E (k + 3) env v
  have h2 := fun env => operand_conv S E (k + 1) env o
  have h3 := fun env (a b : EnumSet T) => C68_bitxor_operand S E k env a (.set b)
  simp only [operandOf] at h3
  grun [opDecl, mcall_fn, adopt_operand, bin_set, op_set, BinOp.method, adopt_set, h1, h2, h3, EnumVal.bitxor, exp_set, constArgs]
theorem gen_not (hl : (itemFns G.items).lookup ("T", "not") = some notDecl) (j : Nat) (env : Env (Fin n)) (v : T.Val) :
    (G.toProg (k + 10)).call j "T" "not" env [] [.host "T" (encV v)] =
      EnumVal.not v >>= fun r => .ok (setOf enc r, []) := by
  rw [gen_call (k + 9) j env [] _ rfl rfl rfl hl]
  have h1 := fun env => C68_only S E (k + 3) env v
  have h3 := fun env (a : EnumSet T) => C68_not S E (k + 4) env a
  have h4 : ∀ (C : Ctx (Fin n)) (a : EnumSet T), notVal C (setOf enc a) = C.call "EnumSet" "not" [] [] [setOf enc a] >>= fun r => .ok r.1 :=
    fun _ _ => rfl
  grun [notDecl, h1, h3, h4, adopt_set, EnumVal.not, exp_set, constArgs]
theorem gen_eq_set (hl : (itemFns G.items).lookup ("T", "eq_set") = some eqSetDecl) (j : Nat) (env : Env (Fin n)) (v : T.Val)
    (s : EnumSet T) : (G.toProg (k + 10)).call j "T" "eq_set" env [] [.host "T" (encV v), setOf enc s] =
      EnumVal.eq_set v s >>= fun r => .ok (.bool r, []) := by
  rw [gen_call (k + 9) j env [] _ rfl rfl rfl hl]
  have h1 := fun env => C68_only S E (k + 3) env v
  have h3 := fun env (a b : EnumSet T) => C68_eq S (k + 9) env a b
  grun [eqSetDecl, setTy, h1, h3, adopt_set, bin_set, op_set, BinOp.method, EnumVal.eq_set, exp_set, constArgs]
end

section
variable [Platform] {info : EnumSetInfo} {ws : List (Span × String)} {E : EnumDef info.variants.length} {fuel : Nat}
  {lib : SerdeLib info.variants.length}

theorem gen_eq (hs : info.no_super_impls = false) (k j : Nat) (env : Env (Fin info.variants.length)) (v w : Fin info.variants.length) :
    ((genOf info ws E fuel lib).toProg (k + 1)).call j "T" "eq" env [] [.host "T" v, .host "T" w] =
      genEq info.variants.length E.discr v w >>= fun b => .ok (.bool b, []) := by
  rw [gen_call k j env [] _ rfl rfl rfl (gen_lookup_super ws hs rfl rfl)]
  have hn : info.variants.length ≠ 0 := fun h => absurd v.isLt (by omega)
  have hg : (genOf info ws E fuel lib).enum = E := rfl
  simp only [genEq, hn, if_false, Res.ok_bind]
  rw [show eqDecl info.variants = ⟨[], [], [("self", .ref (.name "Self" [])), ("other", .ref (.name "Self" []))], .name "bool" [],
    [.tail (.bin .eq (.cast (.un .deref (.var "self")) (.name "u32" []))
          (.cast (.un .deref (.var "other")) (.name "u32" [])))]⟩ by
      unfold eqDecl
      cases h : info.variants with
      | nil => rw [h] at hn; exact absurd rfl hn
      | cons => rfl]
  grun [cast_host, hg, bits32]
  rfl
theorem gen_clone (hs : info.no_super_impls = false) (k j : Nat) (env : Env (Fin info.variants.length)) (v : Fin info.variants.length) :
    ((genOf info ws E fuel lib).toProg (k + 1)).call j "T" "clone" env [] [.host "T" v] = .ok (.host "T" v, []) := by
  rw [gen_call k j env [] _ rfl rfl rfl (gen_lookup_super ws hs rfl rfl)]
  grun [cloneDecl]
end
end Enumset.Src
