import Verif.Props.SrcGenItems
/-!
# C72: running the generated items

The functions and constants of the generated `impl EnumSetTypePrivate`, one by one.
-/
set_option autoImplicit false
set_option linter.unusedSimpArgs false
set_option linter.unusedSectionVars false
set_option maxRecDepth 10000

namespace Enumset.Src

/-- Evaluate generated code. -/
macro "grun" "[" ls:Lean.Parser.Tactic.simpLemma,* "]" : tactic =>
  `(tactic| run [gctx_fuel, gctx_self, gctx_alias, gctx_ty, gctx_structs, gctx_call, gen_structs_helper, gen_structs_mem, sd_not_helper, $ls,*])

/-- The code written for the enum of `info`. -/
def genOf [Platform] (info : EnumSetInfo) (ws : List (Span × String)) (E : EnumDef info.variants.length) (fuel : Nat)
    (lib : SerdeLib info.variants.length) : Gen info.variants.length :=
  ⟨genItems info ws, E, fuel, lib⟩

section
variable [Platform] {info : EnumSetInfo} {ws : List (Span × String)} {E : EnumDef info.variants.length} {fuel : Nat}
  {lib : SerdeLib info.variants.length}

theorem genOf_repr : (genOf info ws E fuel lib).repr = reprTy info.internal_repr := by
  show (assocType _ _ (genItems info ws)).getD _ = _
  rw [gen_assoc]; rfl

theorem gen_BIT_WIDTH (k j : Nat) (env : Env (Fin info.variants.length)) :
    ((genOf info ws E fuel lib).toProg (k + 1)).call j "T" "BIT_WIDTH" env [] [] =
      .ok (.int .u32 (info.max_discrim + 1), []) := by
  rw [gen_call k j env [] [] rfl rfl rfl (gen_lookup_core ws rfl)]
  grun [constDecl]
theorem gen_VARIANT_COUNT (k j : Nat) (env : Env (Fin info.variants.length)) :
    ((genOf info ws E fuel lib).toProg (k + 1)).call j "T" "VARIANT_COUNT" env [] [] =
      .ok (.int .u32 (castW 32 info.variants.length), []) := by
  rw [gen_call k j env [] [] rfl rfl rfl (gen_lookup_core ws rfl)]
  grun [constDecl]
theorem gen_helper (k j : Nat) (env : Env (Fin info.variants.length)) (v : Fin info.variants.length) :
    ((genOf info ws E fuel lib).toProg (k + 1)).call j "T" "__impl_enumset_internal__const_helper" env [] [.host "T" v] =
      .ok (.struct "__EnumSetConstHelper" [], []) := by
  rw [gen_call k j env [] _ rfl rfl rfl (gen_lookup_core ws rfl)]
  grun [helperFnDecl, genOf, List.zip, List.zipWith]
theorem gen_instance (k j : Nat) (env : Env (Fin info.variants.length)) :
    ((genOf info ws E fuel lib).toProg (k + 1)).call j "T" "CONST_HELPER_INSTANCE" env [] [] =
      .ok (.struct "__EnumSetConstHelper" [], []) := by
  rw [gen_call k j env [] _ rfl rfl rfl (gen_lookup_core ws rfl)]
  grun [constDecl, genOf, List.zip, List.zipWith]

theorem cast_host {n : Nat} {G : Gen n} (k : Nat) (self : String) (t : NumTy) (v : Fin n) :
    castVal (G.ctx self ((G.toProg k).link k)) t (.host "T" v) =
      .ok (.int t (castW t.bits (G.enum.discr v))) := by
  simp [castVal, gctx_call, enum_discriminant]

theorem bits32 : NumTy.u32.bits = 32 := rfl

theorem gen_enum_into_u32 (k j : Nat) (env : Env (Fin info.variants.length)) (v : Fin info.variants.length) :
    ((genOf info ws E fuel lib).toProg (k + 1)).call j "T" "enum_into_u32" env [] [.host "T" v] =
      genInto info.variants.length E.discr v >>= fun n => .ok (.int .u32 n, []) := by
  rw [gen_call k j env [] _ rfl rfl rfl (gen_lookup_core ws rfl)]
  have hn : info.variants.length ≠ 0 := fun h => absurd v.isLt (by omega)
  have hv : info.variants ≠ [] := fun h => hn (by rw [h]; rfl)
  simp only [genInto, hn, if_false, Res.ok_bind]
  rw [show intoDecl info.variants = ⟨[], [], [("self", .name "Self" [])], .name "u32" [],
    [.tail (.cast (.var "self") (.name "u32" []))]⟩ by
      unfold intoDecl; split <;> first | contradiction | rfl]
  grun [cast_host]
  rfl


theorem size_u8 {n : Nat} {G : Gen n} (self : String) (fns) (env : Env (Fin n)) :
    sizeOfTy (G.ctx self fns) env (.name "u8" []) = .ok (.int .usize 1) := by
  simp [sizeOfTy, gctx_ty, ofName_u8, NumTy.bits]
theorem size_u16 {n : Nat} {G : Gen n} (self : String) (fns) (env : Env (Fin n)) :
    sizeOfTy (G.ctx self fns) env (.name "u16" []) = .ok (.int .usize 2) := by
  simp [sizeOfTy, gctx_ty, ofName_u16, NumTy.bits]
theorem size_u32 {n : Nat} {G : Gen n} (self : String) (fns) (env : Env (Fin n)) :
    sizeOfTy (G.ctx self fns) env (.name "u32" []) = .ok (.int .usize 4) := by
  simp [sizeOfTy, gctx_ty, ofName_u32, NumTy.bits]
theorem size_u64 {n : Nat} {G : Gen n} (self : String) (fns) (env : Env (Fin n)) :
    sizeOfTy (G.ctx self fns) env (.name "u64" []) = .ok (.int .usize 8) := by
  simp [sizeOfTy, gctx_ty, ofName_u64, NumTy.bits]
theorem size_u128 {n : Nat} {G : Gen n} (self : String) (fns) (env : Env (Fin n)) :
    sizeOfTy (G.ctx self fns) env (.name "u128" []) = .ok (.int .usize 16) := by
  simp [sizeOfTy, gctx_ty, ofName_u128, NumTy.bits]
theorem size_T {n : Nat} {G : Gen n} (k : Nat) (env : Env (Fin n)) (h : lookup "T" env = none)
    (hS : (G.ctx "T" ((G.toProg k).link k)).structs "T" = none) :
    sizeOfTy (G.ctx "T" ((G.toProg k).link k)) env (.name "T" []) = .ok (.int .usize G.enum.size) := by
  simp [sizeOfTy, gctx_ty, ofName_not_T, Ctx.tyName, h, hS, gctx_alias, gctx_call, enum_size]

theorem arms_find {n : Nat} {C : Ctx (Fin n)} {a : Fin n → Arm} {reprs : Fin n → Nat} {val : Nat} {e : Exp}
    {env : Env (Fin n)} {rest : List Arm} {body : Fin n → Expr}
    (ha : ∀ i, a i = .mk (.int .u32 (reprs i)) (.bool true) (body i))
    (hb : ∀ i, eval C (body i) e env = .ok (.val (.host "T" i) env)) (l : List (Fin n)) :
    evalArms C (l.map a ++ rest) (.int .u32 val) e env =
      match l.find? (fun i => reprs i == val) with
      | some i => .ok (.val (.host "T" i) env)
      | none => evalArms C rest (.int .u32 val) e env := by
  induction l with
  | nil => rfl
  | cons i l ih =>
    simp only [List.map_cons, List.cons_append, ha, evalArms, matchPat, true_and, List.find?_cons]
    by_cases h : reprs i = val
    · simp [h, eval, andThen_val, cond_bool, hb, restore_val]
    · have : (reprs i == val) = false := by simpa using h
      rw [if_neg h, this]
      exact ih

/-- What `enum_from_u32` does after the arms for the variants. -/
def fromOther {n : Nat} (E : EnumDef n) (val : Nat) : Res (Fin n) :=
  if E.size = 1 then E.read .u8 (castW 8 val)
  else if E.size = 2 then E.read .u16 (castW 16 val)
  else if E.size = 4 then E.read .u32 (castW 32 val)
  else if E.size = 8 then E.read .u64 (castW 64 val)
  else if E.size = 16 then E.read .u128 (castW 128 val)
  else .ub

theorem sizeArm_eval {n : Nat} {G : Gen n} {k : Nat} {c t : String} {T : NumTy} {val : Nat} {e : Exp} {env : Env (Fin n)}
    {rest : List Arm} {b : Bool} (hc : lookup c env = some (.bool b)) (hx : c ≠ "x") (hT : lookup "T" env = none)
    (hS : (G.ctx "T" ((G.toProg k).link k)).structs "T" = none)
    (ht : (G.ctx "T" ((G.toProg k).link k)).ty t = some T) :
    evalArms (G.ctx "T" ((G.toProg k).link k)) (sizeArm c t :: rest) (.int .u32 val) e env =
      if b then G.enum.read T (castW T.bits val) >>= fun i => .ok (.val (.host "T" i) env)
      else evalArms (G.ctx "T" ((G.toProg k).link k)) rest (.int .u32 val) e env := by
  have hl : lookup c (("x", (.int .u32 val : Val (Fin n))) :: env) = some (.bool b) := by
    rw [lookup, if_neg hx, hc]
  simp only [sizeArm, evalArms, matchPat, eval, hl, need_some, Res.ok_bind, pure_ok, adopt_any, adopt_bool, andThen_val, cond_bool]
  cases b
  · rfl
  · simp [evalStmts, eval, lookup, need_some, pure_ok, pure_bind, adopt_any, adopt_int, andThen_val, andThen_bind, Ctx.exp, Ctx.expArg, ht, castVal,
      bindPat, castPtr, Ctx.tyName, hS, hT, gctx_alias, gctx_call, enum_transmute, restore_bind, restore_val, bind_assoc]

theorem genOf_structs_T (k : Nat) :
    ((genOf info ws E fuel lib).ctx "T" (((genOf info ws E fuel lib).toProg k).link k)).structs "T" = none := by
  rw [gctx_structs, sd_not_T]
  show (if (itemStructs (genItems info ws)).contains "T" = true then _ else _) = _
  rw [gen_structs info ws rfl]; rfl

theorem genOf_no_unreachable : (itemFns (genItems info ws)).lookup ("T", "unreachable_unchecked") = none := by
  exact gen_lookup_none ws rfl rfl rfl rfl rfl (serdeFns_none rfl)

theorem variantArms_eq (vs : List EnumSetValue) : variantArms vs = (List.finRange vs.length).map fun i =>
    .mk (.int .u32 vs[i].variant_repr) (.bool true) (.path "T" vs[i].name) := by
  apply List.ext_getElem <;> simp [variantArms]

theorem fromDecl_zero {vs : List EnumSetValue} (h : vs.length = 0) : fromDecl vs =
    ⟨[], [], [("val", .name "u32" [])], .name "Self" [],
      [.tail (.panic (.format ["", "", ""] [.stringify "T", .str " is uninhabited."]))]⟩ := by
  cases vs with
  | nil => rfl
  | cons v vs => simp at h
theorem fromDecl_one {vs : List EnumSetValue} (h : vs.length = 1) : fromDecl vs =
    ⟨[], [], [("val", .name "u32" [])], .name "Self" [], [.tail (.path "T" (vs[0]'(by omega)).name)]⟩ := by
  match vs, h with
  | [v], _ => rfl
theorem fromDecl_many {vs : List EnumSetValue} (h : 2 ≤ vs.length) : fromDecl vs =
    ⟨[], [], [("val", .name "u32" [])], .name "Self" [],
      [sizeLet "IS_U8" "u8", sizeLet "IS_U16" "u16", sizeLet "IS_U32" "u32", sizeLet "IS_U64" "u64",
        sizeLet "IS_U128" "u128",
        .tail (.match (.var "val") (variantArms vs ++ [sizeArm "IS_U8" "u8", sizeArm "IS_U16" "u16",
          sizeArm "IS_U32" "u32", sizeArm "IS_U64" "u64", sizeArm "IS_U128" "u128",
          .mk .wild (.bool true) (.call "unreachable_unchecked" [])]))]⟩ := by
  match vs, h with
  | v :: w :: vs, _ => rfl

/-- `enum_from_u32`, for an enum whose values may be read from any number. -/
theorem gen_enum_from_u32 (hE : ∀ i, E.name i = info.variants[i].name)
    (hn : ∀ i j, E.name i = E.name j → i = j) (k j : Nat)
    (env : Env (Fin info.variants.length)) (val : Nat) :
    ((genOf info ws E fuel lib).toProg (k + 1)).call j "T" "enum_from_u32" env [] [.int .u32 val] =
      (if h0 : info.variants.length = 0 then .panic (.explicit "T is uninhabited.")
      else if _h1 : info.variants.length = 1 then .ok ⟨0, by omega⟩
      else match (List.finRange info.variants.length).find? (fun i => info.variants[i].variant_repr == val) with
        | some i => .ok i
        | none => fromOther E val) >>= fun v => .ok (.host "T" v, []) := by
  rw [gen_call k j env [] _ rfl rfl rfl (gen_lookup_core ws rfl)]
  have hS := genOf_structs_T (info := info) (ws := ws) (E := E) (fuel := fuel) (lib := lib) k
  have hp : ∀ (i : Fin info.variants.length) (e : Exp) (env : Env (Fin info.variants.length)), lookup "T" env = none →
      eval ((genOf info ws E fuel lib).ctx "T" (((genOf info ws E fuel lib).toProg k).link k))
        (.path "T" info.variants[i].name) e env = .ok (.val (.host "T" i) env) := by
    intro i e env h
    simp only [eval, Ctx.tyName, hS, h, gctx_alias, gctx_call]
    rw [← hE i]
    have : ((genOf info ws E fuel lib).toProg k).call k "enum T" (E.name i) env [] [] = .ok (.host "T" i, []) :=
      enum_variant (G := genOf info ws E fuel lib) hn k k env i
    rw [if_neg (by decide), if_pos trivial, this]; rfl
  by_cases h0 : info.variants.length = 0
  · rw [dif_pos h0, fromDecl_zero h0]
    grun [formatVal]
  rw [dif_neg h0]
  by_cases h1 : info.variants.length = 1
  · rw [dif_pos h1, fromDecl_one h1]
    simp only [FnDecl.fn, bindParams, Option.map, need_some, Res.ok_bind, bindGens, List.append_nil, List.nil_append, evalStmts]
    rw [show info.variants[0] = info.variants[(⟨0, by omega⟩ : Fin info.variants.length)] from rfl, hp]
    · rfl
    · simp [lookup]
  rw [dif_neg h1, fromDecl_many (by omega)]
  have hsz : ∀ env, lookup "T" env = none → sizeOfTy ((genOf info ws E fuel lib).ctx "T" (((genOf info ws E fuel lib).toProg k).link k)) env (.name "T" []) =
      .ok (.int .usize E.size) := fun env h => size_T k env h hS
  simp [FnDecl.fn, bindParams, need_some, bindGens,
    evalStmts, sizeLet, eval, pure_ok, andThen_val, size_u8, size_u16, size_u32, size_u64, size_u128, exp_int,
    hsz, lookup, eq_int, bindPat, adopt_int, adopt_any]
  rw [variantArms_eq, arms_find (fun _ => rfl) (fun i => hp i _ _ (by simp [lookup]))]
  cases hf : (List.finRange info.variants.length).find? (fun i => info.variants[i].variant_repr == val) with
  | some i => simp [mutVals]
  | none =>
    simp only
    have hu := no_unreachable (G := genOf info ws E fuel lib) k k rfl genOf_no_unreachable
    have hty : ∀ t T, NumTy.ofName t = some T →
        ((genOf info ws E fuel lib).ctx "T" (((genOf info ws E fuel lib).toProg k).link k)).ty t = some T := by
      intro t T h
      rw [gctx_ty]
      split
      · rename_i h'
        rcases h' with rfl | rfl <;> cases h
      · exact h
    rw [sizeArm_eval (T := .u8) (b := decide (E.size = 1)) (by simp [lookup]) (by decide) (by simp [lookup]) hS (hty _ _ rfl),
      sizeArm_eval (T := .u16) (b := decide (E.size = 2)) (by simp [lookup]) (by decide) (by simp [lookup]) hS (hty _ _ rfl),
      sizeArm_eval (T := .u32) (b := decide (E.size = 4)) (by simp [lookup]) (by decide) (by simp [lookup]) hS (hty _ _ rfl),
      sizeArm_eval (T := .u64) (b := decide (E.size = 8)) (by simp [lookup]) (by decide) (by simp [lookup]) hS (hty _ _ rfl),
      sizeArm_eval (T := .u128) (b := decide (E.size = 16)) (by simp [lookup]) (by decide) (by simp [lookup]) hS (hty _ _ rfl)]
    simp only [evalArms, matchPat, eval, andThen_val, cond_bool, evalArgs, gctx_self, gctx_call, hu]
    unfold fromOther
    simp only [decide_eq_true_eq]
    have hr : (genOf info ws E fuel lib).enum = E := rfl
    rw [hr]
    repeat' split
    all_goals simp_all [bind_assoc, mutVals, NumTy.bits]
    all_goals rfl

/-! ### `ALL_BITS` -/

/-- The integer type of a storage type. -/
def numOf : InternalRepr → Option NumTy
  | .u8 => some .u8
  | .u16 => some .u16
  | .u32 => some .u32
  | .u64 => some .u64
  | .u128 => some .u128
  | .array _ => none

/-- The literal of `ALL_BITS` for an integer. -/
def litOf (vm : List U64) : InternalRepr → Nat
  | .u128 => lit128 vm
  | _ => (vm.getD 0 0).toNat

theorem reprTy_num {r : InternalRepr} {t : NumTy} (h : numOf r = some t) : reprTy r = .name (NumTy.name t) [] := by
  cases r <;> cases h <;> rfl
theorem num_ne {r : InternalRepr} {t : NumTy} (h : numOf r = some t) : t ≠ .usize := by
  cases r <;> cases h <;> decide

theorem gctx_ty_repr (k : Nat) (self s : String) (hs : s = "Self::Repr" ∨ s = "T::Repr") :
    ((genOf info ws E fuel lib).ctx self (((genOf info ws E fuel lib).toProg k).link k)).ty s =
      NumTy.ofName (reprTy info.internal_repr).head := by
  rw [gctx_ty, if_pos hs, genOf_repr]

theorem bv_lit {H : Type} (t : NumTy) (n : Nat) (h : n < 2 ^ t.bits) :
    (.int t n : Val H) = bv t (BitVec.ofNat t.bits n) := by
  simp [bv, Nat.mod_eq_of_lt h]

theorem gen_ALL_BITS_prim {t : NumTy} (hr : numOf info.internal_repr = some t)
    (hl : litOf info.variant_map info.internal_repr < 2 ^ t.bits) (k j : Nat) (env : Env (Fin info.variants.length)) :
    ((genOf info ws E fuel lib).toProg (k + 1)).call j "T" "ALL_BITS" env [] [] =
      .ok (bv t (BitVec.ofNat t.bits (litOf info.variant_map info.internal_repr)), []) := by
  rw [gen_call k j env [] [] rfl rfl rfl (gen_lookup_core ws rfl)]
  have ha : allExpr info.variant_map info.internal_repr = .lit (litOf info.variant_map info.internal_repr) := by
    cases h : info.internal_repr <;> rw [h] at hr <;> first | rfl | cases hr
  rw [ha, ← bv_lit t _ hl]
  simp [FnDecl.fn, constDecl, bindParams, need_some, bindGens, evalStmts, eval, Ctx.exp, gctx_ty_repr, reprTy_num hr,
    Ty.head, ofName_name, adopt_lit, mutVals]

theorem evalArgs_lits {n : Nat} {C : Ctx (Fin n)} {α : Type} (f : α → Nat) (t : NumTy) (l : List α) (env : Env (Fin n))
    (k : List (Val (Fin n)) → Env (Fin n) → Res (Out (Fin n))) :
    evalArgs C (l.map fun a => .lit (f a)) (List.replicate l.length (.int t)) env k =
      k (l.map fun a => .int t (f a)) env := by
  induction l generalizing k with
  | nil => rfl
  | cons a l ih =>
    simp only [List.map_cons, List.length_cons, List.replicate_succ, evalArgs, eval, adopt_lit, andThen_val, List.tail_cons]
    exact ih _

theorem gen_ALL_BITS_array {size : Nat} (hr : info.internal_repr = .array size)
    (k j : Nat) (env : Env (Fin info.variants.length)) :
    ((genOf info ws E fuel lib).toProg (k + 1)).call j "T" "ALL_BITS" env [] [] =
      .ok (arrayRepr ⟨Vector.ofFn fun i : Fin size => info.variant_map.getD i.val 0⟩, []) := by
  rw [gen_call k j env [] [] rfl rfl rfl (gen_lookup_core ws rfl)]
  have ha : allExpr info.variant_map info.internal_repr =
    .ctor "ArrayRepr" (.array ((List.range size).map fun i => .lit (info.variant_map.getD i 0#64).toNat)) := by
    rw [hr]; rfl
  have hw : ((List.range size).map fun i => (.int .u64 (info.variant_map.getD i 0#64).toNat : Val (Fin info.variants.length))) =
      (Vector.ofFn fun i : Fin size => info.variant_map.getD i.val 0#64).toList.map word := by
    apply List.ext_getElem <;> simp [word]
  have he := fun C env K => evalArgs_lits (n := info.variants.length) (C := C) (fun i => (info.variant_map.getD i 0#64).toNat) .u64 (List.range size) env K
  rw [List.length_range] at he
  rw [ha]
  simp only [FnDecl.fn, constDecl, bindParams, need_some, bindGens, evalStmts, eval, Res.ok_bind, List.append_nil,
    Ctx.tyName, lookup, gctx_structs, sd_array, List.length_map, List.length_range]
  simp [StructDecl.exp, sd_array, Ctx.exp, gctx_ty, ofName_u64, he, andThen_val, mutVals, arrayRepr, vec, words, hw, need_some,
    lookup, -List.getD_eq_getElem?_getD, -BitVec.ofNat_eq_ofNat]
end
end Enumset.Src
