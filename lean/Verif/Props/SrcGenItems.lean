import Verif.Src.GenProg
import Verif.Props.SrcStorage
/-!
# The code the derive macro writes

The items of `genTok`, written out (`genTok_items`), and the functions among them.  Citations `lib.rs` are to
`enumset_derive/src/lib.rs`.
-/
set_option autoImplicit false
set_option linter.unusedSimpArgs false
set_option linter.unusedSectionVars false
set_option maxRecDepth 10000

namespace Enumset.Src
open DeriveRs

theorem lookup_append {α β : Type} [BEq α] (a : α) (l m : List (α × β)) :
    (l ++ m).lookup a = (match l.lookup a with | some b => some b | none => m.lookup a) := by
  induction l with
  | nil => rfl
  | cons x l ih =>
    rw [List.cons_append, List.lookup_cons, List.lookup_cons]
    split
    · rfl
    · exact ih

theorem implFns_append (ts : List Ty) (ty : String) (l m : List Item) :
    implFns ts ty (l ++ m) = implFns ts ty l ++ implFns ts ty m := by
  induction l with
  | nil => rfl
  | cons x l ih => cases x <;> simp [implFns, ih]
theorem itemFns_append (l m : List Item) : itemFns (l ++ m) = itemFns l ++ itemFns m := by
  induction l with
  | nil => rfl
  | cons x l ih => cases x <;> simp [itemFns, ih]

/-- The arms of `enum_from_u32` for the variants. -/
def variantArms (vs : List EnumSetValue) : List Arm :=
  vs.map fun v => .mk (.int .u32 v.variant_repr) (.bool true) (.path "T" v.name)

/-- `const IS_U8: bool = size_of::<T>() == size_of::<u8>();` -/
def sizeLet (c t : String) : Stmt :=
  .let (.var c) (some (.name "bool" [])) (.bin .eq (.sizeOf (.name "T" [])) (.sizeOf (.name t [])))
/-- `x if IS_U8 => { let x = x as u8; *(&x as *const _ as *const T) }` -/
def sizeArm (c t : String) : Arm :=
  .mk (.var "x") (.var c) (.block [.let (.var "x") none (.cast (.var "x") (.name t [])),
    .tail (.un .deref (.cast (.cast (.un .ref (.var "x")) (.ptr (.name "_" []))) (.ptr (.name "T" []))))])

/-- `enum_into_u32` -/
def intoDecl (vs : List EnumSetValue) : FnDecl :=
  ⟨[], [], [("self", .name "Self" [])], .name "u32" [],
    [.tail (match vs with
      | [] => .panic (.format ["", "", ""] [.stringify "T", .str " is uninhabited."])
      | _ => .cast (.var "self") (.name "u32" []))]⟩

/-- `enum_from_u32` -/
def fromDecl (vs : List EnumSetValue) : FnDecl :=
  ⟨[], [], [("val", .name "u32" [])], .name "Self" [],
    match vs with
    | [] => [.tail (.panic (.format ["", "", ""] [.stringify "T", .str " is uninhabited."]))]
    | [v] => [.tail (.path "T" v.name)]
    | vs => [sizeLet "IS_U8" "u8", sizeLet "IS_U16" "u16", sizeLet "IS_U32" "u32", sizeLet "IS_U64" "u64",
        sizeLet "IS_U128" "u128",
        .tail (.match (.var "val") (variantArms vs ++ [sizeArm "IS_U8" "u8", sizeArm "IS_U16" "u16",
          sizeArm "IS_U32" "u32", sizeArm "IS_U64" "u64", sizeArm "IS_U128" "u128",
          .mk .wild (.bool true) (.call "unreachable_unchecked" [])]))]⟩

theorem arm_rep (xs : List String) (a : Arm) (σ : Sub) : Arm.subst (.rep xs a) σ = Arm.subst a σ := rfl
theorem variant_rows (vs : List EnumSetValue) (a b : Val Code) :
    (Sub.rows [("#const_field", a), ("#name", nameTok "T"), ("#int_type", b),
        ("#variant_value", .arr (vs.map fun v => .int .u32 v.variant_repr)),
        ("#variant_name", .arr (vs.map fun v => ident v.name))]
        ["#variant_value", "#name", "#variant_name"]).map
      (fun σ => Arm.subst (.mk (.var "#variant_value") (.bool true) (.path "#name" "#variant_name")) σ) =
      variantArms vs := by
  apply List.ext_getElem
  · simp [Sub.rows, Sub.lengths, lookup, nameTok, ident, variantArms]
  · intro i h1 h2
    have h : i < vs.length := by simpa [variantArms] using h2
    simp [Sub.rows, Sub.lengths, Sub.at, lookup, nameTok, ident, variantArms, Arm.subst, Pat.subst, Expr.subst, toPat, Sub.name, h]

theorem intoTok_items (info : EnumSetInfo) : toItems (intoTok "T" info) =
    [.fn "enum_into_u32" (intoDecl info.variants), .fn "enum_from_u32" (fromDecl info.variants)] := by
  unfold intoTok
  split
  · rename_i h
    simp [h, t15, Tmpl.quote, toItems, Code.subst, Item.substs, Item.subst, FnDecl.subst, intoDecl, fromDecl,
      Ty.subst, lookup, nameTok, ident, Stmt.substs, Stmt.subst, Stmt.rows, Expr.subst, Expr.substs, Expr.rows, Sub.name]
  · rename_i h
    simp [h, t16, Tmpl.quote, toItems, Code.subst, Item.substs, Item.subst, FnDecl.subst, intoDecl, fromDecl,
      Ty.subst, lookup, nameTok, ident, Stmt.substs, Stmt.subst, Stmt.rows, Expr.subst, Expr.substs, Expr.rows, Sub.name]
  · rename_i h0 h1
    obtain ⟨v, w, vs, h⟩ : ∃ v w vs, info.variants = v :: w :: vs := by
      match h : info.variants with
      | [] => exact absurd h h0
      | [v] => exact absurd h (h1 v)
      | v :: w :: vs => exact ⟨v, w, vs, rfl⟩
    rw [h]
    simp only [t17, Tmpl.quote, toItems, Code.subst, Item.substs, Item.subst, FnDecl.subst, Stmt.substs, Expr.subst,
      Arm.substs, Stmt.subst, List.zip, List.zipWith, Stmt.rows, List.flatMap_cons, List.flatMap_nil, Arm.rows, arm_rep]
    rw [variant_rows]
    simp [fromDecl, intoDecl, sizeLet, sizeArm, Sub.rows, Sub.lengths, Sub.at, List.range, List.range.loop, lookup, nameTok, ident, Ty.subst, Sub.name, Stmt.substs, Stmt.subst, Stmt.rows, Arm.subst, Expr.subst, Expr.substs, Pat.subst, toTy, toPat, toExpr]

/-- The storage type, `#repr`. -/
def reprTy : InternalRepr → Ty
  | .u8 => .name "u8" []
  | .u16 => .name "u16" []
  | .u32 => .name "u32" []
  | .u64 => .name "u64" []
  | .u128 => .name "u128" []
  | .array n => .name "ArrayRepr" [.num n]

theorem toTy_repr (r : InternalRepr) : toTy (reprTok r) = reprTy r := by cases r <;> rfl

/-- `ALL_BITS` -/
def allExpr (vm : List U64) : InternalRepr → Expr
  | .u128 => .lit (lit128 vm)
  | .array n => .ctor "ArrayRepr" (.array ((List.range n).map fun i => .lit (vm.getD i 0).toNat))
  | _ => .lit (vm.getD 0 0).toNat

theorem toExpr_all (vm : List U64) (r : InternalRepr) : toExpr (allTok vm r) = allExpr vm r := by
  cases r <;> try rfl
  rename_i n
  simp [allTok, allExpr, toExpr, t11, Tmpl.quote, Code.subst, Expr.subst, Expr.substs, Expr.rows, Sub.name, lookup]
  apply List.ext_getElem
  · simp [Sub.rows, Sub.lengths, lookup]
  · intro i h1 h2
    have h : i < n := by simpa using h2
    simp [Sub.rows, Sub.lengths, Sub.at, lookup, Expr.subst, toExpr, literal, h]

/-- `EnumSet<T>` -/
def setTy : Ty := .name "EnumSet" [.name "T" []]

/-- `fn sub(self, other: O) -> Self::Output { EnumSet::only(self) - other.into() }` and the like -/
def opDecl (op : BinOp) : FnDecl :=
  ⟨[], [], [("self", .name "Self" []), ("other", .name "O" [])], .name "Self::Output" [],
    [.tail (.bin op (.pcall "EnumSet" "only" [] [.var "self"]) (.mcall (.var "other") "into" [] []))]⟩
/-- `fn not(self) -> Self::Output { !EnumSet::only(self) }` -/
def notDecl : FnDecl :=
  ⟨[], [], [("self", .name "Self" [])], .name "Self::Output" [],
    [.tail (.un .not (.pcall "EnumSet" "only" [] [.var "self"]))]⟩
/-- `fn eq(&self, other: &EnumSet<T>) -> bool { EnumSet::only(*self) == *other }` -/
def eqSetDecl : FnDecl :=
  ⟨[], [], [("self", .ref (.name "Self" [])), ("other", .ref setTy)], .name "bool" [],
    [.tail (.bin .eq (.pcall "EnumSet" "only" [] [.un .deref (.var "self")]) (.un .deref (.var "other")))]⟩

/-- The operators. -/
def opsItems : List Item :=
  [.impl "Sub" [.name "O" []] (.name "T" []) [.type "Output" setTy, .fn "sub" (opDecl .sub)],
   .impl "BitAnd" [.name "O" []] (.name "T" []) [.type "Output" setTy, .fn "bitand" (opDecl .band)],
   .impl "BitOr" [.name "O" []] (.name "T" []) [.type "Output" setTy, .fn "bitor" (opDecl .bor)],
   .impl "BitXor" [.name "O" []] (.name "T" []) [.type "Output" setTy, .fn "bitxor" (opDecl .bxor)],
   .impl "Not" [] (.name "T" []) [.type "Output" setTy, .fn "not" notDecl],
   .impl "PartialEq" [setTy] (.name "T" []) [.fn "eq" eqSetDecl]]

theorem opsTok_items (info : EnumSetInfo) :
    toItems (opsTok "T" info) = if info.no_ops then [] else opsItems := by
  unfold opsTok
  split <;> rfl

/-- `fn eq(&self, other: &Self) -> bool` -/
def eqDecl (vs : List EnumSetValue) : FnDecl :=
  ⟨[], [], [("self", .ref (.name "Self" [])), ("other", .ref (.name "Self" []))], .name "bool" [],
    [.tail (match vs with
      | [] => .panic (.format ["", "", ""] [.stringify "T", .str " is uninhabited."])
      | _ => .bin .eq (.cast (.un .deref (.var "self")) (.name "u32" []))
          (.cast (.un .deref (.var "other")) (.name "u32" [])))]⟩
/-- `fn clone(&self) -> Self { *self }` -/
def cloneDecl : FnDecl :=
  ⟨[], [], [("self", .ref (.name "Self" []))], .name "Self" [], [.tail (.un .deref (.var "self"))]⟩

/-- `PartialEq`, `Eq`, `Clone`, `Copy` -/
def superItems (vs : List EnumSetValue) : List Item :=
  [.impl "PartialEq" [] (.name "T" []) [.fn "eq" (eqDecl vs)], .impl "Eq" [] (.name "T" []) [],
   .impl "Clone" [] (.name "T" []) [.fn "clone" cloneDecl], .impl "Copy" [] (.name "T" []) []]

theorem superTok_items (info : EnumSetInfo) :
    toItems (superTok "T" info) = if info.no_super_impls then [] else superItems info.variants := by
  unfold superTok
  split
  · rfl
  · unfold eqTok
    cases info.variants <;> rfl

theorem withReprTok_items (info : EnumSetInfo) : toItems (withReprTok "T" info) =
    if info.explicit_internal_repr.isSome then
      [.impl "EnumSetTypeWithRepr" [] (.name "T" []) [.type "Repr" (reprTy info.internal_repr)]] else [] := by
  unfold withReprTok
  split
  · rw [← toTy_repr]; rfl
  · rfl

/-- A function of `__EnumSetConstHelper` of two sets. -/
def helperDecl (body : List Stmt) : FnDecl :=
  ⟨[], [], [("self", .ref (.name "Self" [])), ("chain_a", setTy), ("chain_b", setTy)], setTy, body⟩
/-- `const_complement` -/
def complementDecl (body : List Stmt) : FnDecl :=
  ⟨[], [], [("self", .ref (.name "Self" [])), ("chain", setTy)], setTy, body⟩
/-- `__impl_enumset_internal__const_only` -/
def onlyDecl (body : List Stmt) : FnDecl :=
  ⟨[], [], [("self", .name "Self" [])], setTy, body⟩

/-- `x.__priv_repr` -/
def privRepr (x : String) : Expr := .field (.var x) "__priv_repr"
/-- `x.__priv_repr.0[i]` -/
def privWord (x : String) (i : Expr) : Expr := .index (.field (privRepr x) "0") i
/-- `EnumSet { __priv_repr: e }` -/
def mkSet (e : Expr) : Expr := .struct "EnumSet" ["__priv_repr"] [e]

/-- `1 << self as #repr`, or `0` if there are no variants -/
def maskExpr (vs : List EnumSetValue) (r : Ty) : Expr :=
  match vs with
  | [] => .lit 0
  | _ => .bin .shl (.lit 1) (.cast (.var "self") r)

/-- `const_only` for integers -/
def primOnly (vs : List EnumSetValue) (r : Ty) : List Stmt := [.tail (mkSet (maskExpr vs r))]
/-- `const_union` and the like for integers -/
def primBin (op : BinOp) : List Stmt := [.tail (mkSet (.bin op (privRepr "chain_a") (privRepr "chain_b")))]
/-- `const_complement` for integers -/
def primComplement : List Stmt :=
  [.let (.var "all") none (.pcall "EnumSet" "all" [] []),
   .tail (mkSet (.bin .band (.un .not (privRepr "chain")) (privRepr "all")))]

/-- `const_only` for arrays -/
def arrayOnly (size : Nat) : List Stmt :=
  [.let (.var "set") none (mkSet (.ctor "ArrayRepr" (.repeat (.lit 0) (.int .usize size)))),
   .let (.var "bit") none (.cast (.var "self") (.name "u32" [])),
   .let (.tup [.var "idx", .var "bit"]) none
    (.tuple [.bin .div (.cast (.var "bit") (.name "usize" [])) (.lit 64), .bin .rem (.var "bit") (.lit 64)]),
   .semi (.assignOp .bor (privWord "set" (.var "idx")) (.bin .shl (.int .u64 1) (.var "bit"))),
   .tail (.var "set")]
/-- `const_union` and the like for arrays -/
def arrayBin (op : BinOp) (size : Nat) : List Stmt :=
  [.let (.var "i") (some (.name "usize" [])) (.lit 0),
   .semi (.while (.bin .lt (.var "i") (.int .usize size)) (.block
    [.semi (.assignOp op (privWord "chain_a" (.var "i")) (privWord "chain_b" (.var "i"))),
     .semi (.assignOp .add (.var "i") (.lit 1))])),
   .tail (.var "chain_a")]
/-- `const_complement` for arrays -/
def arrayComplement (size : Nat) : List Stmt :=
  [.let (.var "all") none (.pcall "EnumSet" "all" [] []), .let (.var "i") (some (.name "usize" [])) (.lit 0),
   .semi (.while (.bin .lt (.var "i") (.int .usize size)) (.block
    [.let (.var "new") none (.bin .band (.un .not (privWord "chain" (.var "i"))) (privWord "all" (.var "i"))),
     .semi (.assign (privWord "chain" (.var "i")) (.var "new")),
     .semi (.assignOp .add (.var "i") (.lit 1))])),
   .tail (.var "chain")]

/-- The bodies of `const_only`, `const_union`, `const_intersection`, `const_symmetric_difference` and
`const_complement`. -/
def helperBody (vs : List EnumSetValue) (r : InternalRepr) : String → List Stmt
  | "const_only" => match r with
    | .array n => arrayOnly n
    | r => primOnly vs (reprTy r)
  | "const_complement" => match r with
    | .array n => arrayComplement n
    | _ => primComplement
  | "const_union" => match r with
    | .array n => arrayBin .bor n
    | _ => primBin .bor
  | "const_intersection" => match r with
    | .array n => arrayBin .band n
    | _ => primBin .band
  | _ => match r with
    | .array n => arrayBin .bxor n
    | _ => primBin .bxor

/-- The inherent functions. -/
def inherentItems (vs : List EnumSetValue) (r : InternalRepr) : List Item :=
  [.impl "" [] (.name "T" []) [.fn "__impl_enumset_internal__const_only" (onlyDecl (helperBody vs r "const_only"))],
   .impl "" [] (.name "__EnumSetConstHelper" [])
    [.fn "const_union" (helperDecl (helperBody vs r "const_union")),
     .fn "const_intersection" (helperDecl (helperBody vs r "const_intersection")),
     .fn "const_symmetric_difference" (helperDecl (helperBody vs r "const_symmetric_difference")),
     .fn "const_complement" (complementDecl (helperBody vs r "const_complement"))]]

theorem toExpr_mask (info : EnumSetInfo) :
    toExpr (maskTok info) = maskExpr info.variants (reprTy info.internal_repr) := by
  unfold maskTok
  rw [← toTy_repr]
  cases info.variants <;> rfl

theorem inherentTok_items (info : EnumSetInfo) :
    toItems (inherentTok "T" info) = inherentItems info.variants info.internal_repr := by
  unfold inherentTok
  split
  · rename_i n h
    rw [h]; rfl
  · rename_i h
    have e : ∀ m, toItems (t26.quote [nameTok "T", m]) = [.impl "" [] (.name "T" []) [.fn "__impl_enumset_internal__const_only" (onlyDecl [.tail (mkSet (toExpr m))])],
      .impl "" [] (.name "__EnumSetConstHelper" [])
    [.fn "const_union" (helperDecl (primBin .bor)),
     .fn "const_intersection" (helperDecl (primBin .band)),
     .fn "const_symmetric_difference" (helperDecl (primBin .bxor)),
     .fn "const_complement" (complementDecl primComplement)]] := fun _ => rfl
    rw [e, toExpr_mask]
    cases h' : info.internal_repr <;> first | rfl | exact absurd h' (h _)

/-- A function without parameters, which stands for a constant. -/
def constDecl (t : Ty) (body : List Stmt) : FnDecl := ⟨[], [], [], t, body⟩

section
variable [Platform]

/-- The functions for serde. -/
def serdeItems (info : EnumSetInfo) : List Item := toItems (serdeTok "T" info)

/-- `impl EnumSetTypePrivate for T` -/
def privateItems (info : EnumSetInfo) : List Item :=
  [.type "ConstHelper" (.name "__EnumSetConstHelper" []),
   .fn "CONST_HELPER_INSTANCE" (constDecl (.name "__EnumSetConstHelper" [])
    [.tail (.struct "__EnumSetConstHelper" [] [])]),
   .type "Repr" (reprTy info.internal_repr),
   .fn "ALL_BITS" (constDecl (.name "Self::Repr" []) [.tail (allExpr info.variant_map info.internal_repr)]),
   .fn "BIT_WIDTH" (constDecl (.name "u32" []) [.tail (.int .u32 (info.max_discrim + 1))]),
   .fn "VARIANT_COUNT" (constDecl (.name "u32" []) [.tail (.int .u32 (castW 32 info.variants.length))]),
   .fn "enum_into_u32" (intoDecl info.variants), .fn "enum_from_u32" (fromDecl info.variants)] ++ serdeItems info

/-- The items the derive macro writes. -/
theorem genTok_items (info : EnumSetInfo) (ws : List (Span × String)) : toItems (genTok "T" info ws) =
    [.struct "__EnumSetConstHelper",
     .impl "" [] (.name "T" []) [.fn "__impl_enumset_internal__const_helper"
      (⟨[], [], [("self", .name "Self" [])], .name "__EnumSetConstHelper" [],
        [.tail (.struct "__EnumSetConstHelper" [] [])]⟩)],
     .impl "EnumSetTypePrivate" [] (.name "T" []) (privateItems info),
     .impl "EnumSetType" [] (.name "T" []) []] ++
    (toItems (withReprTok "T" info) ++ (toItems (superTok "T" info) ++ (toItems (opsTok "T" info) ++
      (toItems (inherentTok "T" info) ++
        [.fn "__enumset_derive__generated_warnings" (constDecl (.tuple []) (warnStmts ws))])))) := by
  have e : ∀ r a bw vc i sd wr s o ih ws, toItems (t29.quote [nameTok "T", r, a, .int .u32 bw, .int .u32 vc, i, sd,
      wr, s, o, ih, .host "TokenStream" (.stmts ws)]) =
    [.struct "__EnumSetConstHelper",
     .impl "" [] (.name "T" []) [.fn "__impl_enumset_internal__const_helper"
      (⟨[], [], [("self", .name "Self" [])], .name "__EnumSetConstHelper" [],
        [.tail (.struct "__EnumSetConstHelper" [] [])]⟩)],
     .impl "EnumSetTypePrivate" [] (.name "T" []) ([.type "ConstHelper" (.name "__EnumSetConstHelper" []),
   .fn "CONST_HELPER_INSTANCE" (constDecl (.name "__EnumSetConstHelper" [])
    [.tail (.struct "__EnumSetConstHelper" [] [])]),
   .type "Repr" (toTy r),
   .fn "ALL_BITS" (constDecl (.name "Self::Repr" []) [.tail (toExpr a)]),
   .fn "BIT_WIDTH" (constDecl (.name "u32" []) [.tail (.int .u32 bw)]),
   .fn "VARIANT_COUNT" (constDecl (.name "u32" []) [.tail (.int .u32 vc)])] ++ (toItems i ++ toItems sd)),
     .impl "EnumSetType" [] (.name "T" []) []] ++
    (toItems wr ++ (toItems s ++ (toItems o ++
      (toItems ih ++
        [.fn "__enumset_derive__generated_warnings" (constDecl (.tuple []) ws)])))) := by
    intros
    simp [t29, Tmpl.quote, toItems, Code.subst, Item.substs, Item.subst, FnDecl.subst, Stmt.substs, Expr.subst,
      Stmt.subst, Stmt.rows, lookup, nameTok, ident, Ty.subst, toTy, toExpr, toStmts, constDecl, Expr.substs, Ty.substs, Sub.name]
  rw [genTok, genArgs, e, toTy_repr, toExpr_all, intoTok_items]
  rfl

/-! ### functions -/

/-- The items of a derived enum. -/
abbrev genItems (info : EnumSetInfo) (ws : List (Span × String)) : List Item := toItems (genTok "T" info ws)

/-- `__impl_enumset_internal__const_helper` -/
def helperFnDecl : FnDecl :=
  ⟨[], [], [("self", .name "Self" [])], .name "__EnumSetConstHelper" [], [.tail (.struct "__EnumSetConstHelper" [] [])]⟩

/-- The functions that are always there. -/
def coreFns (info : EnumSetInfo) : List ((String × String) × FnDecl) :=
  [(("T", "__impl_enumset_internal__const_helper"), helperFnDecl),
   (("T", "CONST_HELPER_INSTANCE"), constDecl (.name "__EnumSetConstHelper" [])
    [.tail (.struct "__EnumSetConstHelper" [] [])]),
   (("T", "ALL_BITS"), constDecl (.name "Self::Repr" []) [.tail (allExpr info.variant_map info.internal_repr)]),
   (("T", "BIT_WIDTH"), constDecl (.name "u32" []) [.tail (.int .u32 (info.max_discrim + 1))]),
   (("T", "VARIANT_COUNT"), constDecl (.name "u32" []) [.tail (.int .u32 (castW 32 info.variants.length))]),
   (("T", "enum_into_u32"), intoDecl info.variants), (("T", "enum_from_u32"), fromDecl info.variants)]
/-- `eq` and `clone` -/
def superFns (vs : List EnumSetValue) : List ((String × String) × FnDecl) :=
  [(("T", "eq"), eqDecl vs), (("T", "clone"), cloneDecl)]
/-- The operators. -/
def opsFns : List ((String × String) × FnDecl) :=
  [(("T", "sub"), opDecl .sub), (("T", "bitand"), opDecl .band), (("T", "bitor"), opDecl .bor),
   (("T", "bitxor"), opDecl .bxor), (("T", "not"), notDecl), (("T", "eq_set"), eqSetDecl)]
/-- The inherent functions. -/
def inherentFns (vs : List EnumSetValue) (r : InternalRepr) : List ((String × String) × FnDecl) :=
  [(("T", "__impl_enumset_internal__const_only"), onlyDecl (helperBody vs r "const_only")),
   (("__EnumSetConstHelper", "const_union"), helperDecl (helperBody vs r "const_union")),
   (("__EnumSetConstHelper", "const_intersection"), helperDecl (helperBody vs r "const_intersection")),
   (("__EnumSetConstHelper", "const_symmetric_difference"), helperDecl (helperBody vs r "const_symmetric_difference")),
   (("__EnumSetConstHelper", "const_complement"), complementDecl (helperBody vs r "const_complement"))]

/-- The functions for serde. -/
def serdeFns (info : EnumSetInfo) : List ((String × String) × FnDecl) := implFns [] "T" (serdeItems info)

/-- Their names. -/
def serdeNames : List String := ["serialize", "deserialize", "expecting", "visit_seq", "visit_map"]

theorem serdeFns_names (info : EnumSetInfo) : ((serdeFns info).all fun p => serdeNames.contains p.1.2) = true := by
  unfold serdeFns serdeItems serdeTok
  split
  · unfold serdeOnTok
    split <;> rfl
  · rfl

theorem serdeFns_none {info : EnumSetInfo} {k : String × String} (h : serdeNames.contains k.2 = false) :
    (serdeFns info).lookup k = none := by
  have e := serdeFns_names info
  generalize serdeFns info = l at e
  induction l with
  | nil => rfl
  | cons x l ih =>
    simp only [List.all_cons, Bool.and_eq_true] at e
    obtain ⟨x, d⟩ := x
    rw [List.lookup_cons]
    have : (k == x) = false := by
      rw [beq_eq_false_iff_ne]
      rintro rfl
      rw [h] at e; exact absurd e.1 (by decide)
    rw [this]
    exact ih e.2

/-- The structs in the functions for serde. -/
def serdeStructs (info : EnumSetInfo) : List String := implStructs (serdeItems info)

theorem serdeStructs_eq (info : EnumSetInfo) : serdeStructs info =
    if Platform.serde = true ∧ info.serde_repr.numTy = none then ["Visitor"] else [] := by
  unfold serdeStructs serdeItems serdeTok
  cases Platform.serde
  · rfl
  · simp only [if_true, true_and, serdeOnTok]
    cases info.serde_repr <;> rfl

theorem genFns (info : EnumSetInfo) (ws : List (Span × String)) : itemFns (genItems info ws) =
    coreFns info ++ (serdeFns info ++ ((if info.no_super_impls then [] else superFns info.variants) ++
      ((if info.no_ops then [] else opsFns) ++ (inherentFns info.variants info.internal_repr ++
        [(("crate", "__enumset_derive__generated_warnings"), constDecl (.tuple []) (warnStmts ws))])))) := by
  have e : itemFns [.struct "__EnumSetConstHelper",
     .impl "" [] (.name "T" []) [.fn "__impl_enumset_internal__const_helper" helperFnDecl],
     .impl "EnumSetTypePrivate" [] (.name "T" []) (privateItems info),
     .impl "EnumSetType" [] (.name "T" []) []] = coreFns info ++ serdeFns info := by
    show _ :: (implFns [] "T" (privateItems info) ++ []) = _
    rw [List.append_nil]; rfl
  rw [genItems, genTok_items, itemFns_append, itemFns_append, itemFns_append, itemFns_append, itemFns_append,
    withReprTok_items, superTok_items, opsTok_items, inherentTok_items]
  refine (congrArg (· ++ _) e).trans ?_
  rw [List.append_assoc]
  cases info.no_super_impls <;> cases info.no_ops <;> cases info.explicit_internal_repr.isSome <;> rfl

theorem gen_lookup_core {info : EnumSetInfo} (ws : List (Span × String)) {k : String × String} {d : FnDecl}
    (h : (coreFns info).lookup k = some d) : (itemFns (genItems info ws)).lookup k = some d := by
  rw [genFns, lookup_append, h]
theorem gen_lookup_super {info : EnumSetInfo} (ws : List (Span × String)) {k : String × String} {d : FnDecl}
    (hs : info.no_super_impls = false)
    (hc : (coreFns info).lookup k = none) (h : (superFns info.variants).lookup k = some d)
    (hd : serdeNames.contains k.2 = false := by rfl) :
    (itemFns (genItems info ws)).lookup k = some d := by
  rw [genFns, lookup_append, hc, lookup_append, serdeFns_none hd, lookup_append, hs]
  simp [h]
theorem gen_lookup_ops {info : EnumSetInfo} (ws : List (Span × String)) {k : String × String} {d : FnDecl}
    (hs : info.no_ops = false)
    (hc : (coreFns info).lookup k = none) (hn : (superFns info.variants).lookup k = none)
    (h : opsFns.lookup k = some d) (hd : serdeNames.contains k.2 = false := by rfl) :
    (itemFns (genItems info ws)).lookup k = some d := by
  rw [genFns, lookup_append, hc, lookup_append, serdeFns_none hd, lookup_append, lookup_append, hs]
  cases info.no_super_impls <;> simp [h, hn]
theorem gen_lookup_inherent {info : EnumSetInfo} (ws : List (Span × String)) {k : String × String} {d : FnDecl}
    (hc : (coreFns info).lookup k = none) (hn : (superFns info.variants).lookup k = none)
    (ho : opsFns.lookup k = none) (h : (inherentFns info.variants info.internal_repr).lookup k = some d)
    (hd : serdeNames.contains k.2 = false := by rfl) :
    (itemFns (genItems info ws)).lookup k = some d := by
  rw [genFns, lookup_append, hc, lookup_append, serdeFns_none hd, lookup_append, lookup_append, lookup_append]
  cases info.no_super_impls <;> cases info.no_ops <;> simp [h, hn, ho]

theorem gen_lookup_serde {info : EnumSetInfo} (ws : List (Span × String)) {k : String × String} {d : FnDecl}
    (hc : (coreFns info).lookup k = none) (h : (serdeFns info).lookup k = some d) :
    (itemFns (genItems info ws)).lookup k = some d := by
  rw [genFns, lookup_append, hc, lookup_append, h]
theorem gen_lookup_none {info : EnumSetInfo} (ws : List (Span × String)) {k : String × String}
    (hc : (coreFns info).lookup k = none) (hn : (superFns info.variants).lookup k = none)
    (ho : opsFns.lookup k = none) (h : (inherentFns info.variants info.internal_repr).lookup k = none)
    (hw : (k == ("crate", "__enumset_derive__generated_warnings")) = false)
    (hd : (serdeFns info).lookup k = none) : (itemFns (genItems info ws)).lookup k = none := by
  rw [genFns, lookup_append, hc, lookup_append, hd, lookup_append, lookup_append, lookup_append]
  cases info.no_super_impls <;> cases info.no_ops <;> simp [h, hn, ho, List.lookup, hw]

theorem gen_all_structs (info : EnumSetInfo) (ws : List (Span × String)) :
    itemStructs (genItems info ws) = "__EnumSetConstHelper" :: serdeStructs info := by
  have ha : ∀ l m : List Item, itemStructs (l ++ m) = itemStructs l ++ itemStructs m := by
    intro l m
    induction l with
    | nil => rfl
    | cons x l ih => cases x <;> simp [itemStructs, ih]
  have e : itemStructs [.struct "__EnumSetConstHelper",
     .impl "" [] (.name "T" []) [.fn "__impl_enumset_internal__const_helper" helperFnDecl],
     .impl "EnumSetTypePrivate" [] (.name "T" []) (privateItems info),
     .impl "EnumSetType" [] (.name "T" []) []] = "__EnumSetConstHelper" :: serdeStructs info := by
    show _ :: (implStructs (privateItems info) ++ []) = _
    rw [List.append_nil]; rfl
  rw [genItems, genTok_items, ha, ha, ha, ha, ha,
    withReprTok_items, superTok_items, opsTok_items, inherentTok_items]
  refine (congrArg (· ++ _) e).trans (Eq.trans (congrArg (fun l => ("__EnumSetConstHelper" :: serdeStructs info) ++ l) ?_) (List.append_nil _))
  cases info.no_super_impls <;> cases info.no_ops <;> cases info.explicit_internal_repr.isSome <;> rfl

theorem gen_structs (info : EnumSetInfo) (ws : List (Span × String)) {s : String} (h : (s == "Visitor") = false) :
    (itemStructs (genItems info ws)).contains s = (s == "__EnumSetConstHelper") := by
  rw [gen_all_structs, serdeStructs_eq]
  split <;> simp_all [BEq.beq]
theorem gen_structs_helper (info : EnumSetInfo) (ws : List (Span × String)) :
    (itemStructs (genItems info ws)).contains "__EnumSetConstHelper" = true := gen_structs info ws rfl
theorem gen_structs_mem (info : EnumSetInfo) (ws : List (Span × String)) :
    "__EnumSetConstHelper" ∈ itemStructs (genItems info ws) := by
  simpa using gen_structs_helper info ws

theorem gen_assoc (info : EnumSetInfo) (ws : List (Span × String)) :
    assocType "EnumSetTypePrivate" "Repr" (genItems info ws) = some (reprTy info.internal_repr) := by
  rw [genItems, genTok_items]; rfl

end

/-! ### running generated functions -/

theorem enum_fnDecl (f : String) : fnDecl "enum T" f = none := by
  have h : ∀ l : List ((String × String) × FnDecl), (l.all fun p => p.1.1 != "enum T") = true →
      l.lookup ("enum T", f) = none := by
    intro l hl
    induction l with
    | nil => rfl
    | cons x l ih =>
      simp only [List.all_cons, Bool.and_eq_true, bne_iff_ne] at hl
      obtain ⟨⟨a, b⟩, d⟩ := x
      rw [List.lookup_cons]
      have : (("enum T", f) == (a, b)) = false := by
        simp only [beq_eq_false_iff_ne, ne_eq, Prod.mk.injEq, not_and]
        intro e; exact absurd e.symm hl.1
      rw [this]
      exact ih hl.2
  exact h _ (by decide)
theorem enum_derived {H : Type} (f : String) : derivedFn (H := H) derives "enum T" f = none := by
  unfold derivedFn
  have : ∀ tr, ((NumTy.ofName "enum T").isSome || derives "enum T" tr) = false := fun _ => rfl
  simp only [this]
  split <;> rfl

section
variable [Platform] {n : Nat} {G : Gen n}

/-- A call of a generated function. -/
theorem gen_call {ty f : String} {d : FnDecl} (k j : Nat) (caller : Env (Fin n)) (consts args : List (Val (Fin n)))
    (h : fnDecl ty f = none) (hd : derivedFn (H := Fin n) derives ty f = none) (he : G.enum.fn ty f = none)
    (hl : (itemFns G.items).lookup (ty, f) = some d) (env : Env (Fin n) := [])
    (hx : G.extra f = env := by rfl) :
    (G.toProg (k + 1)).call j ty f caller consts args =
      d.fn (G.ctx ty ((G.toProg k).link k)) env caller consts args := by
  subst hx
  refine base_call (fn := d.fn (G.ctx ty ((G.prog (G.base k)).link k)) (G.extra f)) j caller consts args h hd ?_
  show G.base (k + 1) ty f = _
  rw [Gen.base, he, hl]

/-- A call of something that belongs to the enum. -/
theorem enum_call {ty f : String} {fn : Fn (Fin n)} (k j : Nat) (caller : Env (Fin n))
    (consts args : List (Val (Fin n)))
    (h : fnDecl ty f = none) (hd : derivedFn (H := Fin n) derives ty f = none) (he : G.enum.fn ty f = some fn) :
    (G.toProg k).call j ty f caller consts args = fn caller consts args := by
  refine base_call j caller consts args h hd ?_
  show G.base k ty f = _
  cases k with
  | zero => exact he
  | succ k => rw [Gen.base, he]

theorem enum_discriminant (k j : Nat) (caller : Env (Fin n)) (cs : List (Val (Fin n))) (i : Fin n) :
    (G.toProg k).call j "T" "discriminant" caller cs [.host "T" i] = .ok (.lit (G.enum.discr i), []) :=
  enum_call (fn := fun _ _ args => match args with
    | [.host _ i] => .ok (.lit (G.enum.discr i), [])
    | _ => .ub) k j caller cs _ rfl rfl rfl
theorem enum_size (k j : Nat) (caller : Env (Fin n)) :
    (G.toProg k).call j "size_of" "enum T" caller [] [] = .ok (.int .usize G.enum.size, []) :=
  enum_call (fn := fun _ _ _ => .ok (.int .usize G.enum.size, [])) k j caller [] _ rfl rfl rfl
theorem enum_transmute (k j : Nat) (caller : Env (Fin n)) (t : NumTy) (x : Nat) :
    (G.toProg k).call j "transmute" "enum T" caller [] [.int t x] =
      G.enum.read t x >>= fun i => .ok (.host "T" i, []) :=
  enum_call (fn := fun _ _ args => match args with
    | [.int t x] => G.enum.read t x >>= fun i => .ok (.host "T" i, [])
    | _ => .ub) k j caller [] _ rfl rfl rfl
theorem enum_variant (hn : ∀ i j, G.enum.name i = G.enum.name j → i = j) (k j : Nat) (caller : Env (Fin n))
    (i : Fin n) : (G.toProg k).call j "enum T" (G.enum.name i) caller [] [] = .ok (.host "T" i, []) := by
  refine enum_call (fn := fun _ _ _ => .ok (.host "T" i, [])) k j caller [] _ (enum_fnDecl _) (enum_derived _) ?_
  simp only [EnumDef.fn, if_true]
  have : (List.finRange n).find? (fun j => G.enum.name j == G.enum.name i) = some i := by
    cases h : (List.finRange n).find? (fun j => G.enum.name j == G.enum.name i) with
    | none => exact absurd (List.find?_eq_none.1 h i (List.mem_finRange i)) (by simp)
    | some j => rw [hn j i (by simpa using List.find?_some h)]
  rw [this]; rfl
theorem no_unreachable (k j : Nat) (he : G.enum.fn "T" "unreachable_unchecked" = none)
    (hl : (itemFns G.items).lookup ("T", "unreachable_unchecked") = none) (caller : Env (Fin n)) :
    (G.toProg k).call j "T" "unreachable_unchecked" caller [] [] = .ub := by
  have hb : ∀ k, G.base k "T" "unreachable_unchecked" = none := by
    intro k
    cases k with
    | zero => exact he
    | succ k => rw [Gen.base, he, hl]; rfl
  have ho : (G.toProg k).other "T" "unreachable_unchecked" = none := by
    have hd : derivedFn (H := Fin n) derives "T" "unreachable_unchecked" = none := rfl
    rw [Prog.other, hd]; exact hb k
  have hf : fnDecl "T" "unreachable_unchecked" = none := rfl
  cases j with
  | zero => rw [Prog.call, Prog.link, ho]; rfl
  | succ j => rw [Prog.call, Prog.link, hf]; show need ((G.toProg k).other _ _) >>= _ = _; rw [ho]; rfl

variable {self : String} {fns : String → String → Option (Fn (Fin n))}
theorem gctx_fuel : (G.ctx self fns).fuel = G.fuel := rfl
theorem gctx_self : (G.ctx self fns).self = self := rfl
theorem gctx_alias (s : String) : (G.ctx self fns).alias s =
    if s = "T" then "enum T" else if s = "T::Repr" then G.repr.head else s := rfl
theorem gctx_ty (s : String) : (G.ctx self fns).ty s =
    NumTy.ofName (if s = "Self::Repr" ∨ s = "T::Repr" then G.repr.head else s) := rfl
theorem gctx_structs (s : String) : (G.ctx self fns).structs s =
    match structDecl s with
    | some d => some d
    | none => if (itemStructs G.items).contains s then some ⟨[], [], []⟩ else none := rfl
theorem gctx_call {k : Nat} {t f : String} {env : Env (Fin n)} {cs vs : List (Val (Fin n))} :
    (G.ctx self ((G.toProg k).link k)).call t f env cs vs = (G.toProg k).call k t f env cs vs := rfl
theorem sd_not_helper : structDecl "__EnumSetConstHelper" = none := rfl

end
end Enumset.Src
