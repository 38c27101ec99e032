import Verif.Props.SrcGenFns
/-!
# C72: the code the derive macro writes, run together with the crate

The items that the text of the derive macro returns are a program in the same language as the three
source files.  Linked with them and with the enum they are for (Src/GenProg.lean) they are what C68 and
C69 assume of the enum.
-/
set_option autoImplicit false
set_option linter.unusedSimpArgs false
set_option linter.unusedSectionVars false
set_option maxRecDepth 10000

namespace Enumset.Src

/-- The functions the derive macro writes, besides those of `EnumItems`, are those of the model. -/
structure GenFns [Platform] {H : Type} (P : Prog H) (T : EnumSetType) (enc : T.Repr → Val H) (encV : T.Val → H) :
    Prop where
  const_helper : ∀ j env v, P.call j "T" "__impl_enumset_internal__const_helper" env [] [.host "T" (encV v)] =
    .ok (helperVal, [])
  CONST_HELPER_INSTANCE : ∀ j env, P.call j "T" "CONST_HELPER_INSTANCE" env [] [] = .ok (helperVal, [])
  const_only : ∀ j env v, P.call j "T" "__impl_enumset_internal__const_only" env [] [.host "T" (encV v)] =
    T.const_only v >>= fun r => .ok (setOf enc ⟨r⟩, [])
  const_union : ∀ j env a b, P.call j "__EnumSetConstHelper" "const_union" env []
    [helperVal, setOf enc ⟨a⟩, setOf enc ⟨b⟩] = T.const_union a b >>= fun r => .ok (setOf enc ⟨r⟩, [])
  const_intersection : ∀ j env a b, P.call j "__EnumSetConstHelper" "const_intersection" env []
    [helperVal, setOf enc ⟨a⟩, setOf enc ⟨b⟩] = T.const_intersection a b >>= fun r => .ok (setOf enc ⟨r⟩, [])
  const_symmetric_difference : ∀ j env a b,
    P.call j "__EnumSetConstHelper" "const_symmetric_difference" env []
      [helperVal, setOf enc ⟨a⟩, setOf enc ⟨b⟩] =
        T.const_symmetric_difference a b >>= fun r => .ok (setOf enc ⟨r⟩, [])
  const_complement : ∀ j env a, P.call j "__EnumSetConstHelper" "const_complement" env []
    [helperVal, setOf enc ⟨a⟩] = T.const_complement a >>= fun r => .ok (setOf enc ⟨r⟩, [])
  eq : T.superImpls = true → ∀ j env v w, P.call j "T" "eq" env [] [.host "T" (encV v), .host "T" (encV w)] =
    T.val_eq v w >>= fun b => .ok (.bool b, [])
  clone : T.superImpls = true → ∀ j env v,
    P.call j "T" "clone" env [] [.host "T" (encV v)] = .ok (.host "T" (encV v), [])
  sub : T.ops = true → ∀ j env v o, P.call j "T" "sub" env [] [.host "T" (encV v), operandOf enc encV o] =
    EnumVal.sub v o >>= fun r => .ok (setOf enc r, [])
  bitand : T.ops = true → ∀ j env v o, P.call j "T" "bitand" env [] [.host "T" (encV v), operandOf enc encV o] =
    EnumVal.bitand v o >>= fun r => .ok (setOf enc r, [])
  bitor : T.ops = true → ∀ j env v o, P.call j "T" "bitor" env [] [.host "T" (encV v), operandOf enc encV o] =
    EnumVal.bitor v o >>= fun r => .ok (setOf enc r, [])
  bitxor : T.ops = true → ∀ j env v o, P.call j "T" "bitxor" env [] [.host "T" (encV v), operandOf enc encV o] =
    EnumVal.bitxor v o >>= fun r => .ok (setOf enc r, [])
  not : T.ops = true → ∀ j env v, P.call j "T" "not" env [] [.host "T" (encV v)] =
    EnumVal.not v >>= fun r => .ok (setOf enc r, [])
  eq_set : T.ops = true → ∀ j env v s, P.call j "T" "eq_set" env [] [.host "T" (encV v), setOf enc s] =
    EnumVal.eq_set v s >>= fun b => .ok (.bool b, [])

section
variable [Platform] {info : EnumSetInfo} {ws : List (Span × String)} {E : EnumDef info.variants.length} {fuel : Nat}
  {lib : SerdeLib info.variants.length}

theorem gen_ops_lookup (ws : List (Span × String)) (h : (!info.no_ops) = true) {f : String} {d : FnDecl}
    (hc : (coreFns info).lookup ("T", f) = none) (hn : (superFns info.variants).lookup ("T", f) = none)
    (hl : opsFns.lookup ("T", f) = some d) (hd : serdeNames.contains f = false := by rfl) :
    (itemFns (genItems info ws)).lookup ("T", f) = some d :=
  gen_lookup_ops ws (by simpa using h) hc hn hl hd

theorem gen_fns_prim {t : NumTy} (hr : numOf info.internal_repr = some t)
    {discr : Fin info.variants.length → Nat} (hd : E.discr = discr)
    (k : Nat) (S : Storage ((genOf info ws E fuel lib).toProg (k + 9)) (Prim t.bits (pal t)) (fun r => bv t r.v) (primIterOf t) (fun _ => True))
    (I : EnumItems ((genOf info ws E fuel lib).toProg (k + 9)) (genPrim t.bits (pal t) info.variants.length discr
        (fun i => info.variants[i].variant_repr) (litOf info.variant_map info.internal_repr)
        (info.max_discrim + 1) info) (fun r => bv t r.v) id) :
    GenFns ((genOf info ws E fuel lib).toProg (k + 10)) (genPrim t.bits (pal t) info.variants.length discr
        (fun i => info.variants[i].variant_repr) (litOf info.variant_map info.internal_repr)
        (info.max_discrim + 1) info) (fun r => bv t r.v) id := by
  subst hd
  exact {
    const_helper := fun j env v => gen_helper (k + 9) j env v
    CONST_HELPER_INSTANCE := fun j env => gen_instance (k + 9) j env
    const_only := fun j env v => by
      refine (gen_only_prim hr (k + 9) j env v).trans ?_
      simp only [genPrim, map_eq, bind_assoc, Res.ok_bind]; rfl
    const_union := fun j env a b => gen_bin_prim hr (.inl ⟨rfl, rfl⟩) (k + 9) j env a.v b.v
    const_intersection := fun j env a b => gen_bin_prim hr (.inr (.inl ⟨rfl, rfl⟩)) (k + 9) j env a.v b.v
    const_symmetric_difference := fun j env a b => gen_bin_prim hr (.inr (.inr ⟨rfl, rfl⟩)) (k + 9) j env a.v b.v
    const_complement := fun j env a => gen_complement_prim hr (k + 9) j (fun env => C68_all S I (k + 4) env) env a.v
    eq := fun h j env v w => gen_eq (by simpa [genPrim] using h) (k + 9) j env v w
    clone := fun h j env v => gen_clone (by simpa [genPrim] using h) (k + 9) j env v
    sub := fun h j env v o => gen_sub S I (gen_ops_lookup ws h rfl rfl rfl) j env v o
    bitand := fun h j env v o => gen_bitand S I (gen_ops_lookup ws h rfl rfl rfl) j env v o
    bitor := fun h j env v o => gen_bitor S I (gen_ops_lookup ws h rfl rfl rfl) j env v o
    bitxor := fun h j env v o => gen_bitxor S I (gen_ops_lookup ws h rfl rfl rfl) j env v o
    not := fun h j env v => gen_not S I (gen_ops_lookup ws h rfl rfl rfl) j env v
    eq_set := fun h j env v s => gen_eq_set S I (gen_ops_lookup ws h rfl rfl rfl) j env v s }

theorem gen_fns_array {size : Nat} (hr : info.internal_repr = .array size) (hN : size < 2 ^ usizeBits) (hf : size < fuel)
    {discr : Fin info.variants.length → Nat} (hd : E.discr = discr)
    (k : Nat) (S : Storage ((genOf info ws E fuel lib).toProg (k + 9)) (ArrayRepr size) arrayRepr arrayIter (fun i => i.idx_r + 1 - i.idx_f < fuel))
    (I : EnumItems ((genOf info ws E fuel lib).toProg (k + 9)) (genArray size info.variants.length discr
        (fun i => info.variants[i].variant_repr)
        (Vector.ofFn fun i : Fin size => info.variant_map.getD i.val 0)
        (info.max_discrim + 1) info) arrayRepr id) :
    GenFns ((genOf info ws E fuel lib).toProg (k + 10)) (genArray size info.variants.length discr
        (fun i => info.variants[i].variant_repr)
        (Vector.ofFn fun i : Fin size => info.variant_map.getD i.val 0)
        (info.max_discrim + 1) info) arrayRepr id := by
  subst hd
  exact {
    const_helper := fun j env v => gen_helper (k + 9) j env v
    CONST_HELPER_INSTANCE := fun j env => gen_instance (k + 9) j env
    const_only := fun j env v => gen_only_array hr (k + 9) j env v
    const_union := fun j env a b => gen_bin_array hr hN hf (.inl ⟨rfl, rfl⟩) (k + 9) j env a b
    const_intersection := fun j env a b => gen_bin_array hr hN hf (.inr (.inl ⟨rfl, rfl⟩)) (k + 9) j env a b
    const_symmetric_difference := fun j env a b => gen_bin_array hr hN hf (.inr (.inr ⟨rfl, rfl⟩)) (k + 9) j env a b
    const_complement := fun j env a =>
      gen_complement_array hr hN hf (k + 9) j (fun env => C68_all S I (k + 4) env) env a
    eq := fun h j env v w => gen_eq (by simpa [genArray] using h) (k + 9) j env v w
    clone := fun h j env v => gen_clone (by simpa [genArray] using h) (k + 9) j env v
    sub := fun h j env v o => gen_sub S I (gen_ops_lookup ws h rfl rfl rfl) j env v o
    bitand := fun h j env v o => gen_bitand S I (gen_ops_lookup ws h rfl rfl rfl) j env v o
    bitor := fun h j env v o => gen_bitor S I (gen_ops_lookup ws h rfl rfl rfl) j env v o
    bitxor := fun h j env v o => gen_bitxor S I (gen_ops_lookup ws h rfl rfl rfl) j env v o
    not := fun h j env v => gen_not S I (gen_ops_lookup ws h rfl rfl rfl) j env v
    eq_set := fun h j env v s => gen_eq_set S I (gen_ops_lookup ws h rfl rfl rfl) j env v s }

/-- Everything C68 and C69 assume of a derived enum. -/
def Derived {T : EnumSetType} (P : Prog T.Val) : Prop :=
  ∃ enc encI okI, Storage P T.Repr enc encI okI ∧ EnumItems P T enc id ∧ GenFns P T enc id

theorem gen_of_exact {discr : Fin info.variants.length → Nat} {T : EnumSetType} (hx : GenExact info discr T)
    (E : EnumDef T.n) (lib : SerdeLib T.n) (hd : ∀ i, E.discr i = T.discr i)
    (hname : ∀ i : Fin T.n, (info.variants[i.val]?).map (·.name) = some (E.name i))
    (hn : ∀ i j, E.name i = E.name j → i = j) (hu : ∀ t x, E.read t x = .ub)
    (hs : ∀ size, info.internal_repr = .array size → 0 < size ∧ size < 2 ^ usizeBits ∧ size < fuel) (k : Nat) :
    Derived (T := T) ((Gen.mk (genItems info ws) E fuel lib).toProg (k + 10)) := by
  cases hx with
  | prim t hr hl =>
    have hE : ∀ i : Fin info.variants.length, E.name i = info.variants[i].name := fun i => by
      have := hname i
      rw [List.getElem?_eq_getElem i.isLt] at this
      simpa using this.symm
    have S := fun k => gen_storage_prim (ws := ws) (E := E) (fuel := fuel) (lib := lib) hr k
    have I := fun k => gen_items_prim (ws := ws) (E := E) (fuel := fuel) (lib := lib) hr hl hE hn hu (funext hd) k
    exact ⟨_, _, _, S (k + 10), I (k + 9), gen_fns_prim hr (funext hd) k (S (k + 9)) (I (k + 8))⟩
  | array size hr =>
    have hE : ∀ i : Fin info.variants.length, E.name i = info.variants[i].name := fun i => by
      have := hname i
      rw [List.getElem?_eq_getElem i.isLt] at this
      simpa using this.symm
    obtain ⟨h0, h1, h2⟩ := hs size hr
    have S := fun k => gen_storage_array (ws := ws) (E := E) (fuel := fuel) (lib := lib) hr h0 h1 h2 k
    have I := fun k => gen_items_array (ws := ws) (E := E) (fuel := fuel) (lib := lib) hr hE hn hu (funext hd) k
    exact ⟨_, _, _, S (k + 10), I (k + 9), gen_fns_array hr h1 h2 (funext hd) k (S (k + 9)) (I (k + 8))⟩

/-- The code written for an accepted item, linked with the crate and the enum, is a program to which C68
and C69 apply, and its functions are those of the model.  Reading a number as a value of the enum, which
the generated code does for numbers that are no discriminant, counts as undefined behaviour (`hu`) here as
in the model; C72_from is without this convention. -/
theorem C72_items {inp : DeriveInput} {T : EnumSetType} (hT : derive inp = .ok T) (hfit : Fits T)
    (hi : deriveInfo inp = .ok info) {E : EnumDef T.n} {lib : SerdeLib T.n} (hE : E.Of inp)
    (hu : ∀ t x, E.read t x = .ub) (hfuel : T.BIT_WIDTH < fuel) (k : Nat) :
    Derived (T := T) ((Gen.mk (genItems info ws) E fuel lib).toProg (k + 10)) := by
  have hok := deriveInfo_ok hi
  obtain ⟨hnames, hnodup⟩ := deriveInfo_names hi
  have hx : GenExact info _ T := impl_exact (by rw [derive, hi] at hT; exact hT)
  have hbw : T.BIT_WIDTH = info.max_discrim + 1 := by cases hx <;> rfl
  have hdT : ∀ i : Fin T.n, T.discr i = ((rustcDiscriminants inp.variants).getD i.val 0).toNat := by
    intro i; cases hx <;> rfl
  have hname : ∀ i : Fin T.n, (info.variants[i.val]?).map (·.name) = some (E.name i) := by
    intro i
    rw [← hE.name i, ← List.getElem?_map, hnames, List.getElem?_map]
  refine gen_of_exact hx E lib ?_ hname ?_ hu ?_ k
  · intro i
    rw [hdT, List.getD_eq_getElem?_getD, hE.discr i]; simp
  · intro i j h
    have hi' := hE.name i
    have hj' := hE.name j
    rw [h, ← hj', ← List.getElem?_map, ← List.getElem?_map] at hi'
    have hlen : i.val < (inp.variants.map (·.ident)).length := by
      rw [List.length_map, ← hE.count]; exact i.isLt
    exact Fin.ext ((List.getElem?_inj hlen hnodup).1 hi')
  · intro size hr
    have hs := array_size hok hr
    have : T.BIT_WIDTH < 2 ^ usizeBits := hfit
    omega
end
end Enumset.Src
