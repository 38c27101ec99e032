import Verif.Props.SrcGen
import Verif.Props.SrcHistory
import Verif.Props.SrcMacroImpl
import Verif.EnumLayout
/-!
# C72: the generated code is what C68 assumes of a derived enum

The associated items that the derive macro writes for `EnumSetTypePrivate`, run in the interpreter, are
those of the model (`EnumItems`), and `<T as EnumSetTypePrivate>::Repr` is a storage (`Storage`).
-/
set_option autoImplicit false
set_option linter.unusedSimpArgs false
set_option linter.unusedSectionVars false
set_option maxRecDepth 10000

namespace Enumset

theorem EnumSetInfo.steps_variant_names (vs : List Variant) (info : EnumSetInfo) :
    (info.steps vs).variants.map (·.name) = info.variants.map (·.name) ++ vs.map (·.ident) := by
  induction vs generalizing info with
  | nil => simp [steps]
  | cons v vs ih =>
    have : info.steps (v :: vs) = (info.step v).steps vs := rfl
    rw [this, ih]
    simp [step]

/-- The macro keeps the names of the variants, and they are distinct. -/
theorem deriveInfo_names {inp : DeriveInput} {info : EnumSetInfo} (h : deriveInfo inp = .ok info) :
    info.variants.map (·.name) = inp.variants.map (·.ident) ∧ (inp.variants.map (·.ident)).Nodup := by
  rw [deriveInfo_eq] at h
  split at h
  · cases h
  split at h
  case isFalse => cases h
  split at h
  · cases h
  split at h
  · cases h
  rename_i i0 hi0
  split at h
  · cases h
  rename_i info' hfold
  split at h
  · cases h
  rename_i u hval
  injection h with h
  subst h
  obtain ⟨a1, a2, a3⟩ := (attrInfo_iff _ _).mp hi0
  obtain ⟨b1, b2, b3, b4, b5, b6⟩ := (EnumSetInfo.push_variants_iff _ _ _).mp hfold
  have hvs : i0.variants = [] := by rw [a3]; rfl
  refine ⟨?_, b2⟩
  rw [b6, EnumSetInfo.steps_variant_names, hvs]; rfl

namespace Src
section
variable [Platform]

/-- What `enum_set_type_impl` returns in the model. -/
inductive GenExact (info : EnumSetInfo) (discr : Fin info.variants.length → Nat) : EnumSetType → Prop
  | prim (t : NumTy) (hr : numOf info.internal_repr = some t)
      (hl : litOf info.variant_map info.internal_repr < 2 ^ t.bits) :
      GenExact info discr (genPrim t.bits (pal t) info.variants.length discr
        (fun i => info.variants[i].variant_repr) (litOf info.variant_map info.internal_repr)
        (info.max_discrim + 1) info)
  | array (size : Nat) (hr : info.internal_repr = .array size) :
      GenExact info discr (genArray size info.variants.length discr
        (fun i => info.variants[i].variant_repr)
        (Vector.ofFn fun i : Fin size => info.variant_map.getD i.val 0) (info.max_discrim + 1) info)

theorem impl_exact {info : EnumSetInfo} {discr : Fin info.variants.length → Nat} {T : EnumSetType}
    (h : enum_set_type_impl info discr = .ok T) : GenExact info discr T := by
  unfold enum_set_type_impl at h
  simp only at h
  split at h
  · cases h
  have key : ∀ (t : NumTy) (r : InternalRepr) (l : Nat), info.internal_repr = r → numOf r = some t →
      l = litOf info.variant_map r →
      (match checkLit t.bits l with
        | .error e => .error e
        | .ok _ => .ok (genPrim t.bits (pal t) info.variants.length discr
            (fun i => info.variants[i].variant_repr) l (info.max_discrim + 1) info)) =
        (Except.ok T : Except DeriveErr EnumSetType) →
      GenExact info discr T := by
    intro t r l h1 h2 h3 h4
    subst h3
    unfold checkLit at h4
    split at h4
    · cases h4
    · rename_i h5
      split at h5
      · rename_i h6
        injection h4 with h4
        rw [← h4]
        subst h1
        exact .prim t h2 h6
      · cases h5
  split at h
  · rename_i hr; exact key .u8 _ _ hr rfl rfl h
  · rename_i hr; exact key .u16 _ _ hr rfl rfl h
  · rename_i hr; exact key .u32 _ _ hr rfl rfl h
  · rename_i hr; exact key .u64 _ _ hr rfl rfl h
  · rename_i hr; exact key .u128 _ _ hr rfl rfl h
  · rename_i size hr
    injection h with h
    rw [← h]
    exact .array size hr

variable {info : EnumSetInfo} {ws : List (Span × String)} {E : EnumDef info.variants.length} {fuel : Nat}
  {lib : SerdeLib info.variants.length}

theorem gen_alias (k : Nat) : ((genOf info ws E fuel lib).toProg k).alias "T::Repr" = (reprTy info.internal_repr).head := by
  show (if "T::Repr" = "T::Repr" then (genOf info ws E fuel lib).repr.head else "T::Repr") = _
  rw [if_pos rfl, genOf_repr]
theorem gen_params (k : Nat) : ((genOf info ws E fuel lib).toProg k).params = (reprTy info.internal_repr).params := by
  show (genOf info ws E fuel lib).repr.params = _
  rw [genOf_repr]

theorem gen_storage_prim {t : NumTy} (hr : numOf info.internal_repr = some t) (k : Nat) :
    Storage ((genOf info ws E fuel lib).toProg k) (Prim t.bits (pal t)) (fun r => bv t r.v) (primIterOf t) (fun _ => True) := by
  refine C68_storage_prim (num_ne hr) ?_ ?_
  · rw [gen_alias, reprTy_num hr]; rfl
  · rw [gen_params, reprTy_num hr]; cases t <;> first | rfl | exact absurd rfl (num_ne hr)
theorem gen_storage_array {size : Nat} (hr : info.internal_repr = .array size) (h0 : 0 < size)
    (h1 : size < 2 ^ usizeBits) (hf : size < fuel) (k : Nat) :
    Storage ((genOf info ws E fuel lib).toProg k) (ArrayRepr size) arrayRepr arrayIter (fun i => i.idx_r + 1 - i.idx_f < fuel) := by
  refine C68_storage_array h0 h1 hf ?_ ?_
  · rw [gen_alias, hr]; rfl
  · rw [gen_params, hr]; rfl

theorem gen_from_strict (hE : ∀ i, E.name i = info.variants[i].name)
    (hn : ∀ i j, E.name i = E.name j → i = j) (hu : ∀ t x, E.read t x = .ub) (k j : Nat)
    (env : Env (Fin info.variants.length)) (val : Nat) :
    ((genOf info ws E fuel lib).toProg (k + 1)).call j "T" "enum_from_u32" env [] [.int .u32 val] =
      genFrom info.variants.length (fun i => info.variants[i].variant_repr) val >>= fun v => .ok (.host "T" v, []) := by
  have h : fromOther E val = .ub := by simp [fromOther, hu]
  rw [gen_enum_from_u32 hE hn, h]
  congr 1
  unfold genFrom
  split
  · rfl
  split
  · rfl
  cases (List.finRange info.variants.length).find? (fun i => info.variants[i].variant_repr == val) <;> rfl
theorem gen_items_prim {t : NumTy} (hr : numOf info.internal_repr = some t)
    (hl : litOf info.variant_map info.internal_repr < 2 ^ t.bits)
    (hE : ∀ i, E.name i = info.variants[i].name)
    (hn : ∀ i j, E.name i = E.name j → i = j) (hu : ∀ t x, E.read t x = .ub)
    {discr : Fin info.variants.length → Nat} (hd : E.discr = discr) (k : Nat) :
    EnumItems ((genOf info ws E fuel lib).toProg (k + 1)) (genPrim t.bits (pal t) info.variants.length discr
        (fun i => info.variants[i].variant_repr) (litOf info.variant_map info.internal_repr)
        (info.max_discrim + 1) info) (fun r => bv t r.v) id := by
  subst hd
  exact {
    alias := rfl
    ALL_BITS := fun j env => gen_ALL_BITS_prim hr hl k j env
    BIT_WIDTH := fun j env => gen_BIT_WIDTH k j env
    VARIANT_COUNT := fun j env => gen_VARIANT_COUNT k j env
    enum_into_u32 := fun j env v => gen_enum_into_u32 k j env v
    enum_from_u32 := fun j env n => gen_from_strict hE hn hu k j env n }
theorem gen_items_array {size : Nat} (hr : info.internal_repr = .array size)
    (hE : ∀ i, E.name i = info.variants[i].name)
    (hn : ∀ i j, E.name i = E.name j → i = j) (hu : ∀ t x, E.read t x = .ub)
    {discr : Fin info.variants.length → Nat} (hd : E.discr = discr) (k : Nat) :
    EnumItems ((genOf info ws E fuel lib).toProg (k + 1)) (genArray size info.variants.length discr
        (fun i => info.variants[i].variant_repr)
        (Vector.ofFn fun i : Fin size => info.variant_map.getD i.val 0)
        (info.max_discrim + 1) info) arrayRepr id := by
  subst hd
  exact {
    alias := rfl
    ALL_BITS := fun j env => gen_ALL_BITS_array hr k j env
    BIT_WIDTH := fun j env => gen_BIT_WIDTH k j env
    VARIANT_COUNT := fun j env => gen_VARIANT_COUNT k j env
    enum_into_u32 := fun j env v => gen_enum_into_u32 k j env v
    enum_from_u32 := fun j env n => gen_from_strict hE hn hu k j env n }

end
end Src
end Enumset
