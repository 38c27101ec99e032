import Verif.Props.Derive
import Verif.Props.Conv
import Verif.Props.Diag
/-!
# Property C58: what the options and the way an enum is written affect

`derive` gives everything the macro generates (`EnumSetType`), so an equation between two of them says
that nothing else differs.
-/
set_option autoImplicit false

namespace Enumset

section helpers

variable [Platform]

/-- `enum_set_type_impl` as a function of the discriminants. -/
def canon (ds : List Nat) (m : Nat) (r : InternalRepr) (f : Nat → Nat) (info : EnumSetInfo) :
    Except DeriveErr EnumSetType :=
  let vm := ds.foldl EnumSetInfo.variantMapStep [0]
  let discr : Fin ds.length → Nat := fun i => f i.val
  let reprs : Fin ds.length → Nat := fun i => ds.getD i.val 0
  let lit64 := (vm.getD 0 0).toNat
  let lit128 := (castBV 128 (vm.getD 0 0) |||
    ((vm[1]?).elim (0 : U128) fun x => castBV 128 x <<< 64)).toNat
  if m + 1 ≥ 2 ^ 32 then .error .macroPanic
  else match r with
    | .u8 => match checkLit 8 lit64 with
      | .error e => .error e
      | .ok _ => .ok (genPrim 8 1 ds.length discr reprs lit64 (m + 1) info)
    | .u16 => match checkLit 16 lit64 with
      | .error e => .error e
      | .ok _ => .ok (genPrim 16 1 ds.length discr reprs lit64 (m + 1) info)
    | .u32 => match checkLit 32 lit64 with
      | .error e => .error e
      | .ok _ => .ok (genPrim 32 1 ds.length discr reprs lit64 (m + 1) info)
    | .u64 => match checkLit 64 lit64 with
      | .error e => .error e
      | .ok _ => .ok (genPrim 64 1 ds.length discr reprs lit64 (m + 1) info)
    | .u128 => match checkLit 128 lit128 with
      | .error e => .error e
      | .ok _ => .ok (genPrim 128 2 ds.length discr reprs lit128 (m + 1) info)
    | .array size => .ok (genArray size ds.length discr reprs
        (Vector.ofFn fun i : Fin size => vm.getD i.val 0) (m + 1) info)

theorem genPrim_congr (ds : List Nat) (f : Nat → Nat) (w pal n lit bw : Nat) (info : EnumSetInfo)
    (hn : n = ds.length) (reprs : Fin n → Nat) (hr : reprs = fun i => ds.getD i.val 0) :
    genPrim w pal n (fun i => f i.val) reprs lit bw info =
      genPrim w pal ds.length (fun i => f i.val) (fun i => ds.getD i.val 0) lit bw info := by
  subst hn hr; rfl

theorem genArray_congr (ds : List Nat) (f : Nat → Nat) (size n bw : Nat) (all : Vector U64 size)
    (info : EnumSetInfo) (hn : n = ds.length) (reprs : Fin n → Nat)
    (hr : reprs = fun i => ds.getD i.val 0) :
    genArray size n (fun i => f i.val) reprs all bw info =
      genArray size ds.length (fun i => f i.val) (fun i => ds.getD i.val 0) all bw info := by
  subst hn hr; rfl

theorem impl_canon (info : EnumSetInfo) (f : Nat → Nat) :
    enum_set_type_impl info (fun i => f i.val) =
      canon (info.variants.map (·.variant_repr)) info.max_discrim info.internal_repr f info := by
  have hn : info.variants.length = (info.variants.map (·.variant_repr)).length := by simp
  have hr : (fun i : Fin info.variants.length => info.variants[i].variant_repr) =
      fun i => (info.variants.map (·.variant_repr)).getD i.val 0 := by
    funext i; simp
  have hv : info.variant_map =
      (info.variants.map (·.variant_repr)).foldl EnumSetInfo.variantMapStep [0] := by
    unfold EnumSetInfo.variant_map
    rw [List.foldl_map]
  unfold enum_set_type_impl canon
  rw [hv]
  simp only [genPrim_congr _ f _ _ _ _ _ info hn _ hr, genArray_congr _ f _ _ _ _ info hn _ hr]
  cases info.internal_repr <;> rfl

/-- the fields of the generated items that are switches -/
def withFlags (T : EnumSetType) (info : EnumSetInfo) : EnumSetType :=
  { T with
    withRepr := info.explicit_internal_repr.isSome, ops := !info.no_ops
    superImpls := !info.no_super_impls
    serde := info.serde_repr, deny := info.serialize_deny_unknown }

theorem canon_flags (ds : List Nat) (m : Nat) (r : InternalRepr) (f : Nat → Nat)
    (info info' : EnumSetInfo) {T T' : EnumSetType} (h : canon ds m r f info = .ok T)
    (h' : canon ds m r f info' = .ok T') : T' = withFlags T info' := by
  unfold canon at h h'
  split at h
  · cases h
  rename_i hm
  rw [if_neg hm] at h'
  cases r with
  | array size =>
    injection h with h; injection h' with h'
    subst h h'; rfl
  | _ =>
    dsimp only at h h'
    split at h
    · cases h
    rename_i hl
    rw [hl] at h'
    injection h with h; injection h' with h'
    subst h h'; rfl

theorem derive_canon {inp : DeriveInput} {T : EnumSetType} (hT : derive inp = .ok T) :
    ∃ info, deriveInfo inp = .ok info ∧ InfoOk inp info ∧
      canon (dsFrom 0 inp.variants) info.max_discrim info.internal_repr
        (fun i => ((rustcDiscriminants inp.variants).getD i 0).toNat) info = .ok T := by
  unfold derive at hT
  split at hT
  · cases hT
  rename_i info hinfo
  have hok := deriveInfo_ok hinfo
  refine ⟨info, hinfo, hok, ?_⟩
  rw [← hT, ← hok.reprs]
  exact (impl_canon info fun i => ((rustcDiscriminants inp.variants).getD i 0).toNat).symm

theorem canon_self (ds : List Nat) (m : Nat) (r : InternalRepr) (f : Nat → Nat)
    (info : EnumSetInfo) {T : EnumSetType} (h : canon ds m r f info = .ok T) :
    T = withFlags T info := canon_flags ds m r f info info h h

omit [Platform] in
theorem InfoOk.ds {inp : DeriveInput} {info : EnumSetInfo} (h : InfoOk inp info) :
    (rustcDiscriminants inp.variants) = (dsFrom 0 inp.variants).map Int.ofNat := by
  have := rustc_eq 0 inp.variants h.lits
  exact this

end helpers

/-- The four switches: which trait implementations are generated, and whether unknown bits are
denied, are decided by their own option alone. -/
theorem C58_switches [Platform] {inp : DeriveInput} {T : EnumSetType} (hT : derive inp = .ok T) :
    T.ops = !inp.attrs.no_ops ∧ T.superImpls = !inp.attrs.no_super_impls ∧
    T.deny = inp.attrs.serialize_deny_unknown ∧
    (T.withRepr = true ↔ ∃ name w, inp.attrs.repr = some name ∧ intWidth name = some w) := by
  obtain ⟨info, -, hok, hc⟩ := derive_canon hT
  have := canon_self _ _ _ _ _ hc
  have h1 : T.ops = !info.no_ops := by rw [this]; rfl
  have h2 : T.superImpls = !info.no_super_impls := by rw [this]; rfl
  have h3 : T.deny = info.serialize_deny_unknown := by rw [this]; rfl
  refine ⟨by rw [h1, hok.ops], by rw [h2, hok.super], by rw [h3, hok.deny], C25_exists hT⟩

open scoped Ex in
example := C58_switches Ex.hT
example [Platform] : ∃ T, derive { Ex.inpT with attrs := { no_ops := true, no_super_impls := true } } =
    .ok T ∧ T.ops = false ∧ T.superImpls = false := ⟨_, rfl, rfl, rfl⟩

/-- Everything else the macro generates is determined by the discriminants of the variants and by
`#[enumset(repr)]`: two accepted enums with the same discriminants (whatever the names of their
variants, whether the discriminants are written out or implied, whatever `#[repr]` the enum has, and
whatever other options are given) get the same generated items apart from the switches and the
serialization format. -/
theorem C58_rest [Platform] {inp inp' : DeriveInput} {T T' : EnumSetType}
    (hT : derive inp = .ok T) (hT' : derive inp' = .ok T')
    (hd : rustcDiscriminants inp'.variants = rustcDiscriminants inp.variants)
    (hr : inp'.attrs.repr = inp.attrs.repr) :
    T' = { T with ops := T'.ops, superImpls := T'.superImpls, serde := T'.serde, deny := T'.deny } := by
  obtain ⟨info, -, hok, hc⟩ := derive_canon hT
  obtain ⟨info', -, hok', hc'⟩ := derive_canon hT'
  have hds : dsFrom 0 inp'.variants = dsFrom 0 inp.variants := by
    rw [hok.ds, hok'.ds] at hd
    exact (List.map_inj_right fun a b h => Int.ofNat.inj h).mp hd
  have hm : info'.max_discrim = info.max_discrim := by rw [hok.max, hok'.max, hds]
  have he : info'.explicit_internal_repr = info.explicit_internal_repr := by
    rw [hok.expl, hok'.expl, hr]
  have hf : info'.internal_repr_force_array = info.internal_repr_force_array := by
    rw [hok.force, hok'.force, hr]
  have hi : info'.internal_repr = info.internal_repr := by
    unfold EnumSetInfo.internal_repr
    rw [he, hf, hm]
  rw [hd, hds, hm, hi] at hc'
  have h1 := canon_flags _ _ _ _ _ _ hc hc'
  have h2 := canon_self _ _ _ _ _ hc
  have h3 : T.withRepr = info.explicit_internal_repr.isSome := by rw [h2]; rfl
  have h4 : T'.withRepr = T.withRepr := by
    rw [h1, h3, ← he]; rfl
  subst h1
  simp only [withFlags] at h4 ⊢
  rw [h4]

/-- `enum { A, B = 3, C }` and `#[repr(u16)] enum { X = 0, Y = 3, Z = 4 }` with other options -/
def Ex.inpXYZ : DeriveInput where
  variants := [{ ident := "X", discriminant := some (.lit 0) },
    { ident := "Y", discriminant := some (.lit 3) }, { ident := "Z", discriminant := some (.lit 4) }]
  reprAttrs := [some "u16"]
  attrs := { no_ops := true, serialize_repr := some "list" }

open scoped Ex in
example : ∃ T', derive Ex.inpXYZ = .ok T' ∧
    T' = { Ex.T with ops := T'.ops, superImpls := T'.superImpls, serde := T'.serde, deny := T'.deny } := by
  have h : ∃ T', derive Ex.inpXYZ = .ok T' := ⟨_, rfl⟩
  obtain ⟨T', h⟩ := h
  exact ⟨T', h, C58_rest Ex.hT h (by decide) rfl⟩

/-- With the same serialization options as well, the generated items are the same but for the other
switches. -/
theorem C58_same [Platform] {inp inp' : DeriveInput} {T T' : EnumSetType}
    (hT : derive inp = .ok T) (hT' : derive inp' = .ok T')
    (hd : rustcDiscriminants inp'.variants = rustcDiscriminants inp.variants)
    (ha : inp'.attrs = inp.attrs) : T' = T := by
  have h := C58_rest hT hT' hd (by rw [ha])
  obtain ⟨a1, a2, a3, -⟩ := C58_switches hT
  obtain ⟨b1, b2, b3, -⟩ := C58_switches hT'
  have hs : T'.serde = T.serde := by
    obtain ⟨info, -, hok, hc⟩ := derive_canon hT
    obtain ⟨info', -, hok', hc'⟩ := derive_canon hT'
    have hds : dsFrom 0 inp'.variants = dsFrom 0 inp.variants := by
      rw [hok.ds, hok'.ds] at hd
      exact (List.map_inj_right fun a b h => Int.ofNat.inj h).mp hd
    have e1 : T.serde = info.serde_repr := by rw [canon_self _ _ _ _ _ hc]; rfl
    have e2 : T'.serde = info'.serde_repr := by rw [canon_self _ _ _ _ _ hc']; rfl
    rw [e1, e2]
    unfold EnumSetInfo.serde_repr
    rw [hok.serd, hok'.serd, ha, hok.max, hok'.max, hds]
  rw [h, b1, b2, b3, ha, ← a1, ← a2, ← a3, hs]

open scoped Ex in
example : derive { Ex.inpXYZ with attrs := {} } = .ok Ex.T := by
  have h : ∃ T', derive { Ex.inpXYZ with attrs := {} } = .ok T' := ⟨_, rfl⟩
  obtain ⟨T', h⟩ := h
  rw [h, C58_same (inp' := { Ex.inpXYZ with attrs := {} }) Ex.hT h (by decide) rfl]

/-- Whether an enum is accepted, and the error if not, does not depend on `no_ops`,
`no_super_impls` and `serialize_deny_unknown`. -/
theorem C58_errors [Platform] (inp : DeriveInput) (a b c : Bool) (e : DeriveErr) :
    derive { inp with attrs := { inp.attrs with
      no_ops := a, no_super_impls := b, serialize_deny_unknown := c } } = .error e ↔
    derive inp = .error e := by
  rw [C54_error, C54_error]
  have : ∀ p : Problem, p.holds { inp with attrs := { inp.attrs with
      no_ops := a, no_super_impls := b, serialize_deny_unknown := c } } ↔ p.holds inp := by
    intro p
    cases p <;> exact Iff.rfl
  simp only [this]

/-- The serialization options are checked even if the enum is never serialized: besides a valid
internal representation, an enum must have a valid serialized one. -/
theorem C58_serialize_checked [Platform] (inp : DeriveInput) (s : String)
    (hs : inp.attrs.serialize_repr = some s) {T : EnumSetType} (hT : derive inp = .ok T) :
    s = "list" ∨ s = "map" ∨ s = "array" ∨ ∃ w, intWidth s = some w ∧
      (inp.attrs.serialize_as_list = false → inp.attrs.serialize_as_map = false →
        ∀ v : T.Val, T.discr v < w) := by
  have A := (C30_accepts inp).mp ⟨T, hT⟩
  rcases A.serialize_repr_known s hs with h | h | h | ⟨w, hw⟩
  · exact .inl h
  · exact .inr (.inl h)
  · exact .inr (.inr (.inl h))
  · refine .inr (.inr (.inr ⟨w, hw, fun h1 h2 v => ?_⟩))
    have := A.serialize_repr_wide h1 h2 s w hs hw _
      (List.mem_of_getElem? ((core_of_derive hT).rustc v))
    omega

open scoped Ex in
example := (C58_errors { variants := [{ ident := "A" }, { ident := "A" }] } true true true _).mpr rfl

/-- a serialized representation that is too small is rejected although nothing is serialized -/
example [Platform] : ∃ e, derive { Ex.inpL with attrs := { serialize_repr := some "u8" } } = .error e :=
  ⟨_, rfl⟩
/-- accepted: `u16` has room for every variant -/
def Ex.inpU16 : DeriveInput := { Ex.inpT with attrs := { serialize_repr := some "u16" } }
example [Platform] : ∃ T, derive Ex.inpU16 = .ok T ∧ ∀ v : T.Val, T.discr v < 16 := by
  have h : ∃ T, derive Ex.inpU16 = .ok T := ⟨_, rfl⟩
  obtain ⟨T, hT⟩ := h
  refine ⟨T, hT, ?_⟩
  rcases C58_serialize_checked Ex.inpU16 "u16" rfl hT with h | h | h | ⟨w, hw, h⟩
  · exact absurd h (by decide)
  · exact absurd h (by decide)
  · exact absurd h (by decide)
  · have : w = 16 := by
      rw [show intWidth "u16" = some 16 from by decide] at hw
      injection hw with hw
      exact hw.symm
    exact this ▸ h rfl rfl

end Enumset
