import Verif.Set
/-!
# `enumset_derive/src/lib.rs`: the derive macro

The macro is a function from the syntax of an enum to either a compile error or the generated
items (`EnumSetType`).  Citations `lib.rs` are to `enumset_derive/src/lib.rs`.
-/
set_option autoImplicit false

namespace Enumset

/-! ### Syntax (what `syn`/`darling` hand to the macro) -/

/-- The expression after `=` in an enum variant. -/
inductive Expr where
  /-- an integer literal with this value (`syn` normalises hex, octal, underscores, suffixes) -/
  | lit (n : Nat)
  /-- a unary minus applied to something; `v` is its value -/
  | neg (v : Int)
  /-- any other expression; `v` is the value the compiler computes for it -/
  | other (v : Int)
  deriving DecidableEq, Repr

/-- `syn::Variant`: name, whether it has no fields, optional discriminant. -/
structure Variant where
  ident : String
  unit : Bool := true
  discriminant : Option Expr := none
  deriving DecidableEq, Repr

/-- lib.rs:20-36 `struct EnumsetAttrs`.  Parsing of the attribute itself is done by `darling` and not
modelled.  `crate_name` only selects a path: see MacroEnv.lean. -/
structure EnumsetAttrs where
  no_ops : Bool := false
  no_super_impls : Bool := false
  repr : Option String := none
  serialize_repr : Option String := none
  serialize_deny_unknown : Bool := false
  crate_name : Option String := none
  serialize_as_list : Bool := false
  serialize_as_map : Bool := false
  deriving Repr

/-- `syn::DeriveInput` as far as the macro looks at it. -/
structure DeriveInput where
  /-- `input.generics.params` is not empty -/
  hasGenerics : Bool := false
  /-- `input.data` is an enum -/
  isEnum : Bool := true
  /-- the `#[repr(…)]` attributes; `none`: the argument is not a single identifier -/
  reprAttrs : List (Option String) := []
  attrs : EnumsetAttrs := {}
  variants : List Variant
  deriving Repr

/-- Where an error or a warning points to (`proc_macro2::Span`). -/
inductive Span where
  /-- `input.generics.span()` -/
  | generics
  /-- `input.span()` -/
  | item
  /-- `Span::call_site()` -/
  | callSite
  /-- the `i`-th `#[repr(…)]` attribute -/
  | reprAttr (i : Nat)
  /-- the value of `#[enumset(repr = …)]` -/
  | repr
  /-- the value of `#[enumset(serialize_repr = …)]` -/
  | serializeRepr
  /-- `#[enumset(serialize_as_map)]` -/
  | serializeAsMap
  /-- `#[enumset(serialize_as_list)]` -/
  | serializeAsList
  /-- the `i`-th variant -/
  | variant (i : Nat)
  /-- the expression after `=` in the `i`-th variant -/
  | discriminant (i : Nat)
  deriving DecidableEq, Repr

/-- Why the macro (or the compiler, on the macro's output) rejects the input. -/
inductive DeriveErr where
  /-- a `compile_error!` with this message at this place -/
  | msg (span : Span) (m : String)
  /-- `attr.parse_args()?` failed for the `i`-th `#[repr(…)]` attribute (lib.rs:1000); `syn` writes
  the message -/
  | parse (i : Nat)
  /-- the macro itself panicked (overflow, index) -/
  | macroPanic
  /-- an integer literal in the generated code is too large for its type -/
  | literalOutOfRange
  deriving DecidableEq, Repr

/-! ### What rustc does with the enum -/

/-- The discriminants rustc assigns: an explicit one is its value, an implicit one is one more than
the previous variant's, or zero for the first (Rust reference, "Enumerations"). -/
def rustcDiscriminantsFrom (next : Int) : List Variant → List Int
  | [] => []
  | v :: vs =>
    let d := match v.discriminant with
      | none => next
      | some (.lit n) => n
      | some (.neg x) => x
      | some (.other x) => x
    d :: rustcDiscriminantsFrom (d + 1) vs

/-- See `rustcDiscriminantsFrom`. -/
def rustcDiscriminants (vs : List Variant) : List Int := rustcDiscriminantsFrom 0 vs

/-! ### The macro -/

/-- lib.rs:39-53 -/
inductive InternalRepr where
  | u8 | u16 | u32 | u64 | u128
  | array (size : Nat)
  deriving DecidableEq, Repr

/-- lib.rs:56-65.  (`size * 64` is `usize` arithmetic on the host; that it stays below 2^32 is part
of C31.) -/
def InternalRepr.supported_variants : InternalRepr → Nat
  | .u8 => 8
  | .u16 => 16
  | .u32 => 32
  | .u64 => 64
  | .u128 => 128
  | .array size => size * 64

/-- lib.rs:90-101 -/
def SerdeRepr.supported_variants : SerdeRepr → Option Nat
  | .u8 => some 8
  | .u16 => some 16
  | .u32 => some 32
  | .u64 => some 64
  | .u128 => some 128
  | .list => none
  | .map => none
  | .array => none

/-- lib.rs:105-110 -/
structure EnumSetValue where
  name : String
  variant_repr : Nat
  deriving DecidableEq, Repr

/-- lib.rs:114-147 (fields that only carry names, spans and visibility are dropped; the
`HashSet`s are lists used only for membership). -/
structure EnumSetInfo where
  explicit_internal_repr : Option InternalRepr
  internal_repr_force_array : Bool
  explicit_serde_repr : Option SerdeRepr
  variants : List EnumSetValue
  max_discrim : Nat
  max_discrim_span : Option Span
  cur_discrim : Nat
  used_variant_names : List String
  used_discriminants : List Nat
  no_ops : Bool
  no_super_impls : Bool
  serialize_deny_unknown : Bool
  deriving Repr

namespace EnumSetInfo

/-- lib.rs:149-170 -/
def new (attrs : EnumsetAttrs) : EnumSetInfo where
  explicit_internal_repr := none
  internal_repr_force_array := false
  explicit_serde_repr := none
  variants := []
  max_discrim := 0
  max_discrim_span := none
  cur_discrim := 0
  used_variant_names := []
  used_discriminants := []
  no_ops := attrs.no_ops
  no_super_impls := attrs.no_super_impls
  serialize_deny_unknown := attrs.serialize_deny_unknown

/-- lib.rs:173-186 -/
def push_serialize_repr (self : EnumSetInfo) (ty : String) : Except DeriveErr EnumSetInfo :=
  match ty with
  | "u8" => .ok { self with explicit_serde_repr := some .u8 }
  | "u16" => .ok { self with explicit_serde_repr := some .u16 }
  | "u32" => .ok { self with explicit_serde_repr := some .u32 }
  | "u64" => .ok { self with explicit_serde_repr := some .u64 }
  | "u128" => .ok { self with explicit_serde_repr := some .u128 }
  | "list" => .ok { self with explicit_serde_repr := some .list }
  | "map" => .ok { self with explicit_serde_repr := some .map }
  | "array" => .ok { self with explicit_serde_repr := some .array }
  | _ => .error (.msg .serializeRepr s!"`{ty}` is not a valid serialized representation.")

/-- lib.rs:189-200 -/
def push_repr (self : EnumSetInfo) (ty : String) : Except DeriveErr EnumSetInfo :=
  match ty with
  | "u8" => .ok { self with explicit_internal_repr := some .u8 }
  | "u16" => .ok { self with explicit_internal_repr := some .u16 }
  | "u32" => .ok { self with explicit_internal_repr := some .u32 }
  | "u64" => .ok { self with explicit_internal_repr := some .u64 }
  | "u128" => .ok { self with explicit_internal_repr := some .u128 }
  | "array" => .ok { self with internal_repr_force_array := true }
  | _ => .error (.msg .repr s!"`{ty}` is not a valid internal enumset representation.")

/-- lib.rs:208-219: the value `self.cur_discrim` takes; `i` is the number of the variant. -/
def parseDiscriminant (i cur : Nat) : Option Expr → Except DeriveErr Nat
  | none => .ok cur
  | some (.lit n) =>
    if n < 2 ^ 32 then .ok n else .error (.msg (.discriminant i) "Enum discriminants must fit into `u32`.")
  | some (.neg _) => .error (.msg (.discriminant i) "Enum discriminants must not be negative.")
  | some (.other _) => .error (.msg (.variant i) "Enum discriminants must be literal expressions.")

/-- lib.rs:203-245.  Spans: all earlier variants have been pushed, so the number of this variant is
`self.variants.len()`. -/
def push_variant (self : EnumSetInfo) (variant : Variant) : Except DeriveErr EnumSetInfo :=
  let i := self.variants.length
  if self.used_variant_names.contains variant.ident then
    .error (.msg (.variant i) "Duplicated variant name.")
  else if variant.unit then do
    let cur ← parseDiscriminant i self.cur_discrim variant.discriminant
    let self := { self with cur_discrim := cur }
    let discriminant := self.cur_discrim
    if discriminant ≥ 0xFFFFFFC0 then
      throw (.msg (.variant i) "Maximum discriminant allowed is `0xFFFFFFBF`.")
    if self.used_discriminants.contains discriminant then
      throw (.msg (.variant i) "Duplicated enum discriminant.")
    -- `self.cur_discrim += 1` on a `u32`
    if self.cur_discrim + 1 ≥ 2 ^ 32 then throw .macroPanic
    let self := { self with cur_discrim := self.cur_discrim + 1 }
    let self := if discriminant > self.max_discrim then
      { self with max_discrim := discriminant, max_discrim_span := some (.variant i) } else self
    pure { self with
      variants := self.variants ++ [{ name := variant.ident, variant_repr := discriminant }]
      used_variant_names := variant.ident :: self.used_variant_names
      used_discriminants := discriminant :: self.used_discriminants }
  else .error (.msg (.variant i) "`#[derive(EnumSetType)]` can only be used on fieldless enums.")

/-- lib.rs:248-259 -/
def internal_repr (self : EnumSetInfo) : InternalRepr :=
  match self.explicit_internal_repr with
  | some x => x
  | none =>
    let x := self.max_discrim
    if x < 8 && !self.internal_repr_force_array then .u8
    else if x < 16 && !self.internal_repr_force_array then .u16
    else if x < 32 && !self.internal_repr_force_array then .u32
    else if x < 64 && !self.internal_repr_force_array then .u64
    else .array ((x + 64) / 64)

/-- lib.rs:262-274 -/
def serde_repr (self : EnumSetInfo) : SerdeRepr :=
  match self.explicit_serde_repr with
  | some x => x
  | none =>
    let x := self.max_discrim
    if x < 8 then .u8
    else if x < 16 then .u16
    else if x < 32 then .u32
    else if x < 64 then .u64
    else if x < 128 then .u128
    else .array

/-- lib.rs:277-303 -/
def validate (self : EnumSetInfo) : Except DeriveErr Unit := do
  let largest_discriminant_span := match self.max_discrim_span with
    | some x => x
    | none => Span.callSite
  -- `x as usize + 64` and `size * 64` are host `usize` arithmetic (at least 32 bits)
  if self.max_discrim + 64 ≥ 2 ^ 32 then throw .macroPanic
  if self.internal_repr.supported_variants ≥ 2 ^ 32 then throw .macroPanic
  if self.internal_repr.supported_variants ≤ self.max_discrim then
    throw (.msg largest_discriminant_span "`repr` is too small to contain the largest discriminant.")
  match self.serde_repr.supported_variants with
  | some supported_variants =>
    if supported_variants ≤ self.max_discrim then
      throw (.msg largest_discriminant_span
        "`serialize_repr` is too small to contain the largest discriminant.")
  | none => pure ()

/-- lib.rs:306-316, the body of the loop -/
def variantMapStep (vec : List U64) (variant_repr : Nat) : List U64 :=
  let idx := variant_repr / 64
  let bit := variant_repr % 64
  -- `while idx >= vec.len() { vec.push(0); }`
  let vec := vec ++ List.replicate (idx + 1 - vec.length) 0
  -- `vec[idx] |= 1u64 << bit`
  vec.set idx (vec.getD idx 0 ||| 1#64 <<< bit)

/-- lib.rs:306-316 -/
def variant_map (self : EnumSetInfo) : List U64 :=
  self.variants.foldl (fun vec v => variantMapStep vec v.variant_repr) [0]

end EnumSetInfo

/-- lib.rs:998-1011: the loop over the `#[repr(..)]` attributes, the first of which has number `i` -/
def checkReprAttrs (i : Nat) : List (Option String) → Except DeriveErr Unit
  | [] => .ok ()
  | none :: _ => .error (.parse i)
  | some s :: rest =>
    if ["C", "Rust", "u8", "u16", "u32", "u64", "u128", "usize",
        "i8", "i16", "i32", "i64", "i128", "isize"].contains s then checkReprAttrs (i + 1) rest
    else .error (.msg (.reprAttr i) s!"`#[repr({s})]` cannot be used on enumset variants.")

/-- lib.rs:983-1054: everything `derive_enum_set_type_0` does before generating code
(the deprecation warnings it collects are `deriveWarnings`) -/
def deriveInfo (input : DeriveInput) : Except DeriveErr EnumSetInfo :=
  if input.hasGenerics then
    .error (.msg .generics "`#[derive(EnumSetType)]` cannot be used on enums with type parameters.")
  else if input.isEnum then do
    let info := EnumSetInfo.new input.attrs
    checkReprAttrs 0 input.reprAttrs
    let info ← match input.attrs.repr with
      | some repr => info.push_repr repr
      | none => pure info
    let info ← match input.attrs.serialize_repr with
      | some r => info.push_serialize_repr r
      | none => pure info
    let info := if input.attrs.serialize_as_map then
      { info with explicit_serde_repr := some .map } else info
    let info := if input.attrs.serialize_as_list then
      { info with explicit_serde_repr := some .list } else info
    let info ← input.variants.foldlM EnumSetInfo.push_variant info
    info.validate
    pure info
  else .error (.msg .item "`#[derive(EnumSetType)]` may only be used on enums")

/-- lib.rs:995, 1022-1046: the `warnings` handed to `enum_set_type_impl`, which turns each into the use
of a deprecated constant (lib.rs:908-918).  `stdFeature`: the feature `std_deprecation_warning`. -/
def deriveWarnings (stdFeature : Bool) (attrs : EnumsetAttrs) : List (Span × String) :=
  let warnings := []
  let warnings := if attrs.serialize_as_map then
    warnings ++ [(.serializeAsMap, "#[enumset(serialize_as_map)] is deprecated. \
      Use `#[enumset(serialize_repr = \"map\")]` instead.")] else warnings
  let warnings := if attrs.serialize_as_list then
    warnings ++ [(.serializeAsList, "#[enumset(serialize_as_list)] is deprecated. \
      Use `#[enumset(serialize_repr = \"list\")]` instead.")] else warnings
  if stdFeature then
    warnings ++ [(.item, "feature = \"std\" is depercated. If you rename `enumset`, use \
      feature = \"proc-macro-crate\" instead. If you don't, remove the feature.")] else warnings

/-- lib.rs:983-1058: the diagnostics of the macro: the error, or the warnings of a successful run -/
def derive_enum_set_type_0 (stdFeature : Bool) (input : DeriveInput) :
    Except DeriveErr (EnumSetInfo × List (Span × String)) := do
  let info ← deriveInfo input
  pure (info, deriveWarnings stdFeature input.attrs)

/-! ### Generated code (lib.rs:320-971) -/

section Codegen

variable [Platform]

/-- lib.rs:651-659, 660-670, 683-708 `enum_into_u32`.  The panic names the enum; here it is called `T`. -/
def genInto (n : Nat) (discr : Fin n → Nat) (v : Fin n) : Res Nat :=
  if n = 0 then .panic (.explicit "T is uninhabited.")
  else .ok (castW 32 (discr v))

/-- lib.rs:651-708 `enum_from_u32`.  `reprs` are the discriminants the macro computed.  With at least
two variants it is a `match` whose first arms map the macro's discriminants to the variants; the
remaining arms (lib.rs:699-705) reinterpret the low bits of `val` as the enum or call
`unreachable_unchecked`.  Simplification: reaching any of them counts as `ub`, although the
reinterpretation is defined when the truncated value happens to be a variant. -/
def genFrom (n : Nat) (reprs : Fin n → Nat) (val : Nat) : Res (Fin n) :=
  if h0 : n = 0 then .panic (.explicit "T is uninhabited.")
  else if _h1 : n = 1 then .ok ⟨0, by omega⟩
  else match (List.finRange n).find? (fun i => reprs i == val) with
    | some i => .ok i
    | none => .ub

/-- lib.rs:711-726 `PartialEq` of the enum.  Simplification: it is present even with
`no_super_impls` (`superImpls = false`), where the user supplies the impl; nothing in the crate calls
it. -/
def genEq (n : Nat) (discr : Fin n → Nat) (a b : Fin n) : Res Bool :=
  if n = 0 then .panic (.explicit "T is uninhabited.")
  else .ok (castW 32 (discr a) == castW 32 (discr b))

/-- The generated items when `InternalRepr` is an integer type of `w` bits; `lit` is the literal
`#all_variants` (lib.rs:362-371), the const helpers are lib.rs:753-824. -/
def genPrim (w pal : Nat) (n : Nat) (discr reprs : Fin n → Nat) (lit bitWidth : Nat)
    (info : EnumSetInfo) : EnumSetType where
  n := n
  discr := discr
  Repr := Prim w pal
  ALL_BITS := ⟨BitVec.ofNat w lit⟩
  BIT_WIDTH := bitWidth
  VARIANT_COUNT := castW 32 n
  enum_into_u32 := genInto n discr
  enum_from_u32 := genFrom n reprs
  val_eq := genEq n discr
  -- lib.rs:758-762, 773-777: `1 << self as #repr`
  const_only v := Prim.mk <$> shl1 w (castW w (discr v))
  -- lib.rs:783-791
  const_union a b := .ok ⟨a.v ||| b.v⟩
  -- lib.rs:793-801
  const_intersection a b := .ok ⟨a.v &&& b.v⟩
  -- lib.rs:803-811
  const_symmetric_difference a b := .ok ⟨a.v ^^^ b.v⟩
  -- lib.rs:813-821
  const_complement a := .ok ⟨~~~ a.v &&& BitVec.ofNat w lit⟩
  withRepr := info.explicit_internal_repr.isSome
  ops := !info.no_ops
  superImpls := !info.no_super_impls
  serde := info.serde_repr
  deny := info.serialize_deny_unknown
  allLit := some lit

/-- The generated items when `InternalRepr` is an array (lib.rs:372-378, 825-905). -/
def genArray (size : Nat) (n : Nat) (discr reprs : Fin n → Nat) (all : Vector U64 size)
    (bitWidth : Nat) (info : EnumSetInfo) : EnumSetType where
  n := n
  discr := discr
  Repr := ArrayRepr size
  ALL_BITS := ⟨all⟩
  BIT_WIDTH := bitWidth
  VARIANT_COUNT := castW 32 n
  enum_into_u32 := genInto n discr
  enum_from_u32 := genFrom n reprs
  val_eq := genEq n discr
  -- lib.rs:835-845
  const_only v := do
    let set : Vector U64 size := Vector.replicate size 0
    let bit := castW 32 (discr v)
    let idx := castW usizeBits bit / 64
    let bit := bit % 64
    let m ← shl1 64 bit
    let x ← idxV set idx
    let set ← setV set idx (x ||| m)
    pure ⟨set⟩
  -- lib.rs:851-862
  const_union chain_a chain_b := forEach (range 0 size) chain_a fun i chain_a => do
    let x ← idxV chain_a.a i
    let y ← idxV chain_b.a i
    let a ← setV chain_a.a i (x ||| y)
    pure ⟨a⟩
  -- lib.rs:864-875
  const_intersection chain_a chain_b := forEach (range 0 size) chain_a fun i chain_a => do
    let x ← idxV chain_a.a i
    let y ← idxV chain_b.a i
    let a ← setV chain_a.a i (x &&& y)
    pure ⟨a⟩
  -- lib.rs:877-888
  const_symmetric_difference chain_a chain_b :=
    forEach (range 0 size) chain_a fun i chain_a => do
      let x ← idxV chain_a.a i
      let y ← idxV chain_b.a i
      let a ← setV chain_a.a i (x ^^^ y)
      pure ⟨a⟩
  -- lib.rs:890-902
  const_complement chain := forEach (range 0 size) chain fun i chain => do
    let x ← idxV chain.a i
    let y ← idxV all i
    let a ← setV chain.a i (~~~ x &&& y)
    pure ⟨a⟩
  withRepr := info.explicit_internal_repr.isSome
  ops := !info.no_ops
  superImpls := !info.no_super_impls
  serde := info.serde_repr
  deny := info.serialize_deny_unknown
  allLit := none

/-- An integer literal used at an integer type of `w` bits must be in range
(`deny(overflowing_literals)`). -/
def checkLit (w lit : Nat) : Except DeriveErr Unit :=
  if lit < 2 ^ w then .ok () else .error .literalOutOfRange

/-- lib.rs:320-971 `enum_set_type_impl`.  `discr` are rustc's discriminants of the enum. -/
def enum_set_type_impl (info : EnumSetInfo) (discr : Fin info.variants.length → Nat) :
    Except DeriveErr EnumSetType :=
  let variant_map := info.variant_map
  let n := info.variants.length
  let reprs : Fin info.variants.length → Nat := fun i => info.variants[i].variant_repr
  -- lib.rs:363 `variant_map[0]`; the vector is never empty
  let lit64 := (variant_map.getD 0 0).toNat
  -- lib.rs:367-369
  let lit128 := (castBV 128 (variant_map.getD 0 0) |||
    ((variant_map[1]?).elim (0 : U128) fun x => castBV 128 x <<< 64)).toNat
  -- lib.rs:920
  if info.max_discrim + 1 ≥ 2 ^ 32 then .error .macroPanic
  else
    let bitWidth := info.max_discrim + 1
    match info.internal_repr with
    | .u8 => match checkLit 8 lit64 with
      | .error e => .error e
      | .ok _ => .ok (genPrim 8 1 n discr reprs lit64 bitWidth info)
    | .u16 => match checkLit 16 lit64 with
      | .error e => .error e
      | .ok _ => .ok (genPrim 16 1 n discr reprs lit64 bitWidth info)
    | .u32 => match checkLit 32 lit64 with
      | .error e => .error e
      | .ok _ => .ok (genPrim 32 1 n discr reprs lit64 bitWidth info)
    | .u64 => match checkLit 64 lit64 with
      | .error e => .error e
      | .ok _ => .ok (genPrim 64 1 n discr reprs lit64 bitWidth info)
    | .u128 => match checkLit 128 lit128 with
      | .error e => .error e
      | .ok _ => .ok (genPrim 128 2 n discr reprs lit128 bitWidth info)
    | .array size =>
      .ok (genArray size n discr reprs
        (Vector.ofFn fun i : Fin size => variant_map.getD i.val 0) bitWidth info)

/-- `#[derive(EnumSetType)]` on an enum, compiled: lib.rs:973-1061.  The enum's discriminants are
the ones rustc assigns.  Reasons of rustc's own to reject the enum (a discriminant that does not fit
its `#[repr]`, a `#[repr]` on an enum without variants) are not part of it: see `RustcAccepts` (SpecRustc.lean). -/
def derive (input : DeriveInput) : Except DeriveErr EnumSetType :=
  match deriveInfo input with
  | .error e => .error e
  | .ok info =>
    enum_set_type_impl info fun i => ((rustcDiscriminants input.variants).getD i.val 0).toNat

end Codegen

end Enumset
