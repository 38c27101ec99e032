import Verif.Src.Macro
import Verif.Src.Lemmas
import Verif.Derive
/-!
# What `syn` and `darling` hand to the macro

The values of the interpreter that stand for an input of the macro, and for the types of the macro.
Parts of the input that the macro does not look at are arbitrary.
-/
set_option autoImplicit false

namespace Enumset.Src

/-- A place in the source. -/
def encSpan : Span → Val Code
  | .generics => span "generics" 0
  | .item => span "item" 0
  | .callSite => span "callSite" 0
  | .reprAttr i => span "reprAttr" i
  | .repr => span "repr" 0
  | .serializeRepr => span "serializeRepr" 0
  | .serializeAsMap => span "serializeAsMap" 0
  | .serializeAsList => span "serializeAsList" 0
  | .variant i => span "variant" i
  | .discriminant i => span "discriminant" i

/-! ### the input -/

/-- `syn::Expr`: the expression after `=` in the `i`-th variant.  A literal other than an integer, a
unary operation other than `-` and every other kind of expression are `Expr.other`. -/
inductive SynExpr (i : Nat) : Enumset.Expr → Val Code → Prop
  | lit (n : Nat) : SynExpr i (.lit n)
      (.enum "Expr" "Lit" [("0", .struct "ExprLit" [("lit", .enum "Lit" "Int"
        [("0", .struct "LitInt" [("0", .lit n)])])]), ("span", encSpan (.discriminant i))])
  | neg (x : Int) (e : Val Code) : SynExpr i (.neg x)
      (.enum "Expr" "Unary" [("0", .struct "ExprUnary" [("op", .enum "UnOp" "Neg" [("0", .unit)]),
        ("expr", e)]), ("span", encSpan (.discriminant i))])
  | otherLit (x : Int) (c : String) (fs : List (String × Val Code)) (h : c ≠ "Int") : SynExpr i (.other x)
      (.enum "Expr" "Lit" [("0", .struct "ExprLit" [("lit", .enum "Lit" c fs)]),
        ("span", encSpan (.discriminant i))])
  | otherUnary (x : Int) (c : String) (fs : List (String × Val Code)) (e : Val Code) (h : c ≠ "Neg") :
      SynExpr i (.other x)
      (.enum "Expr" "Unary" [("0", .struct "ExprUnary" [("op", .enum "UnOp" c fs), ("expr", e)]),
        ("span", encSpan (.discriminant i))])
  | other (x : Int) (c : String) (fs : List (String × Val Code)) (h : c ≠ "Lit") (h' : c ≠ "Unary") :
      SynExpr i (.other x) (.enum "Expr" c fs)

/-- `Option<(Token![=], Expr)>` -/
inductive SynDiscr (i : Nat) : Option Enumset.Expr → Val Code → Prop
  | none : SynDiscr i none .none
  | some (e : Enumset.Expr) (v : Val Code) (h : SynExpr i e v) : SynDiscr i (some e) (.some (.tup [.unit, v]))

/-- `syn::Variant`: the `i`-th one -/
inductive SynVariant (i : Nat) (v : Variant) : Val Code → Prop
  | mk (c : String) (fs : List (String × Val Code)) (d : Val Code) (hc : v.unit = (c == "Unit"))
      (hd : SynDiscr i v.discriminant d) : SynVariant i v
      (.struct "Variant" [("ident", ident v.ident), ("fields", .enum "Fields" c fs), ("discriminant", d),
        ("span", encSpan (.variant i))])

/-- The variants, from the `i`-th on. -/
inductive SynVariants : Nat → List Variant → List (Val Code) → Prop
  | nil (i : Nat) : SynVariants i [] []
  | cons (i : Nat) (v : Variant) (vs : List Variant) (w : Val Code) (ws : List (Val Code))
      (h : SynVariant i v w) (hs : SynVariants (i + 1) vs ws) : SynVariants i (v :: vs) (w :: ws)

/-- Why `attr.parse_args()` fails: `syn` writes the message. -/
def parseError (i : Nat) : Val Code := synError (encSpan (.reprAttr i)) .unit

/-- `syn::Path` -/
def synPath (p : List String) : Val Code := .struct "Path" [("0", .arr (p.map .str))]

/-- `syn::Attribute`; `arg` is what `parse_args::<Ident>()` returns -/
def synAttribute (path : List String) (arg sp : Val Code) : Val Code :=
  .struct "Attribute" [("path", synPath path), ("parse_args", arg),
    ("span", sp)]

/-- The attributes of the enum: those called `repr`, from the `i`-th on, and others. -/
inductive SynAttrs : Nat → List (Option String) → List (Val Code) → Prop
  | nil (i : Nat) : SynAttrs i [] []
  | repr (i : Nat) (s : String) (rs : List (Option String)) (ws : List (Val Code))
      (hs : SynAttrs (i + 1) rs ws) :
      SynAttrs i (some s :: rs) (synAttribute ["repr"] (.ok (ident s)) (encSpan (.reprAttr i)) :: ws)
  | bad (i : Nat) (rs : List (Option String)) (ws : List (Val Code)) (hs : SynAttrs (i + 1) rs ws) :
      SynAttrs i (none :: rs) (synAttribute ["repr"] (.err (parseError i)) (encSpan (.reprAttr i)) :: ws)
  | other (i : Nat) (path : List String) (hp : path ≠ ["repr"]) (arg sp : Val Code)
      (rs : List (Option String)) (ws : List (Val Code)) (hs : SynAttrs i rs ws) :
      SynAttrs i rs (synAttribute path arg sp :: ws)

/-- `syn::Data` -/
inductive SynData (inp : DeriveInput) : Val Code → Prop
  | enum (vs : List (Val Code)) (h : inp.isEnum = true) (hs : SynVariants 0 inp.variants vs) :
      SynData inp (.enum "Data" "Enum" [("0", .struct "DataEnum" [("variants", .arr vs)])])
  | other (c : String) (fs : List (String × Val Code)) (hc : c ≠ "Enum") (h : inp.isEnum = false) :
      SynData inp (.enum "Data" c fs)

/-- `syn::Visibility` -/
def visibility (v : Val Code) : Val Code := .struct "Visibility" [("0", v)]

/-- What the macro is told about the enum beside its definition: its name and its visibility. -/
structure Header where
  name : String
  vis : Val Code

/-- `syn::DeriveInput` -/
inductive SynInput (inp : DeriveInput) (hdr : Header) : Val Code → Prop
  | mk (as gs : List (Val Code)) (d : Val Code) (ha : SynAttrs 0 inp.reprAttrs as)
      (hg : inp.hasGenerics = !gs.isEmpty) (hd : SynData inp d) (darling : Val Code) : SynInput inp hdr
      (.struct "DeriveInput" [("attrs", .arr as), ("vis", visibility hdr.vis), ("ident", ident hdr.name),
        ("generics", .struct "Generics" [("params", .arr gs), ("span", encSpan .generics)]),
        ("data", d), ("span", encSpan .item), ("from_derive_input", darling)])

/-- `darling::util::SpannedValue` -/
def spanned (v : Val Code) (sp : Span) : Val Code := .struct "SpannedValue" [("0", v), ("span", encSpan sp)]

/-- `EnumsetAttrs`, as parsed by `darling` -/
def encAttrs (a : EnumsetAttrs) : Val Code :=
  .struct "EnumsetAttrs"
    [("no_ops", .bool a.no_ops),
     ("no_super_impls", .bool a.no_super_impls),
     ("repr", spanned (opt .str a.repr) .repr),
     ("serialize_repr", spanned (opt .str a.serialize_repr) .serializeRepr),
     ("serialize_deny_unknown", .bool a.serialize_deny_unknown),
     ("crate_name", opt .str a.crate_name),
     ("serialize_as_list", spanned (.bool a.serialize_as_list) .serializeAsList),
     ("serialize_as_map", spanned (.bool a.serialize_as_map) .serializeAsMap)]

/-! ### the types of the macro -/

/-- `InternalRepr` -/
def encRepr : InternalRepr → Val Code
  | .u8 => .enum "InternalRepr" "U8" []
  | .u16 => .enum "InternalRepr" "U16" []
  | .u32 => .enum "InternalRepr" "U32" []
  | .u64 => .enum "InternalRepr" "U64" []
  | .u128 => .enum "InternalRepr" "U128" []
  | .array n => .enum "InternalRepr" "Array" [("0", .int .usize n)]

/-- `SerdeRepr` -/
def encSerde : SerdeRepr → Val Code
  | .u8 => .enum "SerdeRepr" "U8" []
  | .u16 => .enum "SerdeRepr" "U16" []
  | .u32 => .enum "SerdeRepr" "U32" []
  | .u64 => .enum "SerdeRepr" "U64" []
  | .u128 => .enum "SerdeRepr" "U128" []
  | .list => .enum "SerdeRepr" "List" []
  | .map => .enum "SerdeRepr" "Map" []
  | .array => .enum "SerdeRepr" "Array" []

/-- `EnumSetValue` -/
def encValue (v : EnumSetValue) : Val Code :=
  .struct "EnumSetValue" [("name", ident v.name), ("variant_repr", .int .u32 v.variant_repr)]

/-- `EnumSetInfo` -/
def encInfo (crate : Option String) (hdr : Header) (info : EnumSetInfo) : Val Code :=
  .struct "EnumSetInfo"
    [("name", ident hdr.name),
     ("crate_name", opt ident crate),
     ("explicit_internal_repr", opt encRepr info.explicit_internal_repr),
     ("internal_repr_force_array", .bool info.internal_repr_force_array),
     ("explicit_serde_repr", opt encSerde info.explicit_serde_repr),
     ("variants", .arr (info.variants.map encValue)),
     ("vis", visibility hdr.vis),
     ("max_discrim", .int .u32 info.max_discrim),
     ("max_discrim_span", opt encSpan info.max_discrim_span),
     ("cur_discrim", .int .u32 info.cur_discrim),
     ("used_variant_names", hashSet (info.used_variant_names.map .str)),
     ("used_discriminants", hashSet (info.used_discriminants.map (.int .u32))),
     ("no_ops", .bool info.no_ops),
     ("no_super_impls", .bool info.no_super_impls),
     ("serialize_deny_unknown", .bool info.serialize_deny_unknown)]

/-- An error. -/
def encErr : DeriveErr → Val Code
  | .msg sp m => synError (encSpan sp) (.str m)
  | .parse i => parseError i
  | _ => .unit

end Enumset.Src
