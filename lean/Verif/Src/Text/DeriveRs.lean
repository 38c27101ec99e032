/-!
# The text of `enumset_derive/src/lib.rs`

Written by `tools/generate.sh`.
-/

set_option maxRecDepth 100000

namespace Enumset.Src.DeriveRs

/-- enumset_derive/src/lib.rs, line by line -/
def text : List String :=
  ["#![recursion_limit = \"256\"]",
   "",
   "extern crate proc_macro;",
   "",
   "use darling::util::SpannedValue;",
   "use darling::*;",
   "use proc_macro::TokenStream;",
   "use proc_macro2::{Literal, Span, TokenStream as SynTokenStream};",
   "use quote::*;",
   "use std::{collections::HashSet, fmt::Display};",
   "use syn::spanned::Spanned;",
   "use syn::{Error, Result, *};",
   "",
   "/// Helper function for emitting compile errors.",
   "fn error<T>(span: Span, message: impl Display) -> Result<T> {",
   "    Err(Error::new(span, message))",
   "}",
   "",
   "/// Decodes the custom attributes for our custom derive.",
   "#[derive(FromDeriveInput, Default)]",
   "#[darling(attributes(enumset), default)]",
   "struct EnumsetAttrs {",
   "    no_ops: bool,",
   "    no_super_impls: bool,",
   "    #[darling(default)]",
   "    repr: SpannedValue<Option<String>>,",
   "    #[darling(default)]",
   "    serialize_repr: SpannedValue<Option<String>>,",
   "    serialize_deny_unknown: bool,",
   "    #[darling(default)]",
   "    crate_name: Option<String>,",
   "",
   "    // legacy options",
   "    serialize_as_list: SpannedValue<bool>, // replaced with serialize_repr",
   "    serialize_as_map: SpannedValue<bool>,  // replaced with serialize_repr",
   "}",
   "",
   "/// The internal representation of an enumset.",
   "#[derive(Copy, Clone)]",
   "enum InternalRepr {",
   "    /// internal repr: `u8`",
   "    U8,",
   "    /// internal repr: `u16`",
   "    U16,",
   "    /// internal repr: `u32`",
   "    U32,",
   "    /// internal repr: `u64`",
   "    U64,",
   "    /// internal repr: `u128`",
   "    U128,",
   "    /// internal repr: `[u64; size]`",
   "    Array(usize),",
   "}",
   "impl InternalRepr {",
   "    /// Determines the number of variants supported by this repr.",
   "    fn supported_variants(&self) -> usize {",
   "        match self {",
   "            InternalRepr::U8 => 8,",
   "            InternalRepr::U16 => 16,",
   "            InternalRepr::U32 => 32,",
   "            InternalRepr::U64 => 64,",
   "            InternalRepr::U128 => 128,",
   "            InternalRepr::Array(size) => size * 64,",
   "        }",
   "    }",
   "}",
   "",
   "/// The serde representation of the enumset.",
   "#[derive(Copy, Clone)]",
   "enum SerdeRepr {",
   "    /// serde type: `u8`",
   "    U8,",
   "    /// serde type: `u16`",
   "    U16,",
   "    /// serde type: `u32`",
   "    U32,",
   "    /// serde type: `u64`",
   "    U64,",
   "    /// serde type: `u128`",
   "    U128,",
   "    /// serde type: list of `T`",
   "    List,",
   "    /// serde type: map of `T` to `bool`",
   "    Map,",
   "    /// serde type: list of `u64`",
   "    Array,",
   "}",
   "impl SerdeRepr {",
   "    /// Determines the number of variants supported by this repr.",
   "    fn supported_variants(&self) -> Option<usize> {",
   "        match self {",
   "            SerdeRepr::U8 => Some(8),",
   "            SerdeRepr::U16 => Some(16),",
   "            SerdeRepr::U32 => Some(32),",
   "            SerdeRepr::U64 => Some(64),",
   "            SerdeRepr::U128 => Some(128),",
   "            SerdeRepr::List => None,",
   "            SerdeRepr::Map => None,",
   "            SerdeRepr::Array => None,",
   "        }",
   "    }",
   "}",
   "",
   "/// An variant in the enum set type.",
   "struct EnumSetValue {",
   "    /// The name of the variant.",
   "    name: Ident,",
   "    /// The discriminant of the variant.",
   "    variant_repr: u32,",
   "}",
   "",
   "/// Stores information about the enum set type.",
   "#[allow(dead_code)]",
   "struct EnumSetInfo {",
   "    /// The name of the enum.",
   "    name: Ident,",
   "    /// The crate name to use.",
   "    crate_name: Option<Ident>,",
   "    /// The numeric type to represent the `EnumSet` as in memory.",
   "    explicit_internal_repr: Option<InternalRepr>,",
   "    /// Forces the internal numeric type of the `EnumSet` to be an array.",
   "    internal_repr_force_array: bool,",
   "    /// The numeric type to serialize the enum as.",
   "    explicit_serde_repr: Option<SerdeRepr>,",
   "    /// A list of variants in the enum.",
   "    variants: Vec<EnumSetValue>,",
   "    /// Visbility",
   "    vis: Visibility,",
   "",
   "    /// The highest encountered variant discriminant.",
   "    max_discrim: u32,",
   "    /// The span of the highest encountered variant.",
   "    max_discrim_span: Option<Span>,",
   "    /// The current variant discriminant. Used to track, e.g. `A=10,B,C`.",
   "    cur_discrim: u32,",
   "    /// A list of variant names that are already in use.",
   "    used_variant_names: HashSet<String>,",
   "    /// A list of variant discriminants that are already in use.",
   "    used_discriminants: HashSet<u32>,",
   "",
   "    /// Avoid generating operator overloads on the enum type.",
   "    no_ops: bool,",
   "    /// Avoid generating implementations for `Clone`, `Copy`, `Eq`, and `PartialEq`.",
   "    no_super_impls: bool,",
   "    /// Disallow unknown bits while deserializing the enum.",
   "    serialize_deny_unknown: bool,",
   "}",
   "impl EnumSetInfo {",
   "    fn new(input: &DeriveInput, attrs: &EnumsetAttrs) -> EnumSetInfo {",
   "        EnumSetInfo {",
   "            name: input.ident.clone(),",
   "            crate_name: attrs",
   "                .crate_name",
   "                .as_ref()",
   "                .map(|x| Ident::new(x, Span::call_site())),",
   "            explicit_internal_repr: None,",
   "            internal_repr_force_array: false,",
   "            explicit_serde_repr: None,",
   "            variants: Vec::new(),",
   "            vis: input.vis.clone(),",
   "            max_discrim: 0,",
   "            max_discrim_span: None,",
   "            cur_discrim: 0,",
   "            used_variant_names: HashSet::new(),",
   "            used_discriminants: HashSet::new(),",
   "            no_ops: attrs.no_ops,",
   "            no_super_impls: attrs.no_super_impls,",
   "            serialize_deny_unknown: attrs.serialize_deny_unknown,",
   "        }",
   "    }",
   "",
   "    /// Explicits sets the serde representation of the enumset from a string.",
   "    fn push_serialize_repr(&mut self, span: Span, ty: &str) -> Result<()> {",
   "        match ty {",
   "            \"u8\" => self.explicit_serde_repr = Some(SerdeRepr::U8),",
   "            \"u16\" => self.explicit_serde_repr = Some(SerdeRepr::U16),",
   "            \"u32\" => self.explicit_serde_repr = Some(SerdeRepr::U32),",
   "            \"u64\" => self.explicit_serde_repr = Some(SerdeRepr::U64),",
   "            \"u128\" => self.explicit_serde_repr = Some(SerdeRepr::U128),",
   "            \"list\" => self.explicit_serde_repr = Some(SerdeRepr::List),",
   "            \"map\" => self.explicit_serde_repr = Some(SerdeRepr::Map),",
   "            \"array\" => self.explicit_serde_repr = Some(SerdeRepr::Array),",
   "            _ => error(span, format!(\"`{}` is not a valid serialized representation.\", ty))?,",
   "        }",
   "        Ok(())",
   "    }",
   "",
   "    /// Explicitly sets the representation of the enumset from a string.",
   "    fn push_repr(&mut self, span: Span, ty: &str) -> Result<()> {",
   "        match ty {",
   "            \"u8\" => self.explicit_internal_repr = Some(InternalRepr::U8),",
   "            \"u16\" => self.explicit_internal_repr = Some(InternalRepr::U16),",
   "            \"u32\" => self.explicit_internal_repr = Some(InternalRepr::U32),",
   "            \"u64\" => self.explicit_internal_repr = Some(InternalRepr::U64),",
   "            \"u128\" => self.explicit_internal_repr = Some(InternalRepr::U128),",
   "            \"array\" => self.internal_repr_force_array = true,",
   "            _ => error(span, format!(\"`{}` is not a valid internal enumset representation.\", ty))?,",
   "        }",
   "        Ok(())",
   "    }",
   "",
   "    /// Adds a variant to the enumset.",
   "    fn push_variant(&mut self, variant: &Variant) -> Result<()> {",
   "        if self.used_variant_names.contains(&variant.ident.to_string()) {",
   "            error(variant.span(), \"Duplicated variant name.\")",
   "        } else if let Fields::Unit = variant.fields {",
   "            // Parse the discriminant.",
   "            if let Some((_, expr)) = &variant.discriminant {",
   "                if let Expr::Lit(ExprLit { lit: Lit::Int(i), .. }) = expr {",
   "                    match i.base10_parse() {",
   "                        Ok(val) => self.cur_discrim = val,",
   "                        Err(_) => error(expr.span(), \"Enum discriminants must fit into `u32`.\")?,",
   "                    }",
   "                } else if let Expr::Unary(ExprUnary { op: UnOp::Neg(_), .. }) = expr {",
   "                    error(expr.span(), \"Enum discriminants must not be negative.\")?;",
   "                } else {",
   "                    error(variant.span(), \"Enum discriminants must be literal expressions.\")?;",
   "                }",
   "            }",
   "",
   "            // Validate the discriminant.",
   "            let discriminant = self.cur_discrim;",
   "            if discriminant >= 0xFFFFFFC0 {",
   "                error(variant.span(), \"Maximum discriminant allowed is `0xFFFFFFBF`.\")?;",
   "            }",
   "            if self.used_discriminants.contains(&discriminant) {",
   "                error(variant.span(), \"Duplicated enum discriminant.\")?;",
   "            }",
   "",
   "            // Add the variant to the info.",
   "            self.cur_discrim += 1;",
   "            if discriminant > self.max_discrim {",
   "                self.max_discrim = discriminant;",
   "                self.max_discrim_span = Some(variant.span());",
   "            }",
   "            self.variants",
   "                .push(EnumSetValue { name: variant.ident.clone(), variant_repr: discriminant });",
   "            self.used_variant_names.insert(variant.ident.to_string());",
   "            self.used_discriminants.insert(discriminant);",
   "",
   "            Ok(())",
   "        } else {",
   "            error(variant.span(), \"`#[derive(EnumSetType)]` can only be used on fieldless enums.\")",
   "        }",
   "    }",
   "",
   "    /// Returns the actual internal representation of the set.",
   "    fn internal_repr(&self) -> InternalRepr {",
   "        match self.explicit_internal_repr {",
   "            Some(x) => x,",
   "            None => match self.max_discrim {",
   "                x if x < 8 && !self.internal_repr_force_array => InternalRepr::U8,",
   "                x if x < 16 && !self.internal_repr_force_array => InternalRepr::U16,",
   "                x if x < 32 && !self.internal_repr_force_array => InternalRepr::U32,",
   "                x if x < 64 && !self.internal_repr_force_array => InternalRepr::U64,",
   "                x => InternalRepr::Array((x as usize + 64) / 64),",
   "            },",
   "        }",
   "    }",
   "",
   "    /// Returns the actual serde representation of the set.",
   "    fn serde_repr(&self) -> SerdeRepr {",
   "        match self.explicit_serde_repr {",
   "            Some(x) => x,",
   "            None => match self.max_discrim {",
   "                x if x < 8 => SerdeRepr::U8,",
   "                x if x < 16 => SerdeRepr::U16,",
   "                x if x < 32 => SerdeRepr::U32,",
   "                x if x < 64 => SerdeRepr::U64,",
   "                x if x < 128 => SerdeRepr::U128,",
   "                _ => SerdeRepr::Array,",
   "            },",
   "        }",
   "    }",
   "",
   "    /// Validate the enumset type.",
   "    fn validate(&self) -> Result<()> {",
   "        // Gets the span of the maximum value.",
   "        let largest_discriminant_span = match &self.max_discrim_span {",
   "            Some(x) => *x,",
   "            None => Span::call_site(),",
   "        };",
   "",
   "        // Check if all bits of the bitset can fit in the memory representation, if one was given.",
   "        if self.internal_repr().supported_variants() <= self.max_discrim as usize {",
   "            error(",
   "                largest_discriminant_span,",
   "                \"`repr` is too small to contain the largest discriminant.\",",
   "            )?;",
   "        }",
   "",
   "        // Check if all bits of the bitset can fit in the serialization representation.",
   "        if let Some(supported_variants) = self.serde_repr().supported_variants() {",
   "            if supported_variants <= self.max_discrim as usize {",
   "                error(",
   "                    largest_discriminant_span,",
   "                    \"`serialize_repr` is too small to contain the largest discriminant.\",",
   "                )?;",
   "            }",
   "        }",
   "",
   "        Ok(())",
   "    }",
   "",
   "    /// Returns a bitmask of all variants in the set.",
   "    fn variant_map(&self) -> Vec<u64> {",
   "        let mut vec = vec![0];",
   "        for variant in &self.variants {",
   "            let (idx, bit) = (variant.variant_repr as usize / 64, variant.variant_repr % 64);",
   "            while idx >= vec.len() {",
   "                vec.push(0);",
   "            }",
   "            vec[idx] |= 1u64 << bit;",
   "        }",
   "        vec",
   "    }",
   "}",
   "",
   "/// Generates the actual `EnumSetType` impl.",
   "fn enum_set_type_impl(info: EnumSetInfo, warnings: Vec<(Span, &'static str)>) -> SynTokenStream {",
   "    let name = &info.name;",
   "",
   "    let enumset = match &info.crate_name {",
   "        Some(crate_name) => quote!(::#crate_name),",
   "        None => {",
   "            #[cfg(feature = \"proc-macro-crate\")]",
   "            {",
   "                use proc_macro_crate::FoundCrate;",
   "",
   "                let crate_name = proc_macro_crate::crate_name(\"enumset\");",
   "                match crate_name {",
   "                    Ok(FoundCrate::Name(name)) => {",
   "                        let ident = Ident::new(&name, Span::call_site());",
   "                        quote!(::#ident)",
   "                    }",
   "                    _ => quote!(::enumset),",
   "                }",
   "            }",
   "",
   "            #[cfg(not(feature = \"proc-macro-crate\"))]",
   "            {",
   "                quote!(::enumset)",
   "            }",
   "        }",
   "    };",
   "    let typed_enumset = quote!(#enumset::EnumSet<#name>);",
   "    let core = quote!(#enumset::__internal::core_export);",
   "    let internal = quote!(#enumset::__internal);",
   "    #[cfg(feature = \"serde\")]",
   "    let serde = quote!(#enumset::__internal::serde);",
   "",
   "    let repr = match info.internal_repr() {",
   "        InternalRepr::U8 => quote! { u8 },",
   "        InternalRepr::U16 => quote! { u16 },",
   "        InternalRepr::U32 => quote! { u32 },",
   "        InternalRepr::U64 => quote! { u64 },",
   "        InternalRepr::U128 => quote! { u128 },",
   "        InternalRepr::Array(size) => quote! { #internal::ArrayRepr<{ #size }> },",
   "    };",
   "    let variant_map = info.variant_map();",
   "    let all_variants = match info.internal_repr() {",
   "        InternalRepr::U8 | InternalRepr::U16 | InternalRepr::U32 | InternalRepr::U64 => {",
   "            let lit = Literal::u64_unsuffixed(variant_map[0]);",
   "            quote! { #lit }",
   "        }",
   "        InternalRepr::U128 => {",
   "            let lit = Literal::u128_unsuffixed(",
   "                variant_map[0] as u128 | variant_map.get(1).map_or(0, |x| (*x as u128) << 64),",
   "            );",
   "            quote! { #lit }",
   "        }",
   "        InternalRepr::Array(size) => {",
   "            let mut new = Vec::new();",
   "            for i in 0..size {",
   "                new.push(Literal::u64_unsuffixed(*variant_map.get(i).unwrap_or(&0)));",
   "            }",
   "            quote! { #internal::ArrayRepr::<{ #size }>([#(#new,)*]) }",
   "        }",
   "    };",
   "",
   "    let ops = if info.no_ops {",
   "        quote! {}",
   "    } else {",
   "        quote! {",
   "            #[automatically_derived]",
   "            impl<O: Into<#typed_enumset>> #core::ops::Sub<O> for #name {",
   "                type Output = #typed_enumset;",
   "                fn sub(self, other: O) -> Self::Output {",
   "                    #enumset::EnumSet::only(self) - other.into()",
   "                }",
   "            }",
   "            #[automatically_derived]",
   "            impl<O: Into<#typed_enumset>> #core::ops::BitAnd<O> for #name {",
   "                type Output = #typed_enumset;",
   "                fn bitand(self, other: O) -> Self::Output {",
   "                    #enumset::EnumSet::only(self) & other.into()",
   "                }",
   "            }",
   "            #[automatically_derived]",
   "            impl<O: Into<#typed_enumset>> #core::ops::BitOr<O> for #name {",
   "                type Output = #typed_enumset;",
   "                fn bitor(self, other: O) -> Self::Output {",
   "                    #enumset::EnumSet::only(self) | other.into()",
   "                }",
   "            }",
   "            #[automatically_derived]",
   "            impl<O: Into<#typed_enumset>> #core::ops::BitXor<O> for #name {",
   "                type Output = #typed_enumset;",
   "                fn bitxor(self, other: O) -> Self::Output {",
   "                    #enumset::EnumSet::only(self) ^ other.into()",
   "                }",
   "            }",
   "            #[automatically_derived]",
   "            impl #core::ops::Not for #name {",
   "                type Output = #typed_enumset;",
   "                fn not(self) -> Self::Output {",
   "                    !#enumset::EnumSet::only(self)",
   "                }",
   "            }",
   "            #[automatically_derived]",
   "            impl #core::cmp::PartialEq<#typed_enumset> for #name {",
   "                fn eq(&self, other: &#typed_enumset) -> bool {",
   "                    #enumset::EnumSet::only(*self) == *other",
   "                }",
   "            }",
   "        }",
   "    };",
   "",
   "    #[cfg(feature = \"serde\")]",
   "    let serde_repr = info.serde_repr();",
   "",
   "    #[cfg(feature = \"serde\")]",
   "    let serde_ops = match serde_repr {",
   "        SerdeRepr::U8 | SerdeRepr::U16 | SerdeRepr::U32 | SerdeRepr::U64 | SerdeRepr::U128 => {",
   "            let (serialize_repr, from_fn, to_fn) = match serde_repr {",
   "                SerdeRepr::U8 => (quote! { u8 }, quote! { from_u8 }, quote! { to_u8 }),",
   "                SerdeRepr::U16 => (quote! { u16 }, quote! { from_u16 }, quote! { to_u16 }),",
   "                SerdeRepr::U32 => (quote! { u32 }, quote! { from_u32 }, quote! { to_u32 }),",
   "                SerdeRepr::U64 => (quote! { u64 }, quote! { from_u64 }, quote! { to_u64 }),",
   "                SerdeRepr::U128 => (quote! { u128 }, quote! { from_u128 }, quote! { to_u128 }),",
   "                _ => unreachable!(),",
   "            };",
   "            let check_unknown = if info.serialize_deny_unknown {",
   "                quote! {",
   "                    if value & !#all_variants != 0 {",
   "                        use #serde::de::Error;",
   "                        return #core::prelude::v1::Err(",
   "                            D::Error::custom(\"enumset contains unknown bits\")",
   "                        )",
   "                    }",
   "                }",
   "            } else {",
   "                quote! {}",
   "            };",
   "            quote! {",
   "                fn serialize<S: #serde::Serializer>(",
   "                    set: #enumset::EnumSet<#name>, ser: S,",
   "                ) -> #core::result::Result<S::Ok, S::Error> {",
   "                    let value =",
   "                        <#repr as #enumset::__internal::EnumSetTypeRepr>::#to_fn(&set.__priv_repr);",
   "                    #serde::Serialize::serialize(&value, ser)",
   "                }",
   "                fn deserialize<'de, D: #serde::Deserializer<'de>>(",
   "                    de: D,",
   "                ) -> #core::result::Result<#enumset::EnumSet<#name>, D::Error> {",
   "                    let value = <#serialize_repr as #serde::Deserialize>::deserialize(de)?;",
   "                    #check_unknown",
   "                    let value = <#repr as #enumset::__internal::EnumSetTypeRepr>::#from_fn(value);",
   "                    #core::prelude::v1::Ok(#enumset::EnumSet {",
   "                        __priv_repr: value & #all_variants,",
   "                    })",
   "                }",
   "            }",
   "        }",
   "        SerdeRepr::List => {",
   "            let expecting_str = format!(\"a list of {}\", name);",
   "            quote! {",
   "                fn serialize<S: #serde::Serializer>(",
   "                    set: #enumset::EnumSet<#name>, ser: S,",
   "                ) -> #core::result::Result<S::Ok, S::Error> {",
   "                    use #serde::ser::SerializeSeq;",
   "                    let mut seq = ser.serialize_seq(#core::prelude::v1::Some(set.len()))?;",
   "                    for bit in set {",
   "                        seq.serialize_element(&bit)?;",
   "                    }",
   "                    seq.end()",
   "                }",
   "                fn deserialize<'de, D: #serde::Deserializer<'de>>(",
   "                    de: D,",
   "                ) -> #core::result::Result<#enumset::EnumSet<#name>, D::Error> {",
   "                    struct Visitor;",
   "                    impl <'de> #serde::de::Visitor<'de> for Visitor {",
   "                        type Value = #enumset::EnumSet<#name>;",
   "                        fn expecting(",
   "                            &self, formatter: &mut #core::fmt::Formatter,",
   "                        ) -> #core::fmt::Result {",
   "                            write!(formatter, #expecting_str)",
   "                        }",
   "                        fn visit_seq<A>(",
   "                            mut self, mut seq: A,",
   "                        ) -> #core::result::Result<Self::Value, A::Error> where",
   "                            A: #serde::de::SeqAccess<'de>",
   "                        {",
   "                            let mut accum = #enumset::EnumSet::<#name>::new();",
   "                            while let #core::prelude::v1::Some(val) = seq.next_element::<#name>()? {",
   "                                accum |= val;",
   "                            }",
   "                            #core::prelude::v1::Ok(accum)",
   "                        }",
   "                    }",
   "                    de.deserialize_seq(Visitor)",
   "                }",
   "            }",
   "        }",
   "        SerdeRepr::Map => {",
   "            let expecting_str = format!(\"a map from {} to bool\", name);",
   "            quote! {",
   "                fn serialize<S: #serde::Serializer>(",
   "                    set: #enumset::EnumSet<#name>, ser: S,",
   "                ) -> #core::result::Result<S::Ok, S::Error> {",
   "                    use #serde::ser::SerializeMap;",
   "                    let mut map = ser.serialize_map(#core::prelude::v1::Some(set.len()))?;",
   "                    for bit in set {",
   "                        map.serialize_entry(&bit, &true)?;",
   "                    }",
   "                    map.end()",
   "                }",
   "                fn deserialize<'de, D: #serde::Deserializer<'de>>(",
   "                    de: D,",
   "                ) -> #core::result::Result<#enumset::EnumSet<#name>, D::Error> {",
   "                    struct Visitor;",
   "                    impl <'de> #serde::de::Visitor<'de> for Visitor {",
   "                        type Value = #enumset::EnumSet<#name>;",
   "                        fn expecting(",
   "                            &self, formatter: &mut #core::fmt::Formatter,",
   "                        ) -> #core::fmt::Result {",
   "                            write!(formatter, #expecting_str)",
   "                        }",
   "                        fn visit_map<A>(",
   "                            mut self, mut map: A,",
   "                        ) -> #core::result::Result<Self::Value, A::Error> where",
   "                            A: #serde::de::MapAccess<'de>",
   "                        {",
   "                            let mut accum = #enumset::EnumSet::<#name>::new();",
   "                            while let #core::prelude::v1::Some((val, is_present)) =",
   "                                map.next_entry::<#name, bool>()?",
   "                            {",
   "                                if is_present {",
   "                                    accum |= val;",
   "                                }",
   "                            }",
   "                            #core::prelude::v1::Ok(accum)",
   "                        }",
   "                    }",
   "                    de.deserialize_map(Visitor)",
   "                }",
   "            }",
   "        }",
   "        SerdeRepr::Array => {",
   "            let preferred_size = quote! {",
   "                <<#name as #internal::EnumSetTypePrivate>::Repr as #internal::EnumSetTypeRepr>",
   "                    ::PREFERRED_ARRAY_LEN",
   "            };",
   "            let (check_extra, convert_array) = if info.serialize_deny_unknown {",
   "                (",
   "                    quote! {",
   "                        if _val != 0 {",
   "                            return #core::prelude::v1::Err(",
   "                                D::Error::custom(\"enumset contains unknown bits\")",
   "                            )",
   "                        }",
   "                    },",
   "                    quote! {",
   "                        match #enumset::EnumSet::<#name>::try_from_array(accum) {",
   "                            Some(x) => x,",
   "                            None => #core::prelude::v1::Err(",
   "                                D::Error::custom(\"enumset contains unknown bits\")",
   "                            ),",
   "                        }",
   "                    },",
   "                )",
   "            } else {",
   "                (quote! {}, quote! {",
   "                    #core::prelude::v1::Ok(#enumset::EnumSet::<#name>::from_array(accum))",
   "                })",
   "            };",
   "            quote! {",
   "                fn serialize<S: #serde::Serializer>(",
   "                    set: #enumset::EnumSet<#name>, ser: S,",
   "                ) -> #core::result::Result<S::Ok, S::Error> {",
   "                    // read the enum as an array",
   "                    let array = set.as_array::<{ #preferred_size }>();",
   "",
   "                    // find the last non-zero value in the array",
   "                    let mut end = array.len();",
   "                    for i in (0..array.len()).rev() {",
   "                        if array[i] != 0 {",
   "                            break;",
   "                        }",
   "                        end = i + 1;",
   "                    }",
   "",
   "                    // serialize the array",
   "                    #serde::Serialize::serialize(&array[..end], ser)",
   "                }",
   "                fn deserialize<'de, D: #serde::Deserializer<'de>>(",
   "                    de: D,",
   "                ) -> #core::result::Result<#enumset::EnumSet<#name>, D::Error> {",
   "                    struct Visitor;",
   "                    impl <'de> #serde::de::Visitor<'de> for Visitor {",
   "                        type Value = #enumset::EnumSet<#name>;",
   "                        fn expecting(",
   "                            &self, formatter: &mut #core::fmt::Formatter,",
   "                        ) -> #core::fmt::Result {",
   "                            write!(formatter, \"a list of u64\")",
   "                        }",
   "                        fn visit_seq<A>(",
   "                            mut self, mut seq: A,",
   "                        ) -> #core::result::Result<Self::Value, A::Error> where",
   "                            A: #serde::de::SeqAccess<'de>",
   "                        {",
   "                            let mut accum = [0; #preferred_size];",
   "",
   "                            let mut i = 0;",
   "                            while let #core::prelude::v1::Some(val) = seq.next_element::<u64>()? {",
   "                                accum[i] = val;",
   "                                i += 1;",
   "",
   "                                if i == accum.len() {",
   "                                    break;",
   "                                }",
   "                            }",
   "                            while let #core::prelude::v1::Some(_val) = seq.next_element::<u64>()? {",
   "                                #check_extra",
   "                            }",
   "",
   "                            #convert_array",
   "                        }",
   "                    }",
   "                    de.deserialize_seq(Visitor)",
   "                }",
   "            }",
   "        }",
   "    };",
   "",
   "    #[cfg(not(feature = \"serde\"))]",
   "    let serde_ops = quote! {};",
   "",
   "    let is_uninhabited = info.variants.is_empty();",
   "    let is_zst = info.variants.len() == 1;",
   "    let into_impl = if is_uninhabited {",
   "        quote! {",
   "            fn enum_into_u32(self) -> u32 {",
   "                panic!(concat!(stringify!(#name), \" is uninhabited.\"))",
   "            }",
   "            unsafe fn enum_from_u32(val: u32) -> Self {",
   "                panic!(concat!(stringify!(#name), \" is uninhabited.\"))",
   "            }",
   "        }",
   "    } else if is_zst {",
   "        let variant = &info.variants[0].name;",
   "        quote! {",
   "            fn enum_into_u32(self) -> u32 {",
   "                self as u32",
   "            }",
   "            unsafe fn enum_from_u32(val: u32) -> Self {",
   "                #name::#variant",
   "            }",
   "        }",
   "    } else {",
   "        let variant_name: Vec<_> = info.variants.iter().map(|x| &x.name).collect();",
   "        let variant_value: Vec<_> = info.variants.iter().map(|x| x.variant_repr).collect();",
   "",
   "        let const_field: Vec<_> = [\"IS_U8\", \"IS_U16\", \"IS_U32\", \"IS_U64\", \"IS_U128\"]",
   "            .iter()",
   "            .map(|x| Ident::new(x, Span::call_site()))",
   "            .collect();",
   "        let int_type: Vec<_> = [\"u8\", \"u16\", \"u32\", \"u64\", \"u128\"]",
   "            .iter()",
   "            .map(|x| Ident::new(x, Span::call_site()))",
   "            .collect();",
   "",
   "        quote! {",
   "            fn enum_into_u32(self) -> u32 {",
   "                self as u32",
   "            }",
   "            unsafe fn enum_from_u32(val: u32) -> Self {",
   "                // We put these in const fields so the branches they guard aren't generated even",
   "                // on -O0",
   "                #(const #const_field: bool =",
   "                    #core::mem::size_of::<#name>() == #core::mem::size_of::<#int_type>();)*",
   "                match val {",
   "                    // Every valid variant value has an explicit branch. If they get optimized out,",
   "                    // great. If the representation has changed somehow, and they don't, oh well,",
   "                    // there's still no UB.",
   "                    #(#variant_value => #name::#variant_name,)*",
   "                    // Helps hint to the LLVM that this is a transmute. Note that this branch is",
   "                    // still unreachable.",
   "                    #(x if #const_field => {",
   "                        let x = x as #int_type;",
   "                        *(&x as *const _ as *const #name)",
   "                    })*",
   "                    // Default case. Sometimes causes LLVM to generate a table instead of a simple",
   "                    // transmute, but, oh well.",
   "                    _ => #core::hint::unreachable_unchecked(),",
   "                }",
   "            }",
   "        }",
   "    };",
   "",
   "    let eq_impl = if is_uninhabited {",
   "        quote!(panic!(concat!(stringify!(#name), \" is uninhabited.\")))",
   "    } else {",
   "        quote!((*self as u32) == (*other as u32))",
   "    };",
   "",
   "    let super_impls = if info.no_super_impls {",
   "        quote! {}",
   "    } else {",
   "        quote! {",
   "            #[automatically_derived]",
   "            impl #core::cmp::PartialEq for #name {",
   "                fn eq(&self, other: &Self) -> bool {",
   "                    #eq_impl",
   "                }",
   "            }",
   "            #[automatically_derived]",
   "            impl #core::cmp::Eq for #name { }",
   "            #[automatically_derived]",
   "            #[allow(clippy::expl_impl_clone_on_copy)]",
   "            impl #core::clone::Clone for #name {",
   "                fn clone(&self) -> Self {",
   "                    *self",
   "                }",
   "            }",
   "            #[automatically_derived]",
   "            impl #core::marker::Copy for #name { }",
   "        }",
   "    };",
   "",
   "    let impl_with_repr = if info.explicit_internal_repr.is_some() {",
   "        quote! {",
   "            #[automatically_derived]",
   "            unsafe impl #enumset::EnumSetTypeWithRepr for #name {",
   "                type Repr = #repr;",
   "            }",
   "        }",
   "    } else {",
   "        quote! {}",
   "    };",
   "",
   "    let inherent_impl_blocks = match info.internal_repr() {",
   "        InternalRepr::U8",
   "        | InternalRepr::U16",
   "        | InternalRepr::U32",
   "        | InternalRepr::U64",
   "        | InternalRepr::U128 => {",
   "            let self_as_repr_mask = if is_uninhabited {",
   "                quote! { 0 } // impossible anyway",
   "            } else {",
   "                quote! { 1 << self as #repr }",
   "            };",
   "",
   "            quote! {",
   "                #[automatically_derived]",
   "                #[doc(hidden)]",
   "                impl #name {",
   "                    /// Creates a new enumset with only this variant.",
   "                    #[deprecated(note = \"This method is an internal implementation detail \\",
   "                                         generated by the `enumset` crate's procedural macro. It \\",
   "                                         should not be used directly.\")]",
   "                    #[doc(hidden)]",
   "                    pub const fn __impl_enumset_internal__const_only(",
   "                        self,",
   "                    ) -> #enumset::EnumSet<#name> {",
   "                        #enumset::EnumSet { __priv_repr: #self_as_repr_mask }",
   "                    }",
   "                }",
   "",
   "                #[automatically_derived]",
   "                #[doc(hidden)]",
   "                impl __EnumSetConstHelper {",
   "                    pub const fn const_union(",
   "                        &self,",
   "                        chain_a: #enumset::EnumSet<#name>,",
   "                        chain_b: #enumset::EnumSet<#name>,",
   "                    ) -> #enumset::EnumSet<#name> {",
   "                        #enumset::EnumSet {",
   "                            __priv_repr: chain_a.__priv_repr | chain_b.__priv_repr,",
   "                        }",
   "                    }",
   "",
   "                    pub const fn const_intersection(",
   "                        &self,",
   "                        chain_a: #enumset::EnumSet<#name>,",
   "                        chain_b: #enumset::EnumSet<#name>,",
   "                    ) -> #enumset::EnumSet<#name> {",
   "                        #enumset::EnumSet {",
   "                            __priv_repr: chain_a.__priv_repr & chain_b.__priv_repr,",
   "                        }",
   "                    }",
   "",
   "                    pub const fn const_symmetric_difference(",
   "                        &self,",
   "                        chain_a: #enumset::EnumSet<#name>,",
   "                        chain_b: #enumset::EnumSet<#name>,",
   "                    ) -> #enumset::EnumSet<#name> {",
   "                        #enumset::EnumSet {",
   "                            __priv_repr: chain_a.__priv_repr ^ chain_b.__priv_repr,",
   "                        }",
   "                    }",
   "",
   "                    pub const fn const_complement(",
   "                        &self,",
   "                        chain: #enumset::EnumSet<#name>,",
   "                    ) -> #enumset::EnumSet<#name> {",
   "                        let mut all = #enumset::EnumSet::<#name>::all();",
   "                        #enumset::EnumSet {",
   "                            __priv_repr: !chain.__priv_repr & all.__priv_repr,",
   "                        }",
   "                    }",
   "                }",
   "            }",
   "        }",
   "        InternalRepr::Array(size) => {",
   "            quote! {",
   "                #[automatically_derived]",
   "                #[doc(hidden)]",
   "                impl #name {",
   "                    /// Creates a new enumset with only this variant.",
   "                    #[deprecated(note = \"This method is an internal implementation detail \\",
   "                                         generated by the `enumset` crate's procedural macro. It \\",
   "                                         should not be used directly.\")]",
   "                    #[doc(hidden)]",
   "                    pub const fn __impl_enumset_internal__const_only(",
   "                        self,",
   "                    ) -> #enumset::EnumSet<#name> {",
   "                        let mut set = #enumset::EnumSet::<#name> {",
   "                            __priv_repr: #internal::ArrayRepr::<{ #size }>([0; #size]),",
   "                        };",
   "                        let bit = self as u32;",
   "                        let (idx, bit) = (bit as usize / 64, bit % 64);",
   "                        set.__priv_repr.0[idx] |= 1u64 << bit;",
   "                        set",
   "                    }",
   "                }",
   "",
   "                #[automatically_derived]",
   "                #[doc(hidden)]",
   "                impl __EnumSetConstHelper {",
   "                    pub const fn const_union(",
   "                        &self,",
   "                        mut chain_a: #enumset::EnumSet<#name>,",
   "                        chain_b: #enumset::EnumSet<#name>,",
   "                    ) -> #enumset::EnumSet<#name> {",
   "                        let mut i = 0;",
   "                        while i < #size {",
   "                            chain_a.__priv_repr.0[i] |= chain_b.__priv_repr.0[i];",
   "                            i += 1;",
   "                        }",
   "                        chain_a",
   "                    }",
   "",
   "                    pub const fn const_intersection(",
   "                        &self,",
   "                        mut chain_a: #enumset::EnumSet<#name>,",
   "                        chain_b: #enumset::EnumSet<#name>,",
   "                    ) -> #enumset::EnumSet<#name> {",
   "                        let mut i = 0;",
   "                        while i < #size {",
   "                            chain_a.__priv_repr.0[i] &= chain_b.__priv_repr.0[i];",
   "                            i += 1;",
   "                        }",
   "                        chain_a",
   "                    }",
   "",
   "                    pub const fn const_symmetric_difference(",
   "                        &self,",
   "                        mut chain_a: #enumset::EnumSet<#name>,",
   "                        chain_b: #enumset::EnumSet<#name>,",
   "                    ) -> #enumset::EnumSet<#name> {",
   "                        let mut i = 0;",
   "                        while i < #size {",
   "                            chain_a.__priv_repr.0[i] ^= chain_b.__priv_repr.0[i];",
   "                            i += 1;",
   "                        }",
   "                        chain_a",
   "                    }",
   "",
   "                    pub const fn const_complement(",
   "                        &self,",
   "                        mut chain: #enumset::EnumSet<#name>,",
   "                    ) -> #enumset::EnumSet<#name> {",
   "                        let mut all = #enumset::EnumSet::<#name>::all();",
   "                        let mut i = 0;",
   "                        while i < #size {",
   "                            let new = !chain.__priv_repr.0[i] & all.__priv_repr.0[i];",
   "                            chain.__priv_repr.0[i] = new;",
   "                            i += 1;",
   "                        }",
   "                        chain",
   "                    }",
   "                }",
   "            }",
   "        }",
   "    };",
   "",
   "    let mut generated_warnings = SynTokenStream::new();",
   "    for (span, warning) in warnings {",
   "        generated_warnings.extend(quote_spanned! {",
   "            span => {",
   "                #[deprecated(note = #warning)]",
   "                #[allow(non_upper_case_globals)]",
   "                const _w: () = ();",
   "                let _ = _w;",
   "            }",
   "        });",
   "    }",
   "",
   "    let bit_width = info.max_discrim + 1;",
   "    let variant_count = info.variants.len() as u32;",
   "    let vis = &info.vis;",
   "    quote! {",
   "        const _: () = {",
   "            #[automatically_derived]",
   "            #[doc(hidden)]",
   "            #vis struct __EnumSetConstHelper;",
   "",
   "            #[automatically_derived]",
   "            #[doc(hidden)]",
   "            impl #name {",
   "                /// Creates a new enumset helper.",
   "                #[deprecated(note = \"This method is an internal implementation detail generated \\",
   "                                     by the `enumset` crate's procedural macro. It should not be \\",
   "                                     used directly.\")]",
   "                #[doc(hidden)]",
   "                pub const fn __impl_enumset_internal__const_helper(",
   "                    self,",
   "                ) -> __EnumSetConstHelper {",
   "                    __EnumSetConstHelper",
   "                }",
   "            }",
   "",
   "            #[automatically_derived]",
   "            unsafe impl #internal::EnumSetTypePrivate for #name {",
   "                type ConstHelper = __EnumSetConstHelper;",
   "                const CONST_HELPER_INSTANCE: __EnumSetConstHelper = __EnumSetConstHelper;",
   "",
   "                type Repr = #repr;",
   "                const ALL_BITS: Self::Repr = #all_variants;",
   "                const BIT_WIDTH: u32 = #bit_width;",
   "                const VARIANT_COUNT: u32 = #variant_count;",
   "",
   "                #into_impl",
   "                #serde_ops",
   "            }",
   "",
   "            #[automatically_derived]",
   "            unsafe impl #enumset::EnumSetType for #name { }",
   "",
   "            #impl_with_repr",
   "            #super_impls",
   "            #ops",
   "            #inherent_impl_blocks",
   "",
   "            fn __enumset_derive__generated_warnings() {",
   "                #generated_warnings",
   "            }",
   "        };",
   "    }",
   "}",
   "",
   "#[proc_macro_derive(EnumSetType, attributes(enumset))]",
   "pub fn derive_enum_set_type(input: TokenStream) -> TokenStream {",
   "    let input: DeriveInput = parse_macro_input!(input);",
   "    let input_span = input.span();",
   "    let attrs: EnumsetAttrs = match EnumsetAttrs::from_derive_input(&input) {",
   "        Ok(attrs) => attrs,",
   "        Err(e) => return e.write_errors().into(),",
   "    };",
   "    derive_enum_set_type_0(input, attrs, input_span).unwrap_or_else(|e| e.to_compile_error().into())",
   "}",
   "fn derive_enum_set_type_0(",
   "    input: DeriveInput,",
   "    attrs: EnumsetAttrs,",
   "    _input_span: Span,",
   ") -> Result<TokenStream> {",
   "    if !input.generics.params.is_empty() {",
   "        error(",
   "            input.generics.span(),",
   "            \"`#[derive(EnumSetType)]` cannot be used on enums with type parameters.\",",
   "        )",
   "    } else if let Data::Enum(data) = &input.data {",
   "        let mut info = EnumSetInfo::new(&input, &attrs);",
   "        let mut warnings = Vec::new();",
   "",
   "        // Check enum repr",
   "        for attr in &input.attrs {",
   "            if attr.path().is_ident(\"repr\") {",
   "                let meta: Ident = attr.parse_args()?;",
   "                match meta.to_string().as_str() {",
   "                    \"C\" | \"Rust\" => {}",
   "                    \"u8\" | \"u16\" | \"u32\" | \"u64\" | \"u128\" | \"usize\" => {}",
   "                    \"i8\" | \"i16\" | \"i32\" | \"i64\" | \"i128\" | \"isize\" => {}",
   "                    x => error(",
   "                        attr.span(),",
   "                        format!(\"`#[repr({})]` cannot be used on enumset variants.\", x),",
   "                    )?,",
   "                }",
   "            }",
   "        }",
   "",
   "        // Parse internal representations",
   "        if let Some(repr) = &*attrs.repr {",
   "            info.push_repr(attrs.repr.span(), repr)?;",
   "        }",
   "",
   "        // Parse serialization representations",
   "        if let Some(serialize_repr) = &*attrs.serialize_repr {",
   "            info.push_serialize_repr(attrs.serialize_repr.span(), serialize_repr)?;",
   "        }",
   "        if *attrs.serialize_as_map {",
   "            info.explicit_serde_repr = Some(SerdeRepr::Map);",
   "            warnings.push((",
   "                attrs.serialize_as_map.span(),",
   "                \"#[enumset(serialize_as_map)] is deprecated. \\",
   "                 Use `#[enumset(serialize_repr = \\\"map\\\")]` instead.\",",
   "            ));",
   "        }",
   "        if *attrs.serialize_as_list {",
   "            // in old versions, serialize_as_list will override serialize_as_map",
   "            info.explicit_serde_repr = Some(SerdeRepr::List);",
   "            warnings.push((",
   "                attrs.serialize_as_list.span(),",
   "                \"#[enumset(serialize_as_list)] is deprecated. \\",
   "                 Use `#[enumset(serialize_repr = \\\"list\\\")]` instead.\",",
   "            ));",
   "        }",
   "        #[cfg(feature = \"std_deprecation_warning\")]",
   "        {",
   "            warnings.push((",
   "                _input_span,",
   "                \"feature = \\\"std\\\" is depercated. If you rename `enumset`, use \\",
   "                 feature = \\\"proc-macro-crate\\\" instead. If you don't, remove the feature.\",",
   "            ));",
   "        }",
   "",
   "        // Parse enum variants",
   "        for variant in &data.variants {",
   "            info.push_variant(variant)?;",
   "        }",
   "",
   "        // Validate the enumset",
   "        info.validate()?;",
   "",
   "        // Generates the actual `EnumSetType` implementation",
   "        Ok(enum_set_type_impl(info, warnings).into())",
   "    } else {",
   "        error(input.span(), \"`#[derive(EnumSetType)]` may only be used on enums\")",
   "    }",
   "}"]

/-- the characters of `text` -/
def chars : List (List Char) :=
  [['#', '!', '[', 'r', 'e', 'c', 'u', 'r', 's', 'i', 'o', 'n', '_', 'l', 'i', 'm', 'i', 't', ' ', '=', ' ', '"', '2', '5', '6', '"', ']'],
   [],
   ['e', 'x', 't', 'e', 'r', 'n', ' ', 'c', 'r', 'a', 't', 'e', ' ', 'p', 'r', 'o', 'c', '_', 'm', 'a', 'c', 'r', 'o', ';'],
   [],
   ['u', 's', 'e', ' ', 'd', 'a', 'r', 'l', 'i', 'n', 'g', ':', ':', 'u', 't', 'i', 'l', ':', ':', 'S', 'p', 'a', 'n', 'n', 'e', 'd', 'V', 'a', 'l', 'u', 'e', ';'],
   ['u', 's', 'e', ' ', 'd', 'a', 'r', 'l', 'i', 'n', 'g', ':', ':', '*', ';'],
   ['u', 's', 'e', ' ', 'p', 'r', 'o', 'c', '_', 'm', 'a', 'c', 'r', 'o', ':', ':', 'T', 'o', 'k', 'e', 'n', 'S', 't', 'r', 'e', 'a', 'm', ';'],
   ['u', 's', 'e', ' ', 'p', 'r', 'o', 'c', '_', 'm', 'a', 'c', 'r', 'o', '2', ':', ':', '{', 'L', 'i', 't', 'e', 'r', 'a', 'l', ',', ' ', 'S', 'p', 'a', 'n', ',', ' ', 'T', 'o', 'k', 'e', 'n', 'S', 't', 'r', 'e', 'a', 'm', ' ', 'a', 's', ' ', 'S', 'y', 'n', 'T', 'o', 'k', 'e', 'n', 'S', 't', 'r', 'e', 'a', 'm', '}', ';'],
   ['u', 's', 'e', ' ', 'q', 'u', 'o', 't', 'e', ':', ':', '*', ';'],
   ['u', 's', 'e', ' ', 's', 't', 'd', ':', ':', '{', 'c', 'o', 'l', 'l', 'e', 'c', 't', 'i', 'o', 'n', 's', ':', ':', 'H', 'a', 's', 'h', 'S', 'e', 't', ',', ' ', 'f', 'm', 't', ':', ':', 'D', 'i', 's', 'p', 'l', 'a', 'y', '}', ';'],
   ['u', 's', 'e', ' ', 's', 'y', 'n', ':', ':', 's', 'p', 'a', 'n', 'n', 'e', 'd', ':', ':', 'S', 'p', 'a', 'n', 'n', 'e', 'd', ';'],
   ['u', 's', 'e', ' ', 's', 'y', 'n', ':', ':', '{', 'E', 'r', 'r', 'o', 'r', ',', ' ', 'R', 'e', 's', 'u', 'l', 't', ',', ' ', '*', '}', ';'],
   [],
   ['/', '/', '/', ' ', 'H', 'e', 'l', 'p', 'e', 'r', ' ', 'f', 'u', 'n', 'c', 't', 'i', 'o', 'n', ' ', 'f', 'o', 'r', ' ', 'e', 'm', 'i', 't', 't', 'i', 'n', 'g', ' ', 'c', 'o', 'm', 'p', 'i', 'l', 'e', ' ', 'e', 'r', 'r', 'o', 'r', 's', '.'],
   ['f', 'n', ' ', 'e', 'r', 'r', 'o', 'r', '<', 'T', '>', '(', 's', 'p', 'a', 'n', ':', ' ', 'S', 'p', 'a', 'n', ',', ' ', 'm', 'e', 's', 's', 'a', 'g', 'e', ':', ' ', 'i', 'm', 'p', 'l', ' ', 'D', 'i', 's', 'p', 'l', 'a', 'y', ')', ' ', '-', '>', ' ', 'R', 'e', 's', 'u', 'l', 't', '<', 'T', '>', ' ', '{'],
   [' ', ' ', ' ', ' ', 'E', 'r', 'r', '(', 'E', 'r', 'r', 'o', 'r', ':', ':', 'n', 'e', 'w', '(', 's', 'p', 'a', 'n', ',', ' ', 'm', 'e', 's', 's', 'a', 'g', 'e', ')', ')'],
   ['}'],
   [],
   ['/', '/', '/', ' ', 'D', 'e', 'c', 'o', 'd', 'e', 's', ' ', 't', 'h', 'e', ' ', 'c', 'u', 's', 't', 'o', 'm', ' ', 'a', 't', 't', 'r', 'i', 'b', 'u', 't', 'e', 's', ' ', 'f', 'o', 'r', ' ', 'o', 'u', 'r', ' ', 'c', 'u', 's', 't', 'o', 'm', ' ', 'd', 'e', 'r', 'i', 'v', 'e', '.'],
   ['#', '[', 'd', 'e', 'r', 'i', 'v', 'e', '(', 'F', 'r', 'o', 'm', 'D', 'e', 'r', 'i', 'v', 'e', 'I', 'n', 'p', 'u', 't', ',', ' ', 'D', 'e', 'f', 'a', 'u', 'l', 't', ')', ']'],
   ['#', '[', 'd', 'a', 'r', 'l', 'i', 'n', 'g', '(', 'a', 't', 't', 'r', 'i', 'b', 'u', 't', 'e', 's', '(', 'e', 'n', 'u', 'm', 's', 'e', 't', ')', ',', ' ', 'd', 'e', 'f', 'a', 'u', 'l', 't', ')', ']'],
   ['s', 't', 'r', 'u', 'c', 't', ' ', 'E', 'n', 'u', 'm', 's', 'e', 't', 'A', 't', 't', 'r', 's', ' ', '{'],
   [' ', ' ', ' ', ' ', 'n', 'o', '_', 'o', 'p', 's', ':', ' ', 'b', 'o', 'o', 'l', ','],
   [' ', ' ', ' ', ' ', 'n', 'o', '_', 's', 'u', 'p', 'e', 'r', '_', 'i', 'm', 'p', 'l', 's', ':', ' ', 'b', 'o', 'o', 'l', ','],
   [' ', ' ', ' ', ' ', '#', '[', 'd', 'a', 'r', 'l', 'i', 'n', 'g', '(', 'd', 'e', 'f', 'a', 'u', 'l', 't', ')', ']'],
   [' ', ' ', ' ', ' ', 'r', 'e', 'p', 'r', ':', ' ', 'S', 'p', 'a', 'n', 'n', 'e', 'd', 'V', 'a', 'l', 'u', 'e', '<', 'O', 'p', 't', 'i', 'o', 'n', '<', 'S', 't', 'r', 'i', 'n', 'g', '>', '>', ','],
   [' ', ' ', ' ', ' ', '#', '[', 'd', 'a', 'r', 'l', 'i', 'n', 'g', '(', 'd', 'e', 'f', 'a', 'u', 'l', 't', ')', ']'],
   [' ', ' ', ' ', ' ', 's', 'e', 'r', 'i', 'a', 'l', 'i', 'z', 'e', '_', 'r', 'e', 'p', 'r', ':', ' ', 'S', 'p', 'a', 'n', 'n', 'e', 'd', 'V', 'a', 'l', 'u', 'e', '<', 'O', 'p', 't', 'i', 'o', 'n', '<', 'S', 't', 'r', 'i', 'n', 'g', '>', '>', ','],
   [' ', ' ', ' ', ' ', 's', 'e', 'r', 'i', 'a', 'l', 'i', 'z', 'e', '_', 'd', 'e', 'n', 'y', '_', 'u', 'n', 'k', 'n', 'o', 'w', 'n', ':', ' ', 'b', 'o', 'o', 'l', ','],
   [' ', ' ', ' ', ' ', '#', '[', 'd', 'a', 'r', 'l', 'i', 'n', 'g', '(', 'd', 'e', 'f', 'a', 'u', 'l', 't', ')', ']'],
   [' ', ' ', ' ', ' ', 'c', 'r', 'a', 't', 'e', '_', 'n', 'a', 'm', 'e', ':', ' ', 'O', 'p', 't', 'i', 'o', 'n', '<', 'S', 't', 'r', 'i', 'n', 'g', '>', ','],
   [],
   [' ', ' ', ' ', ' ', '/', '/', ' ', 'l', 'e', 'g', 'a', 'c', 'y', ' ', 'o', 'p', 't', 'i', 'o', 'n', 's'],
   [' ', ' ', ' ', ' ', 's', 'e', 'r', 'i', 'a', 'l', 'i', 'z', 'e', '_', 'a', 's', '_', 'l', 'i', 's', 't', ':', ' ', 'S', 'p', 'a', 'n', 'n', 'e', 'd', 'V', 'a', 'l', 'u', 'e', '<', 'b', 'o', 'o', 'l', '>', ',', ' ', '/', '/', ' ', 'r', 'e', 'p', 'l', 'a', 'c', 'e', 'd', ' ', 'w', 'i', 't', 'h', ' ', 's', 'e', 'r', 'i', 'a', 'l', 'i', 'z', 'e', '_', 'r', 'e', 'p', 'r'],
   [' ', ' ', ' ', ' ', 's', 'e', 'r', 'i', 'a', 'l', 'i', 'z', 'e', '_', 'a', 's', '_', 'm', 'a', 'p', ':', ' ', 'S', 'p', 'a', 'n', 'n', 'e', 'd', 'V', 'a', 'l', 'u', 'e', '<', 'b', 'o', 'o', 'l', '>', ',', ' ', ' ', '/', '/', ' ', 'r', 'e', 'p', 'l', 'a', 'c', 'e', 'd', ' ', 'w', 'i', 't', 'h', ' ', 's', 'e', 'r', 'i', 'a', 'l', 'i', 'z', 'e', '_', 'r', 'e', 'p', 'r'],
   ['}'],
   [],
   ['/', '/', '/', ' ', 'T', 'h', 'e', ' ', 'i', 'n', 't', 'e', 'r', 'n', 'a', 'l', ' ', 'r', 'e', 'p', 'r', 'e', 's', 'e', 'n', 't', 'a', 't', 'i', 'o', 'n', ' ', 'o', 'f', ' ', 'a', 'n', ' ', 'e', 'n', 'u', 'm', 's', 'e', 't', '.'],
   ['#', '[', 'd', 'e', 'r', 'i', 'v', 'e', '(', 'C', 'o', 'p', 'y', ',', ' ', 'C', 'l', 'o', 'n', 'e', ')', ']'],
   ['e', 'n', 'u', 'm', ' ', 'I', 'n', 't', 'e', 'r', 'n', 'a', 'l', 'R', 'e', 'p', 'r', ' ', '{'],
   [' ', ' ', ' ', ' ', '/', '/', '/', ' ', 'i', 'n', 't', 'e', 'r', 'n', 'a', 'l', ' ', 'r', 'e', 'p', 'r', ':', ' ', '`', 'u', '8', '`'],
   [' ', ' ', ' ', ' ', 'U', '8', ','],
   [' ', ' ', ' ', ' ', '/', '/', '/', ' ', 'i', 'n', 't', 'e', 'r', 'n', 'a', 'l', ' ', 'r', 'e', 'p', 'r', ':', ' ', '`', 'u', '1', '6', '`'],
   [' ', ' ', ' ', ' ', 'U', '1', '6', ','],
   [' ', ' ', ' ', ' ', '/', '/', '/', ' ', 'i', 'n', 't', 'e', 'r', 'n', 'a', 'l', ' ', 'r', 'e', 'p', 'r', ':', ' ', '`', 'u', '3', '2', '`'],
   [' ', ' ', ' ', ' ', 'U', '3', '2', ','],
   [' ', ' ', ' ', ' ', '/', '/', '/', ' ', 'i', 'n', 't', 'e', 'r', 'n', 'a', 'l', ' ', 'r', 'e', 'p', 'r', ':', ' ', '`', 'u', '6', '4', '`'],
   [' ', ' ', ' ', ' ', 'U', '6', '4', ','],
   [' ', ' ', ' ', ' ', '/', '/', '/', ' ', 'i', 'n', 't', 'e', 'r', 'n', 'a', 'l', ' ', 'r', 'e', 'p', 'r', ':', ' ', '`', 'u', '1', '2', '8', '`'],
   [' ', ' ', ' ', ' ', 'U', '1', '2', '8', ','],
   [' ', ' ', ' ', ' ', '/', '/', '/', ' ', 'i', 'n', 't', 'e', 'r', 'n', 'a', 'l', ' ', 'r', 'e', 'p', 'r', ':', ' ', '`', '[', 'u', '6', '4', ';', ' ', 's', 'i', 'z', 'e', ']', '`'],
   [' ', ' ', ' ', ' ', 'A', 'r', 'r', 'a', 'y', '(', 'u', 's', 'i', 'z', 'e', ')', ','],
   ['}'],
   ['i', 'm', 'p', 'l', ' ', 'I', 'n', 't', 'e', 'r', 'n', 'a', 'l', 'R', 'e', 'p', 'r', ' ', '{'],
   [' ', ' ', ' ', ' ', '/', '/', '/', ' ', 'D', 'e', 't', 'e', 'r', 'm', 'i', 'n', 'e', 's', ' ', 't', 'h', 'e', ' ', 'n', 'u', 'm', 'b', 'e', 'r', ' ', 'o', 'f', ' ', 'v', 'a', 'r', 'i', 'a', 'n', 't', 's', ' ', 's', 'u', 'p', 'p', 'o', 'r', 't', 'e', 'd', ' ', 'b', 'y', ' ', 't', 'h', 'i', 's', ' ', 'r', 'e', 'p', 'r', '.'],
   [' ', ' ', ' ', ' ', 'f', 'n', ' ', 's', 'u', 'p', 'p', 'o', 'r', 't', 'e', 'd', '_', 'v', 'a', 'r', 'i', 'a', 'n', 't', 's', '(', '&', 's', 'e', 'l', 'f', ')', ' ', '-', '>', ' ', 'u', 's', 'i', 'z', 'e', ' ', '{'],
   [' ', ' ', ' ', ' ', ' ', ' ', ' ', ' ', 'm', 'a', 't', 'c', 'h', ' ', 's', 'e', 'l', 'f', ' ', '{'],
   [' ', ' ', ' ', ' ', ' ', ' ', ' ', ' ', ' ', ' ', ' ', ' ', 'I', 'n', 't', 'e', 'r', 'n', 'a', 'l', 'R', 'e', 'p', 'r', ':', ':', 'U', '8', ' ', '=', '>', ' ', '8', ','],
   [' ', ' ', ' ', ' ', ' ', ' ', ' ', ' ', ' ', ' ', ' ', ' ', 'I', 'n', 't', 'e', 'r', 'n', 'a', 'l', 'R', 'e', 'p', 'r', ':', ':', 'U', '1', '6', ' ', '=', '>', ' ', '1', '6', ','],
   [' ', ' ', ' ', ' ', ' ', ' ', ' ', ' ', ' ', ' ', ' ', ' ', 'I', 'n', 't', 'e', 'r', 'n', 'a', 'l', 'R', 'e', 'p', 'r', ':', ':', 'U', '3', '2', ' ', '=', '>', ' ', '3', '2', ','],
   [' ', ' ', ' ', ' ', ' ', ' ', ' ', ' ', ' ', ' ', ' ', ' ', 'I', 'n', 't', 'e', 'r', 'n', 'a', 'l', 'R', 'e', 'p', 'r', ':', ':', 'U', '6', '4', ' ', '=', '>', ' ', '6', '4', ','],
   [' ', ' ', ' ', ' ', ' ', ' ', ' ', ' ', ' ', ' ', ' ', ' ', 'I', 'n', 't', 'e', 'r', 'n', 'a', 'l', 'R', 'e', 'p', 'r', ':', ':', 'U', '1', '2', '8', ' ', '=', '>', ' ', '1', '2', '8', ','],
   [' ', ' ', ' ', ' ', ' ', ' ', ' ', ' ', ' ', ' ', ' ', ' ', 'I', 'n', 't', 'e', 'r', 'n', 'a', 'l', 'R', 'e', 'p', 'r', ':', ':', 'A', 'r', 'r', 'a', 'y', '(', 's', 'i', 'z', 'e', ')', ' ', '=', '>', ' ', 's', 'i', 'z', 'e', ' ', '*', ' ', '6', '4', ','],
   [' ', ' ', ' ', ' ', ' ', ' ', ' ', ' ', '}'],
   [' ', ' ', ' ', ' ', '}'],
   ['}'],
   [],
   ['/', '/', '/', ' ', 'T', 'h', 'e', ' ', 's', 'e', 'r', 'd', 'e', ' ', 'r', 'e', 'p', 'r', 'e', 's', 'e', 'n', 't', 'a', 't', 'i', 'o', 'n', ' ', 'o', 'f', ' ', 't', 'h', 'e', ' ', 'e', 'n', 'u', 'm', 's', 'e', 't', '.'],
   ['#', '[', 'd', 'e', 'r', 'i', 'v', 'e', '(', 'C', 'o', 'p', 'y', ',', ' ', 'C', 'l', 'o', 'n', 'e', ')', ']'],
   ['e', 'n', 'u', 'm', ' ', 'S', 'e', 'r', 'd', 'e', 'R', 'e', 'p', 'r', ' ', '{'],
   [' ', ' ', ' ', ' ', '/', '/', '/', ' ', 's', 'e', 'r', 'd', 'e', ' ', 't', 'y', 'p', 'e', ':', ' ', '`', 'u', '8', '`'],
   [' ', ' ', ' ', ' ', 'U', '8', ','],
   [' ', ' ', ' ', ' ', '/', '/', '/', ' ', 's', 'e', 'r', 'd', 'e', ' ', 't', 'y', 'p', 'e', ':', ' ', '`', 'u', '1', '6', '`'],
   [' ', ' ', ' ', ' ', 'U', '1', '6', ','],
   [' ', ' ', ' ', ' ', '/', '/', '/', ' ', 's', 'e', 'r', 'd', 'e', ' ', 't', 'y', 'p', 'e', ':', ' ', '`', 'u', '3', '2', '`'],
   [' ', ' ', ' ', ' ', 'U', '3', '2', ','],
   [' ', ' ', ' ', ' ', '/', '/', '/', ' ', 's', 'e', 'r', 'd', 'e', ' ', 't', 'y', 'p', 'e', ':', ' ', '`', 'u', '6', '4', '`'],
   [' ', ' ', ' ', ' ', 'U', '6', '4', ','],
   [' ', ' ', ' ', ' ', '/', '/', '/', ' ', 's', 'e', 'r', 'd', 'e', ' ', 't', 'y', 'p', 'e', ':', ' ', '`', 'u', '1', '2', '8', '`'],
   [' ', ' ', ' ', ' ', 'U', '1', '2', '8', ','],
   [' ', ' ', ' ', ' ', '/', '/', '/', ' ', 's', 'e', 'r', 'd', 'e', ' ', 't', 'y', 'p', 'e', ':', ' ', 'l', 'i', 's', 't', ' ', 'o', 'f', ' ', '`', 'T', '`'],
   [' ', ' ', ' ', ' ', 'L', 'i', 's', 't', ','],
   [' ', ' ', ' ', ' ', '/', '/', '/', ' ', 's', 'e', 'r', 'd', 'e', ' ', 't', 'y', 'p', 'e', ':', ' ', 'm', 'a', 'p', ' ', 'o', 'f', ' ', '`', 'T', '`', ' ', 't', 'o', ' ', '`', 'b', 'o', 'o', 'l', '`'],
   [' ', ' ', ' ', ' ', 'M', 'a', 'p', ','],
   [' ', ' ', ' ', ' ', '/', '/', '/', ' ', 's', 'e', 'r', 'd', 'e', ' ', 't', 'y', 'p', 'e', ':', ' ', 'l', 'i', 's', 't', ' ', 'o', 'f', ' ', '`', 'u', '6', '4', '`'],
   [' ', ' ', ' ', ' ', 'A', 'r', 'r', 'a', 'y', ','],
   ['}'],
   ['i', 'm', 'p', 'l', ' ', 'S', 'e', 'r', 'd', 'e', 'R', 'e', 'p', 'r', ' ', '{'],
   [' ', ' ', ' ', ' ', '/', '/', '/', ' ', 'D', 'e', 't', 'e', 'r', 'm', 'i', 'n', 'e', 's', ' ', 't', 'h', 'e', ' ', 'n', 'u', 'm', 'b', 'e', 'r', ' ', 'o', 'f', ' ', 'v', 'a', 'r', 'i', 'a', 'n', 't', 's', ' ', 's', 'u', 'p', 'p', 'o', 'r', 't', 'e', 'd', ' ', 'b', 'y', ' ', 't', 'h', 'i', 's', ' ', 'r', 'e', 'p', 'r', '.'],
   [' ', ' ', ' ', ' ', 'f', 'n', ' ', 's', 'u', 'p', 'p', 'o', 'r', 't', 'e', 'd', '_', 'v', 'a', 'r', 'i', 'a', 'n', 't', 's', '(', '&', 's', 'e', 'l', 'f', ')', ' ', '-', '>', ' ', 'O', 'p', 't', 'i', 'o', 'n', '<', 'u', 's', 'i', 'z', 'e', '>', ' ', '{'],
   [' ', ' ', ' ', ' ', ' ', ' ', ' ', ' ', 'm', 'a', 't', 'c', 'h', ' ', 's', 'e', 'l', 'f', ' ', '{'],
   [' ', ' ', ' ', ' ', ' ', ' ', ' ', ' ', ' ', ' ', ' ', ' ', 'S', 'e', 'r', 'd', 'e', 'R', 'e', 'p', 'r', ':', ':', 'U', '8', ' ', '=', '>', ' ', 'S', 'o', 'm', 'e', '(', '8', ')', ','],
   [' ', ' ', ' ', ' ', ' ', ' ', ' ', ' ', ' ', ' ', ' ', ' ', 'S', 'e', 'r', 'd', 'e', 'R', 'e', 'p', 'r', ':', ':', 'U', '1', '6', ' ', '=', '>', ' ', 'S', 'o', 'm', 'e', '(', '1', '6', ')', ','],
   [' ', ' ', ' ', ' ', ' ', ' ', ' ', ' ', ' ', ' ', ' ', ' ', 'S', 'e', 'r', 'd', 'e', 'R', 'e', 'p', 'r', ':', ':', 'U', '3', '2', ' ', '=', '>', ' ', 'S', 'o', 'm', 'e', '(', '3', '2', ')', ','],
   [' ', ' ', ' ', ' ', ' ', ' ', ' ', ' ', ' ', ' ', ' ', ' ', 'S', 'e', 'r', 'd', 'e', 'R', 'e', 'p', 'r', ':', ':', 'U', '6', '4', ' ', '=', '>', ' ', 'S', 'o', 'm', 'e', '(', '6', '4', ')', ','],
   [' ', ' ', ' ', ' ', ' ', ' ', ' ', ' ', ' ', ' ', ' ', ' ', 'S', 'e', 'r', 'd', 'e', 'R', 'e', 'p', 'r', ':', ':', 'U', '1', '2', '8', ' ', '=', '>', ' ', 'S', 'o', 'm', 'e', '(', '1', '2', '8', ')', ','],
   [' ', ' ', ' ', ' ', ' ', ' ', ' ', ' ', ' ', ' ', ' ', ' ', 'S', 'e', 'r', 'd', 'e', 'R', 'e', 'p', 'r', ':', ':', 'L', 'i', 's', 't', ' ', '=', '>', ' ', 'N', 'o', 'n', 'e', ','],
   [' ', ' ', ' ', ' ', ' ', ' ', ' ', ' ', ' ', ' ', ' ', ' ', 'S', 'e', 'r', 'd', 'e', 'R', 'e', 'p', 'r', ':', ':', 'M', 'a', 'p', ' ', '=', '>', ' ', 'N', 'o', 'n', 'e', ','],
   [' ', ' ', ' ', ' ', ' ', ' ', ' ', ' ', ' ', ' ', ' ', ' ', 'S', 'e', 'r', 'd', 'e', 'R', 'e', 'p', 'r', ':', ':', 'A', 'r', 'r', 'a', 'y', ' ', '=', '>', ' ', 'N', 'o', 'n', 'e', ','],
   [' ', ' ', ' ', ' ', ' ', ' ', ' ', ' ', '}'],
   [' ', ' ', ' ', ' ', '}'],
   ['}'],
   [],
   ['/', '/', '/', ' ', 'A', 'n', ' ', 'v', 'a', 'r', 'i', 'a', 'n', 't', ' ', 'i', 'n', ' ', 't', 'h', 'e', ' ', 'e', 'n', 'u', 'm', ' ', 's', 'e', 't', ' ', 't', 'y', 'p', 'e', '.'],
   ['s', 't', 'r', 'u', 'c', 't', ' ', 'E', 'n', 'u', 'm', 'S', 'e', 't', 'V', 'a', 'l', 'u', 'e', ' ', '{'],
   [' ', ' ', ' ', ' ', '/', '/', '/', ' ', 'T', 'h', 'e', ' ', 'n', 'a', 'm', 'e', ' ', 'o', 'f', ' ', 't', 'h', 'e', ' ', 'v', 'a', 'r', 'i', 'a', 'n', 't', '.'],
   [' ', ' ', ' ', ' ', 'n', 'a', 'm', 'e', ':', ' ', 'I', 'd', 'e', 'n', 't', ','],
   [' ', ' ', ' ', ' ', '/', '/', '/', ' ', 'T', 'h', 'e', ' ', 'd', 'i', 's', 'c', 'r', 'i', 'm', 'i', 'n', 'a', 'n', 't', ' ', 'o', 'f', ' ', 't', 'h', 'e', ' ', 'v', 'a', 'r', 'i', 'a', 'n', 't', '.'],
   [' ', ' ', ' ', ' ', 'v', 'a', 'r', 'i', 'a', 'n', 't', '_', 'r', 'e', 'p', 'r', ':', ' ', 'u', '3', '2', ','],
   ['}'],
   [],
   ['/', '/', '/', ' ', 'S', 't', 'o', 'r', 'e', 's', ' ', 'i', 'n', 'f', 'o', 'r', 'm', 'a', 't', 'i', 'o', 'n', ' ', 'a', 'b', 'o', 'u', 't', ' ', 't', 'h', 'e', ' ', 'e', 'n', 'u', 'm', ' ', 's', 'e', 't', ' ', 't', 'y', 'p', 'e', '.'],
   ['#', '[', 'a', 'l', 'l', 'o', 'w', '(', 'd', 'e', 'a', 'd', '_', 'c', 'o', 'd', 'e', ')', ']'],
   ['s', 't', 'r', 'u', 'c', 't', ' ', 'E', 'n', 'u', 'm', 'S', 'e', 't', 'I', 'n', 'f', 'o', ' ', '{'],
   [' ', ' ', ' ', ' ', '/', '/', '/', ' ', 'T', 'h', 'e', ' ', 'n', 'a', 'm', 'e', ' ', 'o', 'f', ' ', 't', 'h', 'e', ' ', 'e', 'n', 'u', 'm', '.'],
   [' ', ' ', ' ', ' ', 'n', 'a', 'm', 'e', ':', ' ', 'I', 'd', 'e', 'n', 't', ','],
   [' ', ' ', ' ', ' ', '/', '/', '/', ' ', 'T', 'h', 'e', ' ', 'c', 'r', 'a', 't', 'e', ' ', 'n', 'a', 'm', 'e', ' ', 't', 'o', ' ', 'u', 's', 'e', '.'],
   [' ', ' ', ' ', ' ', 'c', 'r', 'a', 't', 'e', '_', 'n', 'a', 'm', 'e', ':', ' ', 'O', 'p', 't', 'i', 'o', 'n', '<', 'I', 'd', 'e', 'n', 't', '>', ','],
   [' ', ' ', ' ', ' ', '/', '/', '/', ' ', 'T', 'h', 'e', ' ', 'n', 'u', 'm', 'e', 'r', 'i', 'c', ' ', 't', 'y', 'p', 'e', ' ', 't', 'o', ' ', 'r', 'e', 'p', 'r', 'e', 's', 'e', 'n', 't', ' ', 't', 'h', 'e', ' ', '`', 'E', 'n', 'u', 'm', 'S', 'e', 't', '`', ' ', 'a', 's', ' ', 'i', 'n', ' ', 'm', 'e', 'm', 'o', 'r', 'y', '.'],
   [' ', ' ', ' ', ' ', 'e', 'x', 'p', 'l', 'i', 'c', 'i', 't', '_', 'i', 'n', 't', 'e', 'r', 'n', 'a', 'l', '_', 'r', 'e', 'p', 'r', ':', ' ', 'O', 'p', 't', 'i', 'o', 'n', '<', 'I', 'n', 't', 'e', 'r', 'n', 'a', 'l', 'R', 'e', 'p', 'r', '>', ','],
   [' ', ' ', ' ', ' ', '/', '/', '/', ' ', 'F', 'o', 'r', 'c', 'e', 's', ' ', 't', 'h', 'e', ' ', 'i', 'n', 't', 'e', 'r', 'n', 'a', 'l', ' ', 'n', 'u', 'm', 'e', 'r', 'i', 'c', ' ', 't', 'y', 'p', 'e', ' ', 'o', 'f', ' ', 't', 'h', 'e', ' ', '`', 'E', 'n', 'u', 'm', 'S', 'e', 't', '`', ' ', 't', 'o', ' ', 'b', 'e', ' ', 'a', 'n', ' ', 'a', 'r', 'r', 'a', 'y', '.'],
   [' ', ' ', ' ', ' ', 'i', 'n', 't', 'e', 'r', 'n', 'a', 'l', '_', 'r', 'e', 'p', 'r', '_', 'f', 'o', 'r', 'c', 'e', '_', 'a', 'r', 'r', 'a', 'y', ':', ' ', 'b', 'o', 'o', 'l', ','],
   [' ', ' ', ' ', ' ', '/', '/', '/', ' ', 'T', 'h', 'e', ' ', 'n', 'u', 'm', 'e', 'r', 'i', 'c', ' ', 't', 'y', 'p', 'e', ' ', 't', 'o', ' ', 's', 'e', 'r', 'i', 'a', 'l', 'i', 'z', 'e', ' ', 't', 'h', 'e', ' ', 'e', 'n', 'u', 'm', ' ', 'a', 's', '.'],
   [' ', ' ', ' ', ' ', 'e', 'x', 'p', 'l', 'i', 'c', 'i', 't', '_', 's', 'e', 'r', 'd', 'e', '_', 'r', 'e', 'p', 'r', ':', ' ', 'O', 'p', 't', 'i', 'o', 'n', '<', 'S', 'e', 'r', 'd', 'e', 'R', 'e', 'p', 'r', '>', ','],
   [' ', ' ', ' ', ' ', '/', '/', '/', ' ', 'A', ' ', 'l', 'i', 's', 't', ' ', 'o', 'f', ' ', 'v', 'a', 'r', 'i', 'a', 'n', 't', 's', ' ', 'i', 'n', ' ', 't', 'h', 'e', ' ', 'e', 'n', 'u', 'm', '.'],
   [' ', ' ', ' ', ' ', 'v', 'a', 'r', 'i', 'a', 'n', 't', 's', ':', ' ', 'V', 'e', 'c', '<', 'E', 'n', 'u', 'm', 'S', 'e', 't', 'V', 'a', 'l', 'u', 'e', '>', ','],
   [' ', ' ', ' ', ' ', '/', '/', '/', ' ', 'V', 'i', 's', 'b', 'i', 'l', 'i', 't', 'y'],
   [' ', ' ', ' ', ' ', 'v', 'i', 's', ':', ' ', 'V', 'i', 's', 'i', 'b', 'i', 'l', 'i', 't', 'y', ','],
   [],
   [' ', ' ', ' ', ' ', '/', '/', '/', ' ', 'T', 'h', 'e', ' ', 'h', 'i', 'g', 'h', 'e', 's', 't', ' ', 'e', 'n', 'c', 'o', 'u', 'n', 't', 'e', 'r', 'e', 'd', ' ', 'v', 'a', 'r', 'i', 'a', 'n', 't', ' ', 'd', 'i', 's', 'c', 'r', 'i', 'm', 'i', 'n', 'a', 'n', 't', '.'],
   [' ', ' ', ' ', ' ', 'm', 'a', 'x', '_', 'd', 'i', 's', 'c', 'r', 'i', 'm', ':', ' ', 'u', '3', '2', ','],
   [' ', ' ', ' ', ' ', '/', '/', '/', ' ', 'T', 'h', 'e', ' ', 's', 'p', 'a', 'n', ' ', 'o', 'f', ' ', 't', 'h', 'e', ' ', 'h', 'i', 'g', 'h', 'e', 's', 't', ' ', 'e', 'n', 'c', 'o', 'u', 'n', 't', 'e', 'r', 'e', 'd', ' ', 'v', 'a', 'r', 'i', 'a', 'n', 't', '.'],
   [' ', ' ', ' ', ' ', 'm', 'a', 'x', '_', 'd', 'i', 's', 'c', 'r', 'i', 'm', '_', 's', 'p', 'a', 'n', ':', ' ', 'O', 'p', 't', 'i', 'o', 'n', '<', 'S', 'p', 'a', 'n', '>', ','],
   [' ', ' ', ' ', ' ', '/', '/', '/', ' ', 'T', 'h', 'e', ' ', 'c', 'u', 'r', 'r', 'e', 'n', 't', ' ', 'v', 'a', 'r', 'i', 'a', 'n', 't', ' ', 'd', 'i', 's', 'c', 'r', 'i', 'm', 'i', 'n', 'a', 'n', 't', '.', ' ', 'U', 's', 'e', 'd', ' ', 't', 'o', ' ', 't', 'r', 'a', 'c', 'k', ',', ' ', 'e', '.', 'g', '.', ' ', '`', 'A', '=', '1', '0', ',', 'B', ',', 'C', '`', '.'],
   [' ', ' ', ' ', ' ', 'c', 'u', 'r', '_', 'd', 'i', 's', 'c', 'r', 'i', 'm', ':', ' ', 'u', '3', '2', ','],
   [' ', ' ', ' ', ' ', '/', '/', '/', ' ', 'A', ' ', 'l', 'i', 's', 't', ' ', 'o', 'f', ' ', 'v', 'a', 'r', 'i', 'a', 'n', 't', ' ', 'n', 'a', 'm', 'e', 's', ' ', 't', 'h', 'a', 't', ' ', 'a', 'r', 'e', ' ', 'a', 'l', 'r', 'e', 'a', 'd', 'y', ' ', 'i', 'n', ' ', 'u', 's', 'e', '.'],
   [' ', ' ', ' ', ' ', 'u', 's', 'e', 'd', '_', 'v', 'a', 'r', 'i', 'a', 'n', 't', '_', 'n', 'a', 'm', 'e', 's', ':', ' ', 'H', 'a', 's', 'h', 'S', 'e', 't', '<', 'S', 't', 'r', 'i', 'n', 'g', '>', ','],
   [' ', ' ', ' ', ' ', '/', '/', '/', ' ', 'A', ' ', 'l', 'i', 's', 't', ' ', 'o', 'f', ' ', 'v', 'a', 'r', 'i', 'a', 'n', 't', ' ', 'd', 'i', 's', 'c', 'r', 'i', 'm', 'i', 'n', 'a', 'n', 't', 's', ' ', 't', 'h', 'a', 't', ' ', 'a', 'r', 'e', ' ', 'a', 'l', 'r', 'e', 'a', 'd', 'y', ' ', 'i', 'n', ' ', 'u', 's', 'e', '.'],
   [' ', ' ', ' ', ' ', 'u', 's', 'e', 'd', '_', 'd', 'i', 's', 'c', 'r', 'i', 'm', 'i', 'n', 'a', 'n', 't', 's', ':', ' ', 'H', 'a', 's', 'h', 'S', 'e', 't', '<', 'u', '3', '2', '>', ','],
   [],
   [' ', ' ', ' ', ' ', '/', '/', '/', ' ', 'A', 'v', 'o', 'i', 'd', ' ', 'g', 'e', 'n', 'e', 'r', 'a', 't', 'i', 'n', 'g', ' ', 'o', 'p', 'e', 'r', 'a', 't', 'o', 'r', ' ', 'o', 'v', 'e', 'r', 'l', 'o', 'a', 'd', 's', ' ', 'o', 'n', ' ', 't', 'h', 'e', ' ', 'e', 'n', 'u', 'm', ' ', 't', 'y', 'p', 'e', '.'],
   [' ', ' ', ' ', ' ', 'n', 'o', '_', 'o', 'p', 's', ':', ' ', 'b', 'o', 'o', 'l', ','],
   [' ', ' ', ' ', ' ', '/', '/', '/', ' ', 'A', 'v', 'o', 'i', 'd', ' ', 'g', 'e', 'n', 'e', 'r', 'a', 't', 'i', 'n', 'g', ' ', 'i', 'm', 'p', 'l', 'e', 'm', 'e', 'n', 't', 'a', 't', 'i', 'o', 'n', 's', ' ', 'f', 'o', 'r', ' ', '`', 'C', 'l', 'o', 'n', 'e', '`', ',', ' ', '`', 'C', 'o', 'p', 'y', '`', ',', ' ', '`', 'E', 'q', '`', ',', ' ', 'a', 'n', 'd', ' ', '`', 'P', 'a', 'r', 't', 'i', 'a', 'l', 'E', 'q', '`', '.'],
   [' ', ' ', ' ', ' ', 'n', 'o', '_', 's', 'u', 'p', 'e', 'r', '_', 'i', 'm', 'p', 'l', 's', ':', ' ', 'b', 'o', 'o', 'l', ','],
   [' ', ' ', ' ', ' ', '/', '/', '/', ' ', 'D', 'i', 's', 'a', 'l', 'l', 'o', 'w', ' ', 'u', 'n', 'k', 'n', 'o', 'w', 'n', ' ', 'b', 'i', 't', 's', ' ', 'w', 'h', 'i', 'l', 'e', ' ', 'd', 'e', 's', 'e', 'r', 'i', 'a', 'l', 'i', 'z', 'i', 'n', 'g', ' ', 't', 'h', 'e', ' ', 'e', 'n', 'u', 'm', '.'],
   [' ', ' ', ' ', ' ', 's', 'e', 'r', 'i', 'a', 'l', 'i', 'z', 'e', '_', 'd', 'e', 'n', 'y', '_', 'u', 'n', 'k', 'n', 'o', 'w', 'n', ':', ' ', 'b', 'o', 'o', 'l', ','],
   ['}'],
   ['i', 'm', 'p', 'l', ' ', 'E', 'n', 'u', 'm', 'S', 'e', 't', 'I', 'n', 'f', 'o', ' ', '{'],
   [' ', ' ', ' ', ' ', 'f', 'n', ' ', 'n', 'e', 'w', '(', 'i', 'n', 'p', 'u', 't', ':', ' ', '&', 'D', 'e', 'r', 'i', 'v', 'e', 'I', 'n', 'p', 'u', 't', ',', ' ', 'a', 't', 't', 'r', 's', ':', ' ', '&', 'E', 'n', 'u', 'm', 's', 'e', 't', 'A', 't', 't', 'r', 's', ')', ' ', '-', '>', ' ', 'E', 'n', 'u', 'm', 'S', 'e', 't', 'I', 'n', 'f', 'o', ' ', '{'],
   [' ', ' ', ' ', ' ', ' ', ' ', ' ', ' ', 'E', 'n', 'u', 'm', 'S', 'e', 't', 'I', 'n', 'f', 'o', ' ', '{'],
   [' ', ' ', ' ', ' ', ' ', ' ', ' ', ' ', ' ', ' ', ' ', ' ', 'n', 'a', 'm', 'e', ':', ' ', 'i', 'n', 'p', 'u', 't', '.', 'i', 'd', 'e', 'n', 't', '.', 'c', 'l', 'o', 'n', 'e', '(', ')', ','],
   [' ', ' ', ' ', ' ', ' ', ' ', ' ', ' ', ' ', ' ', ' ', ' ', 'c', 'r', 'a', 't', 'e', '_', 'n', 'a', 'm', 'e', ':', ' ', 'a', 't', 't', 'r', 's'],
   [' ', ' ', ' ', ' ', ' ', ' ', ' ', ' ', ' ', ' ', ' ', ' ', ' ', ' ', ' ', ' ', '.', 'c', 'r', 'a', 't', 'e', '_', 'n', 'a', 'm', 'e'],
   [' ', ' ', ' ', ' ', ' ', ' ', ' ', ' ', ' ', ' ', ' ', ' ', ' ', ' ', ' ', ' ', '.', 'a', 's', '_', 'r', 'e', 'f', '(', ')'],
   [' ', ' ', ' ', ' ', ' ', ' ', ' ', ' ', ' ', ' ', ' ', ' ', ' ', ' ', ' ', ' ', '.', 'm', 'a', 'p', '(', '|', 'x', '|', ' ', 'I', 'd', 'e', 'n', 't', ':', ':', 'n', 'e', 'w', '(', 'x', ',', ' ', 'S', 'p', 'a', 'n', ':', ':', 'c', 'a', 'l', 'l', '_', 's', 'i', 't', 'e', '(', ')', ')', ')', ','],
   [' ', ' ', ' ', ' ', ' ', ' ', ' ', ' ', ' ', ' ', ' ', ' ', 'e', 'x', 'p', 'l', 'i', 'c', 'i', 't', '_', 'i', 'n', 't', 'e', 'r', 'n', 'a', 'l', '_', 'r', 'e', 'p', 'r', ':', ' ', 'N', 'o', 'n', 'e', ','],
   [' ', ' ', ' ', ' ', ' ', ' ', ' ', ' ', ' ', ' ', ' ', ' ', 'i', 'n', 't', 'e', 'r', 'n', 'a', 'l', '_', 'r', 'e', 'p', 'r', '_', 'f', 'o', 'r', 'c', 'e', '_', 'a', 'r', 'r', 'a', 'y', ':', ' ', 'f', 'a', 'l', 's', 'e', ','],
   [' ', ' ', ' ', ' ', ' ', ' ', ' ', ' ', ' ', ' ', ' ', ' ', 'e', 'x', 'p', 'l', 'i', 'c', 'i', 't', '_', 's', 'e', 'r', 'd', 'e', '_', 'r', 'e', 'p', 'r', ':', ' ', 'N', 'o', 'n', 'e', ','],
   [' ', ' ', ' ', ' ', ' ', ' ', ' ', ' ', ' ', ' ', ' ', ' ', 'v', 'a', 'r', 'i', 'a', 'n', 't', 's', ':', ' ', 'V', 'e', 'c', ':', ':', 'n', 'e', 'w', '(', ')', ','],
   [' ', ' ', ' ', ' ', ' ', ' ', ' ', ' ', ' ', ' ', ' ', ' ', 'v', 'i', 's', ':', ' ', 'i', 'n', 'p', 'u', 't', '.', 'v', 'i', 's', '.', 'c', 'l', 'o', 'n', 'e', '(', ')', ','],
   [' ', ' ', ' ', ' ', ' ', ' ', ' ', ' ', ' ', ' ', ' ', ' ', 'm', 'a', 'x', '_', 'd', 'i', 's', 'c', 'r', 'i', 'm', ':', ' ', '0', ','],
   [' ', ' ', ' ', ' ', ' ', ' ', ' ', ' ', ' ', ' ', ' ', ' ', 'm', 'a', 'x', '_', 'd', 'i', 's', 'c', 'r', 'i', 'm', '_', 's', 'p', 'a', 'n', ':', ' ', 'N', 'o', 'n', 'e', ','],
   [' ', ' ', ' ', ' ', ' ', ' ', ' ', ' ', ' ', ' ', ' ', ' ', 'c', 'u', 'r', '_', 'd', 'i', 's', 'c', 'r', 'i', 'm', ':', ' ', '0', ','],
   [' ', ' ', ' ', ' ', ' ', ' ', ' ', ' ', ' ', ' ', ' ', ' ', 'u', 's', 'e', 'd', '_', 'v', 'a', 'r', 'i', 'a', 'n', 't', '_', 'n', 'a', 'm', 'e', 's', ':', ' ', 'H', 'a', 's', 'h', 'S', 'e', 't', ':', ':', 'n', 'e', 'w', '(', ')', ','],
   [' ', ' ', ' ', ' ', ' ', ' ', ' ', ' ', ' ', ' ', ' ', ' ', 'u', 's', 'e', 'd', '_', 'd', 'i', 's', 'c', 'r', 'i', 'm', 'i', 'n', 'a', 'n', 't', 's', ':', ' ', 'H', 'a', 's', 'h', 'S', 'e', 't', ':', ':', 'n', 'e', 'w', '(', ')', ','],
   [' ', ' ', ' ', ' ', ' ', ' ', ' ', ' ', ' ', ' ', ' ', ' ', 'n', 'o', '_', 'o', 'p', 's', ':', ' ', 'a', 't', 't', 'r', 's', '.', 'n', 'o', '_', 'o', 'p', 's', ','],
   [' ', ' ', ' ', ' ', ' ', ' ', ' ', ' ', ' ', ' ', ' ', ' ', 'n', 'o', '_', 's', 'u', 'p', 'e', 'r', '_', 'i', 'm', 'p', 'l', 's', ':', ' ', 'a', 't', 't', 'r', 's', '.', 'n', 'o', '_', 's', 'u', 'p', 'e', 'r', '_', 'i', 'm', 'p', 'l', 's', ','],
   [' ', ' ', ' ', ' ', ' ', ' ', ' ', ' ', ' ', ' ', ' ', ' ', 's', 'e', 'r', 'i', 'a', 'l', 'i', 'z', 'e', '_', 'd', 'e', 'n', 'y', '_', 'u', 'n', 'k', 'n', 'o', 'w', 'n', ':', ' ', 'a', 't', 't', 'r', 's', '.', 's', 'e', 'r', 'i', 'a', 'l', 'i', 'z', 'e', '_', 'd', 'e', 'n', 'y', '_', 'u', 'n', 'k', 'n', 'o', 'w', 'n', ','],
   [' ', ' ', ' ', ' ', ' ', ' ', ' ', ' ', '}'],
   [' ', ' ', ' ', ' ', '}'],
   [],
   [' ', ' ', ' ', ' ', '/', '/', '/', ' ', 'E', 'x', 'p', 'l', 'i', 'c', 'i', 't', 's', ' ', 's', 'e', 't', 's', ' ', 't', 'h', 'e', ' ', 's', 'e', 'r', 'd', 'e', ' ', 'r', 'e', 'p', 'r', 'e', 's', 'e', 'n', 't', 'a', 't', 'i', 'o', 'n', ' ', 'o', 'f', ' ', 't', 'h', 'e', ' ', 'e', 'n', 'u', 'm', 's', 'e', 't', ' ', 'f', 'r', 'o', 'm', ' ', 'a', ' ', 's', 't', 'r', 'i', 'n', 'g', '.'],
   [' ', ' ', ' ', ' ', 'f', 'n', ' ', 'p', 'u', 's', 'h', '_', 's', 'e', 'r', 'i', 'a', 'l', 'i', 'z', 'e', '_', 'r', 'e', 'p', 'r', '(', '&', 'm', 'u', 't', ' ', 's', 'e', 'l', 'f', ',', ' ', 's', 'p', 'a', 'n', ':', ' ', 'S', 'p', 'a', 'n', ',', ' ', 't', 'y', ':', ' ', '&', 's', 't', 'r', ')', ' ', '-', '>', ' ', 'R', 'e', 's', 'u', 'l', 't', '<', '(', ')', '>', ' ', '{'],
   [' ', ' ', ' ', ' ', ' ', ' ', ' ', ' ', 'm', 'a', 't', 'c', 'h', ' ', 't', 'y', ' ', '{'],
   [' ', ' ', ' ', ' ', ' ', ' ', ' ', ' ', ' ', ' ', ' ', ' ', '"', 'u', '8', '"', ' ', '=', '>', ' ', 's', 'e', 'l', 'f', '.', 'e', 'x', 'p', 'l', 'i', 'c', 'i', 't', '_', 's', 'e', 'r', 'd', 'e', '_', 'r', 'e', 'p', 'r', ' ', '=', ' ', 'S', 'o', 'm', 'e', '(', 'S', 'e', 'r', 'd', 'e', 'R', 'e', 'p', 'r', ':', ':', 'U', '8', ')', ','],
   [' ', ' ', ' ', ' ', ' ', ' ', ' ', ' ', ' ', ' ', ' ', ' ', '"', 'u', '1', '6', '"', ' ', '=', '>', ' ', 's', 'e', 'l', 'f', '.', 'e', 'x', 'p', 'l', 'i', 'c', 'i', 't', '_', 's', 'e', 'r', 'd', 'e', '_', 'r', 'e', 'p', 'r', ' ', '=', ' ', 'S', 'o', 'm', 'e', '(', 'S', 'e', 'r', 'd', 'e', 'R', 'e', 'p', 'r', ':', ':', 'U', '1', '6', ')', ','],
   [' ', ' ', ' ', ' ', ' ', ' ', ' ', ' ', ' ', ' ', ' ', ' ', '"', 'u', '3', '2', '"', ' ', '=', '>', ' ', 's', 'e', 'l', 'f', '.', 'e', 'x', 'p', 'l', 'i', 'c', 'i', 't', '_', 's', 'e', 'r', 'd', 'e', '_', 'r', 'e', 'p', 'r', ' ', '=', ' ', 'S', 'o', 'm', 'e', '(', 'S', 'e', 'r', 'd', 'e', 'R', 'e', 'p', 'r', ':', ':', 'U', '3', '2', ')', ','],
   [' ', ' ', ' ', ' ', ' ', ' ', ' ', ' ', ' ', ' ', ' ', ' ', '"', 'u', '6', '4', '"', ' ', '=', '>', ' ', 's', 'e', 'l', 'f', '.', 'e', 'x', 'p', 'l', 'i', 'c', 'i', 't', '_', 's', 'e', 'r', 'd', 'e', '_', 'r', 'e', 'p', 'r', ' ', '=', ' ', 'S', 'o', 'm', 'e', '(', 'S', 'e', 'r', 'd', 'e', 'R', 'e', 'p', 'r', ':', ':', 'U', '6', '4', ')', ','],
   [' ', ' ', ' ', ' ', ' ', ' ', ' ', ' ', ' ', ' ', ' ', ' ', '"', 'u', '1', '2', '8', '"', ' ', '=', '>', ' ', 's', 'e', 'l', 'f', '.', 'e', 'x', 'p', 'l', 'i', 'c', 'i', 't', '_', 's', 'e', 'r', 'd', 'e', '_', 'r', 'e', 'p', 'r', ' ', '=', ' ', 'S', 'o', 'm', 'e', '(', 'S', 'e', 'r', 'd', 'e', 'R', 'e', 'p', 'r', ':', ':', 'U', '1', '2', '8', ')', ','],
   [' ', ' ', ' ', ' ', ' ', ' ', ' ', ' ', ' ', ' ', ' ', ' ', '"', 'l', 'i', 's', 't', '"', ' ', '=', '>', ' ', 's', 'e', 'l', 'f', '.', 'e', 'x', 'p', 'l', 'i', 'c', 'i', 't', '_', 's', 'e', 'r', 'd', 'e', '_', 'r', 'e', 'p', 'r', ' ', '=', ' ', 'S', 'o', 'm', 'e', '(', 'S', 'e', 'r', 'd', 'e', 'R', 'e', 'p', 'r', ':', ':', 'L', 'i', 's', 't', ')', ','],
   [' ', ' ', ' ', ' ', ' ', ' ', ' ', ' ', ' ', ' ', ' ', ' ', '"', 'm', 'a', 'p', '"', ' ', '=', '>', ' ', 's', 'e', 'l', 'f', '.', 'e', 'x', 'p', 'l', 'i', 'c', 'i', 't', '_', 's', 'e', 'r', 'd', 'e', '_', 'r', 'e', 'p', 'r', ' ', '=', ' ', 'S', 'o', 'm', 'e', '(', 'S', 'e', 'r', 'd', 'e', 'R', 'e', 'p', 'r', ':', ':', 'M', 'a', 'p', ')', ','],
   [' ', ' ', ' ', ' ', ' ', ' ', ' ', ' ', ' ', ' ', ' ', ' ', '"', 'a', 'r', 'r', 'a', 'y', '"', ' ', '=', '>', ' ', 's', 'e', 'l', 'f', '.', 'e', 'x', 'p', 'l', 'i', 'c', 'i', 't', '_', 's', 'e', 'r', 'd', 'e', '_', 'r', 'e', 'p', 'r', ' ', '=', ' ', 'S', 'o', 'm', 'e', '(', 'S', 'e', 'r', 'd', 'e', 'R', 'e', 'p', 'r', ':', ':', 'A', 'r', 'r', 'a', 'y', ')', ','],
   [' ', ' ', ' ', ' ', ' ', ' ', ' ', ' ', ' ', ' ', ' ', ' ', '_', ' ', '=', '>', ' ', 'e', 'r', 'r', 'o', 'r', '(', 's', 'p', 'a', 'n', ',', ' ', 'f', 'o', 'r', 'm', 'a', 't', '!', '(', '"', '`', '{', '}', '`', ' ', 'i', 's', ' ', 'n', 'o', 't', ' ', 'a', ' ', 'v', 'a', 'l', 'i', 'd', ' ', 's', 'e', 'r', 'i', 'a', 'l', 'i', 'z', 'e', 'd', ' ', 'r', 'e', 'p', 'r', 'e', 's', 'e', 'n', 't', 'a', 't', 'i', 'o', 'n', '.', '"', ',', ' ', 't', 'y', ')', ')', '?', ','],
   [' ', ' ', ' ', ' ', ' ', ' ', ' ', ' ', '}'],
   [' ', ' ', ' ', ' ', ' ', ' ', ' ', ' ', 'O', 'k', '(', '(', ')', ')'],
   [' ', ' ', ' ', ' ', '}'],
   [],
   [' ', ' ', ' ', ' ', '/', '/', '/', ' ', 'E', 'x', 'p', 'l', 'i', 'c', 'i', 't', 'l', 'y', ' ', 's', 'e', 't', 's', ' ', 't', 'h', 'e', ' ', 'r', 'e', 'p', 'r', 'e', 's', 'e', 'n', 't', 'a', 't', 'i', 'o', 'n', ' ', 'o', 'f', ' ', 't', 'h', 'e', ' ', 'e', 'n', 'u', 'm', 's', 'e', 't', ' ', 'f', 'r', 'o', 'm', ' ', 'a', ' ', 's', 't', 'r', 'i', 'n', 'g', '.'],
   [' ', ' ', ' ', ' ', 'f', 'n', ' ', 'p', 'u', 's', 'h', '_', 'r', 'e', 'p', 'r', '(', '&', 'm', 'u', 't', ' ', 's', 'e', 'l', 'f', ',', ' ', 's', 'p', 'a', 'n', ':', ' ', 'S', 'p', 'a', 'n', ',', ' ', 't', 'y', ':', ' ', '&', 's', 't', 'r', ')', ' ', '-', '>', ' ', 'R', 'e', 's', 'u', 'l', 't', '<', '(', ')', '>', ' ', '{'],
   [' ', ' ', ' ', ' ', ' ', ' ', ' ', ' ', 'm', 'a', 't', 'c', 'h', ' ', 't', 'y', ' ', '{'],
   [' ', ' ', ' ', ' ', ' ', ' ', ' ', ' ', ' ', ' ', ' ', ' ', '"', 'u', '8', '"', ' ', '=', '>', ' ', 's', 'e', 'l', 'f', '.', 'e', 'x', 'p', 'l', 'i', 'c', 'i', 't', '_', 'i', 'n', 't', 'e', 'r', 'n', 'a', 'l', '_', 'r', 'e', 'p', 'r', ' ', '=', ' ', 'S', 'o', 'm', 'e', '(', 'I', 'n', 't', 'e', 'r', 'n', 'a', 'l', 'R', 'e', 'p', 'r', ':', ':', 'U', '8', ')', ','],
   [' ', ' ', ' ', ' ', ' ', ' ', ' ', ' ', ' ', ' ', ' ', ' ', '"', 'u', '1', '6', '"', ' ', '=', '>', ' ', 's', 'e', 'l', 'f', '.', 'e', 'x', 'p', 'l', 'i', 'c', 'i', 't', '_', 'i', 'n', 't', 'e', 'r', 'n', 'a', 'l', '_', 'r', 'e', 'p', 'r', ' ', '=', ' ', 'S', 'o', 'm', 'e', '(', 'I', 'n', 't', 'e', 'r', 'n', 'a', 'l', 'R', 'e', 'p', 'r', ':', ':', 'U', '1', '6', ')', ','],
   [' ', ' ', ' ', ' ', ' ', ' ', ' ', ' ', ' ', ' ', ' ', ' ', '"', 'u', '3', '2', '"', ' ', '=', '>', ' ', 's', 'e', 'l', 'f', '.', 'e', 'x', 'p', 'l', 'i', 'c', 'i', 't', '_', 'i', 'n', 't', 'e', 'r', 'n', 'a', 'l', '_', 'r', 'e', 'p', 'r', ' ', '=', ' ', 'S', 'o', 'm', 'e', '(', 'I', 'n', 't', 'e', 'r', 'n', 'a', 'l', 'R', 'e', 'p', 'r', ':', ':', 'U', '3', '2', ')', ','],
   [' ', ' ', ' ', ' ', ' ', ' ', ' ', ' ', ' ', ' ', ' ', ' ', '"', 'u', '6', '4', '"', ' ', '=', '>', ' ', 's', 'e', 'l', 'f', '.', 'e', 'x', 'p', 'l', 'i', 'c', 'i', 't', '_', 'i', 'n', 't', 'e', 'r', 'n', 'a', 'l', '_', 'r', 'e', 'p', 'r', ' ', '=', ' ', 'S', 'o', 'm', 'e', '(', 'I', 'n', 't', 'e', 'r', 'n', 'a', 'l', 'R', 'e', 'p', 'r', ':', ':', 'U', '6', '4', ')', ','],
   [' ', ' ', ' ', ' ', ' ', ' ', ' ', ' ', ' ', ' ', ' ', ' ', '"', 'u', '1', '2', '8', '"', ' ', '=', '>', ' ', 's', 'e', 'l', 'f', '.', 'e', 'x', 'p', 'l', 'i', 'c', 'i', 't', '_', 'i', 'n', 't', 'e', 'r', 'n', 'a', 'l', '_', 'r', 'e', 'p', 'r', ' ', '=', ' ', 'S', 'o', 'm', 'e', '(', 'I', 'n', 't', 'e', 'r', 'n', 'a', 'l', 'R', 'e', 'p', 'r', ':', ':', 'U', '1', '2', '8', ')', ','],
   [' ', ' ', ' ', ' ', ' ', ' ', ' ', ' ', ' ', ' ', ' ', ' ', '"', 'a', 'r', 'r', 'a', 'y', '"', ' ', '=', '>', ' ', 's', 'e', 'l', 'f', '.', 'i', 'n', 't', 'e', 'r', 'n', 'a', 'l', '_', 'r', 'e', 'p', 'r', '_', 'f', 'o', 'r', 'c', 'e', '_', 'a', 'r', 'r', 'a', 'y', ' ', '=', ' ', 't', 'r', 'u', 'e', ','],
   [' ', ' ', ' ', ' ', ' ', ' ', ' ', ' ', ' ', ' ', ' ', ' ', '_', ' ', '=', '>', ' ', 'e', 'r', 'r', 'o', 'r', '(', 's', 'p', 'a', 'n', ',', ' ', 'f', 'o', 'r', 'm', 'a', 't', '!', '(', '"', '`', '{', '}', '`', ' ', 'i', 's', ' ', 'n', 'o', 't', ' ', 'a', ' ', 'v', 'a', 'l', 'i', 'd', ' ', 'i', 'n', 't', 'e', 'r', 'n', 'a', 'l', ' ', 'e', 'n', 'u', 'm', 's', 'e', 't', ' ', 'r', 'e', 'p', 'r', 'e', 's', 'e', 'n', 't', 'a', 't', 'i', 'o', 'n', '.', '"', ',', ' ', 't', 'y', ')', ')', '?', ','],
   [' ', ' ', ' ', ' ', ' ', ' ', ' ', ' ', '}'],
   [' ', ' ', ' ', ' ', ' ', ' ', ' ', ' ', 'O', 'k', '(', '(', ')', ')'],
   [' ', ' ', ' ', ' ', '}'],
   [],
   [' ', ' ', ' ', ' ', '/', '/', '/', ' ', 'A', 'd', 'd', 's', ' ', 'a', ' ', 'v', 'a', 'r', 'i', 'a', 'n', 't', ' ', 't', 'o', ' ', 't', 'h', 'e', ' ', 'e', 'n', 'u', 'm', 's', 'e', 't', '.'],
   [' ', ' ', ' ', ' ', 'f', 'n', ' ', 'p', 'u', 's', 'h', '_', 'v', 'a', 'r', 'i', 'a', 'n', 't', '(', '&', 'm', 'u', 't', ' ', 's', 'e', 'l', 'f', ',', ' ', 'v', 'a', 'r', 'i', 'a', 'n', 't', ':', ' ', '&', 'V', 'a', 'r', 'i', 'a', 'n', 't', ')', ' ', '-', '>', ' ', 'R', 'e', 's', 'u', 'l', 't', '<', '(', ')', '>', ' ', '{'],
   [' ', ' ', ' ', ' ', ' ', ' ', ' ', ' ', 'i', 'f', ' ', 's', 'e', 'l', 'f', '.', 'u', 's', 'e', 'd', '_', 'v', 'a', 'r', 'i', 'a', 'n', 't', '_', 'n', 'a', 'm', 'e', 's', '.', 'c', 'o', 'n', 't', 'a', 'i', 'n', 's', '(', '&', 'v', 'a', 'r', 'i', 'a', 'n', 't', '.', 'i', 'd', 'e', 'n', 't', '.', 't', 'o', '_', 's', 't', 'r', 'i', 'n', 'g', '(', ')', ')', ' ', '{'],
   [' ', ' ', ' ', ' ', ' ', ' ', ' ', ' ', ' ', ' ', ' ', ' ', 'e', 'r', 'r', 'o', 'r', '(', 'v', 'a', 'r', 'i', 'a', 'n', 't', '.', 's', 'p', 'a', 'n', '(', ')', ',', ' ', '"', 'D', 'u', 'p', 'l', 'i', 'c', 'a', 't', 'e', 'd', ' ', 'v', 'a', 'r', 'i', 'a', 'n', 't', ' ', 'n', 'a', 'm', 'e', '.', '"', ')'],
   [' ', ' ', ' ', ' ', ' ', ' ', ' ', ' ', '}', ' ', 'e', 'l', 's', 'e', ' ', 'i', 'f', ' ', 'l', 'e', 't', ' ', 'F', 'i', 'e', 'l', 'd', 's', ':', ':', 'U', 'n', 'i', 't', ' ', '=', ' ', 'v', 'a', 'r', 'i', 'a', 'n', 't', '.', 'f', 'i', 'e', 'l', 'd', 's', ' ', '{'],
   [' ', ' ', ' ', ' ', ' ', ' ', ' ', ' ', ' ', ' ', ' ', ' ', '/', '/', ' ', 'P', 'a', 'r', 's', 'e', ' ', 't', 'h', 'e', ' ', 'd', 'i', 's', 'c', 'r', 'i', 'm', 'i', 'n', 'a', 'n', 't', '.'],
   [' ', ' ', ' ', ' ', ' ', ' ', ' ', ' ', ' ', ' ', ' ', ' ', 'i', 'f', ' ', 'l', 'e', 't', ' ', 'S', 'o', 'm', 'e', '(', '(', '_', ',', ' ', 'e', 'x', 'p', 'r', ')', ')', ' ', '=', ' ', '&', 'v', 'a', 'r', 'i', 'a', 'n', 't', '.', 'd', 'i', 's', 'c', 'r', 'i', 'm', 'i', 'n', 'a', 'n', 't', ' ', '{'],
   [' ', ' ', ' ', ' ', ' ', ' ', ' ', ' ', ' ', ' ', ' ', ' ', ' ', ' ', ' ', ' ', 'i', 'f', ' ', 'l', 'e', 't', ' ', 'E', 'x', 'p', 'r', ':', ':', 'L', 'i', 't', '(', 'E', 'x', 'p', 'r', 'L', 'i', 't', ' ', '{', ' ', 'l', 'i', 't', ':', ' ', 'L', 'i', 't', ':', ':', 'I', 'n', 't', '(', 'i', ')', ',', ' ', '.', '.', ' ', '}', ')', ' ', '=', ' ', 'e', 'x', 'p', 'r', ' ', '{'],
   [' ', ' ', ' ', ' ', ' ', ' ', ' ', ' ', ' ', ' ', ' ', ' ', ' ', ' ', ' ', ' ', ' ', ' ', ' ', ' ', 'm', 'a', 't', 'c', 'h', ' ', 'i', '.', 'b', 'a', 's', 'e', '1', '0', '_', 'p', 'a', 'r', 's', 'e', '(', ')', ' ', '{'],
   [' ', ' ', ' ', ' ', ' ', ' ', ' ', ' ', ' ', ' ', ' ', ' ', ' ', ' ', ' ', ' ', ' ', ' ', ' ', ' ', ' ', ' ', ' ', ' ', 'O', 'k', '(', 'v', 'a', 'l', ')', ' ', '=', '>', ' ', 's', 'e', 'l', 'f', '.', 'c', 'u', 'r', '_', 'd', 'i', 's', 'c', 'r', 'i', 'm', ' ', '=', ' ', 'v', 'a', 'l', ','],
   [' ', ' ', ' ', ' ', ' ', ' ', ' ', ' ', ' ', ' ', ' ', ' ', ' ', ' ', ' ', ' ', ' ', ' ', ' ', ' ', ' ', ' ', ' ', ' ', 'E', 'r', 'r', '(', '_', ')', ' ', '=', '>', ' ', 'e', 'r', 'r', 'o', 'r', '(', 'e', 'x', 'p', 'r', '.', 's', 'p', 'a', 'n', '(', ')', ',', ' ', '"', 'E', 'n', 'u', 'm', ' ', 'd', 'i', 's', 'c', 'r', 'i', 'm', 'i', 'n', 'a', 'n', 't', 's', ' ', 'm', 'u', 's', 't', ' ', 'f', 'i', 't', ' ', 'i', 'n', 't', 'o', ' ', '`', 'u', '3', '2', '`', '.', '"', ')', '?', ','],
   [' ', ' ', ' ', ' ', ' ', ' ', ' ', ' ', ' ', ' ', ' ', ' ', ' ', ' ', ' ', ' ', ' ', ' ', ' ', ' ', '}'],
   [' ', ' ', ' ', ' ', ' ', ' ', ' ', ' ', ' ', ' ', ' ', ' ', ' ', ' ', ' ', ' ', '}', ' ', 'e', 'l', 's', 'e', ' ', 'i', 'f', ' ', 'l', 'e', 't', ' ', 'E', 'x', 'p', 'r', ':', ':', 'U', 'n', 'a', 'r', 'y', '(', 'E', 'x', 'p', 'r', 'U', 'n', 'a', 'r', 'y', ' ', '{', ' ', 'o', 'p', ':', ' ', 'U', 'n', 'O', 'p', ':', ':', 'N', 'e', 'g', '(', '_', ')', ',', ' ', '.', '.', ' ', '}', ')', ' ', '=', ' ', 'e', 'x', 'p', 'r', ' ', '{'],
   [' ', ' ', ' ', ' ', ' ', ' ', ' ', ' ', ' ', ' ', ' ', ' ', ' ', ' ', ' ', ' ', ' ', ' ', ' ', ' ', 'e', 'r', 'r', 'o', 'r', '(', 'e', 'x', 'p', 'r', '.', 's', 'p', 'a', 'n', '(', ')', ',', ' ', '"', 'E', 'n', 'u', 'm', ' ', 'd', 'i', 's', 'c', 'r', 'i', 'm', 'i', 'n', 'a', 'n', 't', 's', ' ', 'm', 'u', 's', 't', ' ', 'n', 'o', 't', ' ', 'b', 'e', ' ', 'n', 'e', 'g', 'a', 't', 'i', 'v', 'e', '.', '"', ')', '?', ';'],
   [' ', ' ', ' ', ' ', ' ', ' ', ' ', ' ', ' ', ' ', ' ', ' ', ' ', ' ', ' ', ' ', '}', ' ', 'e', 'l', 's', 'e', ' ', '{'],
   [' ', ' ', ' ', ' ', ' ', ' ', ' ', ' ', ' ', ' ', ' ', ' ', ' ', ' ', ' ', ' ', ' ', ' ', ' ', ' ', 'e', 'r', 'r', 'o', 'r', '(', 'v', 'a', 'r', 'i', 'a', 'n', 't', '.', 's', 'p', 'a', 'n', '(', ')', ',', ' ', '"', 'E', 'n', 'u', 'm', ' ', 'd', 'i', 's', 'c', 'r', 'i', 'm', 'i', 'n', 'a', 'n', 't', 's', ' ', 'm', 'u', 's', 't', ' ', 'b', 'e', ' ', 'l', 'i', 't', 'e', 'r', 'a', 'l', ' ', 'e', 'x', 'p', 'r', 'e', 's', 's', 'i', 'o', 'n', 's', '.', '"', ')', '?', ';'],
   [' ', ' ', ' ', ' ', ' ', ' ', ' ', ' ', ' ', ' ', ' ', ' ', ' ', ' ', ' ', ' ', '}'],
   [' ', ' ', ' ', ' ', ' ', ' ', ' ', ' ', ' ', ' ', ' ', ' ', '}'],
   [],
   [' ', ' ', ' ', ' ', ' ', ' ', ' ', ' ', ' ', ' ', ' ', ' ', '/', '/', ' ', 'V', 'a', 'l', 'i', 'd', 'a', 't', 'e', ' ', 't', 'h', 'e', ' ', 'd', 'i', 's', 'c', 'r', 'i', 'm', 'i', 'n', 'a', 'n', 't', '.'],
   [' ', ' ', ' ', ' ', ' ', ' ', ' ', ' ', ' ', ' ', ' ', ' ', 'l', 'e', 't', ' ', 'd', 'i', 's', 'c', 'r', 'i', 'm', 'i', 'n', 'a', 'n', 't', ' ', '=', ' ', 's', 'e', 'l', 'f', '.', 'c', 'u', 'r', '_', 'd', 'i', 's', 'c', 'r', 'i', 'm', ';'],
   [' ', ' ', ' ', ' ', ' ', ' ', ' ', ' ', ' ', ' ', ' ', ' ', 'i', 'f', ' ', 'd', 'i', 's', 'c', 'r', 'i', 'm', 'i', 'n', 'a', 'n', 't', ' ', '>', '=', ' ', '0', 'x', 'F', 'F', 'F', 'F', 'F', 'F', 'C', '0', ' ', '{'],
   [' ', ' ', ' ', ' ', ' ', ' ', ' ', ' ', ' ', ' ', ' ', ' ', ' ', ' ', ' ', ' ', 'e', 'r', 'r', 'o', 'r', '(', 'v', 'a', 'r', 'i', 'a', 'n', 't', '.', 's', 'p', 'a', 'n', '(', ')', ',', ' ', '"', 'M', 'a', 'x', 'i', 'm', 'u', 'm', ' ', 'd', 'i', 's', 'c', 'r', 'i', 'm', 'i', 'n', 'a', 'n', 't', ' ', 'a', 'l', 'l', 'o', 'w', 'e', 'd', ' ', 'i', 's', ' ', '`', '0', 'x', 'F', 'F', 'F', 'F', 'F', 'F', 'B', 'F', '`', '.', '"', ')', '?', ';'],
   [' ', ' ', ' ', ' ', ' ', ' ', ' ', ' ', ' ', ' ', ' ', ' ', '}'],
   [' ', ' ', ' ', ' ', ' ', ' ', ' ', ' ', ' ', ' ', ' ', ' ', 'i', 'f', ' ', 's', 'e', 'l', 'f', '.', 'u', 's', 'e', 'd', '_', 'd', 'i', 's', 'c', 'r', 'i', 'm', 'i', 'n', 'a', 'n', 't', 's', '.', 'c', 'o', 'n', 't', 'a', 'i', 'n', 's', '(', '&', 'd', 'i', 's', 'c', 'r', 'i', 'm', 'i', 'n', 'a', 'n', 't', ')', ' ', '{'],
   [' ', ' ', ' ', ' ', ' ', ' ', ' ', ' ', ' ', ' ', ' ', ' ', ' ', ' ', ' ', ' ', 'e', 'r', 'r', 'o', 'r', '(', 'v', 'a', 'r', 'i', 'a', 'n', 't', '.', 's', 'p', 'a', 'n', '(', ')', ',', ' ', '"', 'D', 'u', 'p', 'l', 'i', 'c', 'a', 't', 'e', 'd', ' ', 'e', 'n', 'u', 'm', ' ', 'd', 'i', 's', 'c', 'r', 'i', 'm', 'i', 'n', 'a', 'n', 't', '.', '"', ')', '?', ';'],
   [' ', ' ', ' ', ' ', ' ', ' ', ' ', ' ', ' ', ' ', ' ', ' ', '}'],
   [],
   [' ', ' ', ' ', ' ', ' ', ' ', ' ', ' ', ' ', ' ', ' ', ' ', '/', '/', ' ', 'A', 'd', 'd', ' ', 't', 'h', 'e', ' ', 'v', 'a', 'r', 'i', 'a', 'n', 't', ' ', 't', 'o', ' ', 't', 'h', 'e', ' ', 'i', 'n', 'f', 'o', '.'],
   [' ', ' ', ' ', ' ', ' ', ' ', ' ', ' ', ' ', ' ', ' ', ' ', 's', 'e', 'l', 'f', '.', 'c', 'u', 'r', '_', 'd', 'i', 's', 'c', 'r', 'i', 'm', ' ', '+', '=', ' ', '1', ';'],
   [' ', ' ', ' ', ' ', ' ', ' ', ' ', ' ', ' ', ' ', ' ', ' ', 'i', 'f', ' ', 'd', 'i', 's', 'c', 'r', 'i', 'm', 'i', 'n', 'a', 'n', 't', ' ', '>', ' ', 's', 'e', 'l', 'f', '.', 'm', 'a', 'x', '_', 'd', 'i', 's', 'c', 'r', 'i', 'm', ' ', '{'],
   [' ', ' ', ' ', ' ', ' ', ' ', ' ', ' ', ' ', ' ', ' ', ' ', ' ', ' ', ' ', ' ', 's', 'e', 'l', 'f', '.', 'm', 'a', 'x', '_', 'd', 'i', 's', 'c', 'r', 'i', 'm', ' ', '=', ' ', 'd', 'i', 's', 'c', 'r', 'i', 'm', 'i', 'n', 'a', 'n', 't', ';'],
   [' ', ' ', ' ', ' ', ' ', ' ', ' ', ' ', ' ', ' ', ' ', ' ', ' ', ' ', ' ', ' ', 's', 'e', 'l', 'f', '.', 'm', 'a', 'x', '_', 'd', 'i', 's', 'c', 'r', 'i', 'm', '_', 's', 'p', 'a', 'n', ' ', '=', ' ', 'S', 'o', 'm', 'e', '(', 'v', 'a', 'r', 'i', 'a', 'n', 't', '.', 's', 'p', 'a', 'n', '(', ')', ')', ';'],
   [' ', ' ', ' ', ' ', ' ', ' ', ' ', ' ', ' ', ' ', ' ', ' ', '}'],
   [' ', ' ', ' ', ' ', ' ', ' ', ' ', ' ', ' ', ' ', ' ', ' ', 's', 'e', 'l', 'f', '.', 'v', 'a', 'r', 'i', 'a', 'n', 't', 's'],
   [' ', ' ', ' ', ' ', ' ', ' ', ' ', ' ', ' ', ' ', ' ', ' ', ' ', ' ', ' ', ' ', '.', 'p', 'u', 's', 'h', '(', 'E', 'n', 'u', 'm', 'S', 'e', 't', 'V', 'a', 'l', 'u', 'e', ' ', '{', ' ', 'n', 'a', 'm', 'e', ':', ' ', 'v', 'a', 'r', 'i', 'a', 'n', 't', '.', 'i', 'd', 'e', 'n', 't', '.', 'c', 'l', 'o', 'n', 'e', '(', ')', ',', ' ', 'v', 'a', 'r', 'i', 'a', 'n', 't', '_', 'r', 'e', 'p', 'r', ':', ' ', 'd', 'i', 's', 'c', 'r', 'i', 'm', 'i', 'n', 'a', 'n', 't', ' ', '}', ')', ';'],
   [' ', ' ', ' ', ' ', ' ', ' ', ' ', ' ', ' ', ' ', ' ', ' ', 's', 'e', 'l', 'f', '.', 'u', 's', 'e', 'd', '_', 'v', 'a', 'r', 'i', 'a', 'n', 't', '_', 'n', 'a', 'm', 'e', 's', '.', 'i', 'n', 's', 'e', 'r', 't', '(', 'v', 'a', 'r', 'i', 'a', 'n', 't', '.', 'i', 'd', 'e', 'n', 't', '.', 't', 'o', '_', 's', 't', 'r', 'i', 'n', 'g', '(', ')', ')', ';'],
   [' ', ' ', ' ', ' ', ' ', ' ', ' ', ' ', ' ', ' ', ' ', ' ', 's', 'e', 'l', 'f', '.', 'u', 's', 'e', 'd', '_', 'd', 'i', 's', 'c', 'r', 'i', 'm', 'i', 'n', 'a', 'n', 't', 's', '.', 'i', 'n', 's', 'e', 'r', 't', '(', 'd', 'i', 's', 'c', 'r', 'i', 'm', 'i', 'n', 'a', 'n', 't', ')', ';'],
   [],
   [' ', ' ', ' ', ' ', ' ', ' ', ' ', ' ', ' ', ' ', ' ', ' ', 'O', 'k', '(', '(', ')', ')'],
   [' ', ' ', ' ', ' ', ' ', ' ', ' ', ' ', '}', ' ', 'e', 'l', 's', 'e', ' ', '{'],
   [' ', ' ', ' ', ' ', ' ', ' ', ' ', ' ', ' ', ' ', ' ', ' ', 'e', 'r', 'r', 'o', 'r', '(', 'v', 'a', 'r', 'i', 'a', 'n', 't', '.', 's', 'p', 'a', 'n', '(', ')', ',', ' ', '"', '`', '#', '[', 'd', 'e', 'r', 'i', 'v', 'e', '(', 'E', 'n', 'u', 'm', 'S', 'e', 't', 'T', 'y', 'p', 'e', ')', ']', '`', ' ', 'c', 'a', 'n', ' ', 'o', 'n', 'l', 'y', ' ', 'b', 'e', ' ', 'u', 's', 'e', 'd', ' ', 'o', 'n', ' ', 'f', 'i', 'e', 'l', 'd', 'l', 'e', 's', 's', ' ', 'e', 'n', 'u', 'm', 's', '.', '"', ')'],
   [' ', ' ', ' ', ' ', ' ', ' ', ' ', ' ', '}'],
   [' ', ' ', ' ', ' ', '}'],
   [],
   [' ', ' ', ' ', ' ', '/', '/', '/', ' ', 'R', 'e', 't', 'u', 'r', 'n', 's', ' ', 't', 'h', 'e', ' ', 'a', 'c', 't', 'u', 'a', 'l', ' ', 'i', 'n', 't', 'e', 'r', 'n', 'a', 'l', ' ', 'r', 'e', 'p', 'r', 'e', 's', 'e', 'n', 't', 'a', 't', 'i', 'o', 'n', ' ', 'o', 'f', ' ', 't', 'h', 'e', ' ', 's', 'e', 't', '.'],
   [' ', ' ', ' ', ' ', 'f', 'n', ' ', 'i', 'n', 't', 'e', 'r', 'n', 'a', 'l', '_', 'r', 'e', 'p', 'r', '(', '&', 's', 'e', 'l', 'f', ')', ' ', '-', '>', ' ', 'I', 'n', 't', 'e', 'r', 'n', 'a', 'l', 'R', 'e', 'p', 'r', ' ', '{'],
   [' ', ' ', ' ', ' ', ' ', ' ', ' ', ' ', 'm', 'a', 't', 'c', 'h', ' ', 's', 'e', 'l', 'f', '.', 'e', 'x', 'p', 'l', 'i', 'c', 'i', 't', '_', 'i', 'n', 't', 'e', 'r', 'n', 'a', 'l', '_', 'r', 'e', 'p', 'r', ' ', '{'],
   [' ', ' ', ' ', ' ', ' ', ' ', ' ', ' ', ' ', ' ', ' ', ' ', 'S', 'o', 'm', 'e', '(', 'x', ')', ' ', '=', '>', ' ', 'x', ','],
   [' ', ' ', ' ', ' ', ' ', ' ', ' ', ' ', ' ', ' ', ' ', ' ', 'N', 'o', 'n', 'e', ' ', '=', '>', ' ', 'm', 'a', 't', 'c', 'h', ' ', 's', 'e', 'l', 'f', '.', 'm', 'a', 'x', '_', 'd', 'i', 's', 'c', 'r', 'i', 'm', ' ', '{'],
   [' ', ' ', ' ', ' ', ' ', ' ', ' ', ' ', ' ', ' ', ' ', ' ', ' ', ' ', ' ', ' ', 'x', ' ', 'i', 'f', ' ', 'x', ' ', '<', ' ', '8', ' ', '&', '&', ' ', '!', 's', 'e', 'l', 'f', '.', 'i', 'n', 't', 'e', 'r', 'n', 'a', 'l', '_', 'r', 'e', 'p', 'r', '_', 'f', 'o', 'r', 'c', 'e', '_', 'a', 'r', 'r', 'a', 'y', ' ', '=', '>', ' ', 'I', 'n', 't', 'e', 'r', 'n', 'a', 'l', 'R', 'e', 'p', 'r', ':', ':', 'U', '8', ','],
   [' ', ' ', ' ', ' ', ' ', ' ', ' ', ' ', ' ', ' ', ' ', ' ', ' ', ' ', ' ', ' ', 'x', ' ', 'i', 'f', ' ', 'x', ' ', '<', ' ', '1', '6', ' ', '&', '&', ' ', '!', 's', 'e', 'l', 'f', '.', 'i', 'n', 't', 'e', 'r', 'n', 'a', 'l', '_', 'r', 'e', 'p', 'r', '_', 'f', 'o', 'r', 'c', 'e', '_', 'a', 'r', 'r', 'a', 'y', ' ', '=', '>', ' ', 'I', 'n', 't', 'e', 'r', 'n', 'a', 'l', 'R', 'e', 'p', 'r', ':', ':', 'U', '1', '6', ','],
   [' ', ' ', ' ', ' ', ' ', ' ', ' ', ' ', ' ', ' ', ' ', ' ', ' ', ' ', ' ', ' ', 'x', ' ', 'i', 'f', ' ', 'x', ' ', '<', ' ', '3', '2', ' ', '&', '&', ' ', '!', 's', 'e', 'l', 'f', '.', 'i', 'n', 't', 'e', 'r', 'n', 'a', 'l', '_', 'r', 'e', 'p', 'r', '_', 'f', 'o', 'r', 'c', 'e', '_', 'a', 'r', 'r', 'a', 'y', ' ', '=', '>', ' ', 'I', 'n', 't', 'e', 'r', 'n', 'a', 'l', 'R', 'e', 'p', 'r', ':', ':', 'U', '3', '2', ','],
   [' ', ' ', ' ', ' ', ' ', ' ', ' ', ' ', ' ', ' ', ' ', ' ', ' ', ' ', ' ', ' ', 'x', ' ', 'i', 'f', ' ', 'x', ' ', '<', ' ', '6', '4', ' ', '&', '&', ' ', '!', 's', 'e', 'l', 'f', '.', 'i', 'n', 't', 'e', 'r', 'n', 'a', 'l', '_', 'r', 'e', 'p', 'r', '_', 'f', 'o', 'r', 'c', 'e', '_', 'a', 'r', 'r', 'a', 'y', ' ', '=', '>', ' ', 'I', 'n', 't', 'e', 'r', 'n', 'a', 'l', 'R', 'e', 'p', 'r', ':', ':', 'U', '6', '4', ','],
   [' ', ' ', ' ', ' ', ' ', ' ', ' ', ' ', ' ', ' ', ' ', ' ', ' ', ' ', ' ', ' ', 'x', ' ', '=', '>', ' ', 'I', 'n', 't', 'e', 'r', 'n', 'a', 'l', 'R', 'e', 'p', 'r', ':', ':', 'A', 'r', 'r', 'a', 'y', '(', '(', 'x', ' ', 'a', 's', ' ', 'u', 's', 'i', 'z', 'e', ' ', '+', ' ', '6', '4', ')', ' ', '/', ' ', '6', '4', ')', ','],
   [' ', ' ', ' ', ' ', ' ', ' ', ' ', ' ', ' ', ' ', ' ', ' ', '}', ','],
   [' ', ' ', ' ', ' ', ' ', ' ', ' ', ' ', '}'],
   [' ', ' ', ' ', ' ', '}'],
   [],
   [' ', ' ', ' ', ' ', '/', '/', '/', ' ', 'R', 'e', 't', 'u', 'r', 'n', 's', ' ', 't', 'h', 'e', ' ', 'a', 'c', 't', 'u', 'a', 'l', ' ', 's', 'e', 'r', 'd', 'e', ' ', 'r', 'e', 'p', 'r', 'e', 's', 'e', 'n', 't', 'a', 't', 'i', 'o', 'n', ' ', 'o', 'f', ' ', 't', 'h', 'e', ' ', 's', 'e', 't', '.'],
   [' ', ' ', ' ', ' ', 'f', 'n', ' ', 's', 'e', 'r', 'd', 'e', '_', 'r', 'e', 'p', 'r', '(', '&', 's', 'e', 'l', 'f', ')', ' ', '-', '>', ' ', 'S', 'e', 'r', 'd', 'e', 'R', 'e', 'p', 'r', ' ', '{'],
   [' ', ' ', ' ', ' ', ' ', ' ', ' ', ' ', 'm', 'a', 't', 'c', 'h', ' ', 's', 'e', 'l', 'f', '.', 'e', 'x', 'p', 'l', 'i', 'c', 'i', 't', '_', 's', 'e', 'r', 'd', 'e', '_', 'r', 'e', 'p', 'r', ' ', '{'],
   [' ', ' ', ' ', ' ', ' ', ' ', ' ', ' ', ' ', ' ', ' ', ' ', 'S', 'o', 'm', 'e', '(', 'x', ')', ' ', '=', '>', ' ', 'x', ','],
   [' ', ' ', ' ', ' ', ' ', ' ', ' ', ' ', ' ', ' ', ' ', ' ', 'N', 'o', 'n', 'e', ' ', '=', '>', ' ', 'm', 'a', 't', 'c', 'h', ' ', 's', 'e', 'l', 'f', '.', 'm', 'a', 'x', '_', 'd', 'i', 's', 'c', 'r', 'i', 'm', ' ', '{'],
   [' ', ' ', ' ', ' ', ' ', ' ', ' ', ' ', ' ', ' ', ' ', ' ', ' ', ' ', ' ', ' ', 'x', ' ', 'i', 'f', ' ', 'x', ' ', '<', ' ', '8', ' ', '=', '>', ' ', 'S', 'e', 'r', 'd', 'e', 'R', 'e', 'p', 'r', ':', ':', 'U', '8', ','],
   [' ', ' ', ' ', ' ', ' ', ' ', ' ', ' ', ' ', ' ', ' ', ' ', ' ', ' ', ' ', ' ', 'x', ' ', 'i', 'f', ' ', 'x', ' ', '<', ' ', '1', '6', ' ', '=', '>', ' ', 'S', 'e', 'r', 'd', 'e', 'R', 'e', 'p', 'r', ':', ':', 'U', '1', '6', ','],
   [' ', ' ', ' ', ' ', ' ', ' ', ' ', ' ', ' ', ' ', ' ', ' ', ' ', ' ', ' ', ' ', 'x', ' ', 'i', 'f', ' ', 'x', ' ', '<', ' ', '3', '2', ' ', '=', '>', ' ', 'S', 'e', 'r', 'd', 'e', 'R', 'e', 'p', 'r', ':', ':', 'U', '3', '2', ','],
   [' ', ' ', ' ', ' ', ' ', ' ', ' ', ' ', ' ', ' ', ' ', ' ', ' ', ' ', ' ', ' ', 'x', ' ', 'i', 'f', ' ', 'x', ' ', '<', ' ', '6', '4', ' ', '=', '>', ' ', 'S', 'e', 'r', 'd', 'e', 'R', 'e', 'p', 'r', ':', ':', 'U', '6', '4', ','],
   [' ', ' ', ' ', ' ', ' ', ' ', ' ', ' ', ' ', ' ', ' ', ' ', ' ', ' ', ' ', ' ', 'x', ' ', 'i', 'f', ' ', 'x', ' ', '<', ' ', '1', '2', '8', ' ', '=', '>', ' ', 'S', 'e', 'r', 'd', 'e', 'R', 'e', 'p', 'r', ':', ':', 'U', '1', '2', '8', ','],
   [' ', ' ', ' ', ' ', ' ', ' ', ' ', ' ', ' ', ' ', ' ', ' ', ' ', ' ', ' ', ' ', '_', ' ', '=', '>', ' ', 'S', 'e', 'r', 'd', 'e', 'R', 'e', 'p', 'r', ':', ':', 'A', 'r', 'r', 'a', 'y', ','],
   [' ', ' ', ' ', ' ', ' ', ' ', ' ', ' ', ' ', ' ', ' ', ' ', '}', ','],
   [' ', ' ', ' ', ' ', ' ', ' ', ' ', ' ', '}'],
   [' ', ' ', ' ', ' ', '}'],
   [],
   [' ', ' ', ' ', ' ', '/', '/', '/', ' ', 'V', 'a', 'l', 'i', 'd', 'a', 't', 'e', ' ', 't', 'h', 'e', ' ', 'e', 'n', 'u', 'm', 's', 'e', 't', ' ', 't', 'y', 'p', 'e', '.'],
   [' ', ' ', ' ', ' ', 'f', 'n', ' ', 'v', 'a', 'l', 'i', 'd', 'a', 't', 'e', '(', '&', 's', 'e', 'l', 'f', ')', ' ', '-', '>', ' ', 'R', 'e', 's', 'u', 'l', 't', '<', '(', ')', '>', ' ', '{'],
   [' ', ' ', ' ', ' ', ' ', ' ', ' ', ' ', '/', '/', ' ', 'G', 'e', 't', 's', ' ', 't', 'h', 'e', ' ', 's', 'p', 'a', 'n', ' ', 'o', 'f', ' ', 't', 'h', 'e', ' ', 'm', 'a', 'x', 'i', 'm', 'u', 'm', ' ', 'v', 'a', 'l', 'u', 'e', '.'],
   [' ', ' ', ' ', ' ', ' ', ' ', ' ', ' ', 'l', 'e', 't', ' ', 'l', 'a', 'r', 'g', 'e', 's', 't', '_', 'd', 'i', 's', 'c', 'r', 'i', 'm', 'i', 'n', 'a', 'n', 't', '_', 's', 'p', 'a', 'n', ' ', '=', ' ', 'm', 'a', 't', 'c', 'h', ' ', '&', 's', 'e', 'l', 'f', '.', 'm', 'a', 'x', '_', 'd', 'i', 's', 'c', 'r', 'i', 'm', '_', 's', 'p', 'a', 'n', ' ', '{'],
   [' ', ' ', ' ', ' ', ' ', ' ', ' ', ' ', ' ', ' ', ' ', ' ', 'S', 'o', 'm', 'e', '(', 'x', ')', ' ', '=', '>', ' ', '*', 'x', ','],
   [' ', ' ', ' ', ' ', ' ', ' ', ' ', ' ', ' ', ' ', ' ', ' ', 'N', 'o', 'n', 'e', ' ', '=', '>', ' ', 'S', 'p', 'a', 'n', ':', ':', 'c', 'a', 'l', 'l', '_', 's', 'i', 't', 'e', '(', ')', ','],
   [' ', ' ', ' ', ' ', ' ', ' ', ' ', ' ', '}', ';'],
   [],
   [' ', ' ', ' ', ' ', ' ', ' ', ' ', ' ', '/', '/', ' ', 'C', 'h', 'e', 'c', 'k', ' ', 'i', 'f', ' ', 'a', 'l', 'l', ' ', 'b', 'i', 't', 's', ' ', 'o', 'f', ' ', 't', 'h', 'e', ' ', 'b', 'i', 't', 's', 'e', 't', ' ', 'c', 'a', 'n', ' ', 'f', 'i', 't', ' ', 'i', 'n', ' ', 't', 'h', 'e', ' ', 'm', 'e', 'm', 'o', 'r', 'y', ' ', 'r', 'e', 'p', 'r', 'e', 's', 'e', 'n', 't', 'a', 't', 'i', 'o', 'n', ',', ' ', 'i', 'f', ' ', 'o', 'n', 'e', ' ', 'w', 'a', 's', ' ', 'g', 'i', 'v', 'e', 'n', '.'],
   [' ', ' ', ' ', ' ', ' ', ' ', ' ', ' ', 'i', 'f', ' ', 's', 'e', 'l', 'f', '.', 'i', 'n', 't', 'e', 'r', 'n', 'a', 'l', '_', 'r', 'e', 'p', 'r', '(', ')', '.', 's', 'u', 'p', 'p', 'o', 'r', 't', 'e', 'd', '_', 'v', 'a', 'r', 'i', 'a', 'n', 't', 's', '(', ')', ' ', '<', '=', ' ', 's', 'e', 'l', 'f', '.', 'm', 'a', 'x', '_', 'd', 'i', 's', 'c', 'r', 'i', 'm', ' ', 'a', 's', ' ', 'u', 's', 'i', 'z', 'e', ' ', '{'],
   [' ', ' ', ' ', ' ', ' ', ' ', ' ', ' ', ' ', ' ', ' ', ' ', 'e', 'r', 'r', 'o', 'r', '('],
   [' ', ' ', ' ', ' ', ' ', ' ', ' ', ' ', ' ', ' ', ' ', ' ', ' ', ' ', ' ', ' ', 'l', 'a', 'r', 'g', 'e', 's', 't', '_', 'd', 'i', 's', 'c', 'r', 'i', 'm', 'i', 'n', 'a', 'n', 't', '_', 's', 'p', 'a', 'n', ','],
   [' ', ' ', ' ', ' ', ' ', ' ', ' ', ' ', ' ', ' ', ' ', ' ', ' ', ' ', ' ', ' ', '"', '`', 'r', 'e', 'p', 'r', '`', ' ', 'i', 's', ' ', 't', 'o', 'o', ' ', 's', 'm', 'a', 'l', 'l', ' ', 't', 'o', ' ', 'c', 'o', 'n', 't', 'a', 'i', 'n', ' ', 't', 'h', 'e', ' ', 'l', 'a', 'r', 'g', 'e', 's', 't', ' ', 'd', 'i', 's', 'c', 'r', 'i', 'm', 'i', 'n', 'a', 'n', 't', '.', '"', ','],
   [' ', ' ', ' ', ' ', ' ', ' ', ' ', ' ', ' ', ' ', ' ', ' ', ')', '?', ';'],
   [' ', ' ', ' ', ' ', ' ', ' ', ' ', ' ', '}'],
   [],
   [' ', ' ', ' ', ' ', ' ', ' ', ' ', ' ', '/', '/', ' ', 'C', 'h', 'e', 'c', 'k', ' ', 'i', 'f', ' ', 'a', 'l', 'l', ' ', 'b', 'i', 't', 's', ' ', 'o', 'f', ' ', 't', 'h', 'e', ' ', 'b', 'i', 't', 's', 'e', 't', ' ', 'c', 'a', 'n', ' ', 'f', 'i', 't', ' ', 'i', 'n', ' ', 't', 'h', 'e', ' ', 's', 'e', 'r', 'i', 'a', 'l', 'i', 'z', 'a', 't', 'i', 'o', 'n', ' ', 'r', 'e', 'p', 'r', 'e', 's', 'e', 'n', 't', 'a', 't', 'i', 'o', 'n', '.'],
   [' ', ' ', ' ', ' ', ' ', ' ', ' ', ' ', 'i', 'f', ' ', 'l', 'e', 't', ' ', 'S', 'o', 'm', 'e', '(', 's', 'u', 'p', 'p', 'o', 'r', 't', 'e', 'd', '_', 'v', 'a', 'r', 'i', 'a', 'n', 't', 's', ')', ' ', '=', ' ', 's', 'e', 'l', 'f', '.', 's', 'e', 'r', 'd', 'e', '_', 'r', 'e', 'p', 'r', '(', ')', '.', 's', 'u', 'p', 'p', 'o', 'r', 't', 'e', 'd', '_', 'v', 'a', 'r', 'i', 'a', 'n', 't', 's', '(', ')', ' ', '{'],
   [' ', ' ', ' ', ' ', ' ', ' ', ' ', ' ', ' ', ' ', ' ', ' ', 'i', 'f', ' ', 's', 'u', 'p', 'p', 'o', 'r', 't', 'e', 'd', '_', 'v', 'a', 'r', 'i', 'a', 'n', 't', 's', ' ', '<', '=', ' ', 's', 'e', 'l', 'f', '.', 'm', 'a', 'x', '_', 'd', 'i', 's', 'c', 'r', 'i', 'm', ' ', 'a', 's', ' ', 'u', 's', 'i', 'z', 'e', ' ', '{'],
   [' ', ' ', ' ', ' ', ' ', ' ', ' ', ' ', ' ', ' ', ' ', ' ', ' ', ' ', ' ', ' ', 'e', 'r', 'r', 'o', 'r', '('],
   [' ', ' ', ' ', ' ', ' ', ' ', ' ', ' ', ' ', ' ', ' ', ' ', ' ', ' ', ' ', ' ', ' ', ' ', ' ', ' ', 'l', 'a', 'r', 'g', 'e', 's', 't', '_', 'd', 'i', 's', 'c', 'r', 'i', 'm', 'i', 'n', 'a', 'n', 't', '_', 's', 'p', 'a', 'n', ','],
   [' ', ' ', ' ', ' ', ' ', ' ', ' ', ' ', ' ', ' ', ' ', ' ', ' ', ' ', ' ', ' ', ' ', ' ', ' ', ' ', '"', '`', 's', 'e', 'r', 'i', 'a', 'l', 'i', 'z', 'e', '_', 'r', 'e', 'p', 'r', '`', ' ', 'i', 's', ' ', 't', 'o', 'o', ' ', 's', 'm', 'a', 'l', 'l', ' ', 't', 'o', ' ', 'c', 'o', 'n', 't', 'a', 'i', 'n', ' ', 't', 'h', 'e', ' ', 'l', 'a', 'r', 'g', 'e', 's', 't', ' ', 'd', 'i', 's', 'c', 'r', 'i', 'm', 'i', 'n', 'a', 'n', 't', '.', '"', ','],
   [' ', ' ', ' ', ' ', ' ', ' ', ' ', ' ', ' ', ' ', ' ', ' ', ' ', ' ', ' ', ' ', ')', '?', ';'],
   [' ', ' ', ' ', ' ', ' ', ' ', ' ', ' ', ' ', ' ', ' ', ' ', '}'],
   [' ', ' ', ' ', ' ', ' ', ' ', ' ', ' ', '}'],
   [],
   [' ', ' ', ' ', ' ', ' ', ' ', ' ', ' ', 'O', 'k', '(', '(', ')', ')'],
   [' ', ' ', ' ', ' ', '}'],
   [],
   [' ', ' ', ' ', ' ', '/', '/', '/', ' ', 'R', 'e', 't', 'u', 'r', 'n', 's', ' ', 'a', ' ', 'b', 'i', 't', 'm', 'a', 's', 'k', ' ', 'o', 'f', ' ', 'a', 'l', 'l', ' ', 'v', 'a', 'r', 'i', 'a', 'n', 't', 's', ' ', 'i', 'n', ' ', 't', 'h', 'e', ' ', 's', 'e', 't', '.'],
   [' ', ' ', ' ', ' ', 'f', 'n', ' ', 'v', 'a', 'r', 'i', 'a', 'n', 't', '_', 'm', 'a', 'p', '(', '&', 's', 'e', 'l', 'f', ')', ' ', '-', '>', ' ', 'V', 'e', 'c', '<', 'u', '6', '4', '>', ' ', '{'],
   [' ', ' ', ' ', ' ', ' ', ' ', ' ', ' ', 'l', 'e', 't', ' ', 'm', 'u', 't', ' ', 'v', 'e', 'c', ' ', '=', ' ', 'v', 'e', 'c', '!', '[', '0', ']', ';'],
   [' ', ' ', ' ', ' ', ' ', ' ', ' ', ' ', 'f', 'o', 'r', ' ', 'v', 'a', 'r', 'i', 'a', 'n', 't', ' ', 'i', 'n', ' ', '&', 's', 'e', 'l', 'f', '.', 'v', 'a', 'r', 'i', 'a', 'n', 't', 's', ' ', '{'],
   [' ', ' ', ' ', ' ', ' ', ' ', ' ', ' ', ' ', ' ', ' ', ' ', 'l', 'e', 't', ' ', '(', 'i', 'd', 'x', ',', ' ', 'b', 'i', 't', ')', ' ', '=', ' ', '(', 'v', 'a', 'r', 'i', 'a', 'n', 't', '.', 'v', 'a', 'r', 'i', 'a', 'n', 't', '_', 'r', 'e', 'p', 'r', ' ', 'a', 's', ' ', 'u', 's', 'i', 'z', 'e', ' ', '/', ' ', '6', '4', ',', ' ', 'v', 'a', 'r', 'i', 'a', 'n', 't', '.', 'v', 'a', 'r', 'i', 'a', 'n', 't', '_', 'r', 'e', 'p', 'r', ' ', '%', ' ', '6', '4', ')', ';'],
   [' ', ' ', ' ', ' ', ' ', ' ', ' ', ' ', ' ', ' ', ' ', ' ', 'w', 'h', 'i', 'l', 'e', ' ', 'i', 'd', 'x', ' ', '>', '=', ' ', 'v', 'e', 'c', '.', 'l', 'e', 'n', '(', ')', ' ', '{'],
   [' ', ' ', ' ', ' ', ' ', ' ', ' ', ' ', ' ', ' ', ' ', ' ', ' ', ' ', ' ', ' ', 'v', 'e', 'c', '.', 'p', 'u', 's', 'h', '(', '0', ')', ';'],
   [' ', ' ', ' ', ' ', ' ', ' ', ' ', ' ', ' ', ' ', ' ', ' ', '}'],
   [' ', ' ', ' ', ' ', ' ', ' ', ' ', ' ', ' ', ' ', ' ', ' ', 'v', 'e', 'c', '[', 'i', 'd', 'x', ']', ' ', '|', '=', ' ', '1', 'u', '6', '4', ' ', '<', '<', ' ', 'b', 'i', 't', ';'],
   [' ', ' ', ' ', ' ', ' ', ' ', ' ', ' ', '}'],
   [' ', ' ', ' ', ' ', ' ', ' ', ' ', ' ', 'v', 'e', 'c'],
   [' ', ' ', ' ', ' ', '}'],
   ['}'],
   [],
   ['/', '/', '/', ' ', 'G', 'e', 'n', 'e', 'r', 'a', 't', 'e', 's', ' ', 't', 'h', 'e', ' ', 'a', 'c', 't', 'u', 'a', 'l', ' ', '`', 'E', 'n', 'u', 'm', 'S', 'e', 't', 'T', 'y', 'p', 'e', '`', ' ', 'i', 'm', 'p', 'l', '.'],
   ['f', 'n', ' ', 'e', 'n', 'u', 'm', '_', 's', 'e', 't', '_', 't', 'y', 'p', 'e', '_', 'i', 'm', 'p', 'l', '(', 'i', 'n', 'f', 'o', ':', ' ', 'E', 'n', 'u', 'm', 'S', 'e', 't', 'I', 'n', 'f', 'o', ',', ' ', 'w', 'a', 'r', 'n', 'i', 'n', 'g', 's', ':', ' ', 'V', 'e', 'c', '<', '(', 'S', 'p', 'a', 'n', ',', ' ', '&', '\'', 's', 't', 'a', 't', 'i', 'c', ' ', 's', 't', 'r', ')', '>', ')', ' ', '-', '>', ' ', 'S', 'y', 'n', 'T', 'o', 'k', 'e', 'n', 'S', 't', 'r', 'e', 'a', 'm', ' ', '{'],
   [' ', ' ', ' ', ' ', 'l', 'e', 't', ' ', 'n', 'a', 'm', 'e', ' ', '=', ' ', '&', 'i', 'n', 'f', 'o', '.', 'n', 'a', 'm', 'e', ';'],
   [],
   [' ', ' ', ' ', ' ', 'l', 'e', 't', ' ', 'e', 'n', 'u', 'm', 's', 'e', 't', ' ', '=', ' ', 'm', 'a', 't', 'c', 'h', ' ', '&', 'i', 'n', 'f', 'o', '.', 'c', 'r', 'a', 't', 'e', '_', 'n', 'a', 'm', 'e', ' ', '{'],
   [' ', ' ', ' ', ' ', ' ', ' ', ' ', ' ', 'S', 'o', 'm', 'e', '(', 'c', 'r', 'a', 't', 'e', '_', 'n', 'a', 'm', 'e', ')', ' ', '=', '>', ' ', 'q', 'u', 'o', 't', 'e', '!', '(', ':', ':', '#', 'c', 'r', 'a', 't', 'e', '_', 'n', 'a', 'm', 'e', ')', ','],
   [' ', ' ', ' ', ' ', ' ', ' ', ' ', ' ', 'N', 'o', 'n', 'e', ' ', '=', '>', ' ', '{'],
   [' ', ' ', ' ', ' ', ' ', ' ', ' ', ' ', ' ', ' ', ' ', ' ', '#', '[', 'c', 'f', 'g', '(', 'f', 'e', 'a', 't', 'u', 'r', 'e', ' ', '=', ' ', '"', 'p', 'r', 'o', 'c', '-', 'm', 'a', 'c', 'r', 'o', '-', 'c', 'r', 'a', 't', 'e', '"', ')', ']'],
   [' ', ' ', ' ', ' ', ' ', ' ', ' ', ' ', ' ', ' ', ' ', ' ', '{'],
   [' ', ' ', ' ', ' ', ' ', ' ', ' ', ' ', ' ', ' ', ' ', ' ', ' ', ' ', ' ', ' ', 'u', 's', 'e', ' ', 'p', 'r', 'o', 'c', '_', 'm', 'a', 'c', 'r', 'o', '_', 'c', 'r', 'a', 't', 'e', ':', ':', 'F', 'o', 'u', 'n', 'd', 'C', 'r', 'a', 't', 'e', ';'],
   [],
   [' ', ' ', ' ', ' ', ' ', ' ', ' ', ' ', ' ', ' ', ' ', ' ', ' ', ' ', ' ', ' ', 'l', 'e', 't', ' ', 'c', 'r', 'a', 't', 'e', '_', 'n', 'a', 'm', 'e', ' ', '=', ' ', 'p', 'r', 'o', 'c', '_', 'm', 'a', 'c', 'r', 'o', '_', 'c', 'r', 'a', 't', 'e', ':', ':', 'c', 'r', 'a', 't', 'e', '_', 'n', 'a', 'm', 'e', '(', '"', 'e', 'n', 'u', 'm', 's', 'e', 't', '"', ')', ';'],
   [' ', ' ', ' ', ' ', ' ', ' ', ' ', ' ', ' ', ' ', ' ', ' ', ' ', ' ', ' ', ' ', 'm', 'a', 't', 'c', 'h', ' ', 'c', 'r', 'a', 't', 'e', '_', 'n', 'a', 'm', 'e', ' ', '{'],
   [' ', ' ', ' ', ' ', ' ', ' ', ' ', ' ', ' ', ' ', ' ', ' ', ' ', ' ', ' ', ' ', ' ', ' ', ' ', ' ', 'O', 'k', '(', 'F', 'o', 'u', 'n', 'd', 'C', 'r', 'a', 't', 'e', ':', ':', 'N', 'a', 'm', 'e', '(', 'n', 'a', 'm', 'e', ')', ')', ' ', '=', '>', ' ', '{'],
   [' ', ' ', ' ', ' ', ' ', ' ', ' ', ' ', ' ', ' ', ' ', ' ', ' ', ' ', ' ', ' ', ' ', ' ', ' ', ' ', ' ', ' ', ' ', ' ', 'l', 'e', 't', ' ', 'i', 'd', 'e', 'n', 't', ' ', '=', ' ', 'I', 'd', 'e', 'n', 't', ':', ':', 'n', 'e', 'w', '(', '&', 'n', 'a', 'm', 'e', ',', ' ', 'S', 'p', 'a', 'n', ':', ':', 'c', 'a', 'l', 'l', '_', 's', 'i', 't', 'e', '(', ')', ')', ';'],
   [' ', ' ', ' ', ' ', ' ', ' ', ' ', ' ', ' ', ' ', ' ', ' ', ' ', ' ', ' ', ' ', ' ', ' ', ' ', ' ', ' ', ' ', ' ', ' ', 'q', 'u', 'o', 't', 'e', '!', '(', ':', ':', '#', 'i', 'd', 'e', 'n', 't', ')'],
   [' ', ' ', ' ', ' ', ' ', ' ', ' ', ' ', ' ', ' ', ' ', ' ', ' ', ' ', ' ', ' ', ' ', ' ', ' ', ' ', '}'],
   [' ', ' ', ' ', ' ', ' ', ' ', ' ', ' ', ' ', ' ', ' ', ' ', ' ', ' ', ' ', ' ', ' ', ' ', ' ', ' ', '_', ' ', '=', '>', ' ', 'q', 'u', 'o', 't', 'e', '!', '(', ':', ':', 'e', 'n', 'u', 'm', 's', 'e', 't', ')', ','],
   [' ', ' ', ' ', ' ', ' ', ' ', ' ', ' ', ' ', ' ', ' ', ' ', ' ', ' ', ' ', ' ', '}'],
   [' ', ' ', ' ', ' ', ' ', ' ', ' ', ' ', ' ', ' ', ' ', ' ', '}'],
   [],
   [' ', ' ', ' ', ' ', ' ', ' ', ' ', ' ', ' ', ' ', ' ', ' ', '#', '[', 'c', 'f', 'g', '(', 'n', 'o', 't', '(', 'f', 'e', 'a', 't', 'u', 'r', 'e', ' ', '=', ' ', '"', 'p', 'r', 'o', 'c', '-', 'm', 'a', 'c', 'r', 'o', '-', 'c', 'r', 'a', 't', 'e', '"', ')', ')', ']'],
   [' ', ' ', ' ', ' ', ' ', ' ', ' ', ' ', ' ', ' ', ' ', ' ', '{'],
   [' ', ' ', ' ', ' ', ' ', ' ', ' ', ' ', ' ', ' ', ' ', ' ', ' ', ' ', ' ', ' ', 'q', 'u', 'o', 't', 'e', '!', '(', ':', ':', 'e', 'n', 'u', 'm', 's', 'e', 't', ')'],
   [' ', ' ', ' ', ' ', ' ', ' ', ' ', ' ', ' ', ' ', ' ', ' ', '}'],
   [' ', ' ', ' ', ' ', ' ', ' ', ' ', ' ', '}'],
   [' ', ' ', ' ', ' ', '}', ';'],
   [' ', ' ', ' ', ' ', 'l', 'e', 't', ' ', 't', 'y', 'p', 'e', 'd', '_', 'e', 'n', 'u', 'm', 's', 'e', 't', ' ', '=', ' ', 'q', 'u', 'o', 't', 'e', '!', '(', '#', 'e', 'n', 'u', 'm', 's', 'e', 't', ':', ':', 'E', 'n', 'u', 'm', 'S', 'e', 't', '<', '#', 'n', 'a', 'm', 'e', '>', ')', ';'],
   [' ', ' ', ' ', ' ', 'l', 'e', 't', ' ', 'c', 'o', 'r', 'e', ' ', '=', ' ', 'q', 'u', 'o', 't', 'e', '!', '(', '#', 'e', 'n', 'u', 'm', 's', 'e', 't', ':', ':', '_', '_', 'i', 'n', 't', 'e', 'r', 'n', 'a', 'l', ':', ':', 'c', 'o', 'r', 'e', '_', 'e', 'x', 'p', 'o', 'r', 't', ')', ';'],
   [' ', ' ', ' ', ' ', 'l', 'e', 't', ' ', 'i', 'n', 't', 'e', 'r', 'n', 'a', 'l', ' ', '=', ' ', 'q', 'u', 'o', 't', 'e', '!', '(', '#', 'e', 'n', 'u', 'm', 's', 'e', 't', ':', ':', '_', '_', 'i', 'n', 't', 'e', 'r', 'n', 'a', 'l', ')', ';'],
   [' ', ' ', ' ', ' ', '#', '[', 'c', 'f', 'g', '(', 'f', 'e', 'a', 't', 'u', 'r', 'e', ' ', '=', ' ', '"', 's', 'e', 'r', 'd', 'e', '"', ')', ']'],
   [' ', ' ', ' ', ' ', 'l', 'e', 't', ' ', 's', 'e', 'r', 'd', 'e', ' ', '=', ' ', 'q', 'u', 'o', 't', 'e', '!', '(', '#', 'e', 'n', 'u', 'm', 's', 'e', 't', ':', ':', '_', '_', 'i', 'n', 't', 'e', 'r', 'n', 'a', 'l', ':', ':', 's', 'e', 'r', 'd', 'e', ')', ';'],
   [],
   [' ', ' ', ' ', ' ', 'l', 'e', 't', ' ', 'r', 'e', 'p', 'r', ' ', '=', ' ', 'm', 'a', 't', 'c', 'h', ' ', 'i', 'n', 'f', 'o', '.', 'i', 'n', 't', 'e', 'r', 'n', 'a', 'l', '_', 'r', 'e', 'p', 'r', '(', ')', ' ', '{'],
   [' ', ' ', ' ', ' ', ' ', ' ', ' ', ' ', 'I', 'n', 't', 'e', 'r', 'n', 'a', 'l', 'R', 'e', 'p', 'r', ':', ':', 'U', '8', ' ', '=', '>', ' ', 'q', 'u', 'o', 't', 'e', '!', ' ', '{', ' ', 'u', '8', ' ', '}', ','],
   [' ', ' ', ' ', ' ', ' ', ' ', ' ', ' ', 'I', 'n', 't', 'e', 'r', 'n', 'a', 'l', 'R', 'e', 'p', 'r', ':', ':', 'U', '1', '6', ' ', '=', '>', ' ', 'q', 'u', 'o', 't', 'e', '!', ' ', '{', ' ', 'u', '1', '6', ' ', '}', ','],
   [' ', ' ', ' ', ' ', ' ', ' ', ' ', ' ', 'I', 'n', 't', 'e', 'r', 'n', 'a', 'l', 'R', 'e', 'p', 'r', ':', ':', 'U', '3', '2', ' ', '=', '>', ' ', 'q', 'u', 'o', 't', 'e', '!', ' ', '{', ' ', 'u', '3', '2', ' ', '}', ','],
   [' ', ' ', ' ', ' ', ' ', ' ', ' ', ' ', 'I', 'n', 't', 'e', 'r', 'n', 'a', 'l', 'R', 'e', 'p', 'r', ':', ':', 'U', '6', '4', ' ', '=', '>', ' ', 'q', 'u', 'o', 't', 'e', '!', ' ', '{', ' ', 'u', '6', '4', ' ', '}', ','],
   [' ', ' ', ' ', ' ', ' ', ' ', ' ', ' ', 'I', 'n', 't', 'e', 'r', 'n', 'a', 'l', 'R', 'e', 'p', 'r', ':', ':', 'U', '1', '2', '8', ' ', '=', '>', ' ', 'q', 'u', 'o', 't', 'e', '!', ' ', '{', ' ', 'u', '1', '2', '8', ' ', '}', ','],
   [' ', ' ', ' ', ' ', ' ', ' ', ' ', ' ', 'I', 'n', 't', 'e', 'r', 'n', 'a', 'l', 'R', 'e', 'p', 'r', ':', ':', 'A', 'r', 'r', 'a', 'y', '(', 's', 'i', 'z', 'e', ')', ' ', '=', '>', ' ', 'q', 'u', 'o', 't', 'e', '!', ' ', '{', ' ', '#', 'i', 'n', 't', 'e', 'r', 'n', 'a', 'l', ':', ':', 'A', 'r', 'r', 'a', 'y', 'R', 'e', 'p', 'r', '<', '{', ' ', '#', 's', 'i', 'z', 'e', ' ', '}', '>', ' ', '}', ','],
   [' ', ' ', ' ', ' ', '}', ';'],
   [' ', ' ', ' ', ' ', 'l', 'e', 't', ' ', 'v', 'a', 'r', 'i', 'a', 'n', 't', '_', 'm', 'a', 'p', ' ', '=', ' ', 'i', 'n', 'f', 'o', '.', 'v', 'a', 'r', 'i', 'a', 'n', 't', '_', 'm', 'a', 'p', '(', ')', ';'],
   [' ', ' ', ' ', ' ', 'l', 'e', 't', ' ', 'a', 'l', 'l', '_', 'v', 'a', 'r', 'i', 'a', 'n', 't', 's', ' ', '=', ' ', 'm', 'a', 't', 'c', 'h', ' ', 'i', 'n', 'f', 'o', '.', 'i', 'n', 't', 'e', 'r', 'n', 'a', 'l', '_', 'r', 'e', 'p', 'r', '(', ')', ' ', '{'],
   [' ', ' ', ' ', ' ', ' ', ' ', ' ', ' ', 'I', 'n', 't', 'e', 'r', 'n', 'a', 'l', 'R', 'e', 'p', 'r', ':', ':', 'U', '8', ' ', '|', ' ', 'I', 'n', 't', 'e', 'r', 'n', 'a', 'l', 'R', 'e', 'p', 'r', ':', ':', 'U', '1', '6', ' ', '|', ' ', 'I', 'n', 't', 'e', 'r', 'n', 'a', 'l', 'R', 'e', 'p', 'r', ':', ':', 'U', '3', '2', ' ', '|', ' ', 'I', 'n', 't', 'e', 'r', 'n', 'a', 'l', 'R', 'e', 'p', 'r', ':', ':', 'U', '6', '4', ' ', '=', '>', ' ', '{'],
   [' ', ' ', ' ', ' ', ' ', ' ', ' ', ' ', ' ', ' ', ' ', ' ', 'l', 'e', 't', ' ', 'l', 'i', 't', ' ', '=', ' ', 'L', 'i', 't', 'e', 'r', 'a', 'l', ':', ':', 'u', '6', '4', '_', 'u', 'n', 's', 'u', 'f', 'f', 'i', 'x', 'e', 'd', '(', 'v', 'a', 'r', 'i', 'a', 'n', 't', '_', 'm', 'a', 'p', '[', '0', ']', ')', ';'],
   [' ', ' ', ' ', ' ', ' ', ' ', ' ', ' ', ' ', ' ', ' ', ' ', 'q', 'u', 'o', 't', 'e', '!', ' ', '{', ' ', '#', 'l', 'i', 't', ' ', '}'],
   [' ', ' ', ' ', ' ', ' ', ' ', ' ', ' ', '}'],
   [' ', ' ', ' ', ' ', ' ', ' ', ' ', ' ', 'I', 'n', 't', 'e', 'r', 'n', 'a', 'l', 'R', 'e', 'p', 'r', ':', ':', 'U', '1', '2', '8', ' ', '=', '>', ' ', '{'],
   [' ', ' ', ' ', ' ', ' ', ' ', ' ', ' ', ' ', ' ', ' ', ' ', 'l', 'e', 't', ' ', 'l', 'i', 't', ' ', '=', ' ', 'L', 'i', 't', 'e', 'r', 'a', 'l', ':', ':', 'u', '1', '2', '8', '_', 'u', 'n', 's', 'u', 'f', 'f', 'i', 'x', 'e', 'd', '('],
   [' ', ' ', ' ', ' ', ' ', ' ', ' ', ' ', ' ', ' ', ' ', ' ', ' ', ' ', ' ', ' ', 'v', 'a', 'r', 'i', 'a', 'n', 't', '_', 'm', 'a', 'p', '[', '0', ']', ' ', 'a', 's', ' ', 'u', '1', '2', '8', ' ', '|', ' ', 'v', 'a', 'r', 'i', 'a', 'n', 't', '_', 'm', 'a', 'p', '.', 'g', 'e', 't', '(', '1', ')', '.', 'm', 'a', 'p', '_', 'o', 'r', '(', '0', ',', ' ', '|', 'x', '|', ' ', '(', '*', 'x', ' ', 'a', 's', ' ', 'u', '1', '2', '8', ')', ' ', '<', '<', ' ', '6', '4', ')', ','],
   [' ', ' ', ' ', ' ', ' ', ' ', ' ', ' ', ' ', ' ', ' ', ' ', ')', ';'],
   [' ', ' ', ' ', ' ', ' ', ' ', ' ', ' ', ' ', ' ', ' ', ' ', 'q', 'u', 'o', 't', 'e', '!', ' ', '{', ' ', '#', 'l', 'i', 't', ' ', '}'],
   [' ', ' ', ' ', ' ', ' ', ' ', ' ', ' ', '}'],
   [' ', ' ', ' ', ' ', ' ', ' ', ' ', ' ', 'I', 'n', 't', 'e', 'r', 'n', 'a', 'l', 'R', 'e', 'p', 'r', ':', ':', 'A', 'r', 'r', 'a', 'y', '(', 's', 'i', 'z', 'e', ')', ' ', '=', '>', ' ', '{'],
   [' ', ' ', ' ', ' ', ' ', ' ', ' ', ' ', ' ', ' ', ' ', ' ', 'l', 'e', 't', ' ', 'm', 'u', 't', ' ', 'n', 'e', 'w', ' ', '=', ' ', 'V', 'e', 'c', ':', ':', 'n', 'e', 'w', '(', ')', ';'],
   [' ', ' ', ' ', ' ', ' ', ' ', ' ', ' ', ' ', ' ', ' ', ' ', 'f', 'o', 'r', ' ', 'i', ' ', 'i', 'n', ' ', '0', '.', '.', 's', 'i', 'z', 'e', ' ', '{'],
   [' ', ' ', ' ', ' ', ' ', ' ', ' ', ' ', ' ', ' ', ' ', ' ', ' ', ' ', ' ', ' ', 'n', 'e', 'w', '.', 'p', 'u', 's', 'h', '(', 'L', 'i', 't', 'e', 'r', 'a', 'l', ':', ':', 'u', '6', '4', '_', 'u', 'n', 's', 'u', 'f', 'f', 'i', 'x', 'e', 'd', '(', '*', 'v', 'a', 'r', 'i', 'a', 'n', 't', '_', 'm', 'a', 'p', '.', 'g', 'e', 't', '(', 'i', ')', '.', 'u', 'n', 'w', 'r', 'a', 'p', '_', 'o', 'r', '(', '&', '0', ')', ')', ')', ';'],
   [' ', ' ', ' ', ' ', ' ', ' ', ' ', ' ', ' ', ' ', ' ', ' ', '}'],
   [' ', ' ', ' ', ' ', ' ', ' ', ' ', ' ', ' ', ' ', ' ', ' ', 'q', 'u', 'o', 't', 'e', '!', ' ', '{', ' ', '#', 'i', 'n', 't', 'e', 'r', 'n', 'a', 'l', ':', ':', 'A', 'r', 'r', 'a', 'y', 'R', 'e', 'p', 'r', ':', ':', '<', '{', ' ', '#', 's', 'i', 'z', 'e', ' ', '}', '>', '(', '[', '#', '(', '#', 'n', 'e', 'w', ',', ')', '*', ']', ')', ' ', '}'],
   [' ', ' ', ' ', ' ', ' ', ' ', ' ', ' ', '}'],
   [' ', ' ', ' ', ' ', '}', ';'],
   [],
   [' ', ' ', ' ', ' ', 'l', 'e', 't', ' ', 'o', 'p', 's', ' ', '=', ' ', 'i', 'f', ' ', 'i', 'n', 'f', 'o', '.', 'n', 'o', '_', 'o', 'p', 's', ' ', '{'],
   [' ', ' ', ' ', ' ', ' ', ' ', ' ', ' ', 'q', 'u', 'o', 't', 'e', '!', ' ', '{', '}'],
   [' ', ' ', ' ', ' ', '}', ' ', 'e', 'l', 's', 'e', ' ', '{'],
   [' ', ' ', ' ', ' ', ' ', ' ', ' ', ' ', 'q', 'u', 'o', 't', 'e', '!', ' ', '{'],
   [' ', ' ', ' ', ' ', ' ', ' ', ' ', ' ', ' ', ' ', ' ', ' ', '#', '[', 'a', 'u', 't', 'o', 'm', 'a', 't', 'i', 'c', 'a', 'l', 'l', 'y', '_', 'd', 'e', 'r', 'i', 'v', 'e', 'd', ']'],
   [' ', ' ', ' ', ' ', ' ', ' ', ' ', ' ', ' ', ' ', ' ', ' ', 'i', 'm', 'p', 'l', '<', 'O', ':', ' ', 'I', 'n', 't', 'o', '<', '#', 't', 'y', 'p', 'e', 'd', '_', 'e', 'n', 'u', 'm', 's', 'e', 't', '>', '>', ' ', '#', 'c', 'o', 'r', 'e', ':', ':', 'o', 'p', 's', ':', ':', 'S', 'u', 'b', '<', 'O', '>', ' ', 'f', 'o', 'r', ' ', '#', 'n', 'a', 'm', 'e', ' ', '{'],
   [' ', ' ', ' ', ' ', ' ', ' ', ' ', ' ', ' ', ' ', ' ', ' ', ' ', ' ', ' ', ' ', 't', 'y', 'p', 'e', ' ', 'O', 'u', 't', 'p', 'u', 't', ' ', '=', ' ', '#', 't', 'y', 'p', 'e', 'd', '_', 'e', 'n', 'u', 'm', 's', 'e', 't', ';'],
   [' ', ' ', ' ', ' ', ' ', ' ', ' ', ' ', ' ', ' ', ' ', ' ', ' ', ' ', ' ', ' ', 'f', 'n', ' ', 's', 'u', 'b', '(', 's', 'e', 'l', 'f', ',', ' ', 'o', 't', 'h', 'e', 'r', ':', ' ', 'O', ')', ' ', '-', '>', ' ', 'S', 'e', 'l', 'f', ':', ':', 'O', 'u', 't', 'p', 'u', 't', ' ', '{'],
   [' ', ' ', ' ', ' ', ' ', ' ', ' ', ' ', ' ', ' ', ' ', ' ', ' ', ' ', ' ', ' ', ' ', ' ', ' ', ' ', '#', 'e', 'n', 'u', 'm', 's', 'e', 't', ':', ':', 'E', 'n', 'u', 'm', 'S', 'e', 't', ':', ':', 'o', 'n', 'l', 'y', '(', 's', 'e', 'l', 'f', ')', ' ', '-', ' ', 'o', 't', 'h', 'e', 'r', '.', 'i', 'n', 't', 'o', '(', ')'],
   [' ', ' ', ' ', ' ', ' ', ' ', ' ', ' ', ' ', ' ', ' ', ' ', ' ', ' ', ' ', ' ', '}'],
   [' ', ' ', ' ', ' ', ' ', ' ', ' ', ' ', ' ', ' ', ' ', ' ', '}'],
   [' ', ' ', ' ', ' ', ' ', ' ', ' ', ' ', ' ', ' ', ' ', ' ', '#', '[', 'a', 'u', 't', 'o', 'm', 'a', 't', 'i', 'c', 'a', 'l', 'l', 'y', '_', 'd', 'e', 'r', 'i', 'v', 'e', 'd', ']'],
   [' ', ' ', ' ', ' ', ' ', ' ', ' ', ' ', ' ', ' ', ' ', ' ', 'i', 'm', 'p', 'l', '<', 'O', ':', ' ', 'I', 'n', 't', 'o', '<', '#', 't', 'y', 'p', 'e', 'd', '_', 'e', 'n', 'u', 'm', 's', 'e', 't', '>', '>', ' ', '#', 'c', 'o', 'r', 'e', ':', ':', 'o', 'p', 's', ':', ':', 'B', 'i', 't', 'A', 'n', 'd', '<', 'O', '>', ' ', 'f', 'o', 'r', ' ', '#', 'n', 'a', 'm', 'e', ' ', '{'],
   [' ', ' ', ' ', ' ', ' ', ' ', ' ', ' ', ' ', ' ', ' ', ' ', ' ', ' ', ' ', ' ', 't', 'y', 'p', 'e', ' ', 'O', 'u', 't', 'p', 'u', 't', ' ', '=', ' ', '#', 't', 'y', 'p', 'e', 'd', '_', 'e', 'n', 'u', 'm', 's', 'e', 't', ';'],
   [' ', ' ', ' ', ' ', ' ', ' ', ' ', ' ', ' ', ' ', ' ', ' ', ' ', ' ', ' ', ' ', 'f', 'n', ' ', 'b', 'i', 't', 'a', 'n', 'd', '(', 's', 'e', 'l', 'f', ',', ' ', 'o', 't', 'h', 'e', 'r', ':', ' ', 'O', ')', ' ', '-', '>', ' ', 'S', 'e', 'l', 'f', ':', ':', 'O', 'u', 't', 'p', 'u', 't', ' ', '{'],
   [' ', ' ', ' ', ' ', ' ', ' ', ' ', ' ', ' ', ' ', ' ', ' ', ' ', ' ', ' ', ' ', ' ', ' ', ' ', ' ', '#', 'e', 'n', 'u', 'm', 's', 'e', 't', ':', ':', 'E', 'n', 'u', 'm', 'S', 'e', 't', ':', ':', 'o', 'n', 'l', 'y', '(', 's', 'e', 'l', 'f', ')', ' ', '&', ' ', 'o', 't', 'h', 'e', 'r', '.', 'i', 'n', 't', 'o', '(', ')'],
   [' ', ' ', ' ', ' ', ' ', ' ', ' ', ' ', ' ', ' ', ' ', ' ', ' ', ' ', ' ', ' ', '}'],
   [' ', ' ', ' ', ' ', ' ', ' ', ' ', ' ', ' ', ' ', ' ', ' ', '}'],
   [' ', ' ', ' ', ' ', ' ', ' ', ' ', ' ', ' ', ' ', ' ', ' ', '#', '[', 'a', 'u', 't', 'o', 'm', 'a', 't', 'i', 'c', 'a', 'l', 'l', 'y', '_', 'd', 'e', 'r', 'i', 'v', 'e', 'd', ']'],
   [' ', ' ', ' ', ' ', ' ', ' ', ' ', ' ', ' ', ' ', ' ', ' ', 'i', 'm', 'p', 'l', '<', 'O', ':', ' ', 'I', 'n', 't', 'o', '<', '#', 't', 'y', 'p', 'e', 'd', '_', 'e', 'n', 'u', 'm', 's', 'e', 't', '>', '>', ' ', '#', 'c', 'o', 'r', 'e', ':', ':', 'o', 'p', 's', ':', ':', 'B', 'i', 't', 'O', 'r', '<', 'O', '>', ' ', 'f', 'o', 'r', ' ', '#', 'n', 'a', 'm', 'e', ' ', '{'],
   [' ', ' ', ' ', ' ', ' ', ' ', ' ', ' ', ' ', ' ', ' ', ' ', ' ', ' ', ' ', ' ', 't', 'y', 'p', 'e', ' ', 'O', 'u', 't', 'p', 'u', 't', ' ', '=', ' ', '#', 't', 'y', 'p', 'e', 'd', '_', 'e', 'n', 'u', 'm', 's', 'e', 't', ';'],
   [' ', ' ', ' ', ' ', ' ', ' ', ' ', ' ', ' ', ' ', ' ', ' ', ' ', ' ', ' ', ' ', 'f', 'n', ' ', 'b', 'i', 't', 'o', 'r', '(', 's', 'e', 'l', 'f', ',', ' ', 'o', 't', 'h', 'e', 'r', ':', ' ', 'O', ')', ' ', '-', '>', ' ', 'S', 'e', 'l', 'f', ':', ':', 'O', 'u', 't', 'p', 'u', 't', ' ', '{'],
   [' ', ' ', ' ', ' ', ' ', ' ', ' ', ' ', ' ', ' ', ' ', ' ', ' ', ' ', ' ', ' ', ' ', ' ', ' ', ' ', '#', 'e', 'n', 'u', 'm', 's', 'e', 't', ':', ':', 'E', 'n', 'u', 'm', 'S', 'e', 't', ':', ':', 'o', 'n', 'l', 'y', '(', 's', 'e', 'l', 'f', ')', ' ', '|', ' ', 'o', 't', 'h', 'e', 'r', '.', 'i', 'n', 't', 'o', '(', ')'],
   [' ', ' ', ' ', ' ', ' ', ' ', ' ', ' ', ' ', ' ', ' ', ' ', ' ', ' ', ' ', ' ', '}'],
   [' ', ' ', ' ', ' ', ' ', ' ', ' ', ' ', ' ', ' ', ' ', ' ', '}'],
   [' ', ' ', ' ', ' ', ' ', ' ', ' ', ' ', ' ', ' ', ' ', ' ', '#', '[', 'a', 'u', 't', 'o', 'm', 'a', 't', 'i', 'c', 'a', 'l', 'l', 'y', '_', 'd', 'e', 'r', 'i', 'v', 'e', 'd', ']'],
   [' ', ' ', ' ', ' ', ' ', ' ', ' ', ' ', ' ', ' ', ' ', ' ', 'i', 'm', 'p', 'l', '<', 'O', ':', ' ', 'I', 'n', 't', 'o', '<', '#', 't', 'y', 'p', 'e', 'd', '_', 'e', 'n', 'u', 'm', 's', 'e', 't', '>', '>', ' ', '#', 'c', 'o', 'r', 'e', ':', ':', 'o', 'p', 's', ':', ':', 'B', 'i', 't', 'X', 'o', 'r', '<', 'O', '>', ' ', 'f', 'o', 'r', ' ', '#', 'n', 'a', 'm', 'e', ' ', '{'],
   [' ', ' ', ' ', ' ', ' ', ' ', ' ', ' ', ' ', ' ', ' ', ' ', ' ', ' ', ' ', ' ', 't', 'y', 'p', 'e', ' ', 'O', 'u', 't', 'p', 'u', 't', ' ', '=', ' ', '#', 't', 'y', 'p', 'e', 'd', '_', 'e', 'n', 'u', 'm', 's', 'e', 't', ';'],
   [' ', ' ', ' ', ' ', ' ', ' ', ' ', ' ', ' ', ' ', ' ', ' ', ' ', ' ', ' ', ' ', 'f', 'n', ' ', 'b', 'i', 't', 'x', 'o', 'r', '(', 's', 'e', 'l', 'f', ',', ' ', 'o', 't', 'h', 'e', 'r', ':', ' ', 'O', ')', ' ', '-', '>', ' ', 'S', 'e', 'l', 'f', ':', ':', 'O', 'u', 't', 'p', 'u', 't', ' ', '{'],
   [' ', ' ', ' ', ' ', ' ', ' ', ' ', ' ', ' ', ' ', ' ', ' ', ' ', ' ', ' ', ' ', ' ', ' ', ' ', ' ', '#', 'e', 'n', 'u', 'm', 's', 'e', 't', ':', ':', 'E', 'n', 'u', 'm', 'S', 'e', 't', ':', ':', 'o', 'n', 'l', 'y', '(', 's', 'e', 'l', 'f', ')', ' ', '^', ' ', 'o', 't', 'h', 'e', 'r', '.', 'i', 'n', 't', 'o', '(', ')'],
   [' ', ' ', ' ', ' ', ' ', ' ', ' ', ' ', ' ', ' ', ' ', ' ', ' ', ' ', ' ', ' ', '}'],
   [' ', ' ', ' ', ' ', ' ', ' ', ' ', ' ', ' ', ' ', ' ', ' ', '}'],
   [' ', ' ', ' ', ' ', ' ', ' ', ' ', ' ', ' ', ' ', ' ', ' ', '#', '[', 'a', 'u', 't', 'o', 'm', 'a', 't', 'i', 'c', 'a', 'l', 'l', 'y', '_', 'd', 'e', 'r', 'i', 'v', 'e', 'd', ']'],
   [' ', ' ', ' ', ' ', ' ', ' ', ' ', ' ', ' ', ' ', ' ', ' ', 'i', 'm', 'p', 'l', ' ', '#', 'c', 'o', 'r', 'e', ':', ':', 'o', 'p', 's', ':', ':', 'N', 'o', 't', ' ', 'f', 'o', 'r', ' ', '#', 'n', 'a', 'm', 'e', ' ', '{'],
   [' ', ' ', ' ', ' ', ' ', ' ', ' ', ' ', ' ', ' ', ' ', ' ', ' ', ' ', ' ', ' ', 't', 'y', 'p', 'e', ' ', 'O', 'u', 't', 'p', 'u', 't', ' ', '=', ' ', '#', 't', 'y', 'p', 'e', 'd', '_', 'e', 'n', 'u', 'm', 's', 'e', 't', ';'],
   [' ', ' ', ' ', ' ', ' ', ' ', ' ', ' ', ' ', ' ', ' ', ' ', ' ', ' ', ' ', ' ', 'f', 'n', ' ', 'n', 'o', 't', '(', 's', 'e', 'l', 'f', ')', ' ', '-', '>', ' ', 'S', 'e', 'l', 'f', ':', ':', 'O', 'u', 't', 'p', 'u', 't', ' ', '{'],
   [' ', ' ', ' ', ' ', ' ', ' ', ' ', ' ', ' ', ' ', ' ', ' ', ' ', ' ', ' ', ' ', ' ', ' ', ' ', ' ', '!', '#', 'e', 'n', 'u', 'm', 's', 'e', 't', ':', ':', 'E', 'n', 'u', 'm', 'S', 'e', 't', ':', ':', 'o', 'n', 'l', 'y', '(', 's', 'e', 'l', 'f', ')'],
   [' ', ' ', ' ', ' ', ' ', ' ', ' ', ' ', ' ', ' ', ' ', ' ', ' ', ' ', ' ', ' ', '}'],
   [' ', ' ', ' ', ' ', ' ', ' ', ' ', ' ', ' ', ' ', ' ', ' ', '}'],
   [' ', ' ', ' ', ' ', ' ', ' ', ' ', ' ', ' ', ' ', ' ', ' ', '#', '[', 'a', 'u', 't', 'o', 'm', 'a', 't', 'i', 'c', 'a', 'l', 'l', 'y', '_', 'd', 'e', 'r', 'i', 'v', 'e', 'd', ']'],
   [' ', ' ', ' ', ' ', ' ', ' ', ' ', ' ', ' ', ' ', ' ', ' ', 'i', 'm', 'p', 'l', ' ', '#', 'c', 'o', 'r', 'e', ':', ':', 'c', 'm', 'p', ':', ':', 'P', 'a', 'r', 't', 'i', 'a', 'l', 'E', 'q', '<', '#', 't', 'y', 'p', 'e', 'd', '_', 'e', 'n', 'u', 'm', 's', 'e', 't', '>', ' ', 'f', 'o', 'r', ' ', '#', 'n', 'a', 'm', 'e', ' ', '{'],
   [' ', ' ', ' ', ' ', ' ', ' ', ' ', ' ', ' ', ' ', ' ', ' ', ' ', ' ', ' ', ' ', 'f', 'n', ' ', 'e', 'q', '(', '&', 's', 'e', 'l', 'f', ',', ' ', 'o', 't', 'h', 'e', 'r', ':', ' ', '&', '#', 't', 'y', 'p', 'e', 'd', '_', 'e', 'n', 'u', 'm', 's', 'e', 't', ')', ' ', '-', '>', ' ', 'b', 'o', 'o', 'l', ' ', '{'],
   [' ', ' ', ' ', ' ', ' ', ' ', ' ', ' ', ' ', ' ', ' ', ' ', ' ', ' ', ' ', ' ', ' ', ' ', ' ', ' ', '#', 'e', 'n', 'u', 'm', 's', 'e', 't', ':', ':', 'E', 'n', 'u', 'm', 'S', 'e', 't', ':', ':', 'o', 'n', 'l', 'y', '(', '*', 's', 'e', 'l', 'f', ')', ' ', '=', '=', ' ', '*', 'o', 't', 'h', 'e', 'r'],
   [' ', ' ', ' ', ' ', ' ', ' ', ' ', ' ', ' ', ' ', ' ', ' ', ' ', ' ', ' ', ' ', '}'],
   [' ', ' ', ' ', ' ', ' ', ' ', ' ', ' ', ' ', ' ', ' ', ' ', '}'],
   [' ', ' ', ' ', ' ', ' ', ' ', ' ', ' ', '}'],
   [' ', ' ', ' ', ' ', '}', ';'],
   [],
   [' ', ' ', ' ', ' ', '#', '[', 'c', 'f', 'g', '(', 'f', 'e', 'a', 't', 'u', 'r', 'e', ' ', '=', ' ', '"', 's', 'e', 'r', 'd', 'e', '"', ')', ']'],
   [' ', ' ', ' ', ' ', 'l', 'e', 't', ' ', 's', 'e', 'r', 'd', 'e', '_', 'r', 'e', 'p', 'r', ' ', '=', ' ', 'i', 'n', 'f', 'o', '.', 's', 'e', 'r', 'd', 'e', '_', 'r', 'e', 'p', 'r', '(', ')', ';'],
   [],
   [' ', ' ', ' ', ' ', '#', '[', 'c', 'f', 'g', '(', 'f', 'e', 'a', 't', 'u', 'r', 'e', ' ', '=', ' ', '"', 's', 'e', 'r', 'd', 'e', '"', ')', ']'],
   [' ', ' ', ' ', ' ', 'l', 'e', 't', ' ', 's', 'e', 'r', 'd', 'e', '_', 'o', 'p', 's', ' ', '=', ' ', 'm', 'a', 't', 'c', 'h', ' ', 's', 'e', 'r', 'd', 'e', '_', 'r', 'e', 'p', 'r', ' ', '{'],
   [' ', ' ', ' ', ' ', ' ', ' ', ' ', ' ', 'S', 'e', 'r', 'd', 'e', 'R', 'e', 'p', 'r', ':', ':', 'U', '8', ' ', '|', ' ', 'S', 'e', 'r', 'd', 'e', 'R', 'e', 'p', 'r', ':', ':', 'U', '1', '6', ' ', '|', ' ', 'S', 'e', 'r', 'd', 'e', 'R', 'e', 'p', 'r', ':', ':', 'U', '3', '2', ' ', '|', ' ', 'S', 'e', 'r', 'd', 'e', 'R', 'e', 'p', 'r', ':', ':', 'U', '6', '4', ' ', '|', ' ', 'S', 'e', 'r', 'd', 'e', 'R', 'e', 'p', 'r', ':', ':', 'U', '1', '2', '8', ' ', '=', '>', ' ', '{'],
   [' ', ' ', ' ', ' ', ' ', ' ', ' ', ' ', ' ', ' ', ' ', ' ', 'l', 'e', 't', ' ', '(', 's', 'e', 'r', 'i', 'a', 'l', 'i', 'z', 'e', '_', 'r', 'e', 'p', 'r', ',', ' ', 'f', 'r', 'o', 'm', '_', 'f', 'n', ',', ' ', 't', 'o', '_', 'f', 'n', ')', ' ', '=', ' ', 'm', 'a', 't', 'c', 'h', ' ', 's', 'e', 'r', 'd', 'e', '_', 'r', 'e', 'p', 'r', ' ', '{'],
   [' ', ' ', ' ', ' ', ' ', ' ', ' ', ' ', ' ', ' ', ' ', ' ', ' ', ' ', ' ', ' ', 'S', 'e', 'r', 'd', 'e', 'R', 'e', 'p', 'r', ':', ':', 'U', '8', ' ', '=', '>', ' ', '(', 'q', 'u', 'o', 't', 'e', '!', ' ', '{', ' ', 'u', '8', ' ', '}', ',', ' ', 'q', 'u', 'o', 't', 'e', '!', ' ', '{', ' ', 'f', 'r', 'o', 'm', '_', 'u', '8', ' ', '}', ',', ' ', 'q', 'u', 'o', 't', 'e', '!', ' ', '{', ' ', 't', 'o', '_', 'u', '8', ' ', '}', ')', ','],
   [' ', ' ', ' ', ' ', ' ', ' ', ' ', ' ', ' ', ' ', ' ', ' ', ' ', ' ', ' ', ' ', 'S', 'e', 'r', 'd', 'e', 'R', 'e', 'p', 'r', ':', ':', 'U', '1', '6', ' ', '=', '>', ' ', '(', 'q', 'u', 'o', 't', 'e', '!', ' ', '{', ' ', 'u', '1', '6', ' ', '}', ',', ' ', 'q', 'u', 'o', 't', 'e', '!', ' ', '{', ' ', 'f', 'r', 'o', 'm', '_', 'u', '1', '6', ' ', '}', ',', ' ', 'q', 'u', 'o', 't', 'e', '!', ' ', '{', ' ', 't', 'o', '_', 'u', '1', '6', ' ', '}', ')', ','],
   [' ', ' ', ' ', ' ', ' ', ' ', ' ', ' ', ' ', ' ', ' ', ' ', ' ', ' ', ' ', ' ', 'S', 'e', 'r', 'd', 'e', 'R', 'e', 'p', 'r', ':', ':', 'U', '3', '2', ' ', '=', '>', ' ', '(', 'q', 'u', 'o', 't', 'e', '!', ' ', '{', ' ', 'u', '3', '2', ' ', '}', ',', ' ', 'q', 'u', 'o', 't', 'e', '!', ' ', '{', ' ', 'f', 'r', 'o', 'm', '_', 'u', '3', '2', ' ', '}', ',', ' ', 'q', 'u', 'o', 't', 'e', '!', ' ', '{', ' ', 't', 'o', '_', 'u', '3', '2', ' ', '}', ')', ','],
   [' ', ' ', ' ', ' ', ' ', ' ', ' ', ' ', ' ', ' ', ' ', ' ', ' ', ' ', ' ', ' ', 'S', 'e', 'r', 'd', 'e', 'R', 'e', 'p', 'r', ':', ':', 'U', '6', '4', ' ', '=', '>', ' ', '(', 'q', 'u', 'o', 't', 'e', '!', ' ', '{', ' ', 'u', '6', '4', ' ', '}', ',', ' ', 'q', 'u', 'o', 't', 'e', '!', ' ', '{', ' ', 'f', 'r', 'o', 'm', '_', 'u', '6', '4', ' ', '}', ',', ' ', 'q', 'u', 'o', 't', 'e', '!', ' ', '{', ' ', 't', 'o', '_', 'u', '6', '4', ' ', '}', ')', ','],
   [' ', ' ', ' ', ' ', ' ', ' ', ' ', ' ', ' ', ' ', ' ', ' ', ' ', ' ', ' ', ' ', 'S', 'e', 'r', 'd', 'e', 'R', 'e', 'p', 'r', ':', ':', 'U', '1', '2', '8', ' ', '=', '>', ' ', '(', 'q', 'u', 'o', 't', 'e', '!', ' ', '{', ' ', 'u', '1', '2', '8', ' ', '}', ',', ' ', 'q', 'u', 'o', 't', 'e', '!', ' ', '{', ' ', 'f', 'r', 'o', 'm', '_', 'u', '1', '2', '8', ' ', '}', ',', ' ', 'q', 'u', 'o', 't', 'e', '!', ' ', '{', ' ', 't', 'o', '_', 'u', '1', '2', '8', ' ', '}', ')', ','],
   [' ', ' ', ' ', ' ', ' ', ' ', ' ', ' ', ' ', ' ', ' ', ' ', ' ', ' ', ' ', ' ', '_', ' ', '=', '>', ' ', 'u', 'n', 'r', 'e', 'a', 'c', 'h', 'a', 'b', 'l', 'e', '!', '(', ')', ','],
   [' ', ' ', ' ', ' ', ' ', ' ', ' ', ' ', ' ', ' ', ' ', ' ', '}', ';'],
   [' ', ' ', ' ', ' ', ' ', ' ', ' ', ' ', ' ', ' ', ' ', ' ', 'l', 'e', 't', ' ', 'c', 'h', 'e', 'c', 'k', '_', 'u', 'n', 'k', 'n', 'o', 'w', 'n', ' ', '=', ' ', 'i', 'f', ' ', 'i', 'n', 'f', 'o', '.', 's', 'e', 'r', 'i', 'a', 'l', 'i', 'z', 'e', '_', 'd', 'e', 'n', 'y', '_', 'u', 'n', 'k', 'n', 'o', 'w', 'n', ' ', '{'],
   [' ', ' ', ' ', ' ', ' ', ' ', ' ', ' ', ' ', ' ', ' ', ' ', ' ', ' ', ' ', ' ', 'q', 'u', 'o', 't', 'e', '!', ' ', '{'],
   [' ', ' ', ' ', ' ', ' ', ' ', ' ', ' ', ' ', ' ', ' ', ' ', ' ', ' ', ' ', ' ', ' ', ' ', ' ', ' ', 'i', 'f', ' ', 'v', 'a', 'l', 'u', 'e', ' ', '&', ' ', '!', '#', 'a', 'l', 'l', '_', 'v', 'a', 'r', 'i', 'a', 'n', 't', 's', ' ', '!', '=', ' ', '0', ' ', '{'],
   [' ', ' ', ' ', ' ', ' ', ' ', ' ', ' ', ' ', ' ', ' ', ' ', ' ', ' ', ' ', ' ', ' ', ' ', ' ', ' ', ' ', ' ', ' ', ' ', 'u', 's', 'e', ' ', '#', 's', 'e', 'r', 'd', 'e', ':', ':', 'd', 'e', ':', ':', 'E', 'r', 'r', 'o', 'r', ';'],
   [' ', ' ', ' ', ' ', ' ', ' ', ' ', ' ', ' ', ' ', ' ', ' ', ' ', ' ', ' ', ' ', ' ', ' ', ' ', ' ', ' ', ' ', ' ', ' ', 'r', 'e', 't', 'u', 'r', 'n', ' ', '#', 'c', 'o', 'r', 'e', ':', ':', 'p', 'r', 'e', 'l', 'u', 'd', 'e', ':', ':', 'v', '1', ':', ':', 'E', 'r', 'r', '('],
   [' ', ' ', ' ', ' ', ' ', ' ', ' ', ' ', ' ', ' ', ' ', ' ', ' ', ' ', ' ', ' ', ' ', ' ', ' ', ' ', ' ', ' ', ' ', ' ', ' ', ' ', ' ', ' ', 'D', ':', ':', 'E', 'r', 'r', 'o', 'r', ':', ':', 'c', 'u', 's', 't', 'o', 'm', '(', '"', 'e', 'n', 'u', 'm', 's', 'e', 't', ' ', 'c', 'o', 'n', 't', 'a', 'i', 'n', 's', ' ', 'u', 'n', 'k', 'n', 'o', 'w', 'n', ' ', 'b', 'i', 't', 's', '"', ')'],
   [' ', ' ', ' ', ' ', ' ', ' ', ' ', ' ', ' ', ' ', ' ', ' ', ' ', ' ', ' ', ' ', ' ', ' ', ' ', ' ', ' ', ' ', ' ', ' ', ')'],
   [' ', ' ', ' ', ' ', ' ', ' ', ' ', ' ', ' ', ' ', ' ', ' ', ' ', ' ', ' ', ' ', ' ', ' ', ' ', ' ', '}'],
   [' ', ' ', ' ', ' ', ' ', ' ', ' ', ' ', ' ', ' ', ' ', ' ', ' ', ' ', ' ', ' ', '}'],
   [' ', ' ', ' ', ' ', ' ', ' ', ' ', ' ', ' ', ' ', ' ', ' ', '}', ' ', 'e', 'l', 's', 'e', ' ', '{'],
   [' ', ' ', ' ', ' ', ' ', ' ', ' ', ' ', ' ', ' ', ' ', ' ', ' ', ' ', ' ', ' ', 'q', 'u', 'o', 't', 'e', '!', ' ', '{', '}'],
   [' ', ' ', ' ', ' ', ' ', ' ', ' ', ' ', ' ', ' ', ' ', ' ', '}', ';'],
   [' ', ' ', ' ', ' ', ' ', ' ', ' ', ' ', ' ', ' ', ' ', ' ', 'q', 'u', 'o', 't', 'e', '!', ' ', '{'],
   [' ', ' ', ' ', ' ', ' ', ' ', ' ', ' ', ' ', ' ', ' ', ' ', ' ', ' ', ' ', ' ', 'f', 'n', ' ', 's', 'e', 'r', 'i', 'a', 'l', 'i', 'z', 'e', '<', 'S', ':', ' ', '#', 's', 'e', 'r', 'd', 'e', ':', ':', 'S', 'e', 'r', 'i', 'a', 'l', 'i', 'z', 'e', 'r', '>', '('],
   [' ', ' ', ' ', ' ', ' ', ' ', ' ', ' ', ' ', ' ', ' ', ' ', ' ', ' ', ' ', ' ', ' ', ' ', ' ', ' ', 's', 'e', 't', ':', ' ', '#', 'e', 'n', 'u', 'm', 's', 'e', 't', ':', ':', 'E', 'n', 'u', 'm', 'S', 'e', 't', '<', '#', 'n', 'a', 'm', 'e', '>', ',', ' ', 's', 'e', 'r', ':', ' ', 'S', ','],
   [' ', ' ', ' ', ' ', ' ', ' ', ' ', ' ', ' ', ' ', ' ', ' ', ' ', ' ', ' ', ' ', ')', ' ', '-', '>', ' ', '#', 'c', 'o', 'r', 'e', ':', ':', 'r', 'e', 's', 'u', 'l', 't', ':', ':', 'R', 'e', 's', 'u', 'l', 't', '<', 'S', ':', ':', 'O', 'k', ',', ' ', 'S', ':', ':', 'E', 'r', 'r', 'o', 'r', '>', ' ', '{'],
   [' ', ' ', ' ', ' ', ' ', ' ', ' ', ' ', ' ', ' ', ' ', ' ', ' ', ' ', ' ', ' ', ' ', ' ', ' ', ' ', 'l', 'e', 't', ' ', 'v', 'a', 'l', 'u', 'e', ' ', '='],
   [' ', ' ', ' ', ' ', ' ', ' ', ' ', ' ', ' ', ' ', ' ', ' ', ' ', ' ', ' ', ' ', ' ', ' ', ' ', ' ', ' ', ' ', ' ', ' ', '<', '#', 'r', 'e', 'p', 'r', ' ', 'a', 's', ' ', '#', 'e', 'n', 'u', 'm', 's', 'e', 't', ':', ':', '_', '_', 'i', 'n', 't', 'e', 'r', 'n', 'a', 'l', ':', ':', 'E', 'n', 'u', 'm', 'S', 'e', 't', 'T', 'y', 'p', 'e', 'R', 'e', 'p', 'r', '>', ':', ':', '#', 't', 'o', '_', 'f', 'n', '(', '&', 's', 'e', 't', '.', '_', '_', 'p', 'r', 'i', 'v', '_', 'r', 'e', 'p', 'r', ')', ';'],
   [' ', ' ', ' ', ' ', ' ', ' ', ' ', ' ', ' ', ' ', ' ', ' ', ' ', ' ', ' ', ' ', ' ', ' ', ' ', ' ', '#', 's', 'e', 'r', 'd', 'e', ':', ':', 'S', 'e', 'r', 'i', 'a', 'l', 'i', 'z', 'e', ':', ':', 's', 'e', 'r', 'i', 'a', 'l', 'i', 'z', 'e', '(', '&', 'v', 'a', 'l', 'u', 'e', ',', ' ', 's', 'e', 'r', ')'],
   [' ', ' ', ' ', ' ', ' ', ' ', ' ', ' ', ' ', ' ', ' ', ' ', ' ', ' ', ' ', ' ', '}'],
   [' ', ' ', ' ', ' ', ' ', ' ', ' ', ' ', ' ', ' ', ' ', ' ', ' ', ' ', ' ', ' ', 'f', 'n', ' ', 'd', 'e', 's', 'e', 'r', 'i', 'a', 'l', 'i', 'z', 'e', '<', '\'', 'd', 'e', ',', ' ', 'D', ':', ' ', '#', 's', 'e', 'r', 'd', 'e', ':', ':', 'D', 'e', 's', 'e', 'r', 'i', 'a', 'l', 'i', 'z', 'e', 'r', '<', '\'', 'd', 'e', '>', '>', '('],
   [' ', ' ', ' ', ' ', ' ', ' ', ' ', ' ', ' ', ' ', ' ', ' ', ' ', ' ', ' ', ' ', ' ', ' ', ' ', ' ', 'd', 'e', ':', ' ', 'D', ','],
   [' ', ' ', ' ', ' ', ' ', ' ', ' ', ' ', ' ', ' ', ' ', ' ', ' ', ' ', ' ', ' ', ')', ' ', '-', '>', ' ', '#', 'c', 'o', 'r', 'e', ':', ':', 'r', 'e', 's', 'u', 'l', 't', ':', ':', 'R', 'e', 's', 'u', 'l', 't', '<', '#', 'e', 'n', 'u', 'm', 's', 'e', 't', ':', ':', 'E', 'n', 'u', 'm', 'S', 'e', 't', '<', '#', 'n', 'a', 'm', 'e', '>', ',', ' ', 'D', ':', ':', 'E', 'r', 'r', 'o', 'r', '>', ' ', '{'],
   [' ', ' ', ' ', ' ', ' ', ' ', ' ', ' ', ' ', ' ', ' ', ' ', ' ', ' ', ' ', ' ', ' ', ' ', ' ', ' ', 'l', 'e', 't', ' ', 'v', 'a', 'l', 'u', 'e', ' ', '=', ' ', '<', '#', 's', 'e', 'r', 'i', 'a', 'l', 'i', 'z', 'e', '_', 'r', 'e', 'p', 'r', ' ', 'a', 's', ' ', '#', 's', 'e', 'r', 'd', 'e', ':', ':', 'D', 'e', 's', 'e', 'r', 'i', 'a', 'l', 'i', 'z', 'e', '>', ':', ':', 'd', 'e', 's', 'e', 'r', 'i', 'a', 'l', 'i', 'z', 'e', '(', 'd', 'e', ')', '?', ';'],
   [' ', ' ', ' ', ' ', ' ', ' ', ' ', ' ', ' ', ' ', ' ', ' ', ' ', ' ', ' ', ' ', ' ', ' ', ' ', ' ', '#', 'c', 'h', 'e', 'c', 'k', '_', 'u', 'n', 'k', 'n', 'o', 'w', 'n'],
   [' ', ' ', ' ', ' ', ' ', ' ', ' ', ' ', ' ', ' ', ' ', ' ', ' ', ' ', ' ', ' ', ' ', ' ', ' ', ' ', 'l', 'e', 't', ' ', 'v', 'a', 'l', 'u', 'e', ' ', '=', ' ', '<', '#', 'r', 'e', 'p', 'r', ' ', 'a', 's', ' ', '#', 'e', 'n', 'u', 'm', 's', 'e', 't', ':', ':', '_', '_', 'i', 'n', 't', 'e', 'r', 'n', 'a', 'l', ':', ':', 'E', 'n', 'u', 'm', 'S', 'e', 't', 'T', 'y', 'p', 'e', 'R', 'e', 'p', 'r', '>', ':', ':', '#', 'f', 'r', 'o', 'm', '_', 'f', 'n', '(', 'v', 'a', 'l', 'u', 'e', ')', ';'],
   [' ', ' ', ' ', ' ', ' ', ' ', ' ', ' ', ' ', ' ', ' ', ' ', ' ', ' ', ' ', ' ', ' ', ' ', ' ', ' ', '#', 'c', 'o', 'r', 'e', ':', ':', 'p', 'r', 'e', 'l', 'u', 'd', 'e', ':', ':', 'v', '1', ':', ':', 'O', 'k', '(', '#', 'e', 'n', 'u', 'm', 's', 'e', 't', ':', ':', 'E', 'n', 'u', 'm', 'S', 'e', 't', ' ', '{'],
   [' ', ' ', ' ', ' ', ' ', ' ', ' ', ' ', ' ', ' ', ' ', ' ', ' ', ' ', ' ', ' ', ' ', ' ', ' ', ' ', ' ', ' ', ' ', ' ', '_', '_', 'p', 'r', 'i', 'v', '_', 'r', 'e', 'p', 'r', ':', ' ', 'v', 'a', 'l', 'u', 'e', ' ', '&', ' ', '#', 'a', 'l', 'l', '_', 'v', 'a', 'r', 'i', 'a', 'n', 't', 's', ','],
   [' ', ' ', ' ', ' ', ' ', ' ', ' ', ' ', ' ', ' ', ' ', ' ', ' ', ' ', ' ', ' ', ' ', ' ', ' ', ' ', '}', ')'],
   [' ', ' ', ' ', ' ', ' ', ' ', ' ', ' ', ' ', ' ', ' ', ' ', ' ', ' ', ' ', ' ', '}'],
   [' ', ' ', ' ', ' ', ' ', ' ', ' ', ' ', ' ', ' ', ' ', ' ', '}'],
   [' ', ' ', ' ', ' ', ' ', ' ', ' ', ' ', '}'],
   [' ', ' ', ' ', ' ', ' ', ' ', ' ', ' ', 'S', 'e', 'r', 'd', 'e', 'R', 'e', 'p', 'r', ':', ':', 'L', 'i', 's', 't', ' ', '=', '>', ' ', '{'],
   [' ', ' ', ' ', ' ', ' ', ' ', ' ', ' ', ' ', ' ', ' ', ' ', 'l', 'e', 't', ' ', 'e', 'x', 'p', 'e', 'c', 't', 'i', 'n', 'g', '_', 's', 't', 'r', ' ', '=', ' ', 'f', 'o', 'r', 'm', 'a', 't', '!', '(', '"', 'a', ' ', 'l', 'i', 's', 't', ' ', 'o', 'f', ' ', '{', '}', '"', ',', ' ', 'n', 'a', 'm', 'e', ')', ';'],
   [' ', ' ', ' ', ' ', ' ', ' ', ' ', ' ', ' ', ' ', ' ', ' ', 'q', 'u', 'o', 't', 'e', '!', ' ', '{'],
   [' ', ' ', ' ', ' ', ' ', ' ', ' ', ' ', ' ', ' ', ' ', ' ', ' ', ' ', ' ', ' ', 'f', 'n', ' ', 's', 'e', 'r', 'i', 'a', 'l', 'i', 'z', 'e', '<', 'S', ':', ' ', '#', 's', 'e', 'r', 'd', 'e', ':', ':', 'S', 'e', 'r', 'i', 'a', 'l', 'i', 'z', 'e', 'r', '>', '('],
   [' ', ' ', ' ', ' ', ' ', ' ', ' ', ' ', ' ', ' ', ' ', ' ', ' ', ' ', ' ', ' ', ' ', ' ', ' ', ' ', 's', 'e', 't', ':', ' ', '#', 'e', 'n', 'u', 'm', 's', 'e', 't', ':', ':', 'E', 'n', 'u', 'm', 'S', 'e', 't', '<', '#', 'n', 'a', 'm', 'e', '>', ',', ' ', 's', 'e', 'r', ':', ' ', 'S', ','],
   [' ', ' ', ' ', ' ', ' ', ' ', ' ', ' ', ' ', ' ', ' ', ' ', ' ', ' ', ' ', ' ', ')', ' ', '-', '>', ' ', '#', 'c', 'o', 'r', 'e', ':', ':', 'r', 'e', 's', 'u', 'l', 't', ':', ':', 'R', 'e', 's', 'u', 'l', 't', '<', 'S', ':', ':', 'O', 'k', ',', ' ', 'S', ':', ':', 'E', 'r', 'r', 'o', 'r', '>', ' ', '{'],
   [' ', ' ', ' ', ' ', ' ', ' ', ' ', ' ', ' ', ' ', ' ', ' ', ' ', ' ', ' ', ' ', ' ', ' ', ' ', ' ', 'u', 's', 'e', ' ', '#', 's', 'e', 'r', 'd', 'e', ':', ':', 's', 'e', 'r', ':', ':', 'S', 'e', 'r', 'i', 'a', 'l', 'i', 'z', 'e', 'S', 'e', 'q', ';'],
   [' ', ' ', ' ', ' ', ' ', ' ', ' ', ' ', ' ', ' ', ' ', ' ', ' ', ' ', ' ', ' ', ' ', ' ', ' ', ' ', 'l', 'e', 't', ' ', 'm', 'u', 't', ' ', 's', 'e', 'q', ' ', '=', ' ', 's', 'e', 'r', '.', 's', 'e', 'r', 'i', 'a', 'l', 'i', 'z', 'e', '_', 's', 'e', 'q', '(', '#', 'c', 'o', 'r', 'e', ':', ':', 'p', 'r', 'e', 'l', 'u', 'd', 'e', ':', ':', 'v', '1', ':', ':', 'S', 'o', 'm', 'e', '(', 's', 'e', 't', '.', 'l', 'e', 'n', '(', ')', ')', ')', '?', ';'],
   [' ', ' ', ' ', ' ', ' ', ' ', ' ', ' ', ' ', ' ', ' ', ' ', ' ', ' ', ' ', ' ', ' ', ' ', ' ', ' ', 'f', 'o', 'r', ' ', 'b', 'i', 't', ' ', 'i', 'n', ' ', 's', 'e', 't', ' ', '{'],
   [' ', ' ', ' ', ' ', ' ', ' ', ' ', ' ', ' ', ' ', ' ', ' ', ' ', ' ', ' ', ' ', ' ', ' ', ' ', ' ', ' ', ' ', ' ', ' ', 's', 'e', 'q', '.', 's', 'e', 'r', 'i', 'a', 'l', 'i', 'z', 'e', '_', 'e', 'l', 'e', 'm', 'e', 'n', 't', '(', '&', 'b', 'i', 't', ')', '?', ';'],
   [' ', ' ', ' ', ' ', ' ', ' ', ' ', ' ', ' ', ' ', ' ', ' ', ' ', ' ', ' ', ' ', ' ', ' ', ' ', ' ', '}'],
   [' ', ' ', ' ', ' ', ' ', ' ', ' ', ' ', ' ', ' ', ' ', ' ', ' ', ' ', ' ', ' ', ' ', ' ', ' ', ' ', 's', 'e', 'q', '.', 'e', 'n', 'd', '(', ')'],
   [' ', ' ', ' ', ' ', ' ', ' ', ' ', ' ', ' ', ' ', ' ', ' ', ' ', ' ', ' ', ' ', '}'],
   [' ', ' ', ' ', ' ', ' ', ' ', ' ', ' ', ' ', ' ', ' ', ' ', ' ', ' ', ' ', ' ', 'f', 'n', ' ', 'd', 'e', 's', 'e', 'r', 'i', 'a', 'l', 'i', 'z', 'e', '<', '\'', 'd', 'e', ',', ' ', 'D', ':', ' ', '#', 's', 'e', 'r', 'd', 'e', ':', ':', 'D', 'e', 's', 'e', 'r', 'i', 'a', 'l', 'i', 'z', 'e', 'r', '<', '\'', 'd', 'e', '>', '>', '('],
   [' ', ' ', ' ', ' ', ' ', ' ', ' ', ' ', ' ', ' ', ' ', ' ', ' ', ' ', ' ', ' ', ' ', ' ', ' ', ' ', 'd', 'e', ':', ' ', 'D', ','],
   [' ', ' ', ' ', ' ', ' ', ' ', ' ', ' ', ' ', ' ', ' ', ' ', ' ', ' ', ' ', ' ', ')', ' ', '-', '>', ' ', '#', 'c', 'o', 'r', 'e', ':', ':', 'r', 'e', 's', 'u', 'l', 't', ':', ':', 'R', 'e', 's', 'u', 'l', 't', '<', '#', 'e', 'n', 'u', 'm', 's', 'e', 't', ':', ':', 'E', 'n', 'u', 'm', 'S', 'e', 't', '<', '#', 'n', 'a', 'm', 'e', '>', ',', ' ', 'D', ':', ':', 'E', 'r', 'r', 'o', 'r', '>', ' ', '{'],
   [' ', ' ', ' ', ' ', ' ', ' ', ' ', ' ', ' ', ' ', ' ', ' ', ' ', ' ', ' ', ' ', ' ', ' ', ' ', ' ', 's', 't', 'r', 'u', 'c', 't', ' ', 'V', 'i', 's', 'i', 't', 'o', 'r', ';'],
   [' ', ' ', ' ', ' ', ' ', ' ', ' ', ' ', ' ', ' ', ' ', ' ', ' ', ' ', ' ', ' ', ' ', ' ', ' ', ' ', 'i', 'm', 'p', 'l', ' ', '<', '\'', 'd', 'e', '>', ' ', '#', 's', 'e', 'r', 'd', 'e', ':', ':', 'd', 'e', ':', ':', 'V', 'i', 's', 'i', 't', 'o', 'r', '<', '\'', 'd', 'e', '>', ' ', 'f', 'o', 'r', ' ', 'V', 'i', 's', 'i', 't', 'o', 'r', ' ', '{'],
   [' ', ' ', ' ', ' ', ' ', ' ', ' ', ' ', ' ', ' ', ' ', ' ', ' ', ' ', ' ', ' ', ' ', ' ', ' ', ' ', ' ', ' ', ' ', ' ', 't', 'y', 'p', 'e', ' ', 'V', 'a', 'l', 'u', 'e', ' ', '=', ' ', '#', 'e', 'n', 'u', 'm', 's', 'e', 't', ':', ':', 'E', 'n', 'u', 'm', 'S', 'e', 't', '<', '#', 'n', 'a', 'm', 'e', '>', ';'],
   [' ', ' ', ' ', ' ', ' ', ' ', ' ', ' ', ' ', ' ', ' ', ' ', ' ', ' ', ' ', ' ', ' ', ' ', ' ', ' ', ' ', ' ', ' ', ' ', 'f', 'n', ' ', 'e', 'x', 'p', 'e', 'c', 't', 'i', 'n', 'g', '('],
   [' ', ' ', ' ', ' ', ' ', ' ', ' ', ' ', ' ', ' ', ' ', ' ', ' ', ' ', ' ', ' ', ' ', ' ', ' ', ' ', ' ', ' ', ' ', ' ', ' ', ' ', ' ', ' ', '&', 's', 'e', 'l', 'f', ',', ' ', 'f', 'o', 'r', 'm', 'a', 't', 't', 'e', 'r', ':', ' ', '&', 'm', 'u', 't', ' ', '#', 'c', 'o', 'r', 'e', ':', ':', 'f', 'm', 't', ':', ':', 'F', 'o', 'r', 'm', 'a', 't', 't', 'e', 'r', ','],
   [' ', ' ', ' ', ' ', ' ', ' ', ' ', ' ', ' ', ' ', ' ', ' ', ' ', ' ', ' ', ' ', ' ', ' ', ' ', ' ', ' ', ' ', ' ', ' ', ')', ' ', '-', '>', ' ', '#', 'c', 'o', 'r', 'e', ':', ':', 'f', 'm', 't', ':', ':', 'R', 'e', 's', 'u', 'l', 't', ' ', '{'],
   [' ', ' ', ' ', ' ', ' ', ' ', ' ', ' ', ' ', ' ', ' ', ' ', ' ', ' ', ' ', ' ', ' ', ' ', ' ', ' ', ' ', ' ', ' ', ' ', ' ', ' ', ' ', ' ', 'w', 'r', 'i', 't', 'e', '!', '(', 'f', 'o', 'r', 'm', 'a', 't', 't', 'e', 'r', ',', ' ', '#', 'e', 'x', 'p', 'e', 'c', 't', 'i', 'n', 'g', '_', 's', 't', 'r', ')'],
   [' ', ' ', ' ', ' ', ' ', ' ', ' ', ' ', ' ', ' ', ' ', ' ', ' ', ' ', ' ', ' ', ' ', ' ', ' ', ' ', ' ', ' ', ' ', ' ', '}'],
   [' ', ' ', ' ', ' ', ' ', ' ', ' ', ' ', ' ', ' ', ' ', ' ', ' ', ' ', ' ', ' ', ' ', ' ', ' ', ' ', ' ', ' ', ' ', ' ', 'f', 'n', ' ', 'v', 'i', 's', 'i', 't', '_', 's', 'e', 'q', '<', 'A', '>', '('],
   [' ', ' ', ' ', ' ', ' ', ' ', ' ', ' ', ' ', ' ', ' ', ' ', ' ', ' ', ' ', ' ', ' ', ' ', ' ', ' ', ' ', ' ', ' ', ' ', ' ', ' ', ' ', ' ', 'm', 'u', 't', ' ', 's', 'e', 'l', 'f', ',', ' ', 'm', 'u', 't', ' ', 's', 'e', 'q', ':', ' ', 'A', ','],
   [' ', ' ', ' ', ' ', ' ', ' ', ' ', ' ', ' ', ' ', ' ', ' ', ' ', ' ', ' ', ' ', ' ', ' ', ' ', ' ', ' ', ' ', ' ', ' ', ')', ' ', '-', '>', ' ', '#', 'c', 'o', 'r', 'e', ':', ':', 'r', 'e', 's', 'u', 'l', 't', ':', ':', 'R', 'e', 's', 'u', 'l', 't', '<', 'S', 'e', 'l', 'f', ':', ':', 'V', 'a', 'l', 'u', 'e', ',', ' ', 'A', ':', ':', 'E', 'r', 'r', 'o', 'r', '>', ' ', 'w', 'h', 'e', 'r', 'e'],
   [' ', ' ', ' ', ' ', ' ', ' ', ' ', ' ', ' ', ' ', ' ', ' ', ' ', ' ', ' ', ' ', ' ', ' ', ' ', ' ', ' ', ' ', ' ', ' ', ' ', ' ', ' ', ' ', 'A', ':', ' ', '#', 's', 'e', 'r', 'd', 'e', ':', ':', 'd', 'e', ':', ':', 'S', 'e', 'q', 'A', 'c', 'c', 'e', 's', 's', '<', '\'', 'd', 'e', '>'],
   [' ', ' ', ' ', ' ', ' ', ' ', ' ', ' ', ' ', ' ', ' ', ' ', ' ', ' ', ' ', ' ', ' ', ' ', ' ', ' ', ' ', ' ', ' ', ' ', '{'],
   [' ', ' ', ' ', ' ', ' ', ' ', ' ', ' ', ' ', ' ', ' ', ' ', ' ', ' ', ' ', ' ', ' ', ' ', ' ', ' ', ' ', ' ', ' ', ' ', ' ', ' ', ' ', ' ', 'l', 'e', 't', ' ', 'm', 'u', 't', ' ', 'a', 'c', 'c', 'u', 'm', ' ', '=', ' ', '#', 'e', 'n', 'u', 'm', 's', 'e', 't', ':', ':', 'E', 'n', 'u', 'm', 'S', 'e', 't', ':', ':', '<', '#', 'n', 'a', 'm', 'e', '>', ':', ':', 'n', 'e', 'w', '(', ')', ';'],
   [' ', ' ', ' ', ' ', ' ', ' ', ' ', ' ', ' ', ' ', ' ', ' ', ' ', ' ', ' ', ' ', ' ', ' ', ' ', ' ', ' ', ' ', ' ', ' ', ' ', ' ', ' ', ' ', 'w', 'h', 'i', 'l', 'e', ' ', 'l', 'e', 't', ' ', '#', 'c', 'o', 'r', 'e', ':', ':', 'p', 'r', 'e', 'l', 'u', 'd', 'e', ':', ':', 'v', '1', ':', ':', 'S', 'o', 'm', 'e', '(', 'v', 'a', 'l', ')', ' ', '=', ' ', 's', 'e', 'q', '.', 'n', 'e', 'x', 't', '_', 'e', 'l', 'e', 'm', 'e', 'n', 't', ':', ':', '<', '#', 'n', 'a', 'm', 'e', '>', '(', ')', '?', ' ', '{'],
   [' ', ' ', ' ', ' ', ' ', ' ', ' ', ' ', ' ', ' ', ' ', ' ', ' ', ' ', ' ', ' ', ' ', ' ', ' ', ' ', ' ', ' ', ' ', ' ', ' ', ' ', ' ', ' ', ' ', ' ', ' ', ' ', 'a', 'c', 'c', 'u', 'm', ' ', '|', '=', ' ', 'v', 'a', 'l', ';'],
   [' ', ' ', ' ', ' ', ' ', ' ', ' ', ' ', ' ', ' ', ' ', ' ', ' ', ' ', ' ', ' ', ' ', ' ', ' ', ' ', ' ', ' ', ' ', ' ', ' ', ' ', ' ', ' ', '}'],
   [' ', ' ', ' ', ' ', ' ', ' ', ' ', ' ', ' ', ' ', ' ', ' ', ' ', ' ', ' ', ' ', ' ', ' ', ' ', ' ', ' ', ' ', ' ', ' ', ' ', ' ', ' ', ' ', '#', 'c', 'o', 'r', 'e', ':', ':', 'p', 'r', 'e', 'l', 'u', 'd', 'e', ':', ':', 'v', '1', ':', ':', 'O', 'k', '(', 'a', 'c', 'c', 'u', 'm', ')'],
   [' ', ' ', ' ', ' ', ' ', ' ', ' ', ' ', ' ', ' ', ' ', ' ', ' ', ' ', ' ', ' ', ' ', ' ', ' ', ' ', ' ', ' ', ' ', ' ', '}'],
   [' ', ' ', ' ', ' ', ' ', ' ', ' ', ' ', ' ', ' ', ' ', ' ', ' ', ' ', ' ', ' ', ' ', ' ', ' ', ' ', '}'],
   [' ', ' ', ' ', ' ', ' ', ' ', ' ', ' ', ' ', ' ', ' ', ' ', ' ', ' ', ' ', ' ', ' ', ' ', ' ', ' ', 'd', 'e', '.', 'd', 'e', 's', 'e', 'r', 'i', 'a', 'l', 'i', 'z', 'e', '_', 's', 'e', 'q', '(', 'V', 'i', 's', 'i', 't', 'o', 'r', ')'],
   [' ', ' ', ' ', ' ', ' ', ' ', ' ', ' ', ' ', ' ', ' ', ' ', ' ', ' ', ' ', ' ', '}'],
   [' ', ' ', ' ', ' ', ' ', ' ', ' ', ' ', ' ', ' ', ' ', ' ', '}'],
   [' ', ' ', ' ', ' ', ' ', ' ', ' ', ' ', '}'],
   [' ', ' ', ' ', ' ', ' ', ' ', ' ', ' ', 'S', 'e', 'r', 'd', 'e', 'R', 'e', 'p', 'r', ':', ':', 'M', 'a', 'p', ' ', '=', '>', ' ', '{'],
   [' ', ' ', ' ', ' ', ' ', ' ', ' ', ' ', ' ', ' ', ' ', ' ', 'l', 'e', 't', ' ', 'e', 'x', 'p', 'e', 'c', 't', 'i', 'n', 'g', '_', 's', 't', 'r', ' ', '=', ' ', 'f', 'o', 'r', 'm', 'a', 't', '!', '(', '"', 'a', ' ', 'm', 'a', 'p', ' ', 'f', 'r', 'o', 'm', ' ', '{', '}', ' ', 't', 'o', ' ', 'b', 'o', 'o', 'l', '"', ',', ' ', 'n', 'a', 'm', 'e', ')', ';'],
   [' ', ' ', ' ', ' ', ' ', ' ', ' ', ' ', ' ', ' ', ' ', ' ', 'q', 'u', 'o', 't', 'e', '!', ' ', '{'],
   [' ', ' ', ' ', ' ', ' ', ' ', ' ', ' ', ' ', ' ', ' ', ' ', ' ', ' ', ' ', ' ', 'f', 'n', ' ', 's', 'e', 'r', 'i', 'a', 'l', 'i', 'z', 'e', '<', 'S', ':', ' ', '#', 's', 'e', 'r', 'd', 'e', ':', ':', 'S', 'e', 'r', 'i', 'a', 'l', 'i', 'z', 'e', 'r', '>', '('],
   [' ', ' ', ' ', ' ', ' ', ' ', ' ', ' ', ' ', ' ', ' ', ' ', ' ', ' ', ' ', ' ', ' ', ' ', ' ', ' ', 's', 'e', 't', ':', ' ', '#', 'e', 'n', 'u', 'm', 's', 'e', 't', ':', ':', 'E', 'n', 'u', 'm', 'S', 'e', 't', '<', '#', 'n', 'a', 'm', 'e', '>', ',', ' ', 's', 'e', 'r', ':', ' ', 'S', ','],
   [' ', ' ', ' ', ' ', ' ', ' ', ' ', ' ', ' ', ' ', ' ', ' ', ' ', ' ', ' ', ' ', ')', ' ', '-', '>', ' ', '#', 'c', 'o', 'r', 'e', ':', ':', 'r', 'e', 's', 'u', 'l', 't', ':', ':', 'R', 'e', 's', 'u', 'l', 't', '<', 'S', ':', ':', 'O', 'k', ',', ' ', 'S', ':', ':', 'E', 'r', 'r', 'o', 'r', '>', ' ', '{'],
   [' ', ' ', ' ', ' ', ' ', ' ', ' ', ' ', ' ', ' ', ' ', ' ', ' ', ' ', ' ', ' ', ' ', ' ', ' ', ' ', 'u', 's', 'e', ' ', '#', 's', 'e', 'r', 'd', 'e', ':', ':', 's', 'e', 'r', ':', ':', 'S', 'e', 'r', 'i', 'a', 'l', 'i', 'z', 'e', 'M', 'a', 'p', ';'],
   [' ', ' ', ' ', ' ', ' ', ' ', ' ', ' ', ' ', ' ', ' ', ' ', ' ', ' ', ' ', ' ', ' ', ' ', ' ', ' ', 'l', 'e', 't', ' ', 'm', 'u', 't', ' ', 'm', 'a', 'p', ' ', '=', ' ', 's', 'e', 'r', '.', 's', 'e', 'r', 'i', 'a', 'l', 'i', 'z', 'e', '_', 'm', 'a', 'p', '(', '#', 'c', 'o', 'r', 'e', ':', ':', 'p', 'r', 'e', 'l', 'u', 'd', 'e', ':', ':', 'v', '1', ':', ':', 'S', 'o', 'm', 'e', '(', 's', 'e', 't', '.', 'l', 'e', 'n', '(', ')', ')', ')', '?', ';'],
   [' ', ' ', ' ', ' ', ' ', ' ', ' ', ' ', ' ', ' ', ' ', ' ', ' ', ' ', ' ', ' ', ' ', ' ', ' ', ' ', 'f', 'o', 'r', ' ', 'b', 'i', 't', ' ', 'i', 'n', ' ', 's', 'e', 't', ' ', '{'],
   [' ', ' ', ' ', ' ', ' ', ' ', ' ', ' ', ' ', ' ', ' ', ' ', ' ', ' ', ' ', ' ', ' ', ' ', ' ', ' ', ' ', ' ', ' ', ' ', 'm', 'a', 'p', '.', 's', 'e', 'r', 'i', 'a', 'l', 'i', 'z', 'e', '_', 'e', 'n', 't', 'r', 'y', '(', '&', 'b', 'i', 't', ',', ' ', '&', 't', 'r', 'u', 'e', ')', '?', ';'],
   [' ', ' ', ' ', ' ', ' ', ' ', ' ', ' ', ' ', ' ', ' ', ' ', ' ', ' ', ' ', ' ', ' ', ' ', ' ', ' ', '}'],
   [' ', ' ', ' ', ' ', ' ', ' ', ' ', ' ', ' ', ' ', ' ', ' ', ' ', ' ', ' ', ' ', ' ', ' ', ' ', ' ', 'm', 'a', 'p', '.', 'e', 'n', 'd', '(', ')'],
   [' ', ' ', ' ', ' ', ' ', ' ', ' ', ' ', ' ', ' ', ' ', ' ', ' ', ' ', ' ', ' ', '}'],
   [' ', ' ', ' ', ' ', ' ', ' ', ' ', ' ', ' ', ' ', ' ', ' ', ' ', ' ', ' ', ' ', 'f', 'n', ' ', 'd', 'e', 's', 'e', 'r', 'i', 'a', 'l', 'i', 'z', 'e', '<', '\'', 'd', 'e', ',', ' ', 'D', ':', ' ', '#', 's', 'e', 'r', 'd', 'e', ':', ':', 'D', 'e', 's', 'e', 'r', 'i', 'a', 'l', 'i', 'z', 'e', 'r', '<', '\'', 'd', 'e', '>', '>', '('],
   [' ', ' ', ' ', ' ', ' ', ' ', ' ', ' ', ' ', ' ', ' ', ' ', ' ', ' ', ' ', ' ', ' ', ' ', ' ', ' ', 'd', 'e', ':', ' ', 'D', ','],
   [' ', ' ', ' ', ' ', ' ', ' ', ' ', ' ', ' ', ' ', ' ', ' ', ' ', ' ', ' ', ' ', ')', ' ', '-', '>', ' ', '#', 'c', 'o', 'r', 'e', ':', ':', 'r', 'e', 's', 'u', 'l', 't', ':', ':', 'R', 'e', 's', 'u', 'l', 't', '<', '#', 'e', 'n', 'u', 'm', 's', 'e', 't', ':', ':', 'E', 'n', 'u', 'm', 'S', 'e', 't', '<', '#', 'n', 'a', 'm', 'e', '>', ',', ' ', 'D', ':', ':', 'E', 'r', 'r', 'o', 'r', '>', ' ', '{'],
   [' ', ' ', ' ', ' ', ' ', ' ', ' ', ' ', ' ', ' ', ' ', ' ', ' ', ' ', ' ', ' ', ' ', ' ', ' ', ' ', 's', 't', 'r', 'u', 'c', 't', ' ', 'V', 'i', 's', 'i', 't', 'o', 'r', ';'],
   [' ', ' ', ' ', ' ', ' ', ' ', ' ', ' ', ' ', ' ', ' ', ' ', ' ', ' ', ' ', ' ', ' ', ' ', ' ', ' ', 'i', 'm', 'p', 'l', ' ', '<', '\'', 'd', 'e', '>', ' ', '#', 's', 'e', 'r', 'd', 'e', ':', ':', 'd', 'e', ':', ':', 'V', 'i', 's', 'i', 't', 'o', 'r', '<', '\'', 'd', 'e', '>', ' ', 'f', 'o', 'r', ' ', 'V', 'i', 's', 'i', 't', 'o', 'r', ' ', '{'],
   [' ', ' ', ' ', ' ', ' ', ' ', ' ', ' ', ' ', ' ', ' ', ' ', ' ', ' ', ' ', ' ', ' ', ' ', ' ', ' ', ' ', ' ', ' ', ' ', 't', 'y', 'p', 'e', ' ', 'V', 'a', 'l', 'u', 'e', ' ', '=', ' ', '#', 'e', 'n', 'u', 'm', 's', 'e', 't', ':', ':', 'E', 'n', 'u', 'm', 'S', 'e', 't', '<', '#', 'n', 'a', 'm', 'e', '>', ';'],
   [' ', ' ', ' ', ' ', ' ', ' ', ' ', ' ', ' ', ' ', ' ', ' ', ' ', ' ', ' ', ' ', ' ', ' ', ' ', ' ', ' ', ' ', ' ', ' ', 'f', 'n', ' ', 'e', 'x', 'p', 'e', 'c', 't', 'i', 'n', 'g', '('],
   [' ', ' ', ' ', ' ', ' ', ' ', ' ', ' ', ' ', ' ', ' ', ' ', ' ', ' ', ' ', ' ', ' ', ' ', ' ', ' ', ' ', ' ', ' ', ' ', ' ', ' ', ' ', ' ', '&', 's', 'e', 'l', 'f', ',', ' ', 'f', 'o', 'r', 'm', 'a', 't', 't', 'e', 'r', ':', ' ', '&', 'm', 'u', 't', ' ', '#', 'c', 'o', 'r', 'e', ':', ':', 'f', 'm', 't', ':', ':', 'F', 'o', 'r', 'm', 'a', 't', 't', 'e', 'r', ','],
   [' ', ' ', ' ', ' ', ' ', ' ', ' ', ' ', ' ', ' ', ' ', ' ', ' ', ' ', ' ', ' ', ' ', ' ', ' ', ' ', ' ', ' ', ' ', ' ', ')', ' ', '-', '>', ' ', '#', 'c', 'o', 'r', 'e', ':', ':', 'f', 'm', 't', ':', ':', 'R', 'e', 's', 'u', 'l', 't', ' ', '{'],
   [' ', ' ', ' ', ' ', ' ', ' ', ' ', ' ', ' ', ' ', ' ', ' ', ' ', ' ', ' ', ' ', ' ', ' ', ' ', ' ', ' ', ' ', ' ', ' ', ' ', ' ', ' ', ' ', 'w', 'r', 'i', 't', 'e', '!', '(', 'f', 'o', 'r', 'm', 'a', 't', 't', 'e', 'r', ',', ' ', '#', 'e', 'x', 'p', 'e', 'c', 't', 'i', 'n', 'g', '_', 's', 't', 'r', ')'],
   [' ', ' ', ' ', ' ', ' ', ' ', ' ', ' ', ' ', ' ', ' ', ' ', ' ', ' ', ' ', ' ', ' ', ' ', ' ', ' ', ' ', ' ', ' ', ' ', '}'],
   [' ', ' ', ' ', ' ', ' ', ' ', ' ', ' ', ' ', ' ', ' ', ' ', ' ', ' ', ' ', ' ', ' ', ' ', ' ', ' ', ' ', ' ', ' ', ' ', 'f', 'n', ' ', 'v', 'i', 's', 'i', 't', '_', 'm', 'a', 'p', '<', 'A', '>', '('],
   [' ', ' ', ' ', ' ', ' ', ' ', ' ', ' ', ' ', ' ', ' ', ' ', ' ', ' ', ' ', ' ', ' ', ' ', ' ', ' ', ' ', ' ', ' ', ' ', ' ', ' ', ' ', ' ', 'm', 'u', 't', ' ', 's', 'e', 'l', 'f', ',', ' ', 'm', 'u', 't', ' ', 'm', 'a', 'p', ':', ' ', 'A', ','],
   [' ', ' ', ' ', ' ', ' ', ' ', ' ', ' ', ' ', ' ', ' ', ' ', ' ', ' ', ' ', ' ', ' ', ' ', ' ', ' ', ' ', ' ', ' ', ' ', ')', ' ', '-', '>', ' ', '#', 'c', 'o', 'r', 'e', ':', ':', 'r', 'e', 's', 'u', 'l', 't', ':', ':', 'R', 'e', 's', 'u', 'l', 't', '<', 'S', 'e', 'l', 'f', ':', ':', 'V', 'a', 'l', 'u', 'e', ',', ' ', 'A', ':', ':', 'E', 'r', 'r', 'o', 'r', '>', ' ', 'w', 'h', 'e', 'r', 'e'],
   [' ', ' ', ' ', ' ', ' ', ' ', ' ', ' ', ' ', ' ', ' ', ' ', ' ', ' ', ' ', ' ', ' ', ' ', ' ', ' ', ' ', ' ', ' ', ' ', ' ', ' ', ' ', ' ', 'A', ':', ' ', '#', 's', 'e', 'r', 'd', 'e', ':', ':', 'd', 'e', ':', ':', 'M', 'a', 'p', 'A', 'c', 'c', 'e', 's', 's', '<', '\'', 'd', 'e', '>'],
   [' ', ' ', ' ', ' ', ' ', ' ', ' ', ' ', ' ', ' ', ' ', ' ', ' ', ' ', ' ', ' ', ' ', ' ', ' ', ' ', ' ', ' ', ' ', ' ', '{'],
   [' ', ' ', ' ', ' ', ' ', ' ', ' ', ' ', ' ', ' ', ' ', ' ', ' ', ' ', ' ', ' ', ' ', ' ', ' ', ' ', ' ', ' ', ' ', ' ', ' ', ' ', ' ', ' ', 'l', 'e', 't', ' ', 'm', 'u', 't', ' ', 'a', 'c', 'c', 'u', 'm', ' ', '=', ' ', '#', 'e', 'n', 'u', 'm', 's', 'e', 't', ':', ':', 'E', 'n', 'u', 'm', 'S', 'e', 't', ':', ':', '<', '#', 'n', 'a', 'm', 'e', '>', ':', ':', 'n', 'e', 'w', '(', ')', ';'],
   [' ', ' ', ' ', ' ', ' ', ' ', ' ', ' ', ' ', ' ', ' ', ' ', ' ', ' ', ' ', ' ', ' ', ' ', ' ', ' ', ' ', ' ', ' ', ' ', ' ', ' ', ' ', ' ', 'w', 'h', 'i', 'l', 'e', ' ', 'l', 'e', 't', ' ', '#', 'c', 'o', 'r', 'e', ':', ':', 'p', 'r', 'e', 'l', 'u', 'd', 'e', ':', ':', 'v', '1', ':', ':', 'S', 'o', 'm', 'e', '(', '(', 'v', 'a', 'l', ',', ' ', 'i', 's', '_', 'p', 'r', 'e', 's', 'e', 'n', 't', ')', ')', ' ', '='],
   [' ', ' ', ' ', ' ', ' ', ' ', ' ', ' ', ' ', ' ', ' ', ' ', ' ', ' ', ' ', ' ', ' ', ' ', ' ', ' ', ' ', ' ', ' ', ' ', ' ', ' ', ' ', ' ', ' ', ' ', ' ', ' ', 'm', 'a', 'p', '.', 'n', 'e', 'x', 't', '_', 'e', 'n', 't', 'r', 'y', ':', ':', '<', '#', 'n', 'a', 'm', 'e', ',', ' ', 'b', 'o', 'o', 'l', '>', '(', ')', '?'],
   [' ', ' ', ' ', ' ', ' ', ' ', ' ', ' ', ' ', ' ', ' ', ' ', ' ', ' ', ' ', ' ', ' ', ' ', ' ', ' ', ' ', ' ', ' ', ' ', ' ', ' ', ' ', ' ', '{'],
   [' ', ' ', ' ', ' ', ' ', ' ', ' ', ' ', ' ', ' ', ' ', ' ', ' ', ' ', ' ', ' ', ' ', ' ', ' ', ' ', ' ', ' ', ' ', ' ', ' ', ' ', ' ', ' ', ' ', ' ', ' ', ' ', 'i', 'f', ' ', 'i', 's', '_', 'p', 'r', 'e', 's', 'e', 'n', 't', ' ', '{'],
   [' ', ' ', ' ', ' ', ' ', ' ', ' ', ' ', ' ', ' ', ' ', ' ', ' ', ' ', ' ', ' ', ' ', ' ', ' ', ' ', ' ', ' ', ' ', ' ', ' ', ' ', ' ', ' ', ' ', ' ', ' ', ' ', ' ', ' ', ' ', ' ', 'a', 'c', 'c', 'u', 'm', ' ', '|', '=', ' ', 'v', 'a', 'l', ';'],
   [' ', ' ', ' ', ' ', ' ', ' ', ' ', ' ', ' ', ' ', ' ', ' ', ' ', ' ', ' ', ' ', ' ', ' ', ' ', ' ', ' ', ' ', ' ', ' ', ' ', ' ', ' ', ' ', ' ', ' ', ' ', ' ', '}'],
   [' ', ' ', ' ', ' ', ' ', ' ', ' ', ' ', ' ', ' ', ' ', ' ', ' ', ' ', ' ', ' ', ' ', ' ', ' ', ' ', ' ', ' ', ' ', ' ', ' ', ' ', ' ', ' ', '}'],
   [' ', ' ', ' ', ' ', ' ', ' ', ' ', ' ', ' ', ' ', ' ', ' ', ' ', ' ', ' ', ' ', ' ', ' ', ' ', ' ', ' ', ' ', ' ', ' ', ' ', ' ', ' ', ' ', '#', 'c', 'o', 'r', 'e', ':', ':', 'p', 'r', 'e', 'l', 'u', 'd', 'e', ':', ':', 'v', '1', ':', ':', 'O', 'k', '(', 'a', 'c', 'c', 'u', 'm', ')'],
   [' ', ' ', ' ', ' ', ' ', ' ', ' ', ' ', ' ', ' ', ' ', ' ', ' ', ' ', ' ', ' ', ' ', ' ', ' ', ' ', ' ', ' ', ' ', ' ', '}'],
   [' ', ' ', ' ', ' ', ' ', ' ', ' ', ' ', ' ', ' ', ' ', ' ', ' ', ' ', ' ', ' ', ' ', ' ', ' ', ' ', '}'],
   [' ', ' ', ' ', ' ', ' ', ' ', ' ', ' ', ' ', ' ', ' ', ' ', ' ', ' ', ' ', ' ', ' ', ' ', ' ', ' ', 'd', 'e', '.', 'd', 'e', 's', 'e', 'r', 'i', 'a', 'l', 'i', 'z', 'e', '_', 'm', 'a', 'p', '(', 'V', 'i', 's', 'i', 't', 'o', 'r', ')'],
   [' ', ' ', ' ', ' ', ' ', ' ', ' ', ' ', ' ', ' ', ' ', ' ', ' ', ' ', ' ', ' ', '}'],
   [' ', ' ', ' ', ' ', ' ', ' ', ' ', ' ', ' ', ' ', ' ', ' ', '}'],
   [' ', ' ', ' ', ' ', ' ', ' ', ' ', ' ', '}'],
   [' ', ' ', ' ', ' ', ' ', ' ', ' ', ' ', 'S', 'e', 'r', 'd', 'e', 'R', 'e', 'p', 'r', ':', ':', 'A', 'r', 'r', 'a', 'y', ' ', '=', '>', ' ', '{'],
   [' ', ' ', ' ', ' ', ' ', ' ', ' ', ' ', ' ', ' ', ' ', ' ', 'l', 'e', 't', ' ', 'p', 'r', 'e', 'f', 'e', 'r', 'r', 'e', 'd', '_', 's', 'i', 'z', 'e', ' ', '=', ' ', 'q', 'u', 'o', 't', 'e', '!', ' ', '{'],
   [' ', ' ', ' ', ' ', ' ', ' ', ' ', ' ', ' ', ' ', ' ', ' ', ' ', ' ', ' ', ' ', '<', '<', '#', 'n', 'a', 'm', 'e', ' ', 'a', 's', ' ', '#', 'i', 'n', 't', 'e', 'r', 'n', 'a', 'l', ':', ':', 'E', 'n', 'u', 'm', 'S', 'e', 't', 'T', 'y', 'p', 'e', 'P', 'r', 'i', 'v', 'a', 't', 'e', '>', ':', ':', 'R', 'e', 'p', 'r', ' ', 'a', 's', ' ', '#', 'i', 'n', 't', 'e', 'r', 'n', 'a', 'l', ':', ':', 'E', 'n', 'u', 'm', 'S', 'e', 't', 'T', 'y', 'p', 'e', 'R', 'e', 'p', 'r', '>'],
   [' ', ' ', ' ', ' ', ' ', ' ', ' ', ' ', ' ', ' ', ' ', ' ', ' ', ' ', ' ', ' ', ' ', ' ', ' ', ' ', ':', ':', 'P', 'R', 'E', 'F', 'E', 'R', 'R', 'E', 'D', '_', 'A', 'R', 'R', 'A', 'Y', '_', 'L', 'E', 'N'],
   [' ', ' ', ' ', ' ', ' ', ' ', ' ', ' ', ' ', ' ', ' ', ' ', '}', ';'],
   [' ', ' ', ' ', ' ', ' ', ' ', ' ', ' ', ' ', ' ', ' ', ' ', 'l', 'e', 't', ' ', '(', 'c', 'h', 'e', 'c', 'k', '_', 'e', 'x', 't', 'r', 'a', ',', ' ', 'c', 'o', 'n', 'v', 'e', 'r', 't', '_', 'a', 'r', 'r', 'a', 'y', ')', ' ', '=', ' ', 'i', 'f', ' ', 'i', 'n', 'f', 'o', '.', 's', 'e', 'r', 'i', 'a', 'l', 'i', 'z', 'e', '_', 'd', 'e', 'n', 'y', '_', 'u', 'n', 'k', 'n', 'o', 'w', 'n', ' ', '{'],
   [' ', ' ', ' ', ' ', ' ', ' ', ' ', ' ', ' ', ' ', ' ', ' ', ' ', ' ', ' ', ' ', '('],
   [' ', ' ', ' ', ' ', ' ', ' ', ' ', ' ', ' ', ' ', ' ', ' ', ' ', ' ', ' ', ' ', ' ', ' ', ' ', ' ', 'q', 'u', 'o', 't', 'e', '!', ' ', '{'],
   [' ', ' ', ' ', ' ', ' ', ' ', ' ', ' ', ' ', ' ', ' ', ' ', ' ', ' ', ' ', ' ', ' ', ' ', ' ', ' ', ' ', ' ', ' ', ' ', 'i', 'f', ' ', '_', 'v', 'a', 'l', ' ', '!', '=', ' ', '0', ' ', '{'],
   [' ', ' ', ' ', ' ', ' ', ' ', ' ', ' ', ' ', ' ', ' ', ' ', ' ', ' ', ' ', ' ', ' ', ' ', ' ', ' ', ' ', ' ', ' ', ' ', ' ', ' ', ' ', ' ', 'r', 'e', 't', 'u', 'r', 'n', ' ', '#', 'c', 'o', 'r', 'e', ':', ':', 'p', 'r', 'e', 'l', 'u', 'd', 'e', ':', ':', 'v', '1', ':', ':', 'E', 'r', 'r', '('],
   [' ', ' ', ' ', ' ', ' ', ' ', ' ', ' ', ' ', ' ', ' ', ' ', ' ', ' ', ' ', ' ', ' ', ' ', ' ', ' ', ' ', ' ', ' ', ' ', ' ', ' ', ' ', ' ', ' ', ' ', ' ', ' ', 'D', ':', ':', 'E', 'r', 'r', 'o', 'r', ':', ':', 'c', 'u', 's', 't', 'o', 'm', '(', '"', 'e', 'n', 'u', 'm', 's', 'e', 't', ' ', 'c', 'o', 'n', 't', 'a', 'i', 'n', 's', ' ', 'u', 'n', 'k', 'n', 'o', 'w', 'n', ' ', 'b', 'i', 't', 's', '"', ')'],
   [' ', ' ', ' ', ' ', ' ', ' ', ' ', ' ', ' ', ' ', ' ', ' ', ' ', ' ', ' ', ' ', ' ', ' ', ' ', ' ', ' ', ' ', ' ', ' ', ' ', ' ', ' ', ' ', ')'],
   [' ', ' ', ' ', ' ', ' ', ' ', ' ', ' ', ' ', ' ', ' ', ' ', ' ', ' ', ' ', ' ', ' ', ' ', ' ', ' ', ' ', ' ', ' ', ' ', '}'],
   [' ', ' ', ' ', ' ', ' ', ' ', ' ', ' ', ' ', ' ', ' ', ' ', ' ', ' ', ' ', ' ', ' ', ' ', ' ', ' ', '}', ','],
   [' ', ' ', ' ', ' ', ' ', ' ', ' ', ' ', ' ', ' ', ' ', ' ', ' ', ' ', ' ', ' ', ' ', ' ', ' ', ' ', 'q', 'u', 'o', 't', 'e', '!', ' ', '{'],
   [' ', ' ', ' ', ' ', ' ', ' ', ' ', ' ', ' ', ' ', ' ', ' ', ' ', ' ', ' ', ' ', ' ', ' ', ' ', ' ', ' ', ' ', ' ', ' ', 'm', 'a', 't', 'c', 'h', ' ', '#', 'e', 'n', 'u', 'm', 's', 'e', 't', ':', ':', 'E', 'n', 'u', 'm', 'S', 'e', 't', ':', ':', '<', '#', 'n', 'a', 'm', 'e', '>', ':', ':', 't', 'r', 'y', '_', 'f', 'r', 'o', 'm', '_', 'a', 'r', 'r', 'a', 'y', '(', 'a', 'c', 'c', 'u', 'm', ')', ' ', '{'],
   [' ', ' ', ' ', ' ', ' ', ' ', ' ', ' ', ' ', ' ', ' ', ' ', ' ', ' ', ' ', ' ', ' ', ' ', ' ', ' ', ' ', ' ', ' ', ' ', ' ', ' ', ' ', ' ', 'S', 'o', 'm', 'e', '(', 'x', ')', ' ', '=', '>', ' ', 'x', ','],
   [' ', ' ', ' ', ' ', ' ', ' ', ' ', ' ', ' ', ' ', ' ', ' ', ' ', ' ', ' ', ' ', ' ', ' ', ' ', ' ', ' ', ' ', ' ', ' ', ' ', ' ', ' ', ' ', 'N', 'o', 'n', 'e', ' ', '=', '>', ' ', '#', 'c', 'o', 'r', 'e', ':', ':', 'p', 'r', 'e', 'l', 'u', 'd', 'e', ':', ':', 'v', '1', ':', ':', 'E', 'r', 'r', '('],
   [' ', ' ', ' ', ' ', ' ', ' ', ' ', ' ', ' ', ' ', ' ', ' ', ' ', ' ', ' ', ' ', ' ', ' ', ' ', ' ', ' ', ' ', ' ', ' ', ' ', ' ', ' ', ' ', ' ', ' ', ' ', ' ', 'D', ':', ':', 'E', 'r', 'r', 'o', 'r', ':', ':', 'c', 'u', 's', 't', 'o', 'm', '(', '"', 'e', 'n', 'u', 'm', 's', 'e', 't', ' ', 'c', 'o', 'n', 't', 'a', 'i', 'n', 's', ' ', 'u', 'n', 'k', 'n', 'o', 'w', 'n', ' ', 'b', 'i', 't', 's', '"', ')'],
   [' ', ' ', ' ', ' ', ' ', ' ', ' ', ' ', ' ', ' ', ' ', ' ', ' ', ' ', ' ', ' ', ' ', ' ', ' ', ' ', ' ', ' ', ' ', ' ', ' ', ' ', ' ', ' ', ')', ','],
   [' ', ' ', ' ', ' ', ' ', ' ', ' ', ' ', ' ', ' ', ' ', ' ', ' ', ' ', ' ', ' ', ' ', ' ', ' ', ' ', ' ', ' ', ' ', ' ', '}'],
   [' ', ' ', ' ', ' ', ' ', ' ', ' ', ' ', ' ', ' ', ' ', ' ', ' ', ' ', ' ', ' ', ' ', ' ', ' ', ' ', '}', ','],
   [' ', ' ', ' ', ' ', ' ', ' ', ' ', ' ', ' ', ' ', ' ', ' ', ' ', ' ', ' ', ' ', ')'],
   [' ', ' ', ' ', ' ', ' ', ' ', ' ', ' ', ' ', ' ', ' ', ' ', '}', ' ', 'e', 'l', 's', 'e', ' ', '{'],
   [' ', ' ', ' ', ' ', ' ', ' ', ' ', ' ', ' ', ' ', ' ', ' ', ' ', ' ', ' ', ' ', '(', 'q', 'u', 'o', 't', 'e', '!', ' ', '{', '}', ',', ' ', 'q', 'u', 'o', 't', 'e', '!', ' ', '{'],
   [' ', ' ', ' ', ' ', ' ', ' ', ' ', ' ', ' ', ' ', ' ', ' ', ' ', ' ', ' ', ' ', ' ', ' ', ' ', ' ', '#', 'c', 'o', 'r', 'e', ':', ':', 'p', 'r', 'e', 'l', 'u', 'd', 'e', ':', ':', 'v', '1', ':', ':', 'O', 'k', '(', '#', 'e', 'n', 'u', 'm', 's', 'e', 't', ':', ':', 'E', 'n', 'u', 'm', 'S', 'e', 't', ':', ':', '<', '#', 'n', 'a', 'm', 'e', '>', ':', ':', 'f', 'r', 'o', 'm', '_', 'a', 'r', 'r', 'a', 'y', '(', 'a', 'c', 'c', 'u', 'm', ')', ')'],
   [' ', ' ', ' ', ' ', ' ', ' ', ' ', ' ', ' ', ' ', ' ', ' ', ' ', ' ', ' ', ' ', '}', ')'],
   [' ', ' ', ' ', ' ', ' ', ' ', ' ', ' ', ' ', ' ', ' ', ' ', '}', ';'],
   [' ', ' ', ' ', ' ', ' ', ' ', ' ', ' ', ' ', ' ', ' ', ' ', 'q', 'u', 'o', 't', 'e', '!', ' ', '{'],
   [' ', ' ', ' ', ' ', ' ', ' ', ' ', ' ', ' ', ' ', ' ', ' ', ' ', ' ', ' ', ' ', 'f', 'n', ' ', 's', 'e', 'r', 'i', 'a', 'l', 'i', 'z', 'e', '<', 'S', ':', ' ', '#', 's', 'e', 'r', 'd', 'e', ':', ':', 'S', 'e', 'r', 'i', 'a', 'l', 'i', 'z', 'e', 'r', '>', '('],
   [' ', ' ', ' ', ' ', ' ', ' ', ' ', ' ', ' ', ' ', ' ', ' ', ' ', ' ', ' ', ' ', ' ', ' ', ' ', ' ', 's', 'e', 't', ':', ' ', '#', 'e', 'n', 'u', 'm', 's', 'e', 't', ':', ':', 'E', 'n', 'u', 'm', 'S', 'e', 't', '<', '#', 'n', 'a', 'm', 'e', '>', ',', ' ', 's', 'e', 'r', ':', ' ', 'S', ','],
   [' ', ' ', ' ', ' ', ' ', ' ', ' ', ' ', ' ', ' ', ' ', ' ', ' ', ' ', ' ', ' ', ')', ' ', '-', '>', ' ', '#', 'c', 'o', 'r', 'e', ':', ':', 'r', 'e', 's', 'u', 'l', 't', ':', ':', 'R', 'e', 's', 'u', 'l', 't', '<', 'S', ':', ':', 'O', 'k', ',', ' ', 'S', ':', ':', 'E', 'r', 'r', 'o', 'r', '>', ' ', '{'],
   [' ', ' ', ' ', ' ', ' ', ' ', ' ', ' ', ' ', ' ', ' ', ' ', ' ', ' ', ' ', ' ', ' ', ' ', ' ', ' ', '/', '/', ' ', 'r', 'e', 'a', 'd', ' ', 't', 'h', 'e', ' ', 'e', 'n', 'u', 'm', ' ', 'a', 's', ' ', 'a', 'n', ' ', 'a', 'r', 'r', 'a', 'y'],
   [' ', ' ', ' ', ' ', ' ', ' ', ' ', ' ', ' ', ' ', ' ', ' ', ' ', ' ', ' ', ' ', ' ', ' ', ' ', ' ', 'l', 'e', 't', ' ', 'a', 'r', 'r', 'a', 'y', ' ', '=', ' ', 's', 'e', 't', '.', 'a', 's', '_', 'a', 'r', 'r', 'a', 'y', ':', ':', '<', '{', ' ', '#', 'p', 'r', 'e', 'f', 'e', 'r', 'r', 'e', 'd', '_', 's', 'i', 'z', 'e', ' ', '}', '>', '(', ')', ';'],
   [],
   [' ', ' ', ' ', ' ', ' ', ' ', ' ', ' ', ' ', ' ', ' ', ' ', ' ', ' ', ' ', ' ', ' ', ' ', ' ', ' ', '/', '/', ' ', 'f', 'i', 'n', 'd', ' ', 't', 'h', 'e', ' ', 'l', 'a', 's', 't', ' ', 'n', 'o', 'n', '-', 'z', 'e', 'r', 'o', ' ', 'v', 'a', 'l', 'u', 'e', ' ', 'i', 'n', ' ', 't', 'h', 'e', ' ', 'a', 'r', 'r', 'a', 'y'],
   [' ', ' ', ' ', ' ', ' ', ' ', ' ', ' ', ' ', ' ', ' ', ' ', ' ', ' ', ' ', ' ', ' ', ' ', ' ', ' ', 'l', 'e', 't', ' ', 'm', 'u', 't', ' ', 'e', 'n', 'd', ' ', '=', ' ', 'a', 'r', 'r', 'a', 'y', '.', 'l', 'e', 'n', '(', ')', ';'],
   [' ', ' ', ' ', ' ', ' ', ' ', ' ', ' ', ' ', ' ', ' ', ' ', ' ', ' ', ' ', ' ', ' ', ' ', ' ', ' ', 'f', 'o', 'r', ' ', 'i', ' ', 'i', 'n', ' ', '(', '0', '.', '.', 'a', 'r', 'r', 'a', 'y', '.', 'l', 'e', 'n', '(', ')', ')', '.', 'r', 'e', 'v', '(', ')', ' ', '{'],
   [' ', ' ', ' ', ' ', ' ', ' ', ' ', ' ', ' ', ' ', ' ', ' ', ' ', ' ', ' ', ' ', ' ', ' ', ' ', ' ', ' ', ' ', ' ', ' ', 'i', 'f', ' ', 'a', 'r', 'r', 'a', 'y', '[', 'i', ']', ' ', '!', '=', ' ', '0', ' ', '{'],
   [' ', ' ', ' ', ' ', ' ', ' ', ' ', ' ', ' ', ' ', ' ', ' ', ' ', ' ', ' ', ' ', ' ', ' ', ' ', ' ', ' ', ' ', ' ', ' ', ' ', ' ', ' ', ' ', 'b', 'r', 'e', 'a', 'k', ';'],
   [' ', ' ', ' ', ' ', ' ', ' ', ' ', ' ', ' ', ' ', ' ', ' ', ' ', ' ', ' ', ' ', ' ', ' ', ' ', ' ', ' ', ' ', ' ', ' ', '}'],
   [' ', ' ', ' ', ' ', ' ', ' ', ' ', ' ', ' ', ' ', ' ', ' ', ' ', ' ', ' ', ' ', ' ', ' ', ' ', ' ', ' ', ' ', ' ', ' ', 'e', 'n', 'd', ' ', '=', ' ', 'i', ' ', '+', ' ', '1', ';'],
   [' ', ' ', ' ', ' ', ' ', ' ', ' ', ' ', ' ', ' ', ' ', ' ', ' ', ' ', ' ', ' ', ' ', ' ', ' ', ' ', '}'],
   [],
   [' ', ' ', ' ', ' ', ' ', ' ', ' ', ' ', ' ', ' ', ' ', ' ', ' ', ' ', ' ', ' ', ' ', ' ', ' ', ' ', '/', '/', ' ', 's', 'e', 'r', 'i', 'a', 'l', 'i', 'z', 'e', ' ', 't', 'h', 'e', ' ', 'a', 'r', 'r', 'a', 'y'],
   [' ', ' ', ' ', ' ', ' ', ' ', ' ', ' ', ' ', ' ', ' ', ' ', ' ', ' ', ' ', ' ', ' ', ' ', ' ', ' ', '#', 's', 'e', 'r', 'd', 'e', ':', ':', 'S', 'e', 'r', 'i', 'a', 'l', 'i', 'z', 'e', ':', ':', 's', 'e', 'r', 'i', 'a', 'l', 'i', 'z', 'e', '(', '&', 'a', 'r', 'r', 'a', 'y', '[', '.', '.', 'e', 'n', 'd', ']', ',', ' ', 's', 'e', 'r', ')'],
   [' ', ' ', ' ', ' ', ' ', ' ', ' ', ' ', ' ', ' ', ' ', ' ', ' ', ' ', ' ', ' ', '}'],
   [' ', ' ', ' ', ' ', ' ', ' ', ' ', ' ', ' ', ' ', ' ', ' ', ' ', ' ', ' ', ' ', 'f', 'n', ' ', 'd', 'e', 's', 'e', 'r', 'i', 'a', 'l', 'i', 'z', 'e', '<', '\'', 'd', 'e', ',', ' ', 'D', ':', ' ', '#', 's', 'e', 'r', 'd', 'e', ':', ':', 'D', 'e', 's', 'e', 'r', 'i', 'a', 'l', 'i', 'z', 'e', 'r', '<', '\'', 'd', 'e', '>', '>', '('],
   [' ', ' ', ' ', ' ', ' ', ' ', ' ', ' ', ' ', ' ', ' ', ' ', ' ', ' ', ' ', ' ', ' ', ' ', ' ', ' ', 'd', 'e', ':', ' ', 'D', ','],
   [' ', ' ', ' ', ' ', ' ', ' ', ' ', ' ', ' ', ' ', ' ', ' ', ' ', ' ', ' ', ' ', ')', ' ', '-', '>', ' ', '#', 'c', 'o', 'r', 'e', ':', ':', 'r', 'e', 's', 'u', 'l', 't', ':', ':', 'R', 'e', 's', 'u', 'l', 't', '<', '#', 'e', 'n', 'u', 'm', 's', 'e', 't', ':', ':', 'E', 'n', 'u', 'm', 'S', 'e', 't', '<', '#', 'n', 'a', 'm', 'e', '>', ',', ' ', 'D', ':', ':', 'E', 'r', 'r', 'o', 'r', '>', ' ', '{'],
   [' ', ' ', ' ', ' ', ' ', ' ', ' ', ' ', ' ', ' ', ' ', ' ', ' ', ' ', ' ', ' ', ' ', ' ', ' ', ' ', 's', 't', 'r', 'u', 'c', 't', ' ', 'V', 'i', 's', 'i', 't', 'o', 'r', ';'],
   [' ', ' ', ' ', ' ', ' ', ' ', ' ', ' ', ' ', ' ', ' ', ' ', ' ', ' ', ' ', ' ', ' ', ' ', ' ', ' ', 'i', 'm', 'p', 'l', ' ', '<', '\'', 'd', 'e', '>', ' ', '#', 's', 'e', 'r', 'd', 'e', ':', ':', 'd', 'e', ':', ':', 'V', 'i', 's', 'i', 't', 'o', 'r', '<', '\'', 'd', 'e', '>', ' ', 'f', 'o', 'r', ' ', 'V', 'i', 's', 'i', 't', 'o', 'r', ' ', '{'],
   [' ', ' ', ' ', ' ', ' ', ' ', ' ', ' ', ' ', ' ', ' ', ' ', ' ', ' ', ' ', ' ', ' ', ' ', ' ', ' ', ' ', ' ', ' ', ' ', 't', 'y', 'p', 'e', ' ', 'V', 'a', 'l', 'u', 'e', ' ', '=', ' ', '#', 'e', 'n', 'u', 'm', 's', 'e', 't', ':', ':', 'E', 'n', 'u', 'm', 'S', 'e', 't', '<', '#', 'n', 'a', 'm', 'e', '>', ';'],
   [' ', ' ', ' ', ' ', ' ', ' ', ' ', ' ', ' ', ' ', ' ', ' ', ' ', ' ', ' ', ' ', ' ', ' ', ' ', ' ', ' ', ' ', ' ', ' ', 'f', 'n', ' ', 'e', 'x', 'p', 'e', 'c', 't', 'i', 'n', 'g', '('],
   [' ', ' ', ' ', ' ', ' ', ' ', ' ', ' ', ' ', ' ', ' ', ' ', ' ', ' ', ' ', ' ', ' ', ' ', ' ', ' ', ' ', ' ', ' ', ' ', ' ', ' ', ' ', ' ', '&', 's', 'e', 'l', 'f', ',', ' ', 'f', 'o', 'r', 'm', 'a', 't', 't', 'e', 'r', ':', ' ', '&', 'm', 'u', 't', ' ', '#', 'c', 'o', 'r', 'e', ':', ':', 'f', 'm', 't', ':', ':', 'F', 'o', 'r', 'm', 'a', 't', 't', 'e', 'r', ','],
   [' ', ' ', ' ', ' ', ' ', ' ', ' ', ' ', ' ', ' ', ' ', ' ', ' ', ' ', ' ', ' ', ' ', ' ', ' ', ' ', ' ', ' ', ' ', ' ', ')', ' ', '-', '>', ' ', '#', 'c', 'o', 'r', 'e', ':', ':', 'f', 'm', 't', ':', ':', 'R', 'e', 's', 'u', 'l', 't', ' ', '{'],
   [' ', ' ', ' ', ' ', ' ', ' ', ' ', ' ', ' ', ' ', ' ', ' ', ' ', ' ', ' ', ' ', ' ', ' ', ' ', ' ', ' ', ' ', ' ', ' ', ' ', ' ', ' ', ' ', 'w', 'r', 'i', 't', 'e', '!', '(', 'f', 'o', 'r', 'm', 'a', 't', 't', 'e', 'r', ',', ' ', '"', 'a', ' ', 'l', 'i', 's', 't', ' ', 'o', 'f', ' ', 'u', '6', '4', '"', ')'],
   [' ', ' ', ' ', ' ', ' ', ' ', ' ', ' ', ' ', ' ', ' ', ' ', ' ', ' ', ' ', ' ', ' ', ' ', ' ', ' ', ' ', ' ', ' ', ' ', '}'],
   [' ', ' ', ' ', ' ', ' ', ' ', ' ', ' ', ' ', ' ', ' ', ' ', ' ', ' ', ' ', ' ', ' ', ' ', ' ', ' ', ' ', ' ', ' ', ' ', 'f', 'n', ' ', 'v', 'i', 's', 'i', 't', '_', 's', 'e', 'q', '<', 'A', '>', '('],
   [' ', ' ', ' ', ' ', ' ', ' ', ' ', ' ', ' ', ' ', ' ', ' ', ' ', ' ', ' ', ' ', ' ', ' ', ' ', ' ', ' ', ' ', ' ', ' ', ' ', ' ', ' ', ' ', 'm', 'u', 't', ' ', 's', 'e', 'l', 'f', ',', ' ', 'm', 'u', 't', ' ', 's', 'e', 'q', ':', ' ', 'A', ','],
   [' ', ' ', ' ', ' ', ' ', ' ', ' ', ' ', ' ', ' ', ' ', ' ', ' ', ' ', ' ', ' ', ' ', ' ', ' ', ' ', ' ', ' ', ' ', ' ', ')', ' ', '-', '>', ' ', '#', 'c', 'o', 'r', 'e', ':', ':', 'r', 'e', 's', 'u', 'l', 't', ':', ':', 'R', 'e', 's', 'u', 'l', 't', '<', 'S', 'e', 'l', 'f', ':', ':', 'V', 'a', 'l', 'u', 'e', ',', ' ', 'A', ':', ':', 'E', 'r', 'r', 'o', 'r', '>', ' ', 'w', 'h', 'e', 'r', 'e'],
   [' ', ' ', ' ', ' ', ' ', ' ', ' ', ' ', ' ', ' ', ' ', ' ', ' ', ' ', ' ', ' ', ' ', ' ', ' ', ' ', ' ', ' ', ' ', ' ', ' ', ' ', ' ', ' ', 'A', ':', ' ', '#', 's', 'e', 'r', 'd', 'e', ':', ':', 'd', 'e', ':', ':', 'S', 'e', 'q', 'A', 'c', 'c', 'e', 's', 's', '<', '\'', 'd', 'e', '>'],
   [' ', ' ', ' ', ' ', ' ', ' ', ' ', ' ', ' ', ' ', ' ', ' ', ' ', ' ', ' ', ' ', ' ', ' ', ' ', ' ', ' ', ' ', ' ', ' ', '{'],
   [' ', ' ', ' ', ' ', ' ', ' ', ' ', ' ', ' ', ' ', ' ', ' ', ' ', ' ', ' ', ' ', ' ', ' ', ' ', ' ', ' ', ' ', ' ', ' ', ' ', ' ', ' ', ' ', 'l', 'e', 't', ' ', 'm', 'u', 't', ' ', 'a', 'c', 'c', 'u', 'm', ' ', '=', ' ', '[', '0', ';', ' ', '#', 'p', 'r', 'e', 'f', 'e', 'r', 'r', 'e', 'd', '_', 's', 'i', 'z', 'e', ']', ';'],
   [],
   [' ', ' ', ' ', ' ', ' ', ' ', ' ', ' ', ' ', ' ', ' ', ' ', ' ', ' ', ' ', ' ', ' ', ' ', ' ', ' ', ' ', ' ', ' ', ' ', ' ', ' ', ' ', ' ', 'l', 'e', 't', ' ', 'm', 'u', 't', ' ', 'i', ' ', '=', ' ', '0', ';'],
   [' ', ' ', ' ', ' ', ' ', ' ', ' ', ' ', ' ', ' ', ' ', ' ', ' ', ' ', ' ', ' ', ' ', ' ', ' ', ' ', ' ', ' ', ' ', ' ', ' ', ' ', ' ', ' ', 'w', 'h', 'i', 'l', 'e', ' ', 'l', 'e', 't', ' ', '#', 'c', 'o', 'r', 'e', ':', ':', 'p', 'r', 'e', 'l', 'u', 'd', 'e', ':', ':', 'v', '1', ':', ':', 'S', 'o', 'm', 'e', '(', 'v', 'a', 'l', ')', ' ', '=', ' ', 's', 'e', 'q', '.', 'n', 'e', 'x', 't', '_', 'e', 'l', 'e', 'm', 'e', 'n', 't', ':', ':', '<', 'u', '6', '4', '>', '(', ')', '?', ' ', '{'],
   [' ', ' ', ' ', ' ', ' ', ' ', ' ', ' ', ' ', ' ', ' ', ' ', ' ', ' ', ' ', ' ', ' ', ' ', ' ', ' ', ' ', ' ', ' ', ' ', ' ', ' ', ' ', ' ', ' ', ' ', ' ', ' ', 'a', 'c', 'c', 'u', 'm', '[', 'i', ']', ' ', '=', ' ', 'v', 'a', 'l', ';'],
   [' ', ' ', ' ', ' ', ' ', ' ', ' ', ' ', ' ', ' ', ' ', ' ', ' ', ' ', ' ', ' ', ' ', ' ', ' ', ' ', ' ', ' ', ' ', ' ', ' ', ' ', ' ', ' ', ' ', ' ', ' ', ' ', 'i', ' ', '+', '=', ' ', '1', ';'],
   [],
   [' ', ' ', ' ', ' ', ' ', ' ', ' ', ' ', ' ', ' ', ' ', ' ', ' ', ' ', ' ', ' ', ' ', ' ', ' ', ' ', ' ', ' ', ' ', ' ', ' ', ' ', ' ', ' ', ' ', ' ', ' ', ' ', 'i', 'f', ' ', 'i', ' ', '=', '=', ' ', 'a', 'c', 'c', 'u', 'm', '.', 'l', 'e', 'n', '(', ')', ' ', '{'],
   [' ', ' ', ' ', ' ', ' ', ' ', ' ', ' ', ' ', ' ', ' ', ' ', ' ', ' ', ' ', ' ', ' ', ' ', ' ', ' ', ' ', ' ', ' ', ' ', ' ', ' ', ' ', ' ', ' ', ' ', ' ', ' ', ' ', ' ', ' ', ' ', 'b', 'r', 'e', 'a', 'k', ';'],
   [' ', ' ', ' ', ' ', ' ', ' ', ' ', ' ', ' ', ' ', ' ', ' ', ' ', ' ', ' ', ' ', ' ', ' ', ' ', ' ', ' ', ' ', ' ', ' ', ' ', ' ', ' ', ' ', ' ', ' ', ' ', ' ', '}'],
   [' ', ' ', ' ', ' ', ' ', ' ', ' ', ' ', ' ', ' ', ' ', ' ', ' ', ' ', ' ', ' ', ' ', ' ', ' ', ' ', ' ', ' ', ' ', ' ', ' ', ' ', ' ', ' ', '}'],
   [' ', ' ', ' ', ' ', ' ', ' ', ' ', ' ', ' ', ' ', ' ', ' ', ' ', ' ', ' ', ' ', ' ', ' ', ' ', ' ', ' ', ' ', ' ', ' ', ' ', ' ', ' ', ' ', 'w', 'h', 'i', 'l', 'e', ' ', 'l', 'e', 't', ' ', '#', 'c', 'o', 'r', 'e', ':', ':', 'p', 'r', 'e', 'l', 'u', 'd', 'e', ':', ':', 'v', '1', ':', ':', 'S', 'o', 'm', 'e', '(', '_', 'v', 'a', 'l', ')', ' ', '=', ' ', 's', 'e', 'q', '.', 'n', 'e', 'x', 't', '_', 'e', 'l', 'e', 'm', 'e', 'n', 't', ':', ':', '<', 'u', '6', '4', '>', '(', ')', '?', ' ', '{'],
   [' ', ' ', ' ', ' ', ' ', ' ', ' ', ' ', ' ', ' ', ' ', ' ', ' ', ' ', ' ', ' ', ' ', ' ', ' ', ' ', ' ', ' ', ' ', ' ', ' ', ' ', ' ', ' ', ' ', ' ', ' ', ' ', '#', 'c', 'h', 'e', 'c', 'k', '_', 'e', 'x', 't', 'r', 'a'],
   [' ', ' ', ' ', ' ', ' ', ' ', ' ', ' ', ' ', ' ', ' ', ' ', ' ', ' ', ' ', ' ', ' ', ' ', ' ', ' ', ' ', ' ', ' ', ' ', ' ', ' ', ' ', ' ', '}'],
   [],
   [' ', ' ', ' ', ' ', ' ', ' ', ' ', ' ', ' ', ' ', ' ', ' ', ' ', ' ', ' ', ' ', ' ', ' ', ' ', ' ', ' ', ' ', ' ', ' ', ' ', ' ', ' ', ' ', '#', 'c', 'o', 'n', 'v', 'e', 'r', 't', '_', 'a', 'r', 'r', 'a', 'y'],
   [' ', ' ', ' ', ' ', ' ', ' ', ' ', ' ', ' ', ' ', ' ', ' ', ' ', ' ', ' ', ' ', ' ', ' ', ' ', ' ', ' ', ' ', ' ', ' ', '}'],
   [' ', ' ', ' ', ' ', ' ', ' ', ' ', ' ', ' ', ' ', ' ', ' ', ' ', ' ', ' ', ' ', ' ', ' ', ' ', ' ', '}'],
   [' ', ' ', ' ', ' ', ' ', ' ', ' ', ' ', ' ', ' ', ' ', ' ', ' ', ' ', ' ', ' ', ' ', ' ', ' ', ' ', 'd', 'e', '.', 'd', 'e', 's', 'e', 'r', 'i', 'a', 'l', 'i', 'z', 'e', '_', 's', 'e', 'q', '(', 'V', 'i', 's', 'i', 't', 'o', 'r', ')'],
   [' ', ' ', ' ', ' ', ' ', ' ', ' ', ' ', ' ', ' ', ' ', ' ', ' ', ' ', ' ', ' ', '}'],
   [' ', ' ', ' ', ' ', ' ', ' ', ' ', ' ', ' ', ' ', ' ', ' ', '}'],
   [' ', ' ', ' ', ' ', ' ', ' ', ' ', ' ', '}'],
   [' ', ' ', ' ', ' ', '}', ';'],
   [],
   [' ', ' ', ' ', ' ', '#', '[', 'c', 'f', 'g', '(', 'n', 'o', 't', '(', 'f', 'e', 'a', 't', 'u', 'r', 'e', ' ', '=', ' ', '"', 's', 'e', 'r', 'd', 'e', '"', ')', ')', ']'],
   [' ', ' ', ' ', ' ', 'l', 'e', 't', ' ', 's', 'e', 'r', 'd', 'e', '_', 'o', 'p', 's', ' ', '=', ' ', 'q', 'u', 'o', 't', 'e', '!', ' ', '{', '}', ';'],
   [],
   [' ', ' ', ' ', ' ', 'l', 'e', 't', ' ', 'i', 's', '_', 'u', 'n', 'i', 'n', 'h', 'a', 'b', 'i', 't', 'e', 'd', ' ', '=', ' ', 'i', 'n', 'f', 'o', '.', 'v', 'a', 'r', 'i', 'a', 'n', 't', 's', '.', 'i', 's', '_', 'e', 'm', 'p', 't', 'y', '(', ')', ';'],
   [' ', ' ', ' ', ' ', 'l', 'e', 't', ' ', 'i', 's', '_', 'z', 's', 't', ' ', '=', ' ', 'i', 'n', 'f', 'o', '.', 'v', 'a', 'r', 'i', 'a', 'n', 't', 's', '.', 'l', 'e', 'n', '(', ')', ' ', '=', '=', ' ', '1', ';'],
   [' ', ' ', ' ', ' ', 'l', 'e', 't', ' ', 'i', 'n', 't', 'o', '_', 'i', 'm', 'p', 'l', ' ', '=', ' ', 'i', 'f', ' ', 'i', 's', '_', 'u', 'n', 'i', 'n', 'h', 'a', 'b', 'i', 't', 'e', 'd', ' ', '{'],
   [' ', ' ', ' ', ' ', ' ', ' ', ' ', ' ', 'q', 'u', 'o', 't', 'e', '!', ' ', '{'],
   [' ', ' ', ' ', ' ', ' ', ' ', ' ', ' ', ' ', ' ', ' ', ' ', 'f', 'n', ' ', 'e', 'n', 'u', 'm', '_', 'i', 'n', 't', 'o', '_', 'u', '3', '2', '(', 's', 'e', 'l', 'f', ')', ' ', '-', '>', ' ', 'u', '3', '2', ' ', '{'],
   [' ', ' ', ' ', ' ', ' ', ' ', ' ', ' ', ' ', ' ', ' ', ' ', ' ', ' ', ' ', ' ', 'p', 'a', 'n', 'i', 'c', '!', '(', 'c', 'o', 'n', 'c', 'a', 't', '!', '(', 's', 't', 'r', 'i', 'n', 'g', 'i', 'f', 'y', '!', '(', '#', 'n', 'a', 'm', 'e', ')', ',', ' ', '"', ' ', 'i', 's', ' ', 'u', 'n', 'i', 'n', 'h', 'a', 'b', 'i', 't', 'e', 'd', '.', '"', ')', ')'],
   [' ', ' ', ' ', ' ', ' ', ' ', ' ', ' ', ' ', ' ', ' ', ' ', '}'],
   [' ', ' ', ' ', ' ', ' ', ' ', ' ', ' ', ' ', ' ', ' ', ' ', 'u', 'n', 's', 'a', 'f', 'e', ' ', 'f', 'n', ' ', 'e', 'n', 'u', 'm', '_', 'f', 'r', 'o', 'm', '_', 'u', '3', '2', '(', 'v', 'a', 'l', ':', ' ', 'u', '3', '2', ')', ' ', '-', '>', ' ', 'S', 'e', 'l', 'f', ' ', '{'],
   [' ', ' ', ' ', ' ', ' ', ' ', ' ', ' ', ' ', ' ', ' ', ' ', ' ', ' ', ' ', ' ', 'p', 'a', 'n', 'i', 'c', '!', '(', 'c', 'o', 'n', 'c', 'a', 't', '!', '(', 's', 't', 'r', 'i', 'n', 'g', 'i', 'f', 'y', '!', '(', '#', 'n', 'a', 'm', 'e', ')', ',', ' ', '"', ' ', 'i', 's', ' ', 'u', 'n', 'i', 'n', 'h', 'a', 'b', 'i', 't', 'e', 'd', '.', '"', ')', ')'],
   [' ', ' ', ' ', ' ', ' ', ' ', ' ', ' ', ' ', ' ', ' ', ' ', '}'],
   [' ', ' ', ' ', ' ', ' ', ' ', ' ', ' ', '}'],
   [' ', ' ', ' ', ' ', '}', ' ', 'e', 'l', 's', 'e', ' ', 'i', 'f', ' ', 'i', 's', '_', 'z', 's', 't', ' ', '{'],
   [' ', ' ', ' ', ' ', ' ', ' ', ' ', ' ', 'l', 'e', 't', ' ', 'v', 'a', 'r', 'i', 'a', 'n', 't', ' ', '=', ' ', '&', 'i', 'n', 'f', 'o', '.', 'v', 'a', 'r', 'i', 'a', 'n', 't', 's', '[', '0', ']', '.', 'n', 'a', 'm', 'e', ';'],
   [' ', ' ', ' ', ' ', ' ', ' ', ' ', ' ', 'q', 'u', 'o', 't', 'e', '!', ' ', '{'],
   [' ', ' ', ' ', ' ', ' ', ' ', ' ', ' ', ' ', ' ', ' ', ' ', 'f', 'n', ' ', 'e', 'n', 'u', 'm', '_', 'i', 'n', 't', 'o', '_', 'u', '3', '2', '(', 's', 'e', 'l', 'f', ')', ' ', '-', '>', ' ', 'u', '3', '2', ' ', '{'],
   [' ', ' ', ' ', ' ', ' ', ' ', ' ', ' ', ' ', ' ', ' ', ' ', ' ', ' ', ' ', ' ', 's', 'e', 'l', 'f', ' ', 'a', 's', ' ', 'u', '3', '2'],
   [' ', ' ', ' ', ' ', ' ', ' ', ' ', ' ', ' ', ' ', ' ', ' ', '}'],
   [' ', ' ', ' ', ' ', ' ', ' ', ' ', ' ', ' ', ' ', ' ', ' ', 'u', 'n', 's', 'a', 'f', 'e', ' ', 'f', 'n', ' ', 'e', 'n', 'u', 'm', '_', 'f', 'r', 'o', 'm', '_', 'u', '3', '2', '(', 'v', 'a', 'l', ':', ' ', 'u', '3', '2', ')', ' ', '-', '>', ' ', 'S', 'e', 'l', 'f', ' ', '{'],
   [' ', ' ', ' ', ' ', ' ', ' ', ' ', ' ', ' ', ' ', ' ', ' ', ' ', ' ', ' ', ' ', '#', 'n', 'a', 'm', 'e', ':', ':', '#', 'v', 'a', 'r', 'i', 'a', 'n', 't'],
   [' ', ' ', ' ', ' ', ' ', ' ', ' ', ' ', ' ', ' ', ' ', ' ', '}'],
   [' ', ' ', ' ', ' ', ' ', ' ', ' ', ' ', '}'],
   [' ', ' ', ' ', ' ', '}', ' ', 'e', 'l', 's', 'e', ' ', '{'],
   [' ', ' ', ' ', ' ', ' ', ' ', ' ', ' ', 'l', 'e', 't', ' ', 'v', 'a', 'r', 'i', 'a', 'n', 't', '_', 'n', 'a', 'm', 'e', ':', ' ', 'V', 'e', 'c', '<', '_', '>', ' ', '=', ' ', 'i', 'n', 'f', 'o', '.', 'v', 'a', 'r', 'i', 'a', 'n', 't', 's', '.', 'i', 't', 'e', 'r', '(', ')', '.', 'm', 'a', 'p', '(', '|', 'x', '|', ' ', '&', 'x', '.', 'n', 'a', 'm', 'e', ')', '.', 'c', 'o', 'l', 'l', 'e', 'c', 't', '(', ')', ';'],
   [' ', ' ', ' ', ' ', ' ', ' ', ' ', ' ', 'l', 'e', 't', ' ', 'v', 'a', 'r', 'i', 'a', 'n', 't', '_', 'v', 'a', 'l', 'u', 'e', ':', ' ', 'V', 'e', 'c', '<', '_', '>', ' ', '=', ' ', 'i', 'n', 'f', 'o', '.', 'v', 'a', 'r', 'i', 'a', 'n', 't', 's', '.', 'i', 't', 'e', 'r', '(', ')', '.', 'm', 'a', 'p', '(', '|', 'x', '|', ' ', 'x', '.', 'v', 'a', 'r', 'i', 'a', 'n', 't', '_', 'r', 'e', 'p', 'r', ')', '.', 'c', 'o', 'l', 'l', 'e', 'c', 't', '(', ')', ';'],
   [],
   [' ', ' ', ' ', ' ', ' ', ' ', ' ', ' ', 'l', 'e', 't', ' ', 'c', 'o', 'n', 's', 't', '_', 'f', 'i', 'e', 'l', 'd', ':', ' ', 'V', 'e', 'c', '<', '_', '>', ' ', '=', ' ', '[', '"', 'I', 'S', '_', 'U', '8', '"', ',', ' ', '"', 'I', 'S', '_', 'U', '1', '6', '"', ',', ' ', '"', 'I', 'S', '_', 'U', '3', '2', '"', ',', ' ', '"', 'I', 'S', '_', 'U', '6', '4', '"', ',', ' ', '"', 'I', 'S', '_', 'U', '1', '2', '8', '"', ']'],
   [' ', ' ', ' ', ' ', ' ', ' ', ' ', ' ', ' ', ' ', ' ', ' ', '.', 'i', 't', 'e', 'r', '(', ')'],
   [' ', ' ', ' ', ' ', ' ', ' ', ' ', ' ', ' ', ' ', ' ', ' ', '.', 'm', 'a', 'p', '(', '|', 'x', '|', ' ', 'I', 'd', 'e', 'n', 't', ':', ':', 'n', 'e', 'w', '(', 'x', ',', ' ', 'S', 'p', 'a', 'n', ':', ':', 'c', 'a', 'l', 'l', '_', 's', 'i', 't', 'e', '(', ')', ')', ')'],
   [' ', ' ', ' ', ' ', ' ', ' ', ' ', ' ', ' ', ' ', ' ', ' ', '.', 'c', 'o', 'l', 'l', 'e', 'c', 't', '(', ')', ';'],
   [' ', ' ', ' ', ' ', ' ', ' ', ' ', ' ', 'l', 'e', 't', ' ', 'i', 'n', 't', '_', 't', 'y', 'p', 'e', ':', ' ', 'V', 'e', 'c', '<', '_', '>', ' ', '=', ' ', '[', '"', 'u', '8', '"', ',', ' ', '"', 'u', '1', '6', '"', ',', ' ', '"', 'u', '3', '2', '"', ',', ' ', '"', 'u', '6', '4', '"', ',', ' ', '"', 'u', '1', '2', '8', '"', ']'],
   [' ', ' ', ' ', ' ', ' ', ' ', ' ', ' ', ' ', ' ', ' ', ' ', '.', 'i', 't', 'e', 'r', '(', ')'],
   [' ', ' ', ' ', ' ', ' ', ' ', ' ', ' ', ' ', ' ', ' ', ' ', '.', 'm', 'a', 'p', '(', '|', 'x', '|', ' ', 'I', 'd', 'e', 'n', 't', ':', ':', 'n', 'e', 'w', '(', 'x', ',', ' ', 'S', 'p', 'a', 'n', ':', ':', 'c', 'a', 'l', 'l', '_', 's', 'i', 't', 'e', '(', ')', ')', ')'],
   [' ', ' ', ' ', ' ', ' ', ' ', ' ', ' ', ' ', ' ', ' ', ' ', '.', 'c', 'o', 'l', 'l', 'e', 'c', 't', '(', ')', ';'],
   [],
   [' ', ' ', ' ', ' ', ' ', ' ', ' ', ' ', 'q', 'u', 'o', 't', 'e', '!', ' ', '{'],
   [' ', ' ', ' ', ' ', ' ', ' ', ' ', ' ', ' ', ' ', ' ', ' ', 'f', 'n', ' ', 'e', 'n', 'u', 'm', '_', 'i', 'n', 't', 'o', '_', 'u', '3', '2', '(', 's', 'e', 'l', 'f', ')', ' ', '-', '>', ' ', 'u', '3', '2', ' ', '{'],
   [' ', ' ', ' ', ' ', ' ', ' ', ' ', ' ', ' ', ' ', ' ', ' ', ' ', ' ', ' ', ' ', 's', 'e', 'l', 'f', ' ', 'a', 's', ' ', 'u', '3', '2'],
   [' ', ' ', ' ', ' ', ' ', ' ', ' ', ' ', ' ', ' ', ' ', ' ', '}'],
   [' ', ' ', ' ', ' ', ' ', ' ', ' ', ' ', ' ', ' ', ' ', ' ', 'u', 'n', 's', 'a', 'f', 'e', ' ', 'f', 'n', ' ', 'e', 'n', 'u', 'm', '_', 'f', 'r', 'o', 'm', '_', 'u', '3', '2', '(', 'v', 'a', 'l', ':', ' ', 'u', '3', '2', ')', ' ', '-', '>', ' ', 'S', 'e', 'l', 'f', ' ', '{'],
   [' ', ' ', ' ', ' ', ' ', ' ', ' ', ' ', ' ', ' ', ' ', ' ', ' ', ' ', ' ', ' ', '/', '/', ' ', 'W', 'e', ' ', 'p', 'u', 't', ' ', 't', 'h', 'e', 's', 'e', ' ', 'i', 'n', ' ', 'c', 'o', 'n', 's', 't', ' ', 'f', 'i', 'e', 'l', 'd', 's', ' ', 's', 'o', ' ', 't', 'h', 'e', ' ', 'b', 'r', 'a', 'n', 'c', 'h', 'e', 's', ' ', 't', 'h', 'e', 'y', ' ', 'g', 'u', 'a', 'r', 'd', ' ', 'a', 'r', 'e', 'n', '\'', 't', ' ', 'g', 'e', 'n', 'e', 'r', 'a', 't', 'e', 'd', ' ', 'e', 'v', 'e', 'n'],
   [' ', ' ', ' ', ' ', ' ', ' ', ' ', ' ', ' ', ' ', ' ', ' ', ' ', ' ', ' ', ' ', '/', '/', ' ', 'o', 'n', ' ', '-', 'O', '0'],
   [' ', ' ', ' ', ' ', ' ', ' ', ' ', ' ', ' ', ' ', ' ', ' ', ' ', ' ', ' ', ' ', '#', '(', 'c', 'o', 'n', 's', 't', ' ', '#', 'c', 'o', 'n', 's', 't', '_', 'f', 'i', 'e', 'l', 'd', ':', ' ', 'b', 'o', 'o', 'l', ' ', '='],
   [' ', ' ', ' ', ' ', ' ', ' ', ' ', ' ', ' ', ' ', ' ', ' ', ' ', ' ', ' ', ' ', ' ', ' ', ' ', ' ', '#', 'c', 'o', 'r', 'e', ':', ':', 'm', 'e', 'm', ':', ':', 's', 'i', 'z', 'e', '_', 'o', 'f', ':', ':', '<', '#', 'n', 'a', 'm', 'e', '>', '(', ')', ' ', '=', '=', ' ', '#', 'c', 'o', 'r', 'e', ':', ':', 'm', 'e', 'm', ':', ':', 's', 'i', 'z', 'e', '_', 'o', 'f', ':', ':', '<', '#', 'i', 'n', 't', '_', 't', 'y', 'p', 'e', '>', '(', ')', ';', ')', '*'],
   [' ', ' ', ' ', ' ', ' ', ' ', ' ', ' ', ' ', ' ', ' ', ' ', ' ', ' ', ' ', ' ', 'm', 'a', 't', 'c', 'h', ' ', 'v', 'a', 'l', ' ', '{'],
   [' ', ' ', ' ', ' ', ' ', ' ', ' ', ' ', ' ', ' ', ' ', ' ', ' ', ' ', ' ', ' ', ' ', ' ', ' ', ' ', '/', '/', ' ', 'E', 'v', 'e', 'r', 'y', ' ', 'v', 'a', 'l', 'i', 'd', ' ', 'v', 'a', 'r', 'i', 'a', 'n', 't', ' ', 'v', 'a', 'l', 'u', 'e', ' ', 'h', 'a', 's', ' ', 'a', 'n', ' ', 'e', 'x', 'p', 'l', 'i', 'c', 'i', 't', ' ', 'b', 'r', 'a', 'n', 'c', 'h', '.', ' ', 'I', 'f', ' ', 't', 'h', 'e', 'y', ' ', 'g', 'e', 't', ' ', 'o', 'p', 't', 'i', 'm', 'i', 'z', 'e', 'd', ' ', 'o', 'u', 't', ','],
   [' ', ' ', ' ', ' ', ' ', ' ', ' ', ' ', ' ', ' ', ' ', ' ', ' ', ' ', ' ', ' ', ' ', ' ', ' ', ' ', '/', '/', ' ', 'g', 'r', 'e', 'a', 't', '.', ' ', 'I', 'f', ' ', 't', 'h', 'e', ' ', 'r', 'e', 'p', 'r', 'e', 's', 'e', 'n', 't', 'a', 't', 'i', 'o', 'n', ' ', 'h', 'a', 's', ' ', 'c', 'h', 'a', 'n', 'g', 'e', 'd', ' ', 's', 'o', 'm', 'e', 'h', 'o', 'w', ',', ' ', 'a', 'n', 'd', ' ', 't', 'h', 'e', 'y', ' ', 'd', 'o', 'n', '\'', 't', ',', ' ', 'o', 'h', ' ', 'w', 'e', 'l', 'l', ','],
   [' ', ' ', ' ', ' ', ' ', ' ', ' ', ' ', ' ', ' ', ' ', ' ', ' ', ' ', ' ', ' ', ' ', ' ', ' ', ' ', '/', '/', ' ', 't', 'h', 'e', 'r', 'e', '\'', 's', ' ', 's', 't', 'i', 'l', 'l', ' ', 'n', 'o', ' ', 'U', 'B', '.'],
   [' ', ' ', ' ', ' ', ' ', ' ', ' ', ' ', ' ', ' ', ' ', ' ', ' ', ' ', ' ', ' ', ' ', ' ', ' ', ' ', '#', '(', '#', 'v', 'a', 'r', 'i', 'a', 'n', 't', '_', 'v', 'a', 'l', 'u', 'e', ' ', '=', '>', ' ', '#', 'n', 'a', 'm', 'e', ':', ':', '#', 'v', 'a', 'r', 'i', 'a', 'n', 't', '_', 'n', 'a', 'm', 'e', ',', ')', '*'],
   [' ', ' ', ' ', ' ', ' ', ' ', ' ', ' ', ' ', ' ', ' ', ' ', ' ', ' ', ' ', ' ', ' ', ' ', ' ', ' ', '/', '/', ' ', 'H', 'e', 'l', 'p', 's', ' ', 'h', 'i', 'n', 't', ' ', 't', 'o', ' ', 't', 'h', 'e', ' ', 'L', 'L', 'V', 'M', ' ', 't', 'h', 'a', 't', ' ', 't', 'h', 'i', 's', ' ', 'i', 's', ' ', 'a', ' ', 't', 'r', 'a', 'n', 's', 'm', 'u', 't', 'e', '.', ' ', 'N', 'o', 't', 'e', ' ', 't', 'h', 'a', 't', ' ', 't', 'h', 'i', 's', ' ', 'b', 'r', 'a', 'n', 'c', 'h', ' ', 'i', 's'],
   [' ', ' ', ' ', ' ', ' ', ' ', ' ', ' ', ' ', ' ', ' ', ' ', ' ', ' ', ' ', ' ', ' ', ' ', ' ', ' ', '/', '/', ' ', 's', 't', 'i', 'l', 'l', ' ', 'u', 'n', 'r', 'e', 'a', 'c', 'h', 'a', 'b', 'l', 'e', '.'],
   [' ', ' ', ' ', ' ', ' ', ' ', ' ', ' ', ' ', ' ', ' ', ' ', ' ', ' ', ' ', ' ', ' ', ' ', ' ', ' ', '#', '(', 'x', ' ', 'i', 'f', ' ', '#', 'c', 'o', 'n', 's', 't', '_', 'f', 'i', 'e', 'l', 'd', ' ', '=', '>', ' ', '{'],
   [' ', ' ', ' ', ' ', ' ', ' ', ' ', ' ', ' ', ' ', ' ', ' ', ' ', ' ', ' ', ' ', ' ', ' ', ' ', ' ', ' ', ' ', ' ', ' ', 'l', 'e', 't', ' ', 'x', ' ', '=', ' ', 'x', ' ', 'a', 's', ' ', '#', 'i', 'n', 't', '_', 't', 'y', 'p', 'e', ';'],
   [' ', ' ', ' ', ' ', ' ', ' ', ' ', ' ', ' ', ' ', ' ', ' ', ' ', ' ', ' ', ' ', ' ', ' ', ' ', ' ', ' ', ' ', ' ', ' ', '*', '(', '&', 'x', ' ', 'a', 's', ' ', '*', 'c', 'o', 'n', 's', 't', ' ', '_', ' ', 'a', 's', ' ', '*', 'c', 'o', 'n', 's', 't', ' ', '#', 'n', 'a', 'm', 'e', ')'],
   [' ', ' ', ' ', ' ', ' ', ' ', ' ', ' ', ' ', ' ', ' ', ' ', ' ', ' ', ' ', ' ', ' ', ' ', ' ', ' ', '}', ')', '*'],
   [' ', ' ', ' ', ' ', ' ', ' ', ' ', ' ', ' ', ' ', ' ', ' ', ' ', ' ', ' ', ' ', ' ', ' ', ' ', ' ', '/', '/', ' ', 'D', 'e', 'f', 'a', 'u', 'l', 't', ' ', 'c', 'a', 's', 'e', '.', ' ', 'S', 'o', 'm', 'e', 't', 'i', 'm', 'e', 's', ' ', 'c', 'a', 'u', 's', 'e', 's', ' ', 'L', 'L', 'V', 'M', ' ', 't', 'o', ' ', 'g', 'e', 'n', 'e', 'r', 'a', 't', 'e', ' ', 'a', ' ', 't', 'a', 'b', 'l', 'e', ' ', 'i', 'n', 's', 't', 'e', 'a', 'd', ' ', 'o', 'f', ' ', 'a', ' ', 's', 'i', 'm', 'p', 'l', 'e'],
   [' ', ' ', ' ', ' ', ' ', ' ', ' ', ' ', ' ', ' ', ' ', ' ', ' ', ' ', ' ', ' ', ' ', ' ', ' ', ' ', '/', '/', ' ', 't', 'r', 'a', 'n', 's', 'm', 'u', 't', 'e', ',', ' ', 'b', 'u', 't', ',', ' ', 'o', 'h', ' ', 'w', 'e', 'l', 'l', '.'],
   [' ', ' ', ' ', ' ', ' ', ' ', ' ', ' ', ' ', ' ', ' ', ' ', ' ', ' ', ' ', ' ', ' ', ' ', ' ', ' ', '_', ' ', '=', '>', ' ', '#', 'c', 'o', 'r', 'e', ':', ':', 'h', 'i', 'n', 't', ':', ':', 'u', 'n', 'r', 'e', 'a', 'c', 'h', 'a', 'b', 'l', 'e', '_', 'u', 'n', 'c', 'h', 'e', 'c', 'k', 'e', 'd', '(', ')', ','],
   [' ', ' ', ' ', ' ', ' ', ' ', ' ', ' ', ' ', ' ', ' ', ' ', ' ', ' ', ' ', ' ', '}'],
   [' ', ' ', ' ', ' ', ' ', ' ', ' ', ' ', ' ', ' ', ' ', ' ', '}'],
   [' ', ' ', ' ', ' ', ' ', ' ', ' ', ' ', '}'],
   [' ', ' ', ' ', ' ', '}', ';'],
   [],
   [' ', ' ', ' ', ' ', 'l', 'e', 't', ' ', 'e', 'q', '_', 'i', 'm', 'p', 'l', ' ', '=', ' ', 'i', 'f', ' ', 'i', 's', '_', 'u', 'n', 'i', 'n', 'h', 'a', 'b', 'i', 't', 'e', 'd', ' ', '{'],
   [' ', ' ', ' ', ' ', ' ', ' ', ' ', ' ', 'q', 'u', 'o', 't', 'e', '!', '(', 'p', 'a', 'n', 'i', 'c', '!', '(', 'c', 'o', 'n', 'c', 'a', 't', '!', '(', 's', 't', 'r', 'i', 'n', 'g', 'i', 'f', 'y', '!', '(', '#', 'n', 'a', 'm', 'e', ')', ',', ' ', '"', ' ', 'i', 's', ' ', 'u', 'n', 'i', 'n', 'h', 'a', 'b', 'i', 't', 'e', 'd', '.', '"', ')', ')', ')'],
   [' ', ' ', ' ', ' ', '}', ' ', 'e', 'l', 's', 'e', ' ', '{'],
   [' ', ' ', ' ', ' ', ' ', ' ', ' ', ' ', 'q', 'u', 'o', 't', 'e', '!', '(', '(', '*', 's', 'e', 'l', 'f', ' ', 'a', 's', ' ', 'u', '3', '2', ')', ' ', '=', '=', ' ', '(', '*', 'o', 't', 'h', 'e', 'r', ' ', 'a', 's', ' ', 'u', '3', '2', ')', ')'],
   [' ', ' ', ' ', ' ', '}', ';'],
   [],
   [' ', ' ', ' ', ' ', 'l', 'e', 't', ' ', 's', 'u', 'p', 'e', 'r', '_', 'i', 'm', 'p', 'l', 's', ' ', '=', ' ', 'i', 'f', ' ', 'i', 'n', 'f', 'o', '.', 'n', 'o', '_', 's', 'u', 'p', 'e', 'r', '_', 'i', 'm', 'p', 'l', 's', ' ', '{'],
   [' ', ' ', ' ', ' ', ' ', ' ', ' ', ' ', 'q', 'u', 'o', 't', 'e', '!', ' ', '{', '}'],
   [' ', ' ', ' ', ' ', '}', ' ', 'e', 'l', 's', 'e', ' ', '{'],
   [' ', ' ', ' ', ' ', ' ', ' ', ' ', ' ', 'q', 'u', 'o', 't', 'e', '!', ' ', '{'],
   [' ', ' ', ' ', ' ', ' ', ' ', ' ', ' ', ' ', ' ', ' ', ' ', '#', '[', 'a', 'u', 't', 'o', 'm', 'a', 't', 'i', 'c', 'a', 'l', 'l', 'y', '_', 'd', 'e', 'r', 'i', 'v', 'e', 'd', ']'],
   [' ', ' ', ' ', ' ', ' ', ' ', ' ', ' ', ' ', ' ', ' ', ' ', 'i', 'm', 'p', 'l', ' ', '#', 'c', 'o', 'r', 'e', ':', ':', 'c', 'm', 'p', ':', ':', 'P', 'a', 'r', 't', 'i', 'a', 'l', 'E', 'q', ' ', 'f', 'o', 'r', ' ', '#', 'n', 'a', 'm', 'e', ' ', '{'],
   [' ', ' ', ' ', ' ', ' ', ' ', ' ', ' ', ' ', ' ', ' ', ' ', ' ', ' ', ' ', ' ', 'f', 'n', ' ', 'e', 'q', '(', '&', 's', 'e', 'l', 'f', ',', ' ', 'o', 't', 'h', 'e', 'r', ':', ' ', '&', 'S', 'e', 'l', 'f', ')', ' ', '-', '>', ' ', 'b', 'o', 'o', 'l', ' ', '{'],
   [' ', ' ', ' ', ' ', ' ', ' ', ' ', ' ', ' ', ' ', ' ', ' ', ' ', ' ', ' ', ' ', ' ', ' ', ' ', ' ', '#', 'e', 'q', '_', 'i', 'm', 'p', 'l'],
   [' ', ' ', ' ', ' ', ' ', ' ', ' ', ' ', ' ', ' ', ' ', ' ', ' ', ' ', ' ', ' ', '}'],
   [' ', ' ', ' ', ' ', ' ', ' ', ' ', ' ', ' ', ' ', ' ', ' ', '}'],
   [' ', ' ', ' ', ' ', ' ', ' ', ' ', ' ', ' ', ' ', ' ', ' ', '#', '[', 'a', 'u', 't', 'o', 'm', 'a', 't', 'i', 'c', 'a', 'l', 'l', 'y', '_', 'd', 'e', 'r', 'i', 'v', 'e', 'd', ']'],
   [' ', ' ', ' ', ' ', ' ', ' ', ' ', ' ', ' ', ' ', ' ', ' ', 'i', 'm', 'p', 'l', ' ', '#', 'c', 'o', 'r', 'e', ':', ':', 'c', 'm', 'p', ':', ':', 'E', 'q', ' ', 'f', 'o', 'r', ' ', '#', 'n', 'a', 'm', 'e', ' ', '{', ' ', '}'],
   [' ', ' ', ' ', ' ', ' ', ' ', ' ', ' ', ' ', ' ', ' ', ' ', '#', '[', 'a', 'u', 't', 'o', 'm', 'a', 't', 'i', 'c', 'a', 'l', 'l', 'y', '_', 'd', 'e', 'r', 'i', 'v', 'e', 'd', ']'],
   [' ', ' ', ' ', ' ', ' ', ' ', ' ', ' ', ' ', ' ', ' ', ' ', '#', '[', 'a', 'l', 'l', 'o', 'w', '(', 'c', 'l', 'i', 'p', 'p', 'y', ':', ':', 'e', 'x', 'p', 'l', '_', 'i', 'm', 'p', 'l', '_', 'c', 'l', 'o', 'n', 'e', '_', 'o', 'n', '_', 'c', 'o', 'p', 'y', ')', ']'],
   [' ', ' ', ' ', ' ', ' ', ' ', ' ', ' ', ' ', ' ', ' ', ' ', 'i', 'm', 'p', 'l', ' ', '#', 'c', 'o', 'r', 'e', ':', ':', 'c', 'l', 'o', 'n', 'e', ':', ':', 'C', 'l', 'o', 'n', 'e', ' ', 'f', 'o', 'r', ' ', '#', 'n', 'a', 'm', 'e', ' ', '{'],
   [' ', ' ', ' ', ' ', ' ', ' ', ' ', ' ', ' ', ' ', ' ', ' ', ' ', ' ', ' ', ' ', 'f', 'n', ' ', 'c', 'l', 'o', 'n', 'e', '(', '&', 's', 'e', 'l', 'f', ')', ' ', '-', '>', ' ', 'S', 'e', 'l', 'f', ' ', '{'],
   [' ', ' ', ' ', ' ', ' ', ' ', ' ', ' ', ' ', ' ', ' ', ' ', ' ', ' ', ' ', ' ', ' ', ' ', ' ', ' ', '*', 's', 'e', 'l', 'f'],
   [' ', ' ', ' ', ' ', ' ', ' ', ' ', ' ', ' ', ' ', ' ', ' ', ' ', ' ', ' ', ' ', '}'],
   [' ', ' ', ' ', ' ', ' ', ' ', ' ', ' ', ' ', ' ', ' ', ' ', '}'],
   [' ', ' ', ' ', ' ', ' ', ' ', ' ', ' ', ' ', ' ', ' ', ' ', '#', '[', 'a', 'u', 't', 'o', 'm', 'a', 't', 'i', 'c', 'a', 'l', 'l', 'y', '_', 'd', 'e', 'r', 'i', 'v', 'e', 'd', ']'],
   [' ', ' ', ' ', ' ', ' ', ' ', ' ', ' ', ' ', ' ', ' ', ' ', 'i', 'm', 'p', 'l', ' ', '#', 'c', 'o', 'r', 'e', ':', ':', 'm', 'a', 'r', 'k', 'e', 'r', ':', ':', 'C', 'o', 'p', 'y', ' ', 'f', 'o', 'r', ' ', '#', 'n', 'a', 'm', 'e', ' ', '{', ' ', '}'],
   [' ', ' ', ' ', ' ', ' ', ' ', ' ', ' ', '}'],
   [' ', ' ', ' ', ' ', '}', ';'],
   [],
   [' ', ' ', ' ', ' ', 'l', 'e', 't', ' ', 'i', 'm', 'p', 'l', '_', 'w', 'i', 't', 'h', '_', 'r', 'e', 'p', 'r', ' ', '=', ' ', 'i', 'f', ' ', 'i', 'n', 'f', 'o', '.', 'e', 'x', 'p', 'l', 'i', 'c', 'i', 't', '_', 'i', 'n', 't', 'e', 'r', 'n', 'a', 'l', '_', 'r', 'e', 'p', 'r', '.', 'i', 's', '_', 's', 'o', 'm', 'e', '(', ')', ' ', '{'],
   [' ', ' ', ' ', ' ', ' ', ' ', ' ', ' ', 'q', 'u', 'o', 't', 'e', '!', ' ', '{'],
   [' ', ' ', ' ', ' ', ' ', ' ', ' ', ' ', ' ', ' ', ' ', ' ', '#', '[', 'a', 'u', 't', 'o', 'm', 'a', 't', 'i', 'c', 'a', 'l', 'l', 'y', '_', 'd', 'e', 'r', 'i', 'v', 'e', 'd', ']'],
   [' ', ' ', ' ', ' ', ' ', ' ', ' ', ' ', ' ', ' ', ' ', ' ', 'u', 'n', 's', 'a', 'f', 'e', ' ', 'i', 'm', 'p', 'l', ' ', '#', 'e', 'n', 'u', 'm', 's', 'e', 't', ':', ':', 'E', 'n', 'u', 'm', 'S', 'e', 't', 'T', 'y', 'p', 'e', 'W', 'i', 't', 'h', 'R', 'e', 'p', 'r', ' ', 'f', 'o', 'r', ' ', '#', 'n', 'a', 'm', 'e', ' ', '{'],
   [' ', ' ', ' ', ' ', ' ', ' ', ' ', ' ', ' ', ' ', ' ', ' ', ' ', ' ', ' ', ' ', 't', 'y', 'p', 'e', ' ', 'R', 'e', 'p', 'r', ' ', '=', ' ', '#', 'r', 'e', 'p', 'r', ';'],
   [' ', ' ', ' ', ' ', ' ', ' ', ' ', ' ', ' ', ' ', ' ', ' ', '}'],
   [' ', ' ', ' ', ' ', ' ', ' ', ' ', ' ', '}'],
   [' ', ' ', ' ', ' ', '}', ' ', 'e', 'l', 's', 'e', ' ', '{'],
   [' ', ' ', ' ', ' ', ' ', ' ', ' ', ' ', 'q', 'u', 'o', 't', 'e', '!', ' ', '{', '}'],
   [' ', ' ', ' ', ' ', '}', ';'],
   [],
   [' ', ' ', ' ', ' ', 'l', 'e', 't', ' ', 'i', 'n', 'h', 'e', 'r', 'e', 'n', 't', '_', 'i', 'm', 'p', 'l', '_', 'b', 'l', 'o', 'c', 'k', 's', ' ', '=', ' ', 'm', 'a', 't', 'c', 'h', ' ', 'i', 'n', 'f', 'o', '.', 'i', 'n', 't', 'e', 'r', 'n', 'a', 'l', '_', 'r', 'e', 'p', 'r', '(', ')', ' ', '{'],
   [' ', ' ', ' ', ' ', ' ', ' ', ' ', ' ', 'I', 'n', 't', 'e', 'r', 'n', 'a', 'l', 'R', 'e', 'p', 'r', ':', ':', 'U', '8'],
   [' ', ' ', ' ', ' ', ' ', ' ', ' ', ' ', '|', ' ', 'I', 'n', 't', 'e', 'r', 'n', 'a', 'l', 'R', 'e', 'p', 'r', ':', ':', 'U', '1', '6'],
   [' ', ' ', ' ', ' ', ' ', ' ', ' ', ' ', '|', ' ', 'I', 'n', 't', 'e', 'r', 'n', 'a', 'l', 'R', 'e', 'p', 'r', ':', ':', 'U', '3', '2'],
   [' ', ' ', ' ', ' ', ' ', ' ', ' ', ' ', '|', ' ', 'I', 'n', 't', 'e', 'r', 'n', 'a', 'l', 'R', 'e', 'p', 'r', ':', ':', 'U', '6', '4'],
   [' ', ' ', ' ', ' ', ' ', ' ', ' ', ' ', '|', ' ', 'I', 'n', 't', 'e', 'r', 'n', 'a', 'l', 'R', 'e', 'p', 'r', ':', ':', 'U', '1', '2', '8', ' ', '=', '>', ' ', '{'],
   [' ', ' ', ' ', ' ', ' ', ' ', ' ', ' ', ' ', ' ', ' ', ' ', 'l', 'e', 't', ' ', 's', 'e', 'l', 'f', '_', 'a', 's', '_', 'r', 'e', 'p', 'r', '_', 'm', 'a', 's', 'k', ' ', '=', ' ', 'i', 'f', ' ', 'i', 's', '_', 'u', 'n', 'i', 'n', 'h', 'a', 'b', 'i', 't', 'e', 'd', ' ', '{'],
   [' ', ' ', ' ', ' ', ' ', ' ', ' ', ' ', ' ', ' ', ' ', ' ', ' ', ' ', ' ', ' ', 'q', 'u', 'o', 't', 'e', '!', ' ', '{', ' ', '0', ' ', '}', ' ', '/', '/', ' ', 'i', 'm', 'p', 'o', 's', 's', 'i', 'b', 'l', 'e', ' ', 'a', 'n', 'y', 'w', 'a', 'y'],
   [' ', ' ', ' ', ' ', ' ', ' ', ' ', ' ', ' ', ' ', ' ', ' ', '}', ' ', 'e', 'l', 's', 'e', ' ', '{'],
   [' ', ' ', ' ', ' ', ' ', ' ', ' ', ' ', ' ', ' ', ' ', ' ', ' ', ' ', ' ', ' ', 'q', 'u', 'o', 't', 'e', '!', ' ', '{', ' ', '1', ' ', '<', '<', ' ', 's', 'e', 'l', 'f', ' ', 'a', 's', ' ', '#', 'r', 'e', 'p', 'r', ' ', '}'],
   [' ', ' ', ' ', ' ', ' ', ' ', ' ', ' ', ' ', ' ', ' ', ' ', '}', ';'],
   [],
   [' ', ' ', ' ', ' ', ' ', ' ', ' ', ' ', ' ', ' ', ' ', ' ', 'q', 'u', 'o', 't', 'e', '!', ' ', '{'],
   [' ', ' ', ' ', ' ', ' ', ' ', ' ', ' ', ' ', ' ', ' ', ' ', ' ', ' ', ' ', ' ', '#', '[', 'a', 'u', 't', 'o', 'm', 'a', 't', 'i', 'c', 'a', 'l', 'l', 'y', '_', 'd', 'e', 'r', 'i', 'v', 'e', 'd', ']'],
   [' ', ' ', ' ', ' ', ' ', ' ', ' ', ' ', ' ', ' ', ' ', ' ', ' ', ' ', ' ', ' ', '#', '[', 'd', 'o', 'c', '(', 'h', 'i', 'd', 'd', 'e', 'n', ')', ']'],
   [' ', ' ', ' ', ' ', ' ', ' ', ' ', ' ', ' ', ' ', ' ', ' ', ' ', ' ', ' ', ' ', 'i', 'm', 'p', 'l', ' ', '#', 'n', 'a', 'm', 'e', ' ', '{'],
   [' ', ' ', ' ', ' ', ' ', ' ', ' ', ' ', ' ', ' ', ' ', ' ', ' ', ' ', ' ', ' ', ' ', ' ', ' ', ' ', '/', '/', '/', ' ', 'C', 'r', 'e', 'a', 't', 'e', 's', ' ', 'a', ' ', 'n', 'e', 'w', ' ', 'e', 'n', 'u', 'm', 's', 'e', 't', ' ', 'w', 'i', 't', 'h', ' ', 'o', 'n', 'l', 'y', ' ', 't', 'h', 'i', 's', ' ', 'v', 'a', 'r', 'i', 'a', 'n', 't', '.'],
   [' ', ' ', ' ', ' ', ' ', ' ', ' ', ' ', ' ', ' ', ' ', ' ', ' ', ' ', ' ', ' ', ' ', ' ', ' ', ' ', '#', '[', 'd', 'e', 'p', 'r', 'e', 'c', 'a', 't', 'e', 'd', '(', 'n', 'o', 't', 'e', ' ', '=', ' ', '"', 'T', 'h', 'i', 's', ' ', 'm', 'e', 't', 'h', 'o', 'd', ' ', 'i', 's', ' ', 'a', 'n', ' ', 'i', 'n', 't', 'e', 'r', 'n', 'a', 'l', ' ', 'i', 'm', 'p', 'l', 'e', 'm', 'e', 'n', 't', 'a', 't', 'i', 'o', 'n', ' ', 'd', 'e', 't', 'a', 'i', 'l', ' ', '\\'],
   [' ', ' ', ' ', ' ', ' ', ' ', ' ', ' ', ' ', ' ', ' ', ' ', ' ', ' ', ' ', ' ', ' ', ' ', ' ', ' ', ' ', ' ', ' ', ' ', ' ', ' ', ' ', ' ', ' ', ' ', ' ', ' ', ' ', ' ', ' ', ' ', ' ', ' ', ' ', ' ', ' ', 'g', 'e', 'n', 'e', 'r', 'a', 't', 'e', 'd', ' ', 'b', 'y', ' ', 't', 'h', 'e', ' ', '`', 'e', 'n', 'u', 'm', 's', 'e', 't', '`', ' ', 'c', 'r', 'a', 't', 'e', '\'', 's', ' ', 'p', 'r', 'o', 'c', 'e', 'd', 'u', 'r', 'a', 'l', ' ', 'm', 'a', 'c', 'r', 'o', '.', ' ', 'I', 't', ' ', '\\'],
   [' ', ' ', ' ', ' ', ' ', ' ', ' ', ' ', ' ', ' ', ' ', ' ', ' ', ' ', ' ', ' ', ' ', ' ', ' ', ' ', ' ', ' ', ' ', ' ', ' ', ' ', ' ', ' ', ' ', ' ', ' ', ' ', ' ', ' ', ' ', ' ', ' ', ' ', ' ', ' ', ' ', 's', 'h', 'o', 'u', 'l', 'd', ' ', 'n', 'o', 't', ' ', 'b', 'e', ' ', 'u', 's', 'e', 'd', ' ', 'd', 'i', 'r', 'e', 'c', 't', 'l', 'y', '.', '"', ')', ']'],
   [' ', ' ', ' ', ' ', ' ', ' ', ' ', ' ', ' ', ' ', ' ', ' ', ' ', ' ', ' ', ' ', ' ', ' ', ' ', ' ', '#', '[', 'd', 'o', 'c', '(', 'h', 'i', 'd', 'd', 'e', 'n', ')', ']'],
   [' ', ' ', ' ', ' ', ' ', ' ', ' ', ' ', ' ', ' ', ' ', ' ', ' ', ' ', ' ', ' ', ' ', ' ', ' ', ' ', 'p', 'u', 'b', ' ', 'c', 'o', 'n', 's', 't', ' ', 'f', 'n', ' ', '_', '_', 'i', 'm', 'p', 'l', '_', 'e', 'n', 'u', 'm', 's', 'e', 't', '_', 'i', 'n', 't', 'e', 'r', 'n', 'a', 'l', '_', '_', 'c', 'o', 'n', 's', 't', '_', 'o', 'n', 'l', 'y', '('],
   [' ', ' ', ' ', ' ', ' ', ' ', ' ', ' ', ' ', ' ', ' ', ' ', ' ', ' ', ' ', ' ', ' ', ' ', ' ', ' ', ' ', ' ', ' ', ' ', 's', 'e', 'l', 'f', ','],
   [' ', ' ', ' ', ' ', ' ', ' ', ' ', ' ', ' ', ' ', ' ', ' ', ' ', ' ', ' ', ' ', ' ', ' ', ' ', ' ', ')', ' ', '-', '>', ' ', '#', 'e', 'n', 'u', 'm', 's', 'e', 't', ':', ':', 'E', 'n', 'u', 'm', 'S', 'e', 't', '<', '#', 'n', 'a', 'm', 'e', '>', ' ', '{'],
   [' ', ' ', ' ', ' ', ' ', ' ', ' ', ' ', ' ', ' ', ' ', ' ', ' ', ' ', ' ', ' ', ' ', ' ', ' ', ' ', ' ', ' ', ' ', ' ', '#', 'e', 'n', 'u', 'm', 's', 'e', 't', ':', ':', 'E', 'n', 'u', 'm', 'S', 'e', 't', ' ', '{', ' ', '_', '_', 'p', 'r', 'i', 'v', '_', 'r', 'e', 'p', 'r', ':', ' ', '#', 's', 'e', 'l', 'f', '_', 'a', 's', '_', 'r', 'e', 'p', 'r', '_', 'm', 'a', 's', 'k', ' ', '}'],
   [' ', ' ', ' ', ' ', ' ', ' ', ' ', ' ', ' ', ' ', ' ', ' ', ' ', ' ', ' ', ' ', ' ', ' ', ' ', ' ', '}'],
   [' ', ' ', ' ', ' ', ' ', ' ', ' ', ' ', ' ', ' ', ' ', ' ', ' ', ' ', ' ', ' ', '}'],
   [],
   [' ', ' ', ' ', ' ', ' ', ' ', ' ', ' ', ' ', ' ', ' ', ' ', ' ', ' ', ' ', ' ', '#', '[', 'a', 'u', 't', 'o', 'm', 'a', 't', 'i', 'c', 'a', 'l', 'l', 'y', '_', 'd', 'e', 'r', 'i', 'v', 'e', 'd', ']'],
   [' ', ' ', ' ', ' ', ' ', ' ', ' ', ' ', ' ', ' ', ' ', ' ', ' ', ' ', ' ', ' ', '#', '[', 'd', 'o', 'c', '(', 'h', 'i', 'd', 'd', 'e', 'n', ')', ']'],
   [' ', ' ', ' ', ' ', ' ', ' ', ' ', ' ', ' ', ' ', ' ', ' ', ' ', ' ', ' ', ' ', 'i', 'm', 'p', 'l', ' ', '_', '_', 'E', 'n', 'u', 'm', 'S', 'e', 't', 'C', 'o', 'n', 's', 't', 'H', 'e', 'l', 'p', 'e', 'r', ' ', '{'],
   [' ', ' ', ' ', ' ', ' ', ' ', ' ', ' ', ' ', ' ', ' ', ' ', ' ', ' ', ' ', ' ', ' ', ' ', ' ', ' ', 'p', 'u', 'b', ' ', 'c', 'o', 'n', 's', 't', ' ', 'f', 'n', ' ', 'c', 'o', 'n', 's', 't', '_', 'u', 'n', 'i', 'o', 'n', '('],
   [' ', ' ', ' ', ' ', ' ', ' ', ' ', ' ', ' ', ' ', ' ', ' ', ' ', ' ', ' ', ' ', ' ', ' ', ' ', ' ', ' ', ' ', ' ', ' ', '&', 's', 'e', 'l', 'f', ','],
   [' ', ' ', ' ', ' ', ' ', ' ', ' ', ' ', ' ', ' ', ' ', ' ', ' ', ' ', ' ', ' ', ' ', ' ', ' ', ' ', ' ', ' ', ' ', ' ', 'c', 'h', 'a', 'i', 'n', '_', 'a', ':', ' ', '#', 'e', 'n', 'u', 'm', 's', 'e', 't', ':', ':', 'E', 'n', 'u', 'm', 'S', 'e', 't', '<', '#', 'n', 'a', 'm', 'e', '>', ','],
   [' ', ' ', ' ', ' ', ' ', ' ', ' ', ' ', ' ', ' ', ' ', ' ', ' ', ' ', ' ', ' ', ' ', ' ', ' ', ' ', ' ', ' ', ' ', ' ', 'c', 'h', 'a', 'i', 'n', '_', 'b', ':', ' ', '#', 'e', 'n', 'u', 'm', 's', 'e', 't', ':', ':', 'E', 'n', 'u', 'm', 'S', 'e', 't', '<', '#', 'n', 'a', 'm', 'e', '>', ','],
   [' ', ' ', ' ', ' ', ' ', ' ', ' ', ' ', ' ', ' ', ' ', ' ', ' ', ' ', ' ', ' ', ' ', ' ', ' ', ' ', ')', ' ', '-', '>', ' ', '#', 'e', 'n', 'u', 'm', 's', 'e', 't', ':', ':', 'E', 'n', 'u', 'm', 'S', 'e', 't', '<', '#', 'n', 'a', 'm', 'e', '>', ' ', '{'],
   [' ', ' ', ' ', ' ', ' ', ' ', ' ', ' ', ' ', ' ', ' ', ' ', ' ', ' ', ' ', ' ', ' ', ' ', ' ', ' ', ' ', ' ', ' ', ' ', '#', 'e', 'n', 'u', 'm', 's', 'e', 't', ':', ':', 'E', 'n', 'u', 'm', 'S', 'e', 't', ' ', '{'],
   [' ', ' ', ' ', ' ', ' ', ' ', ' ', ' ', ' ', ' ', ' ', ' ', ' ', ' ', ' ', ' ', ' ', ' ', ' ', ' ', ' ', ' ', ' ', ' ', ' ', ' ', ' ', ' ', '_', '_', 'p', 'r', 'i', 'v', '_', 'r', 'e', 'p', 'r', ':', ' ', 'c', 'h', 'a', 'i', 'n', '_', 'a', '.', '_', '_', 'p', 'r', 'i', 'v', '_', 'r', 'e', 'p', 'r', ' ', '|', ' ', 'c', 'h', 'a', 'i', 'n', '_', 'b', '.', '_', '_', 'p', 'r', 'i', 'v', '_', 'r', 'e', 'p', 'r', ','],
   [' ', ' ', ' ', ' ', ' ', ' ', ' ', ' ', ' ', ' ', ' ', ' ', ' ', ' ', ' ', ' ', ' ', ' ', ' ', ' ', ' ', ' ', ' ', ' ', '}'],
   [' ', ' ', ' ', ' ', ' ', ' ', ' ', ' ', ' ', ' ', ' ', ' ', ' ', ' ', ' ', ' ', ' ', ' ', ' ', ' ', '}'],
   [],
   [' ', ' ', ' ', ' ', ' ', ' ', ' ', ' ', ' ', ' ', ' ', ' ', ' ', ' ', ' ', ' ', ' ', ' ', ' ', ' ', 'p', 'u', 'b', ' ', 'c', 'o', 'n', 's', 't', ' ', 'f', 'n', ' ', 'c', 'o', 'n', 's', 't', '_', 'i', 'n', 't', 'e', 'r', 's', 'e', 'c', 't', 'i', 'o', 'n', '('],
   [' ', ' ', ' ', ' ', ' ', ' ', ' ', ' ', ' ', ' ', ' ', ' ', ' ', ' ', ' ', ' ', ' ', ' ', ' ', ' ', ' ', ' ', ' ', ' ', '&', 's', 'e', 'l', 'f', ','],
   [' ', ' ', ' ', ' ', ' ', ' ', ' ', ' ', ' ', ' ', ' ', ' ', ' ', ' ', ' ', ' ', ' ', ' ', ' ', ' ', ' ', ' ', ' ', ' ', 'c', 'h', 'a', 'i', 'n', '_', 'a', ':', ' ', '#', 'e', 'n', 'u', 'm', 's', 'e', 't', ':', ':', 'E', 'n', 'u', 'm', 'S', 'e', 't', '<', '#', 'n', 'a', 'm', 'e', '>', ','],
   [' ', ' ', ' ', ' ', ' ', ' ', ' ', ' ', ' ', ' ', ' ', ' ', ' ', ' ', ' ', ' ', ' ', ' ', ' ', ' ', ' ', ' ', ' ', ' ', 'c', 'h', 'a', 'i', 'n', '_', 'b', ':', ' ', '#', 'e', 'n', 'u', 'm', 's', 'e', 't', ':', ':', 'E', 'n', 'u', 'm', 'S', 'e', 't', '<', '#', 'n', 'a', 'm', 'e', '>', ','],
   [' ', ' ', ' ', ' ', ' ', ' ', ' ', ' ', ' ', ' ', ' ', ' ', ' ', ' ', ' ', ' ', ' ', ' ', ' ', ' ', ')', ' ', '-', '>', ' ', '#', 'e', 'n', 'u', 'm', 's', 'e', 't', ':', ':', 'E', 'n', 'u', 'm', 'S', 'e', 't', '<', '#', 'n', 'a', 'm', 'e', '>', ' ', '{'],
   [' ', ' ', ' ', ' ', ' ', ' ', ' ', ' ', ' ', ' ', ' ', ' ', ' ', ' ', ' ', ' ', ' ', ' ', ' ', ' ', ' ', ' ', ' ', ' ', '#', 'e', 'n', 'u', 'm', 's', 'e', 't', ':', ':', 'E', 'n', 'u', 'm', 'S', 'e', 't', ' ', '{'],
   [' ', ' ', ' ', ' ', ' ', ' ', ' ', ' ', ' ', ' ', ' ', ' ', ' ', ' ', ' ', ' ', ' ', ' ', ' ', ' ', ' ', ' ', ' ', ' ', ' ', ' ', ' ', ' ', '_', '_', 'p', 'r', 'i', 'v', '_', 'r', 'e', 'p', 'r', ':', ' ', 'c', 'h', 'a', 'i', 'n', '_', 'a', '.', '_', '_', 'p', 'r', 'i', 'v', '_', 'r', 'e', 'p', 'r', ' ', '&', ' ', 'c', 'h', 'a', 'i', 'n', '_', 'b', '.', '_', '_', 'p', 'r', 'i', 'v', '_', 'r', 'e', 'p', 'r', ','],
   [' ', ' ', ' ', ' ', ' ', ' ', ' ', ' ', ' ', ' ', ' ', ' ', ' ', ' ', ' ', ' ', ' ', ' ', ' ', ' ', ' ', ' ', ' ', ' ', '}'],
   [' ', ' ', ' ', ' ', ' ', ' ', ' ', ' ', ' ', ' ', ' ', ' ', ' ', ' ', ' ', ' ', ' ', ' ', ' ', ' ', '}'],
   [],
   [' ', ' ', ' ', ' ', ' ', ' ', ' ', ' ', ' ', ' ', ' ', ' ', ' ', ' ', ' ', ' ', ' ', ' ', ' ', ' ', 'p', 'u', 'b', ' ', 'c', 'o', 'n', 's', 't', ' ', 'f', 'n', ' ', 'c', 'o', 'n', 's', 't', '_', 's', 'y', 'm', 'm', 'e', 't', 'r', 'i', 'c', '_', 'd', 'i', 'f', 'f', 'e', 'r', 'e', 'n', 'c', 'e', '('],
   [' ', ' ', ' ', ' ', ' ', ' ', ' ', ' ', ' ', ' ', ' ', ' ', ' ', ' ', ' ', ' ', ' ', ' ', ' ', ' ', ' ', ' ', ' ', ' ', '&', 's', 'e', 'l', 'f', ','],
   [' ', ' ', ' ', ' ', ' ', ' ', ' ', ' ', ' ', ' ', ' ', ' ', ' ', ' ', ' ', ' ', ' ', ' ', ' ', ' ', ' ', ' ', ' ', ' ', 'c', 'h', 'a', 'i', 'n', '_', 'a', ':', ' ', '#', 'e', 'n', 'u', 'm', 's', 'e', 't', ':', ':', 'E', 'n', 'u', 'm', 'S', 'e', 't', '<', '#', 'n', 'a', 'm', 'e', '>', ','],
   [' ', ' ', ' ', ' ', ' ', ' ', ' ', ' ', ' ', ' ', ' ', ' ', ' ', ' ', ' ', ' ', ' ', ' ', ' ', ' ', ' ', ' ', ' ', ' ', 'c', 'h', 'a', 'i', 'n', '_', 'b', ':', ' ', '#', 'e', 'n', 'u', 'm', 's', 'e', 't', ':', ':', 'E', 'n', 'u', 'm', 'S', 'e', 't', '<', '#', 'n', 'a', 'm', 'e', '>', ','],
   [' ', ' ', ' ', ' ', ' ', ' ', ' ', ' ', ' ', ' ', ' ', ' ', ' ', ' ', ' ', ' ', ' ', ' ', ' ', ' ', ')', ' ', '-', '>', ' ', '#', 'e', 'n', 'u', 'm', 's', 'e', 't', ':', ':', 'E', 'n', 'u', 'm', 'S', 'e', 't', '<', '#', 'n', 'a', 'm', 'e', '>', ' ', '{'],
   [' ', ' ', ' ', ' ', ' ', ' ', ' ', ' ', ' ', ' ', ' ', ' ', ' ', ' ', ' ', ' ', ' ', ' ', ' ', ' ', ' ', ' ', ' ', ' ', '#', 'e', 'n', 'u', 'm', 's', 'e', 't', ':', ':', 'E', 'n', 'u', 'm', 'S', 'e', 't', ' ', '{'],
   [' ', ' ', ' ', ' ', ' ', ' ', ' ', ' ', ' ', ' ', ' ', ' ', ' ', ' ', ' ', ' ', ' ', ' ', ' ', ' ', ' ', ' ', ' ', ' ', ' ', ' ', ' ', ' ', '_', '_', 'p', 'r', 'i', 'v', '_', 'r', 'e', 'p', 'r', ':', ' ', 'c', 'h', 'a', 'i', 'n', '_', 'a', '.', '_', '_', 'p', 'r', 'i', 'v', '_', 'r', 'e', 'p', 'r', ' ', '^', ' ', 'c', 'h', 'a', 'i', 'n', '_', 'b', '.', '_', '_', 'p', 'r', 'i', 'v', '_', 'r', 'e', 'p', 'r', ','],
   [' ', ' ', ' ', ' ', ' ', ' ', ' ', ' ', ' ', ' ', ' ', ' ', ' ', ' ', ' ', ' ', ' ', ' ', ' ', ' ', ' ', ' ', ' ', ' ', '}'],
   [' ', ' ', ' ', ' ', ' ', ' ', ' ', ' ', ' ', ' ', ' ', ' ', ' ', ' ', ' ', ' ', ' ', ' ', ' ', ' ', '}'],
   [],
   [' ', ' ', ' ', ' ', ' ', ' ', ' ', ' ', ' ', ' ', ' ', ' ', ' ', ' ', ' ', ' ', ' ', ' ', ' ', ' ', 'p', 'u', 'b', ' ', 'c', 'o', 'n', 's', 't', ' ', 'f', 'n', ' ', 'c', 'o', 'n', 's', 't', '_', 'c', 'o', 'm', 'p', 'l', 'e', 'm', 'e', 'n', 't', '('],
   [' ', ' ', ' ', ' ', ' ', ' ', ' ', ' ', ' ', ' ', ' ', ' ', ' ', ' ', ' ', ' ', ' ', ' ', ' ', ' ', ' ', ' ', ' ', ' ', '&', 's', 'e', 'l', 'f', ','],
   [' ', ' ', ' ', ' ', ' ', ' ', ' ', ' ', ' ', ' ', ' ', ' ', ' ', ' ', ' ', ' ', ' ', ' ', ' ', ' ', ' ', ' ', ' ', ' ', 'c', 'h', 'a', 'i', 'n', ':', ' ', '#', 'e', 'n', 'u', 'm', 's', 'e', 't', ':', ':', 'E', 'n', 'u', 'm', 'S', 'e', 't', '<', '#', 'n', 'a', 'm', 'e', '>', ','],
   [' ', ' ', ' ', ' ', ' ', ' ', ' ', ' ', ' ', ' ', ' ', ' ', ' ', ' ', ' ', ' ', ' ', ' ', ' ', ' ', ')', ' ', '-', '>', ' ', '#', 'e', 'n', 'u', 'm', 's', 'e', 't', ':', ':', 'E', 'n', 'u', 'm', 'S', 'e', 't', '<', '#', 'n', 'a', 'm', 'e', '>', ' ', '{'],
   [' ', ' ', ' ', ' ', ' ', ' ', ' ', ' ', ' ', ' ', ' ', ' ', ' ', ' ', ' ', ' ', ' ', ' ', ' ', ' ', ' ', ' ', ' ', ' ', 'l', 'e', 't', ' ', 'm', 'u', 't', ' ', 'a', 'l', 'l', ' ', '=', ' ', '#', 'e', 'n', 'u', 'm', 's', 'e', 't', ':', ':', 'E', 'n', 'u', 'm', 'S', 'e', 't', ':', ':', '<', '#', 'n', 'a', 'm', 'e', '>', ':', ':', 'a', 'l', 'l', '(', ')', ';'],
   [' ', ' ', ' ', ' ', ' ', ' ', ' ', ' ', ' ', ' ', ' ', ' ', ' ', ' ', ' ', ' ', ' ', ' ', ' ', ' ', ' ', ' ', ' ', ' ', '#', 'e', 'n', 'u', 'm', 's', 'e', 't', ':', ':', 'E', 'n', 'u', 'm', 'S', 'e', 't', ' ', '{'],
   [' ', ' ', ' ', ' ', ' ', ' ', ' ', ' ', ' ', ' ', ' ', ' ', ' ', ' ', ' ', ' ', ' ', ' ', ' ', ' ', ' ', ' ', ' ', ' ', ' ', ' ', ' ', ' ', '_', '_', 'p', 'r', 'i', 'v', '_', 'r', 'e', 'p', 'r', ':', ' ', '!', 'c', 'h', 'a', 'i', 'n', '.', '_', '_', 'p', 'r', 'i', 'v', '_', 'r', 'e', 'p', 'r', ' ', '&', ' ', 'a', 'l', 'l', '.', '_', '_', 'p', 'r', 'i', 'v', '_', 'r', 'e', 'p', 'r', ','],
   [' ', ' ', ' ', ' ', ' ', ' ', ' ', ' ', ' ', ' ', ' ', ' ', ' ', ' ', ' ', ' ', ' ', ' ', ' ', ' ', ' ', ' ', ' ', ' ', '}'],
   [' ', ' ', ' ', ' ', ' ', ' ', ' ', ' ', ' ', ' ', ' ', ' ', ' ', ' ', ' ', ' ', ' ', ' ', ' ', ' ', '}'],
   [' ', ' ', ' ', ' ', ' ', ' ', ' ', ' ', ' ', ' ', ' ', ' ', ' ', ' ', ' ', ' ', '}'],
   [' ', ' ', ' ', ' ', ' ', ' ', ' ', ' ', ' ', ' ', ' ', ' ', '}'],
   [' ', ' ', ' ', ' ', ' ', ' ', ' ', ' ', '}'],
   [' ', ' ', ' ', ' ', ' ', ' ', ' ', ' ', 'I', 'n', 't', 'e', 'r', 'n', 'a', 'l', 'R', 'e', 'p', 'r', ':', ':', 'A', 'r', 'r', 'a', 'y', '(', 's', 'i', 'z', 'e', ')', ' ', '=', '>', ' ', '{'],
   [' ', ' ', ' ', ' ', ' ', ' ', ' ', ' ', ' ', ' ', ' ', ' ', 'q', 'u', 'o', 't', 'e', '!', ' ', '{'],
   [' ', ' ', ' ', ' ', ' ', ' ', ' ', ' ', ' ', ' ', ' ', ' ', ' ', ' ', ' ', ' ', '#', '[', 'a', 'u', 't', 'o', 'm', 'a', 't', 'i', 'c', 'a', 'l', 'l', 'y', '_', 'd', 'e', 'r', 'i', 'v', 'e', 'd', ']'],
   [' ', ' ', ' ', ' ', ' ', ' ', ' ', ' ', ' ', ' ', ' ', ' ', ' ', ' ', ' ', ' ', '#', '[', 'd', 'o', 'c', '(', 'h', 'i', 'd', 'd', 'e', 'n', ')', ']'],
   [' ', ' ', ' ', ' ', ' ', ' ', ' ', ' ', ' ', ' ', ' ', ' ', ' ', ' ', ' ', ' ', 'i', 'm', 'p', 'l', ' ', '#', 'n', 'a', 'm', 'e', ' ', '{'],
   [' ', ' ', ' ', ' ', ' ', ' ', ' ', ' ', ' ', ' ', ' ', ' ', ' ', ' ', ' ', ' ', ' ', ' ', ' ', ' ', '/', '/', '/', ' ', 'C', 'r', 'e', 'a', 't', 'e', 's', ' ', 'a', ' ', 'n', 'e', 'w', ' ', 'e', 'n', 'u', 'm', 's', 'e', 't', ' ', 'w', 'i', 't', 'h', ' ', 'o', 'n', 'l', 'y', ' ', 't', 'h', 'i', 's', ' ', 'v', 'a', 'r', 'i', 'a', 'n', 't', '.'],
   [' ', ' ', ' ', ' ', ' ', ' ', ' ', ' ', ' ', ' ', ' ', ' ', ' ', ' ', ' ', ' ', ' ', ' ', ' ', ' ', '#', '[', 'd', 'e', 'p', 'r', 'e', 'c', 'a', 't', 'e', 'd', '(', 'n', 'o', 't', 'e', ' ', '=', ' ', '"', 'T', 'h', 'i', 's', ' ', 'm', 'e', 't', 'h', 'o', 'd', ' ', 'i', 's', ' ', 'a', 'n', ' ', 'i', 'n', 't', 'e', 'r', 'n', 'a', 'l', ' ', 'i', 'm', 'p', 'l', 'e', 'm', 'e', 'n', 't', 'a', 't', 'i', 'o', 'n', ' ', 'd', 'e', 't', 'a', 'i', 'l', ' ', '\\'],
   [' ', ' ', ' ', ' ', ' ', ' ', ' ', ' ', ' ', ' ', ' ', ' ', ' ', ' ', ' ', ' ', ' ', ' ', ' ', ' ', ' ', ' ', ' ', ' ', ' ', ' ', ' ', ' ', ' ', ' ', ' ', ' ', ' ', ' ', ' ', ' ', ' ', ' ', ' ', ' ', ' ', 'g', 'e', 'n', 'e', 'r', 'a', 't', 'e', 'd', ' ', 'b', 'y', ' ', 't', 'h', 'e', ' ', '`', 'e', 'n', 'u', 'm', 's', 'e', 't', '`', ' ', 'c', 'r', 'a', 't', 'e', '\'', 's', ' ', 'p', 'r', 'o', 'c', 'e', 'd', 'u', 'r', 'a', 'l', ' ', 'm', 'a', 'c', 'r', 'o', '.', ' ', 'I', 't', ' ', '\\'],
   [' ', ' ', ' ', ' ', ' ', ' ', ' ', ' ', ' ', ' ', ' ', ' ', ' ', ' ', ' ', ' ', ' ', ' ', ' ', ' ', ' ', ' ', ' ', ' ', ' ', ' ', ' ', ' ', ' ', ' ', ' ', ' ', ' ', ' ', ' ', ' ', ' ', ' ', ' ', ' ', ' ', 's', 'h', 'o', 'u', 'l', 'd', ' ', 'n', 'o', 't', ' ', 'b', 'e', ' ', 'u', 's', 'e', 'd', ' ', 'd', 'i', 'r', 'e', 'c', 't', 'l', 'y', '.', '"', ')', ']'],
   [' ', ' ', ' ', ' ', ' ', ' ', ' ', ' ', ' ', ' ', ' ', ' ', ' ', ' ', ' ', ' ', ' ', ' ', ' ', ' ', '#', '[', 'd', 'o', 'c', '(', 'h', 'i', 'd', 'd', 'e', 'n', ')', ']'],
   [' ', ' ', ' ', ' ', ' ', ' ', ' ', ' ', ' ', ' ', ' ', ' ', ' ', ' ', ' ', ' ', ' ', ' ', ' ', ' ', 'p', 'u', 'b', ' ', 'c', 'o', 'n', 's', 't', ' ', 'f', 'n', ' ', '_', '_', 'i', 'm', 'p', 'l', '_', 'e', 'n', 'u', 'm', 's', 'e', 't', '_', 'i', 'n', 't', 'e', 'r', 'n', 'a', 'l', '_', '_', 'c', 'o', 'n', 's', 't', '_', 'o', 'n', 'l', 'y', '('],
   [' ', ' ', ' ', ' ', ' ', ' ', ' ', ' ', ' ', ' ', ' ', ' ', ' ', ' ', ' ', ' ', ' ', ' ', ' ', ' ', ' ', ' ', ' ', ' ', 's', 'e', 'l', 'f', ','],
   [' ', ' ', ' ', ' ', ' ', ' ', ' ', ' ', ' ', ' ', ' ', ' ', ' ', ' ', ' ', ' ', ' ', ' ', ' ', ' ', ')', ' ', '-', '>', ' ', '#', 'e', 'n', 'u', 'm', 's', 'e', 't', ':', ':', 'E', 'n', 'u', 'm', 'S', 'e', 't', '<', '#', 'n', 'a', 'm', 'e', '>', ' ', '{'],
   [' ', ' ', ' ', ' ', ' ', ' ', ' ', ' ', ' ', ' ', ' ', ' ', ' ', ' ', ' ', ' ', ' ', ' ', ' ', ' ', ' ', ' ', ' ', ' ', 'l', 'e', 't', ' ', 'm', 'u', 't', ' ', 's', 'e', 't', ' ', '=', ' ', '#', 'e', 'n', 'u', 'm', 's', 'e', 't', ':', ':', 'E', 'n', 'u', 'm', 'S', 'e', 't', ':', ':', '<', '#', 'n', 'a', 'm', 'e', '>', ' ', '{'],
   [' ', ' ', ' ', ' ', ' ', ' ', ' ', ' ', ' ', ' ', ' ', ' ', ' ', ' ', ' ', ' ', ' ', ' ', ' ', ' ', ' ', ' ', ' ', ' ', ' ', ' ', ' ', ' ', '_', '_', 'p', 'r', 'i', 'v', '_', 'r', 'e', 'p', 'r', ':', ' ', '#', 'i', 'n', 't', 'e', 'r', 'n', 'a', 'l', ':', ':', 'A', 'r', 'r', 'a', 'y', 'R', 'e', 'p', 'r', ':', ':', '<', '{', ' ', '#', 's', 'i', 'z', 'e', ' ', '}', '>', '(', '[', '0', ';', ' ', '#', 's', 'i', 'z', 'e', ']', ')', ','],
   [' ', ' ', ' ', ' ', ' ', ' ', ' ', ' ', ' ', ' ', ' ', ' ', ' ', ' ', ' ', ' ', ' ', ' ', ' ', ' ', ' ', ' ', ' ', ' ', '}', ';'],
   [' ', ' ', ' ', ' ', ' ', ' ', ' ', ' ', ' ', ' ', ' ', ' ', ' ', ' ', ' ', ' ', ' ', ' ', ' ', ' ', ' ', ' ', ' ', ' ', 'l', 'e', 't', ' ', 'b', 'i', 't', ' ', '=', ' ', 's', 'e', 'l', 'f', ' ', 'a', 's', ' ', 'u', '3', '2', ';'],
   [' ', ' ', ' ', ' ', ' ', ' ', ' ', ' ', ' ', ' ', ' ', ' ', ' ', ' ', ' ', ' ', ' ', ' ', ' ', ' ', ' ', ' ', ' ', ' ', 'l', 'e', 't', ' ', '(', 'i', 'd', 'x', ',', ' ', 'b', 'i', 't', ')', ' ', '=', ' ', '(', 'b', 'i', 't', ' ', 'a', 's', ' ', 'u', 's', 'i', 'z', 'e', ' ', '/', ' ', '6', '4', ',', ' ', 'b', 'i', 't', ' ', '%', ' ', '6', '4', ')', ';'],
   [' ', ' ', ' ', ' ', ' ', ' ', ' ', ' ', ' ', ' ', ' ', ' ', ' ', ' ', ' ', ' ', ' ', ' ', ' ', ' ', ' ', ' ', ' ', ' ', 's', 'e', 't', '.', '_', '_', 'p', 'r', 'i', 'v', '_', 'r', 'e', 'p', 'r', '.', '0', '[', 'i', 'd', 'x', ']', ' ', '|', '=', ' ', '1', 'u', '6', '4', ' ', '<', '<', ' ', 'b', 'i', 't', ';'],
   [' ', ' ', ' ', ' ', ' ', ' ', ' ', ' ', ' ', ' ', ' ', ' ', ' ', ' ', ' ', ' ', ' ', ' ', ' ', ' ', ' ', ' ', ' ', ' ', 's', 'e', 't'],
   [' ', ' ', ' ', ' ', ' ', ' ', ' ', ' ', ' ', ' ', ' ', ' ', ' ', ' ', ' ', ' ', ' ', ' ', ' ', ' ', '}'],
   [' ', ' ', ' ', ' ', ' ', ' ', ' ', ' ', ' ', ' ', ' ', ' ', ' ', ' ', ' ', ' ', '}'],
   [],
   [' ', ' ', ' ', ' ', ' ', ' ', ' ', ' ', ' ', ' ', ' ', ' ', ' ', ' ', ' ', ' ', '#', '[', 'a', 'u', 't', 'o', 'm', 'a', 't', 'i', 'c', 'a', 'l', 'l', 'y', '_', 'd', 'e', 'r', 'i', 'v', 'e', 'd', ']'],
   [' ', ' ', ' ', ' ', ' ', ' ', ' ', ' ', ' ', ' ', ' ', ' ', ' ', ' ', ' ', ' ', '#', '[', 'd', 'o', 'c', '(', 'h', 'i', 'd', 'd', 'e', 'n', ')', ']'],
   [' ', ' ', ' ', ' ', ' ', ' ', ' ', ' ', ' ', ' ', ' ', ' ', ' ', ' ', ' ', ' ', 'i', 'm', 'p', 'l', ' ', '_', '_', 'E', 'n', 'u', 'm', 'S', 'e', 't', 'C', 'o', 'n', 's', 't', 'H', 'e', 'l', 'p', 'e', 'r', ' ', '{'],
   [' ', ' ', ' ', ' ', ' ', ' ', ' ', ' ', ' ', ' ', ' ', ' ', ' ', ' ', ' ', ' ', ' ', ' ', ' ', ' ', 'p', 'u', 'b', ' ', 'c', 'o', 'n', 's', 't', ' ', 'f', 'n', ' ', 'c', 'o', 'n', 's', 't', '_', 'u', 'n', 'i', 'o', 'n', '('],
   [' ', ' ', ' ', ' ', ' ', ' ', ' ', ' ', ' ', ' ', ' ', ' ', ' ', ' ', ' ', ' ', ' ', ' ', ' ', ' ', ' ', ' ', ' ', ' ', '&', 's', 'e', 'l', 'f', ','],
   [' ', ' ', ' ', ' ', ' ', ' ', ' ', ' ', ' ', ' ', ' ', ' ', ' ', ' ', ' ', ' ', ' ', ' ', ' ', ' ', ' ', ' ', ' ', ' ', 'm', 'u', 't', ' ', 'c', 'h', 'a', 'i', 'n', '_', 'a', ':', ' ', '#', 'e', 'n', 'u', 'm', 's', 'e', 't', ':', ':', 'E', 'n', 'u', 'm', 'S', 'e', 't', '<', '#', 'n', 'a', 'm', 'e', '>', ','],
   [' ', ' ', ' ', ' ', ' ', ' ', ' ', ' ', ' ', ' ', ' ', ' ', ' ', ' ', ' ', ' ', ' ', ' ', ' ', ' ', ' ', ' ', ' ', ' ', 'c', 'h', 'a', 'i', 'n', '_', 'b', ':', ' ', '#', 'e', 'n', 'u', 'm', 's', 'e', 't', ':', ':', 'E', 'n', 'u', 'm', 'S', 'e', 't', '<', '#', 'n', 'a', 'm', 'e', '>', ','],
   [' ', ' ', ' ', ' ', ' ', ' ', ' ', ' ', ' ', ' ', ' ', ' ', ' ', ' ', ' ', ' ', ' ', ' ', ' ', ' ', ')', ' ', '-', '>', ' ', '#', 'e', 'n', 'u', 'm', 's', 'e', 't', ':', ':', 'E', 'n', 'u', 'm', 'S', 'e', 't', '<', '#', 'n', 'a', 'm', 'e', '>', ' ', '{'],
   [' ', ' ', ' ', ' ', ' ', ' ', ' ', ' ', ' ', ' ', ' ', ' ', ' ', ' ', ' ', ' ', ' ', ' ', ' ', ' ', ' ', ' ', ' ', ' ', 'l', 'e', 't', ' ', 'm', 'u', 't', ' ', 'i', ' ', '=', ' ', '0', ';'],
   [' ', ' ', ' ', ' ', ' ', ' ', ' ', ' ', ' ', ' ', ' ', ' ', ' ', ' ', ' ', ' ', ' ', ' ', ' ', ' ', ' ', ' ', ' ', ' ', 'w', 'h', 'i', 'l', 'e', ' ', 'i', ' ', '<', ' ', '#', 's', 'i', 'z', 'e', ' ', '{'],
   [' ', ' ', ' ', ' ', ' ', ' ', ' ', ' ', ' ', ' ', ' ', ' ', ' ', ' ', ' ', ' ', ' ', ' ', ' ', ' ', ' ', ' ', ' ', ' ', ' ', ' ', ' ', ' ', 'c', 'h', 'a', 'i', 'n', '_', 'a', '.', '_', '_', 'p', 'r', 'i', 'v', '_', 'r', 'e', 'p', 'r', '.', '0', '[', 'i', ']', ' ', '|', '=', ' ', 'c', 'h', 'a', 'i', 'n', '_', 'b', '.', '_', '_', 'p', 'r', 'i', 'v', '_', 'r', 'e', 'p', 'r', '.', '0', '[', 'i', ']', ';'],
   [' ', ' ', ' ', ' ', ' ', ' ', ' ', ' ', ' ', ' ', ' ', ' ', ' ', ' ', ' ', ' ', ' ', ' ', ' ', ' ', ' ', ' ', ' ', ' ', ' ', ' ', ' ', ' ', 'i', ' ', '+', '=', ' ', '1', ';'],
   [' ', ' ', ' ', ' ', ' ', ' ', ' ', ' ', ' ', ' ', ' ', ' ', ' ', ' ', ' ', ' ', ' ', ' ', ' ', ' ', ' ', ' ', ' ', ' ', '}'],
   [' ', ' ', ' ', ' ', ' ', ' ', ' ', ' ', ' ', ' ', ' ', ' ', ' ', ' ', ' ', ' ', ' ', ' ', ' ', ' ', ' ', ' ', ' ', ' ', 'c', 'h', 'a', 'i', 'n', '_', 'a'],
   [' ', ' ', ' ', ' ', ' ', ' ', ' ', ' ', ' ', ' ', ' ', ' ', ' ', ' ', ' ', ' ', ' ', ' ', ' ', ' ', '}'],
   [],
   [' ', ' ', ' ', ' ', ' ', ' ', ' ', ' ', ' ', ' ', ' ', ' ', ' ', ' ', ' ', ' ', ' ', ' ', ' ', ' ', 'p', 'u', 'b', ' ', 'c', 'o', 'n', 's', 't', ' ', 'f', 'n', ' ', 'c', 'o', 'n', 's', 't', '_', 'i', 'n', 't', 'e', 'r', 's', 'e', 'c', 't', 'i', 'o', 'n', '('],
   [' ', ' ', ' ', ' ', ' ', ' ', ' ', ' ', ' ', ' ', ' ', ' ', ' ', ' ', ' ', ' ', ' ', ' ', ' ', ' ', ' ', ' ', ' ', ' ', '&', 's', 'e', 'l', 'f', ','],
   [' ', ' ', ' ', ' ', ' ', ' ', ' ', ' ', ' ', ' ', ' ', ' ', ' ', ' ', ' ', ' ', ' ', ' ', ' ', ' ', ' ', ' ', ' ', ' ', 'm', 'u', 't', ' ', 'c', 'h', 'a', 'i', 'n', '_', 'a', ':', ' ', '#', 'e', 'n', 'u', 'm', 's', 'e', 't', ':', ':', 'E', 'n', 'u', 'm', 'S', 'e', 't', '<', '#', 'n', 'a', 'm', 'e', '>', ','],
   [' ', ' ', ' ', ' ', ' ', ' ', ' ', ' ', ' ', ' ', ' ', ' ', ' ', ' ', ' ', ' ', ' ', ' ', ' ', ' ', ' ', ' ', ' ', ' ', 'c', 'h', 'a', 'i', 'n', '_', 'b', ':', ' ', '#', 'e', 'n', 'u', 'm', 's', 'e', 't', ':', ':', 'E', 'n', 'u', 'm', 'S', 'e', 't', '<', '#', 'n', 'a', 'm', 'e', '>', ','],
   [' ', ' ', ' ', ' ', ' ', ' ', ' ', ' ', ' ', ' ', ' ', ' ', ' ', ' ', ' ', ' ', ' ', ' ', ' ', ' ', ')', ' ', '-', '>', ' ', '#', 'e', 'n', 'u', 'm', 's', 'e', 't', ':', ':', 'E', 'n', 'u', 'm', 'S', 'e', 't', '<', '#', 'n', 'a', 'm', 'e', '>', ' ', '{'],
   [' ', ' ', ' ', ' ', ' ', ' ', ' ', ' ', ' ', ' ', ' ', ' ', ' ', ' ', ' ', ' ', ' ', ' ', ' ', ' ', ' ', ' ', ' ', ' ', 'l', 'e', 't', ' ', 'm', 'u', 't', ' ', 'i', ' ', '=', ' ', '0', ';'],
   [' ', ' ', ' ', ' ', ' ', ' ', ' ', ' ', ' ', ' ', ' ', ' ', ' ', ' ', ' ', ' ', ' ', ' ', ' ', ' ', ' ', ' ', ' ', ' ', 'w', 'h', 'i', 'l', 'e', ' ', 'i', ' ', '<', ' ', '#', 's', 'i', 'z', 'e', ' ', '{'],
   [' ', ' ', ' ', ' ', ' ', ' ', ' ', ' ', ' ', ' ', ' ', ' ', ' ', ' ', ' ', ' ', ' ', ' ', ' ', ' ', ' ', ' ', ' ', ' ', ' ', ' ', ' ', ' ', 'c', 'h', 'a', 'i', 'n', '_', 'a', '.', '_', '_', 'p', 'r', 'i', 'v', '_', 'r', 'e', 'p', 'r', '.', '0', '[', 'i', ']', ' ', '&', '=', ' ', 'c', 'h', 'a', 'i', 'n', '_', 'b', '.', '_', '_', 'p', 'r', 'i', 'v', '_', 'r', 'e', 'p', 'r', '.', '0', '[', 'i', ']', ';'],
   [' ', ' ', ' ', ' ', ' ', ' ', ' ', ' ', ' ', ' ', ' ', ' ', ' ', ' ', ' ', ' ', ' ', ' ', ' ', ' ', ' ', ' ', ' ', ' ', ' ', ' ', ' ', ' ', 'i', ' ', '+', '=', ' ', '1', ';'],
   [' ', ' ', ' ', ' ', ' ', ' ', ' ', ' ', ' ', ' ', ' ', ' ', ' ', ' ', ' ', ' ', ' ', ' ', ' ', ' ', ' ', ' ', ' ', ' ', '}'],
   [' ', ' ', ' ', ' ', ' ', ' ', ' ', ' ', ' ', ' ', ' ', ' ', ' ', ' ', ' ', ' ', ' ', ' ', ' ', ' ', ' ', ' ', ' ', ' ', 'c', 'h', 'a', 'i', 'n', '_', 'a'],
   [' ', ' ', ' ', ' ', ' ', ' ', ' ', ' ', ' ', ' ', ' ', ' ', ' ', ' ', ' ', ' ', ' ', ' ', ' ', ' ', '}'],
   [],
   [' ', ' ', ' ', ' ', ' ', ' ', ' ', ' ', ' ', ' ', ' ', ' ', ' ', ' ', ' ', ' ', ' ', ' ', ' ', ' ', 'p', 'u', 'b', ' ', 'c', 'o', 'n', 's', 't', ' ', 'f', 'n', ' ', 'c', 'o', 'n', 's', 't', '_', 's', 'y', 'm', 'm', 'e', 't', 'r', 'i', 'c', '_', 'd', 'i', 'f', 'f', 'e', 'r', 'e', 'n', 'c', 'e', '('],
   [' ', ' ', ' ', ' ', ' ', ' ', ' ', ' ', ' ', ' ', ' ', ' ', ' ', ' ', ' ', ' ', ' ', ' ', ' ', ' ', ' ', ' ', ' ', ' ', '&', 's', 'e', 'l', 'f', ','],
   [' ', ' ', ' ', ' ', ' ', ' ', ' ', ' ', ' ', ' ', ' ', ' ', ' ', ' ', ' ', ' ', ' ', ' ', ' ', ' ', ' ', ' ', ' ', ' ', 'm', 'u', 't', ' ', 'c', 'h', 'a', 'i', 'n', '_', 'a', ':', ' ', '#', 'e', 'n', 'u', 'm', 's', 'e', 't', ':', ':', 'E', 'n', 'u', 'm', 'S', 'e', 't', '<', '#', 'n', 'a', 'm', 'e', '>', ','],
   [' ', ' ', ' ', ' ', ' ', ' ', ' ', ' ', ' ', ' ', ' ', ' ', ' ', ' ', ' ', ' ', ' ', ' ', ' ', ' ', ' ', ' ', ' ', ' ', 'c', 'h', 'a', 'i', 'n', '_', 'b', ':', ' ', '#', 'e', 'n', 'u', 'm', 's', 'e', 't', ':', ':', 'E', 'n', 'u', 'm', 'S', 'e', 't', '<', '#', 'n', 'a', 'm', 'e', '>', ','],
   [' ', ' ', ' ', ' ', ' ', ' ', ' ', ' ', ' ', ' ', ' ', ' ', ' ', ' ', ' ', ' ', ' ', ' ', ' ', ' ', ')', ' ', '-', '>', ' ', '#', 'e', 'n', 'u', 'm', 's', 'e', 't', ':', ':', 'E', 'n', 'u', 'm', 'S', 'e', 't', '<', '#', 'n', 'a', 'm', 'e', '>', ' ', '{'],
   [' ', ' ', ' ', ' ', ' ', ' ', ' ', ' ', ' ', ' ', ' ', ' ', ' ', ' ', ' ', ' ', ' ', ' ', ' ', ' ', ' ', ' ', ' ', ' ', 'l', 'e', 't', ' ', 'm', 'u', 't', ' ', 'i', ' ', '=', ' ', '0', ';'],
   [' ', ' ', ' ', ' ', ' ', ' ', ' ', ' ', ' ', ' ', ' ', ' ', ' ', ' ', ' ', ' ', ' ', ' ', ' ', ' ', ' ', ' ', ' ', ' ', 'w', 'h', 'i', 'l', 'e', ' ', 'i', ' ', '<', ' ', '#', 's', 'i', 'z', 'e', ' ', '{'],
   [' ', ' ', ' ', ' ', ' ', ' ', ' ', ' ', ' ', ' ', ' ', ' ', ' ', ' ', ' ', ' ', ' ', ' ', ' ', ' ', ' ', ' ', ' ', ' ', ' ', ' ', ' ', ' ', 'c', 'h', 'a', 'i', 'n', '_', 'a', '.', '_', '_', 'p', 'r', 'i', 'v', '_', 'r', 'e', 'p', 'r', '.', '0', '[', 'i', ']', ' ', '^', '=', ' ', 'c', 'h', 'a', 'i', 'n', '_', 'b', '.', '_', '_', 'p', 'r', 'i', 'v', '_', 'r', 'e', 'p', 'r', '.', '0', '[', 'i', ']', ';'],
   [' ', ' ', ' ', ' ', ' ', ' ', ' ', ' ', ' ', ' ', ' ', ' ', ' ', ' ', ' ', ' ', ' ', ' ', ' ', ' ', ' ', ' ', ' ', ' ', ' ', ' ', ' ', ' ', 'i', ' ', '+', '=', ' ', '1', ';'],
   [' ', ' ', ' ', ' ', ' ', ' ', ' ', ' ', ' ', ' ', ' ', ' ', ' ', ' ', ' ', ' ', ' ', ' ', ' ', ' ', ' ', ' ', ' ', ' ', '}'],
   [' ', ' ', ' ', ' ', ' ', ' ', ' ', ' ', ' ', ' ', ' ', ' ', ' ', ' ', ' ', ' ', ' ', ' ', ' ', ' ', ' ', ' ', ' ', ' ', 'c', 'h', 'a', 'i', 'n', '_', 'a'],
   [' ', ' ', ' ', ' ', ' ', ' ', ' ', ' ', ' ', ' ', ' ', ' ', ' ', ' ', ' ', ' ', ' ', ' ', ' ', ' ', '}'],
   [],
   [' ', ' ', ' ', ' ', ' ', ' ', ' ', ' ', ' ', ' ', ' ', ' ', ' ', ' ', ' ', ' ', ' ', ' ', ' ', ' ', 'p', 'u', 'b', ' ', 'c', 'o', 'n', 's', 't', ' ', 'f', 'n', ' ', 'c', 'o', 'n', 's', 't', '_', 'c', 'o', 'm', 'p', 'l', 'e', 'm', 'e', 'n', 't', '('],
   [' ', ' ', ' ', ' ', ' ', ' ', ' ', ' ', ' ', ' ', ' ', ' ', ' ', ' ', ' ', ' ', ' ', ' ', ' ', ' ', ' ', ' ', ' ', ' ', '&', 's', 'e', 'l', 'f', ','],
   [' ', ' ', ' ', ' ', ' ', ' ', ' ', ' ', ' ', ' ', ' ', ' ', ' ', ' ', ' ', ' ', ' ', ' ', ' ', ' ', ' ', ' ', ' ', ' ', 'm', 'u', 't', ' ', 'c', 'h', 'a', 'i', 'n', ':', ' ', '#', 'e', 'n', 'u', 'm', 's', 'e', 't', ':', ':', 'E', 'n', 'u', 'm', 'S', 'e', 't', '<', '#', 'n', 'a', 'm', 'e', '>', ','],
   [' ', ' ', ' ', ' ', ' ', ' ', ' ', ' ', ' ', ' ', ' ', ' ', ' ', ' ', ' ', ' ', ' ', ' ', ' ', ' ', ')', ' ', '-', '>', ' ', '#', 'e', 'n', 'u', 'm', 's', 'e', 't', ':', ':', 'E', 'n', 'u', 'm', 'S', 'e', 't', '<', '#', 'n', 'a', 'm', 'e', '>', ' ', '{'],
   [' ', ' ', ' ', ' ', ' ', ' ', ' ', ' ', ' ', ' ', ' ', ' ', ' ', ' ', ' ', ' ', ' ', ' ', ' ', ' ', ' ', ' ', ' ', ' ', 'l', 'e', 't', ' ', 'm', 'u', 't', ' ', 'a', 'l', 'l', ' ', '=', ' ', '#', 'e', 'n', 'u', 'm', 's', 'e', 't', ':', ':', 'E', 'n', 'u', 'm', 'S', 'e', 't', ':', ':', '<', '#', 'n', 'a', 'm', 'e', '>', ':', ':', 'a', 'l', 'l', '(', ')', ';'],
   [' ', ' ', ' ', ' ', ' ', ' ', ' ', ' ', ' ', ' ', ' ', ' ', ' ', ' ', ' ', ' ', ' ', ' ', ' ', ' ', ' ', ' ', ' ', ' ', 'l', 'e', 't', ' ', 'm', 'u', 't', ' ', 'i', ' ', '=', ' ', '0', ';'],
   [' ', ' ', ' ', ' ', ' ', ' ', ' ', ' ', ' ', ' ', ' ', ' ', ' ', ' ', ' ', ' ', ' ', ' ', ' ', ' ', ' ', ' ', ' ', ' ', 'w', 'h', 'i', 'l', 'e', ' ', 'i', ' ', '<', ' ', '#', 's', 'i', 'z', 'e', ' ', '{'],
   [' ', ' ', ' ', ' ', ' ', ' ', ' ', ' ', ' ', ' ', ' ', ' ', ' ', ' ', ' ', ' ', ' ', ' ', ' ', ' ', ' ', ' ', ' ', ' ', ' ', ' ', ' ', ' ', 'l', 'e', 't', ' ', 'n', 'e', 'w', ' ', '=', ' ', '!', 'c', 'h', 'a', 'i', 'n', '.', '_', '_', 'p', 'r', 'i', 'v', '_', 'r', 'e', 'p', 'r', '.', '0', '[', 'i', ']', ' ', '&', ' ', 'a', 'l', 'l', '.', '_', '_', 'p', 'r', 'i', 'v', '_', 'r', 'e', 'p', 'r', '.', '0', '[', 'i', ']', ';'],
   [' ', ' ', ' ', ' ', ' ', ' ', ' ', ' ', ' ', ' ', ' ', ' ', ' ', ' ', ' ', ' ', ' ', ' ', ' ', ' ', ' ', ' ', ' ', ' ', ' ', ' ', ' ', ' ', 'c', 'h', 'a', 'i', 'n', '.', '_', '_', 'p', 'r', 'i', 'v', '_', 'r', 'e', 'p', 'r', '.', '0', '[', 'i', ']', ' ', '=', ' ', 'n', 'e', 'w', ';'],
   [' ', ' ', ' ', ' ', ' ', ' ', ' ', ' ', ' ', ' ', ' ', ' ', ' ', ' ', ' ', ' ', ' ', ' ', ' ', ' ', ' ', ' ', ' ', ' ', ' ', ' ', ' ', ' ', 'i', ' ', '+', '=', ' ', '1', ';'],
   [' ', ' ', ' ', ' ', ' ', ' ', ' ', ' ', ' ', ' ', ' ', ' ', ' ', ' ', ' ', ' ', ' ', ' ', ' ', ' ', ' ', ' ', ' ', ' ', '}'],
   [' ', ' ', ' ', ' ', ' ', ' ', ' ', ' ', ' ', ' ', ' ', ' ', ' ', ' ', ' ', ' ', ' ', ' ', ' ', ' ', ' ', ' ', ' ', ' ', 'c', 'h', 'a', 'i', 'n'],
   [' ', ' ', ' ', ' ', ' ', ' ', ' ', ' ', ' ', ' ', ' ', ' ', ' ', ' ', ' ', ' ', ' ', ' ', ' ', ' ', '}'],
   [' ', ' ', ' ', ' ', ' ', ' ', ' ', ' ', ' ', ' ', ' ', ' ', ' ', ' ', ' ', ' ', '}'],
   [' ', ' ', ' ', ' ', ' ', ' ', ' ', ' ', ' ', ' ', ' ', ' ', '}'],
   [' ', ' ', ' ', ' ', ' ', ' ', ' ', ' ', '}'],
   [' ', ' ', ' ', ' ', '}', ';'],
   [],
   [' ', ' ', ' ', ' ', 'l', 'e', 't', ' ', 'm', 'u', 't', ' ', 'g', 'e', 'n', 'e', 'r', 'a', 't', 'e', 'd', '_', 'w', 'a', 'r', 'n', 'i', 'n', 'g', 's', ' ', '=', ' ', 'S', 'y', 'n', 'T', 'o', 'k', 'e', 'n', 'S', 't', 'r', 'e', 'a', 'm', ':', ':', 'n', 'e', 'w', '(', ')', ';'],
   [' ', ' ', ' ', ' ', 'f', 'o', 'r', ' ', '(', 's', 'p', 'a', 'n', ',', ' ', 'w', 'a', 'r', 'n', 'i', 'n', 'g', ')', ' ', 'i', 'n', ' ', 'w', 'a', 'r', 'n', 'i', 'n', 'g', 's', ' ', '{'],
   [' ', ' ', ' ', ' ', ' ', ' ', ' ', ' ', 'g', 'e', 'n', 'e', 'r', 'a', 't', 'e', 'd', '_', 'w', 'a', 'r', 'n', 'i', 'n', 'g', 's', '.', 'e', 'x', 't', 'e', 'n', 'd', '(', 'q', 'u', 'o', 't', 'e', '_', 's', 'p', 'a', 'n', 'n', 'e', 'd', '!', ' ', '{'],
   [' ', ' ', ' ', ' ', ' ', ' ', ' ', ' ', ' ', ' ', ' ', ' ', 's', 'p', 'a', 'n', ' ', '=', '>', ' ', '{'],
   [' ', ' ', ' ', ' ', ' ', ' ', ' ', ' ', ' ', ' ', ' ', ' ', ' ', ' ', ' ', ' ', '#', '[', 'd', 'e', 'p', 'r', 'e', 'c', 'a', 't', 'e', 'd', '(', 'n', 'o', 't', 'e', ' ', '=', ' ', '#', 'w', 'a', 'r', 'n', 'i', 'n', 'g', ')', ']'],
   [' ', ' ', ' ', ' ', ' ', ' ', ' ', ' ', ' ', ' ', ' ', ' ', ' ', ' ', ' ', ' ', '#', '[', 'a', 'l', 'l', 'o', 'w', '(', 'n', 'o', 'n', '_', 'u', 'p', 'p', 'e', 'r', '_', 'c', 'a', 's', 'e', '_', 'g', 'l', 'o', 'b', 'a', 'l', 's', ')', ']'],
   [' ', ' ', ' ', ' ', ' ', ' ', ' ', ' ', ' ', ' ', ' ', ' ', ' ', ' ', ' ', ' ', 'c', 'o', 'n', 's', 't', ' ', '_', 'w', ':', ' ', '(', ')', ' ', '=', ' ', '(', ')', ';'],
   [' ', ' ', ' ', ' ', ' ', ' ', ' ', ' ', ' ', ' ', ' ', ' ', ' ', ' ', ' ', ' ', 'l', 'e', 't', ' ', '_', ' ', '=', ' ', '_', 'w', ';'],
   [' ', ' ', ' ', ' ', ' ', ' ', ' ', ' ', ' ', ' ', ' ', ' ', '}'],
   [' ', ' ', ' ', ' ', ' ', ' ', ' ', ' ', '}', ')', ';'],
   [' ', ' ', ' ', ' ', '}'],
   [],
   [' ', ' ', ' ', ' ', 'l', 'e', 't', ' ', 'b', 'i', 't', '_', 'w', 'i', 'd', 't', 'h', ' ', '=', ' ', 'i', 'n', 'f', 'o', '.', 'm', 'a', 'x', '_', 'd', 'i', 's', 'c', 'r', 'i', 'm', ' ', '+', ' ', '1', ';'],
   [' ', ' ', ' ', ' ', 'l', 'e', 't', ' ', 'v', 'a', 'r', 'i', 'a', 'n', 't', '_', 'c', 'o', 'u', 'n', 't', ' ', '=', ' ', 'i', 'n', 'f', 'o', '.', 'v', 'a', 'r', 'i', 'a', 'n', 't', 's', '.', 'l', 'e', 'n', '(', ')', ' ', 'a', 's', ' ', 'u', '3', '2', ';'],
   [' ', ' ', ' ', ' ', 'l', 'e', 't', ' ', 'v', 'i', 's', ' ', '=', ' ', '&', 'i', 'n', 'f', 'o', '.', 'v', 'i', 's', ';'],
   [' ', ' ', ' ', ' ', 'q', 'u', 'o', 't', 'e', '!', ' ', '{'],
   [' ', ' ', ' ', ' ', ' ', ' ', ' ', ' ', 'c', 'o', 'n', 's', 't', ' ', '_', ':', ' ', '(', ')', ' ', '=', ' ', '{'],
   [' ', ' ', ' ', ' ', ' ', ' ', ' ', ' ', ' ', ' ', ' ', ' ', '#', '[', 'a', 'u', 't', 'o', 'm', 'a', 't', 'i', 'c', 'a', 'l', 'l', 'y', '_', 'd', 'e', 'r', 'i', 'v', 'e', 'd', ']'],
   [' ', ' ', ' ', ' ', ' ', ' ', ' ', ' ', ' ', ' ', ' ', ' ', '#', '[', 'd', 'o', 'c', '(', 'h', 'i', 'd', 'd', 'e', 'n', ')', ']'],
   [' ', ' ', ' ', ' ', ' ', ' ', ' ', ' ', ' ', ' ', ' ', ' ', '#', 'v', 'i', 's', ' ', 's', 't', 'r', 'u', 'c', 't', ' ', '_', '_', 'E', 'n', 'u', 'm', 'S', 'e', 't', 'C', 'o', 'n', 's', 't', 'H', 'e', 'l', 'p', 'e', 'r', ';'],
   [],
   [' ', ' ', ' ', ' ', ' ', ' ', ' ', ' ', ' ', ' ', ' ', ' ', '#', '[', 'a', 'u', 't', 'o', 'm', 'a', 't', 'i', 'c', 'a', 'l', 'l', 'y', '_', 'd', 'e', 'r', 'i', 'v', 'e', 'd', ']'],
   [' ', ' ', ' ', ' ', ' ', ' ', ' ', ' ', ' ', ' ', ' ', ' ', '#', '[', 'd', 'o', 'c', '(', 'h', 'i', 'd', 'd', 'e', 'n', ')', ']'],
   [' ', ' ', ' ', ' ', ' ', ' ', ' ', ' ', ' ', ' ', ' ', ' ', 'i', 'm', 'p', 'l', ' ', '#', 'n', 'a', 'm', 'e', ' ', '{'],
   [' ', ' ', ' ', ' ', ' ', ' ', ' ', ' ', ' ', ' ', ' ', ' ', ' ', ' ', ' ', ' ', '/', '/', '/', ' ', 'C', 'r', 'e', 'a', 't', 'e', 's', ' ', 'a', ' ', 'n', 'e', 'w', ' ', 'e', 'n', 'u', 'm', 's', 'e', 't', ' ', 'h', 'e', 'l', 'p', 'e', 'r', '.'],
   [' ', ' ', ' ', ' ', ' ', ' ', ' ', ' ', ' ', ' ', ' ', ' ', ' ', ' ', ' ', ' ', '#', '[', 'd', 'e', 'p', 'r', 'e', 'c', 'a', 't', 'e', 'd', '(', 'n', 'o', 't', 'e', ' ', '=', ' ', '"', 'T', 'h', 'i', 's', ' ', 'm', 'e', 't', 'h', 'o', 'd', ' ', 'i', 's', ' ', 'a', 'n', ' ', 'i', 'n', 't', 'e', 'r', 'n', 'a', 'l', ' ', 'i', 'm', 'p', 'l', 'e', 'm', 'e', 'n', 't', 'a', 't', 'i', 'o', 'n', ' ', 'd', 'e', 't', 'a', 'i', 'l', ' ', 'g', 'e', 'n', 'e', 'r', 'a', 't', 'e', 'd', ' ', '\\'],
   [' ', ' ', ' ', ' ', ' ', ' ', ' ', ' ', ' ', ' ', ' ', ' ', ' ', ' ', ' ', ' ', ' ', ' ', ' ', ' ', ' ', ' ', ' ', ' ', ' ', ' ', ' ', ' ', ' ', ' ', ' ', ' ', ' ', ' ', ' ', ' ', ' ', 'b', 'y', ' ', 't', 'h', 'e', ' ', '`', 'e', 'n', 'u', 'm', 's', 'e', 't', '`', ' ', 'c', 'r', 'a', 't', 'e', '\'', 's', ' ', 'p', 'r', 'o', 'c', 'e', 'd', 'u', 'r', 'a', 'l', ' ', 'm', 'a', 'c', 'r', 'o', '.', ' ', 'I', 't', ' ', 's', 'h', 'o', 'u', 'l', 'd', ' ', 'n', 'o', 't', ' ', 'b', 'e', ' ', '\\'],
   [' ', ' ', ' ', ' ', ' ', ' ', ' ', ' ', ' ', ' ', ' ', ' ', ' ', ' ', ' ', ' ', ' ', ' ', ' ', ' ', ' ', ' ', ' ', ' ', ' ', ' ', ' ', ' ', ' ', ' ', ' ', ' ', ' ', ' ', ' ', ' ', ' ', 'u', 's', 'e', 'd', ' ', 'd', 'i', 'r', 'e', 'c', 't', 'l', 'y', '.', '"', ')', ']'],
   [' ', ' ', ' ', ' ', ' ', ' ', ' ', ' ', ' ', ' ', ' ', ' ', ' ', ' ', ' ', ' ', '#', '[', 'd', 'o', 'c', '(', 'h', 'i', 'd', 'd', 'e', 'n', ')', ']'],
   [' ', ' ', ' ', ' ', ' ', ' ', ' ', ' ', ' ', ' ', ' ', ' ', ' ', ' ', ' ', ' ', 'p', 'u', 'b', ' ', 'c', 'o', 'n', 's', 't', ' ', 'f', 'n', ' ', '_', '_', 'i', 'm', 'p', 'l', '_', 'e', 'n', 'u', 'm', 's', 'e', 't', '_', 'i', 'n', 't', 'e', 'r', 'n', 'a', 'l', '_', '_', 'c', 'o', 'n', 's', 't', '_', 'h', 'e', 'l', 'p', 'e', 'r', '('],
   [' ', ' ', ' ', ' ', ' ', ' ', ' ', ' ', ' ', ' ', ' ', ' ', ' ', ' ', ' ', ' ', ' ', ' ', ' ', ' ', 's', 'e', 'l', 'f', ','],
   [' ', ' ', ' ', ' ', ' ', ' ', ' ', ' ', ' ', ' ', ' ', ' ', ' ', ' ', ' ', ' ', ')', ' ', '-', '>', ' ', '_', '_', 'E', 'n', 'u', 'm', 'S', 'e', 't', 'C', 'o', 'n', 's', 't', 'H', 'e', 'l', 'p', 'e', 'r', ' ', '{'],
   [' ', ' ', ' ', ' ', ' ', ' ', ' ', ' ', ' ', ' ', ' ', ' ', ' ', ' ', ' ', ' ', ' ', ' ', ' ', ' ', '_', '_', 'E', 'n', 'u', 'm', 'S', 'e', 't', 'C', 'o', 'n', 's', 't', 'H', 'e', 'l', 'p', 'e', 'r'],
   [' ', ' ', ' ', ' ', ' ', ' ', ' ', ' ', ' ', ' ', ' ', ' ', ' ', ' ', ' ', ' ', '}'],
   [' ', ' ', ' ', ' ', ' ', ' ', ' ', ' ', ' ', ' ', ' ', ' ', '}'],
   [],
   [' ', ' ', ' ', ' ', ' ', ' ', ' ', ' ', ' ', ' ', ' ', ' ', '#', '[', 'a', 'u', 't', 'o', 'm', 'a', 't', 'i', 'c', 'a', 'l', 'l', 'y', '_', 'd', 'e', 'r', 'i', 'v', 'e', 'd', ']'],
   [' ', ' ', ' ', ' ', ' ', ' ', ' ', ' ', ' ', ' ', ' ', ' ', 'u', 'n', 's', 'a', 'f', 'e', ' ', 'i', 'm', 'p', 'l', ' ', '#', 'i', 'n', 't', 'e', 'r', 'n', 'a', 'l', ':', ':', 'E', 'n', 'u', 'm', 'S', 'e', 't', 'T', 'y', 'p', 'e', 'P', 'r', 'i', 'v', 'a', 't', 'e', ' ', 'f', 'o', 'r', ' ', '#', 'n', 'a', 'm', 'e', ' ', '{'],
   [' ', ' ', ' ', ' ', ' ', ' ', ' ', ' ', ' ', ' ', ' ', ' ', ' ', ' ', ' ', ' ', 't', 'y', 'p', 'e', ' ', 'C', 'o', 'n', 's', 't', 'H', 'e', 'l', 'p', 'e', 'r', ' ', '=', ' ', '_', '_', 'E', 'n', 'u', 'm', 'S', 'e', 't', 'C', 'o', 'n', 's', 't', 'H', 'e', 'l', 'p', 'e', 'r', ';'],
   [' ', ' ', ' ', ' ', ' ', ' ', ' ', ' ', ' ', ' ', ' ', ' ', ' ', ' ', ' ', ' ', 'c', 'o', 'n', 's', 't', ' ', 'C', 'O', 'N', 'S', 'T', '_', 'H', 'E', 'L', 'P', 'E', 'R', '_', 'I', 'N', 'S', 'T', 'A', 'N', 'C', 'E', ':', ' ', '_', '_', 'E', 'n', 'u', 'm', 'S', 'e', 't', 'C', 'o', 'n', 's', 't', 'H', 'e', 'l', 'p', 'e', 'r', ' ', '=', ' ', '_', '_', 'E', 'n', 'u', 'm', 'S', 'e', 't', 'C', 'o', 'n', 's', 't', 'H', 'e', 'l', 'p', 'e', 'r', ';'],
   [],
   [' ', ' ', ' ', ' ', ' ', ' ', ' ', ' ', ' ', ' ', ' ', ' ', ' ', ' ', ' ', ' ', 't', 'y', 'p', 'e', ' ', 'R', 'e', 'p', 'r', ' ', '=', ' ', '#', 'r', 'e', 'p', 'r', ';'],
   [' ', ' ', ' ', ' ', ' ', ' ', ' ', ' ', ' ', ' ', ' ', ' ', ' ', ' ', ' ', ' ', 'c', 'o', 'n', 's', 't', ' ', 'A', 'L', 'L', '_', 'B', 'I', 'T', 'S', ':', ' ', 'S', 'e', 'l', 'f', ':', ':', 'R', 'e', 'p', 'r', ' ', '=', ' ', '#', 'a', 'l', 'l', '_', 'v', 'a', 'r', 'i', 'a', 'n', 't', 's', ';'],
   [' ', ' ', ' ', ' ', ' ', ' ', ' ', ' ', ' ', ' ', ' ', ' ', ' ', ' ', ' ', ' ', 'c', 'o', 'n', 's', 't', ' ', 'B', 'I', 'T', '_', 'W', 'I', 'D', 'T', 'H', ':', ' ', 'u', '3', '2', ' ', '=', ' ', '#', 'b', 'i', 't', '_', 'w', 'i', 'd', 't', 'h', ';'],
   [' ', ' ', ' ', ' ', ' ', ' ', ' ', ' ', ' ', ' ', ' ', ' ', ' ', ' ', ' ', ' ', 'c', 'o', 'n', 's', 't', ' ', 'V', 'A', 'R', 'I', 'A', 'N', 'T', '_', 'C', 'O', 'U', 'N', 'T', ':', ' ', 'u', '3', '2', ' ', '=', ' ', '#', 'v', 'a', 'r', 'i', 'a', 'n', 't', '_', 'c', 'o', 'u', 'n', 't', ';'],
   [],
   [' ', ' ', ' ', ' ', ' ', ' ', ' ', ' ', ' ', ' ', ' ', ' ', ' ', ' ', ' ', ' ', '#', 'i', 'n', 't', 'o', '_', 'i', 'm', 'p', 'l'],
   [' ', ' ', ' ', ' ', ' ', ' ', ' ', ' ', ' ', ' ', ' ', ' ', ' ', ' ', ' ', ' ', '#', 's', 'e', 'r', 'd', 'e', '_', 'o', 'p', 's'],
   [' ', ' ', ' ', ' ', ' ', ' ', ' ', ' ', ' ', ' ', ' ', ' ', '}'],
   [],
   [' ', ' ', ' ', ' ', ' ', ' ', ' ', ' ', ' ', ' ', ' ', ' ', '#', '[', 'a', 'u', 't', 'o', 'm', 'a', 't', 'i', 'c', 'a', 'l', 'l', 'y', '_', 'd', 'e', 'r', 'i', 'v', 'e', 'd', ']'],
   [' ', ' ', ' ', ' ', ' ', ' ', ' ', ' ', ' ', ' ', ' ', ' ', 'u', 'n', 's', 'a', 'f', 'e', ' ', 'i', 'm', 'p', 'l', ' ', '#', 'e', 'n', 'u', 'm', 's', 'e', 't', ':', ':', 'E', 'n', 'u', 'm', 'S', 'e', 't', 'T', 'y', 'p', 'e', ' ', 'f', 'o', 'r', ' ', '#', 'n', 'a', 'm', 'e', ' ', '{', ' ', '}'],
   [],
   [' ', ' ', ' ', ' ', ' ', ' ', ' ', ' ', ' ', ' ', ' ', ' ', '#', 'i', 'm', 'p', 'l', '_', 'w', 'i', 't', 'h', '_', 'r', 'e', 'p', 'r'],
   [' ', ' ', ' ', ' ', ' ', ' ', ' ', ' ', ' ', ' ', ' ', ' ', '#', 's', 'u', 'p', 'e', 'r', '_', 'i', 'm', 'p', 'l', 's'],
   [' ', ' ', ' ', ' ', ' ', ' ', ' ', ' ', ' ', ' ', ' ', ' ', '#', 'o', 'p', 's'],
   [' ', ' ', ' ', ' ', ' ', ' ', ' ', ' ', ' ', ' ', ' ', ' ', '#', 'i', 'n', 'h', 'e', 'r', 'e', 'n', 't', '_', 'i', 'm', 'p', 'l', '_', 'b', 'l', 'o', 'c', 'k', 's'],
   [],
   [' ', ' ', ' ', ' ', ' ', ' ', ' ', ' ', ' ', ' ', ' ', ' ', 'f', 'n', ' ', '_', '_', 'e', 'n', 'u', 'm', 's', 'e', 't', '_', 'd', 'e', 'r', 'i', 'v', 'e', '_', '_', 'g', 'e', 'n', 'e', 'r', 'a', 't', 'e', 'd', '_', 'w', 'a', 'r', 'n', 'i', 'n', 'g', 's', '(', ')', ' ', '{'],
   [' ', ' ', ' ', ' ', ' ', ' ', ' ', ' ', ' ', ' ', ' ', ' ', ' ', ' ', ' ', ' ', '#', 'g', 'e', 'n', 'e', 'r', 'a', 't', 'e', 'd', '_', 'w', 'a', 'r', 'n', 'i', 'n', 'g', 's'],
   [' ', ' ', ' ', ' ', ' ', ' ', ' ', ' ', ' ', ' ', ' ', ' ', '}'],
   [' ', ' ', ' ', ' ', ' ', ' ', ' ', ' ', '}', ';'],
   [' ', ' ', ' ', ' ', '}'],
   ['}'],
   [],
   ['#', '[', 'p', 'r', 'o', 'c', '_', 'm', 'a', 'c', 'r', 'o', '_', 'd', 'e', 'r', 'i', 'v', 'e', '(', 'E', 'n', 'u', 'm', 'S', 'e', 't', 'T', 'y', 'p', 'e', ',', ' ', 'a', 't', 't', 'r', 'i', 'b', 'u', 't', 'e', 's', '(', 'e', 'n', 'u', 'm', 's', 'e', 't', ')', ')', ']'],
   ['p', 'u', 'b', ' ', 'f', 'n', ' ', 'd', 'e', 'r', 'i', 'v', 'e', '_', 'e', 'n', 'u', 'm', '_', 's', 'e', 't', '_', 't', 'y', 'p', 'e', '(', 'i', 'n', 'p', 'u', 't', ':', ' ', 'T', 'o', 'k', 'e', 'n', 'S', 't', 'r', 'e', 'a', 'm', ')', ' ', '-', '>', ' ', 'T', 'o', 'k', 'e', 'n', 'S', 't', 'r', 'e', 'a', 'm', ' ', '{'],
   [' ', ' ', ' ', ' ', 'l', 'e', 't', ' ', 'i', 'n', 'p', 'u', 't', ':', ' ', 'D', 'e', 'r', 'i', 'v', 'e', 'I', 'n', 'p', 'u', 't', ' ', '=', ' ', 'p', 'a', 'r', 's', 'e', '_', 'm', 'a', 'c', 'r', 'o', '_', 'i', 'n', 'p', 'u', 't', '!', '(', 'i', 'n', 'p', 'u', 't', ')', ';'],
   [' ', ' ', ' ', ' ', 'l', 'e', 't', ' ', 'i', 'n', 'p', 'u', 't', '_', 's', 'p', 'a', 'n', ' ', '=', ' ', 'i', 'n', 'p', 'u', 't', '.', 's', 'p', 'a', 'n', '(', ')', ';'],
   [' ', ' ', ' ', ' ', 'l', 'e', 't', ' ', 'a', 't', 't', 'r', 's', ':', ' ', 'E', 'n', 'u', 'm', 's', 'e', 't', 'A', 't', 't', 'r', 's', ' ', '=', ' ', 'm', 'a', 't', 'c', 'h', ' ', 'E', 'n', 'u', 'm', 's', 'e', 't', 'A', 't', 't', 'r', 's', ':', ':', 'f', 'r', 'o', 'm', '_', 'd', 'e', 'r', 'i', 'v', 'e', '_', 'i', 'n', 'p', 'u', 't', '(', '&', 'i', 'n', 'p', 'u', 't', ')', ' ', '{'],
   [' ', ' ', ' ', ' ', ' ', ' ', ' ', ' ', 'O', 'k', '(', 'a', 't', 't', 'r', 's', ')', ' ', '=', '>', ' ', 'a', 't', 't', 'r', 's', ','],
   [' ', ' ', ' ', ' ', ' ', ' ', ' ', ' ', 'E', 'r', 'r', '(', 'e', ')', ' ', '=', '>', ' ', 'r', 'e', 't', 'u', 'r', 'n', ' ', 'e', '.', 'w', 'r', 'i', 't', 'e', '_', 'e', 'r', 'r', 'o', 'r', 's', '(', ')', '.', 'i', 'n', 't', 'o', '(', ')', ','],
   [' ', ' ', ' ', ' ', '}', ';'],
   [' ', ' ', ' ', ' ', 'd', 'e', 'r', 'i', 'v', 'e', '_', 'e', 'n', 'u', 'm', '_', 's', 'e', 't', '_', 't', 'y', 'p', 'e', '_', '0', '(', 'i', 'n', 'p', 'u', 't', ',', ' ', 'a', 't', 't', 'r', 's', ',', ' ', 'i', 'n', 'p', 'u', 't', '_', 's', 'p', 'a', 'n', ')', '.', 'u', 'n', 'w', 'r', 'a', 'p', '_', 'o', 'r', '_', 'e', 'l', 's', 'e', '(', '|', 'e', '|', ' ', 'e', '.', 't', 'o', '_', 'c', 'o', 'm', 'p', 'i', 'l', 'e', '_', 'e', 'r', 'r', 'o', 'r', '(', ')', '.', 'i', 'n', 't', 'o', '(', ')', ')'],
   ['}'],
   ['f', 'n', ' ', 'd', 'e', 'r', 'i', 'v', 'e', '_', 'e', 'n', 'u', 'm', '_', 's', 'e', 't', '_', 't', 'y', 'p', 'e', '_', '0', '('],
   [' ', ' ', ' ', ' ', 'i', 'n', 'p', 'u', 't', ':', ' ', 'D', 'e', 'r', 'i', 'v', 'e', 'I', 'n', 'p', 'u', 't', ','],
   [' ', ' ', ' ', ' ', 'a', 't', 't', 'r', 's', ':', ' ', 'E', 'n', 'u', 'm', 's', 'e', 't', 'A', 't', 't', 'r', 's', ','],
   [' ', ' ', ' ', ' ', '_', 'i', 'n', 'p', 'u', 't', '_', 's', 'p', 'a', 'n', ':', ' ', 'S', 'p', 'a', 'n', ','],
   [')', ' ', '-', '>', ' ', 'R', 'e', 's', 'u', 'l', 't', '<', 'T', 'o', 'k', 'e', 'n', 'S', 't', 'r', 'e', 'a', 'm', '>', ' ', '{'],
   [' ', ' ', ' ', ' ', 'i', 'f', ' ', '!', 'i', 'n', 'p', 'u', 't', '.', 'g', 'e', 'n', 'e', 'r', 'i', 'c', 's', '.', 'p', 'a', 'r', 'a', 'm', 's', '.', 'i', 's', '_', 'e', 'm', 'p', 't', 'y', '(', ')', ' ', '{'],
   [' ', ' ', ' ', ' ', ' ', ' ', ' ', ' ', 'e', 'r', 'r', 'o', 'r', '('],
   [' ', ' ', ' ', ' ', ' ', ' ', ' ', ' ', ' ', ' ', ' ', ' ', 'i', 'n', 'p', 'u', 't', '.', 'g', 'e', 'n', 'e', 'r', 'i', 'c', 's', '.', 's', 'p', 'a', 'n', '(', ')', ','],
   [' ', ' ', ' ', ' ', ' ', ' ', ' ', ' ', ' ', ' ', ' ', ' ', '"', '`', '#', '[', 'd', 'e', 'r', 'i', 'v', 'e', '(', 'E', 'n', 'u', 'm', 'S', 'e', 't', 'T', 'y', 'p', 'e', ')', ']', '`', ' ', 'c', 'a', 'n', 'n', 'o', 't', ' ', 'b', 'e', ' ', 'u', 's', 'e', 'd', ' ', 'o', 'n', ' ', 'e', 'n', 'u', 'm', 's', ' ', 'w', 'i', 't', 'h', ' ', 't', 'y', 'p', 'e', ' ', 'p', 'a', 'r', 'a', 'm', 'e', 't', 'e', 'r', 's', '.', '"', ','],
   [' ', ' ', ' ', ' ', ' ', ' ', ' ', ' ', ')'],
   [' ', ' ', ' ', ' ', '}', ' ', 'e', 'l', 's', 'e', ' ', 'i', 'f', ' ', 'l', 'e', 't', ' ', 'D', 'a', 't', 'a', ':', ':', 'E', 'n', 'u', 'm', '(', 'd', 'a', 't', 'a', ')', ' ', '=', ' ', '&', 'i', 'n', 'p', 'u', 't', '.', 'd', 'a', 't', 'a', ' ', '{'],
   [' ', ' ', ' ', ' ', ' ', ' ', ' ', ' ', 'l', 'e', 't', ' ', 'm', 'u', 't', ' ', 'i', 'n', 'f', 'o', ' ', '=', ' ', 'E', 'n', 'u', 'm', 'S', 'e', 't', 'I', 'n', 'f', 'o', ':', ':', 'n', 'e', 'w', '(', '&', 'i', 'n', 'p', 'u', 't', ',', ' ', '&', 'a', 't', 't', 'r', 's', ')', ';'],
   [' ', ' ', ' ', ' ', ' ', ' ', ' ', ' ', 'l', 'e', 't', ' ', 'm', 'u', 't', ' ', 'w', 'a', 'r', 'n', 'i', 'n', 'g', 's', ' ', '=', ' ', 'V', 'e', 'c', ':', ':', 'n', 'e', 'w', '(', ')', ';'],
   [],
   [' ', ' ', ' ', ' ', ' ', ' ', ' ', ' ', '/', '/', ' ', 'C', 'h', 'e', 'c', 'k', ' ', 'e', 'n', 'u', 'm', ' ', 'r', 'e', 'p', 'r'],
   [' ', ' ', ' ', ' ', ' ', ' ', ' ', ' ', 'f', 'o', 'r', ' ', 'a', 't', 't', 'r', ' ', 'i', 'n', ' ', '&', 'i', 'n', 'p', 'u', 't', '.', 'a', 't', 't', 'r', 's', ' ', '{'],
   [' ', ' ', ' ', ' ', ' ', ' ', ' ', ' ', ' ', ' ', ' ', ' ', 'i', 'f', ' ', 'a', 't', 't', 'r', '.', 'p', 'a', 't', 'h', '(', ')', '.', 'i', 's', '_', 'i', 'd', 'e', 'n', 't', '(', '"', 'r', 'e', 'p', 'r', '"', ')', ' ', '{'],
   [' ', ' ', ' ', ' ', ' ', ' ', ' ', ' ', ' ', ' ', ' ', ' ', ' ', ' ', ' ', ' ', 'l', 'e', 't', ' ', 'm', 'e', 't', 'a', ':', ' ', 'I', 'd', 'e', 'n', 't', ' ', '=', ' ', 'a', 't', 't', 'r', '.', 'p', 'a', 'r', 's', 'e', '_', 'a', 'r', 'g', 's', '(', ')', '?', ';'],
   [' ', ' ', ' ', ' ', ' ', ' ', ' ', ' ', ' ', ' ', ' ', ' ', ' ', ' ', ' ', ' ', 'm', 'a', 't', 'c', 'h', ' ', 'm', 'e', 't', 'a', '.', 't', 'o', '_', 's', 't', 'r', 'i', 'n', 'g', '(', ')', '.', 'a', 's', '_', 's', 't', 'r', '(', ')', ' ', '{'],
   [' ', ' ', ' ', ' ', ' ', ' ', ' ', ' ', ' ', ' ', ' ', ' ', ' ', ' ', ' ', ' ', ' ', ' ', ' ', ' ', '"', 'C', '"', ' ', '|', ' ', '"', 'R', 'u', 's', 't', '"', ' ', '=', '>', ' ', '{', '}'],
   [' ', ' ', ' ', ' ', ' ', ' ', ' ', ' ', ' ', ' ', ' ', ' ', ' ', ' ', ' ', ' ', ' ', ' ', ' ', ' ', '"', 'u', '8', '"', ' ', '|', ' ', '"', 'u', '1', '6', '"', ' ', '|', ' ', '"', 'u', '3', '2', '"', ' ', '|', ' ', '"', 'u', '6', '4', '"', ' ', '|', ' ', '"', 'u', '1', '2', '8', '"', ' ', '|', ' ', '"', 'u', 's', 'i', 'z', 'e', '"', ' ', '=', '>', ' ', '{', '}'],
   [' ', ' ', ' ', ' ', ' ', ' ', ' ', ' ', ' ', ' ', ' ', ' ', ' ', ' ', ' ', ' ', ' ', ' ', ' ', ' ', '"', 'i', '8', '"', ' ', '|', ' ', '"', 'i', '1', '6', '"', ' ', '|', ' ', '"', 'i', '3', '2', '"', ' ', '|', ' ', '"', 'i', '6', '4', '"', ' ', '|', ' ', '"', 'i', '1', '2', '8', '"', ' ', '|', ' ', '"', 'i', 's', 'i', 'z', 'e', '"', ' ', '=', '>', ' ', '{', '}'],
   [' ', ' ', ' ', ' ', ' ', ' ', ' ', ' ', ' ', ' ', ' ', ' ', ' ', ' ', ' ', ' ', ' ', ' ', ' ', ' ', 'x', ' ', '=', '>', ' ', 'e', 'r', 'r', 'o', 'r', '('],
   [' ', ' ', ' ', ' ', ' ', ' ', ' ', ' ', ' ', ' ', ' ', ' ', ' ', ' ', ' ', ' ', ' ', ' ', ' ', ' ', ' ', ' ', ' ', ' ', 'a', 't', 't', 'r', '.', 's', 'p', 'a', 'n', '(', ')', ','],
   [' ', ' ', ' ', ' ', ' ', ' ', ' ', ' ', ' ', ' ', ' ', ' ', ' ', ' ', ' ', ' ', ' ', ' ', ' ', ' ', ' ', ' ', ' ', ' ', 'f', 'o', 'r', 'm', 'a', 't', '!', '(', '"', '`', '#', '[', 'r', 'e', 'p', 'r', '(', '{', '}', ')', ']', '`', ' ', 'c', 'a', 'n', 'n', 'o', 't', ' ', 'b', 'e', ' ', 'u', 's', 'e', 'd', ' ', 'o', 'n', ' ', 'e', 'n', 'u', 'm', 's', 'e', 't', ' ', 'v', 'a', 'r', 'i', 'a', 'n', 't', 's', '.', '"', ',', ' ', 'x', ')', ','],
   [' ', ' ', ' ', ' ', ' ', ' ', ' ', ' ', ' ', ' ', ' ', ' ', ' ', ' ', ' ', ' ', ' ', ' ', ' ', ' ', ')', '?', ','],
   [' ', ' ', ' ', ' ', ' ', ' ', ' ', ' ', ' ', ' ', ' ', ' ', ' ', ' ', ' ', ' ', '}'],
   [' ', ' ', ' ', ' ', ' ', ' ', ' ', ' ', ' ', ' ', ' ', ' ', '}'],
   [' ', ' ', ' ', ' ', ' ', ' ', ' ', ' ', '}'],
   [],
   [' ', ' ', ' ', ' ', ' ', ' ', ' ', ' ', '/', '/', ' ', 'P', 'a', 'r', 's', 'e', ' ', 'i', 'n', 't', 'e', 'r', 'n', 'a', 'l', ' ', 'r', 'e', 'p', 'r', 'e', 's', 'e', 'n', 't', 'a', 't', 'i', 'o', 'n', 's'],
   [' ', ' ', ' ', ' ', ' ', ' ', ' ', ' ', 'i', 'f', ' ', 'l', 'e', 't', ' ', 'S', 'o', 'm', 'e', '(', 'r', 'e', 'p', 'r', ')', ' ', '=', ' ', '&', '*', 'a', 't', 't', 'r', 's', '.', 'r', 'e', 'p', 'r', ' ', '{'],
   [' ', ' ', ' ', ' ', ' ', ' ', ' ', ' ', ' ', ' ', ' ', ' ', 'i', 'n', 'f', 'o', '.', 'p', 'u', 's', 'h', '_', 'r', 'e', 'p', 'r', '(', 'a', 't', 't', 'r', 's', '.', 'r', 'e', 'p', 'r', '.', 's', 'p', 'a', 'n', '(', ')', ',', ' ', 'r', 'e', 'p', 'r', ')', '?', ';'],
   [' ', ' ', ' ', ' ', ' ', ' ', ' ', ' ', '}'],
   [],
   [' ', ' ', ' ', ' ', ' ', ' ', ' ', ' ', '/', '/', ' ', 'P', 'a', 'r', 's', 'e', ' ', 's', 'e', 'r', 'i', 'a', 'l', 'i', 'z', 'a', 't', 'i', 'o', 'n', ' ', 'r', 'e', 'p', 'r', 'e', 's', 'e', 'n', 't', 'a', 't', 'i', 'o', 'n', 's'],
   [' ', ' ', ' ', ' ', ' ', ' ', ' ', ' ', 'i', 'f', ' ', 'l', 'e', 't', ' ', 'S', 'o', 'm', 'e', '(', 's', 'e', 'r', 'i', 'a', 'l', 'i', 'z', 'e', '_', 'r', 'e', 'p', 'r', ')', ' ', '=', ' ', '&', '*', 'a', 't', 't', 'r', 's', '.', 's', 'e', 'r', 'i', 'a', 'l', 'i', 'z', 'e', '_', 'r', 'e', 'p', 'r', ' ', '{'],
   [' ', ' ', ' ', ' ', ' ', ' ', ' ', ' ', ' ', ' ', ' ', ' ', 'i', 'n', 'f', 'o', '.', 'p', 'u', 's', 'h', '_', 's', 'e', 'r', 'i', 'a', 'l', 'i', 'z', 'e', '_', 'r', 'e', 'p', 'r', '(', 'a', 't', 't', 'r', 's', '.', 's', 'e', 'r', 'i', 'a', 'l', 'i', 'z', 'e', '_', 'r', 'e', 'p', 'r', '.', 's', 'p', 'a', 'n', '(', ')', ',', ' ', 's', 'e', 'r', 'i', 'a', 'l', 'i', 'z', 'e', '_', 'r', 'e', 'p', 'r', ')', '?', ';'],
   [' ', ' ', ' ', ' ', ' ', ' ', ' ', ' ', '}'],
   [' ', ' ', ' ', ' ', ' ', ' ', ' ', ' ', 'i', 'f', ' ', '*', 'a', 't', 't', 'r', 's', '.', 's', 'e', 'r', 'i', 'a', 'l', 'i', 'z', 'e', '_', 'a', 's', '_', 'm', 'a', 'p', ' ', '{'],
   [' ', ' ', ' ', ' ', ' ', ' ', ' ', ' ', ' ', ' ', ' ', ' ', 'i', 'n', 'f', 'o', '.', 'e', 'x', 'p', 'l', 'i', 'c', 'i', 't', '_', 's', 'e', 'r', 'd', 'e', '_', 'r', 'e', 'p', 'r', ' ', '=', ' ', 'S', 'o', 'm', 'e', '(', 'S', 'e', 'r', 'd', 'e', 'R', 'e', 'p', 'r', ':', ':', 'M', 'a', 'p', ')', ';'],
   [' ', ' ', ' ', ' ', ' ', ' ', ' ', ' ', ' ', ' ', ' ', ' ', 'w', 'a', 'r', 'n', 'i', 'n', 'g', 's', '.', 'p', 'u', 's', 'h', '(', '('],
   [' ', ' ', ' ', ' ', ' ', ' ', ' ', ' ', ' ', ' ', ' ', ' ', ' ', ' ', ' ', ' ', 'a', 't', 't', 'r', 's', '.', 's', 'e', 'r', 'i', 'a', 'l', 'i', 'z', 'e', '_', 'a', 's', '_', 'm', 'a', 'p', '.', 's', 'p', 'a', 'n', '(', ')', ','],
   [' ', ' ', ' ', ' ', ' ', ' ', ' ', ' ', ' ', ' ', ' ', ' ', ' ', ' ', ' ', ' ', '"', '#', '[', 'e', 'n', 'u', 'm', 's', 'e', 't', '(', 's', 'e', 'r', 'i', 'a', 'l', 'i', 'z', 'e', '_', 'a', 's', '_', 'm', 'a', 'p', ')', ']', ' ', 'i', 's', ' ', 'd', 'e', 'p', 'r', 'e', 'c', 'a', 't', 'e', 'd', '.', ' ', '\\'],
   [' ', ' ', ' ', ' ', ' ', ' ', ' ', ' ', ' ', ' ', ' ', ' ', ' ', ' ', ' ', ' ', ' ', 'U', 's', 'e', ' ', '`', '#', '[', 'e', 'n', 'u', 'm', 's', 'e', 't', '(', 's', 'e', 'r', 'i', 'a', 'l', 'i', 'z', 'e', '_', 'r', 'e', 'p', 'r', ' ', '=', ' ', '\\', '"', 'm', 'a', 'p', '\\', '"', ')', ']', '`', ' ', 'i', 'n', 's', 't', 'e', 'a', 'd', '.', '"', ','],
   [' ', ' ', ' ', ' ', ' ', ' ', ' ', ' ', ' ', ' ', ' ', ' ', ')', ')', ';'],
   [' ', ' ', ' ', ' ', ' ', ' ', ' ', ' ', '}'],
   [' ', ' ', ' ', ' ', ' ', ' ', ' ', ' ', 'i', 'f', ' ', '*', 'a', 't', 't', 'r', 's', '.', 's', 'e', 'r', 'i', 'a', 'l', 'i', 'z', 'e', '_', 'a', 's', '_', 'l', 'i', 's', 't', ' ', '{'],
   [' ', ' ', ' ', ' ', ' ', ' ', ' ', ' ', ' ', ' ', ' ', ' ', '/', '/', ' ', 'i', 'n', ' ', 'o', 'l', 'd', ' ', 'v', 'e', 'r', 's', 'i', 'o', 'n', 's', ',', ' ', 's', 'e', 'r', 'i', 'a', 'l', 'i', 'z', 'e', '_', 'a', 's', '_', 'l', 'i', 's', 't', ' ', 'w', 'i', 'l', 'l', ' ', 'o', 'v', 'e', 'r', 'r', 'i', 'd', 'e', ' ', 's', 'e', 'r', 'i', 'a', 'l', 'i', 'z', 'e', '_', 'a', 's', '_', 'm', 'a', 'p'],
   [' ', ' ', ' ', ' ', ' ', ' ', ' ', ' ', ' ', ' ', ' ', ' ', 'i', 'n', 'f', 'o', '.', 'e', 'x', 'p', 'l', 'i', 'c', 'i', 't', '_', 's', 'e', 'r', 'd', 'e', '_', 'r', 'e', 'p', 'r', ' ', '=', ' ', 'S', 'o', 'm', 'e', '(', 'S', 'e', 'r', 'd', 'e', 'R', 'e', 'p', 'r', ':', ':', 'L', 'i', 's', 't', ')', ';'],
   [' ', ' ', ' ', ' ', ' ', ' ', ' ', ' ', ' ', ' ', ' ', ' ', 'w', 'a', 'r', 'n', 'i', 'n', 'g', 's', '.', 'p', 'u', 's', 'h', '(', '('],
   [' ', ' ', ' ', ' ', ' ', ' ', ' ', ' ', ' ', ' ', ' ', ' ', ' ', ' ', ' ', ' ', 'a', 't', 't', 'r', 's', '.', 's', 'e', 'r', 'i', 'a', 'l', 'i', 'z', 'e', '_', 'a', 's', '_', 'l', 'i', 's', 't', '.', 's', 'p', 'a', 'n', '(', ')', ','],
   [' ', ' ', ' ', ' ', ' ', ' ', ' ', ' ', ' ', ' ', ' ', ' ', ' ', ' ', ' ', ' ', '"', '#', '[', 'e', 'n', 'u', 'm', 's', 'e', 't', '(', 's', 'e', 'r', 'i', 'a', 'l', 'i', 'z', 'e', '_', 'a', 's', '_', 'l', 'i', 's', 't', ')', ']', ' ', 'i', 's', ' ', 'd', 'e', 'p', 'r', 'e', 'c', 'a', 't', 'e', 'd', '.', ' ', '\\'],
   [' ', ' ', ' ', ' ', ' ', ' ', ' ', ' ', ' ', ' ', ' ', ' ', ' ', ' ', ' ', ' ', ' ', 'U', 's', 'e', ' ', '`', '#', '[', 'e', 'n', 'u', 'm', 's', 'e', 't', '(', 's', 'e', 'r', 'i', 'a', 'l', 'i', 'z', 'e', '_', 'r', 'e', 'p', 'r', ' ', '=', ' ', '\\', '"', 'l', 'i', 's', 't', '\\', '"', ')', ']', '`', ' ', 'i', 'n', 's', 't', 'e', 'a', 'd', '.', '"', ','],
   [' ', ' ', ' ', ' ', ' ', ' ', ' ', ' ', ' ', ' ', ' ', ' ', ')', ')', ';'],
   [' ', ' ', ' ', ' ', ' ', ' ', ' ', ' ', '}'],
   [' ', ' ', ' ', ' ', ' ', ' ', ' ', ' ', '#', '[', 'c', 'f', 'g', '(', 'f', 'e', 'a', 't', 'u', 'r', 'e', ' ', '=', ' ', '"', 's', 't', 'd', '_', 'd', 'e', 'p', 'r', 'e', 'c', 'a', 't', 'i', 'o', 'n', '_', 'w', 'a', 'r', 'n', 'i', 'n', 'g', '"', ')', ']'],
   [' ', ' ', ' ', ' ', ' ', ' ', ' ', ' ', '{'],
   [' ', ' ', ' ', ' ', ' ', ' ', ' ', ' ', ' ', ' ', ' ', ' ', 'w', 'a', 'r', 'n', 'i', 'n', 'g', 's', '.', 'p', 'u', 's', 'h', '(', '('],
   [' ', ' ', ' ', ' ', ' ', ' ', ' ', ' ', ' ', ' ', ' ', ' ', ' ', ' ', ' ', ' ', '_', 'i', 'n', 'p', 'u', 't', '_', 's', 'p', 'a', 'n', ','],
   [' ', ' ', ' ', ' ', ' ', ' ', ' ', ' ', ' ', ' ', ' ', ' ', ' ', ' ', ' ', ' ', '"', 'f', 'e', 'a', 't', 'u', 'r', 'e', ' ', '=', ' ', '\\', '"', 's', 't', 'd', '\\', '"', ' ', 'i', 's', ' ', 'd', 'e', 'p', 'e', 'r', 'c', 'a', 't', 'e', 'd', '.', ' ', 'I', 'f', ' ', 'y', 'o', 'u', ' ', 'r', 'e', 'n', 'a', 'm', 'e', ' ', '`', 'e', 'n', 'u', 'm', 's', 'e', 't', '`', ',', ' ', 'u', 's', 'e', ' ', '\\'],
   [' ', ' ', ' ', ' ', ' ', ' ', ' ', ' ', ' ', ' ', ' ', ' ', ' ', ' ', ' ', ' ', ' ', 'f', 'e', 'a', 't', 'u', 'r', 'e', ' ', '=', ' ', '\\', '"', 'p', 'r', 'o', 'c', '-', 'm', 'a', 'c', 'r', 'o', '-', 'c', 'r', 'a', 't', 'e', '\\', '"', ' ', 'i', 'n', 's', 't', 'e', 'a', 'd', '.', ' ', 'I', 'f', ' ', 'y', 'o', 'u', ' ', 'd', 'o', 'n', '\'', 't', ',', ' ', 'r', 'e', 'm', 'o', 'v', 'e', ' ', 't', 'h', 'e', ' ', 'f', 'e', 'a', 't', 'u', 'r', 'e', '.', '"', ','],
   [' ', ' ', ' ', ' ', ' ', ' ', ' ', ' ', ' ', ' ', ' ', ' ', ')', ')', ';'],
   [' ', ' ', ' ', ' ', ' ', ' ', ' ', ' ', '}'],
   [],
   [' ', ' ', ' ', ' ', ' ', ' ', ' ', ' ', '/', '/', ' ', 'P', 'a', 'r', 's', 'e', ' ', 'e', 'n', 'u', 'm', ' ', 'v', 'a', 'r', 'i', 'a', 'n', 't', 's'],
   [' ', ' ', ' ', ' ', ' ', ' ', ' ', ' ', 'f', 'o', 'r', ' ', 'v', 'a', 'r', 'i', 'a', 'n', 't', ' ', 'i', 'n', ' ', '&', 'd', 'a', 't', 'a', '.', 'v', 'a', 'r', 'i', 'a', 'n', 't', 's', ' ', '{'],
   [' ', ' ', ' ', ' ', ' ', ' ', ' ', ' ', ' ', ' ', ' ', ' ', 'i', 'n', 'f', 'o', '.', 'p', 'u', 's', 'h', '_', 'v', 'a', 'r', 'i', 'a', 'n', 't', '(', 'v', 'a', 'r', 'i', 'a', 'n', 't', ')', '?', ';'],
   [' ', ' ', ' ', ' ', ' ', ' ', ' ', ' ', '}'],
   [],
   [' ', ' ', ' ', ' ', ' ', ' ', ' ', ' ', '/', '/', ' ', 'V', 'a', 'l', 'i', 'd', 'a', 't', 'e', ' ', 't', 'h', 'e', ' ', 'e', 'n', 'u', 'm', 's', 'e', 't'],
   [' ', ' ', ' ', ' ', ' ', ' ', ' ', ' ', 'i', 'n', 'f', 'o', '.', 'v', 'a', 'l', 'i', 'd', 'a', 't', 'e', '(', ')', '?', ';'],
   [],
   [' ', ' ', ' ', ' ', ' ', ' ', ' ', ' ', '/', '/', ' ', 'G', 'e', 'n', 'e', 'r', 'a', 't', 'e', 's', ' ', 't', 'h', 'e', ' ', 'a', 'c', 't', 'u', 'a', 'l', ' ', '`', 'E', 'n', 'u', 'm', 'S', 'e', 't', 'T', 'y', 'p', 'e', '`', ' ', 'i', 'm', 'p', 'l', 'e', 'm', 'e', 'n', 't', 'a', 't', 'i', 'o', 'n'],
   [' ', ' ', ' ', ' ', ' ', ' ', ' ', ' ', 'O', 'k', '(', 'e', 'n', 'u', 'm', '_', 's', 'e', 't', '_', 't', 'y', 'p', 'e', '_', 'i', 'm', 'p', 'l', '(', 'i', 'n', 'f', 'o', ',', ' ', 'w', 'a', 'r', 'n', 'i', 'n', 'g', 's', ')', '.', 'i', 'n', 't', 'o', '(', ')', ')'],
   [' ', ' ', ' ', ' ', '}', ' ', 'e', 'l', 's', 'e', ' ', '{'],
   [' ', ' ', ' ', ' ', ' ', ' ', ' ', ' ', 'e', 'r', 'r', 'o', 'r', '(', 'i', 'n', 'p', 'u', 't', '.', 's', 'p', 'a', 'n', '(', ')', ',', ' ', '"', '`', '#', '[', 'd', 'e', 'r', 'i', 'v', 'e', '(', 'E', 'n', 'u', 'm', 'S', 'e', 't', 'T', 'y', 'p', 'e', ')', ']', '`', ' ', 'm', 'a', 'y', ' ', 'o', 'n', 'l', 'y', ' ', 'b', 'e', ' ', 'u', 's', 'e', 'd', ' ', 'o', 'n', ' ', 'e', 'n', 'u', 'm', 's', '"', ')'],
   [' ', ' ', ' ', ' ', '}'],
   ['}']]

theorem text_eq : text = chars.map String.ofList := by rfl

end Enumset.Src.DeriveRs
