/-!
# The text of `enumset/src/macros.rs`

Written by `tools/generate.sh`.
-/

set_option maxRecDepth 100000

namespace Enumset.Src.MacrosRs

/-- enumset/src/macros.rs, line by line -/
def text : List String :=
  ["/// Everything in this module is internal API and may change at any time.",
   "#[doc(hidden)]",
   "pub mod __internal {",
   "    /// A reexport of core to allow our macros to be generic to std vs core.",
   "    pub use ::core as core_export;",
   "",
   "    /// A reexport of serde so our users don't have to also have a serde dependency.",
   "    #[cfg(feature = \"serde\")]",
   "    pub use serde2 as serde;",
   "",
   "    /// Reexports of internal types",
   "    pub use crate::{",
   "        repr::{ArrayRepr, EnumSetTypeRepr},",
   "        traits::EnumSetTypePrivate,",
   "    };",
   "}",
   "",
   "/// Creates a EnumSet literal, which can be used in const contexts.",
   "///",
   "/// The syntax used is `enum_set!(Type::A | Type::B | Type::C)`. Each variant must be of the same",
   "/// type, or an error will occur at compile-time.",
   "///",
   "/// This macro accepts trailing `|`s to allow easier use in other macros.",
   "///",
   "/// # Examples",
   "///",
   "/// ```rust",
   "/// # use enumset::*;",
   "/// # #[derive(EnumSetType, Debug)] enum Enum { A, B, C }",
   "/// const CONST_SET: EnumSet<Enum> = enum_set!(Enum::A | Enum::B);",
   "/// assert_eq!(CONST_SET, Enum::A | Enum::B);",
   "/// ```",
   "///",
   "/// This macro is strongly typed. For example, the following will not compile:",
   "///",
   "/// ```compile_fail",
   "/// # use enumset::*;",
   "/// # #[derive(EnumSetType, Debug)] enum Enum { A, B, C }",
   "/// # #[derive(EnumSetType, Debug)] enum Enum2 { A, B, C }",
   "/// let type_error = enum_set!(Enum::A | Enum2::B);",
   "/// ```",
   "#[macro_export]",
   "macro_rules! enum_set {",
   "    ($(|)*) => {",
   "        EnumSet::empty()",
   "    };",
   "    ($value:path $(|)*) => {",
   "        {",
   "            #[allow(deprecated)] let value = $value.__impl_enumset_internal__const_only();",
   "            value",
   "        }",
   "    };",
   "    ($value:path | $($rest:path)|* $(|)*) => {",
   "        $crate::enum_set_union!($value, $($rest,)*)",
   "    };",
   "}",
   "",
   "/// Computes the union of multiple enums or constants enumset at compile time.",
   "///",
   "/// The syntax used is `enum_set_union!(ENUM_A, ENUM_B, ENUM_C)`, computing the equivalent of",
   "/// `ENUM_A | ENUM_B | ENUM_C` at compile time. Each variant must be of the same type, or an error",
   "/// will occur at compile-time.",
   "///",
   "/// # Examples",
   "///",
   "/// ```rust",
   "/// # use enumset::*;",
   "/// # #[derive(EnumSetType, Debug)] enum Enum { A, B, C }",
   "/// const CONST_SET: EnumSet<Enum> = enum_set_union!(Enum::A, Enum::B);",
   "/// assert_eq!(CONST_SET, Enum::A | Enum::B);",
   "/// ```",
   "#[macro_export]",
   "macro_rules! enum_set_union {",
   "    ($value:path $(,)?) => {",
   "        $crate::enum_set!($value)",
   "    };",
   "    ($value:path, $($rest:path),* $(,)?) => {",
   "        {",
   "            #[allow(deprecated)] let helper = $value.__impl_enumset_internal__const_helper();",
   "            #[allow(deprecated)] let value = $value.__impl_enumset_internal__const_only();",
   "            $(#[allow(deprecated)] let value = {",
   "                let new = $rest.__impl_enumset_internal__const_only();",
   "                helper.const_union(value, new)",
   "            };)*",
   "            value",
   "        }",
   "    };",
   "}",
   "",
   "/// Computes the intersection of multiple enums or constants enumset at compile time.",
   "///",
   "/// The syntax used is `enum_set_intersection!(ENUM_A, ENUM_B, ENUM_C)`, computing the equivalent",
   "/// of `ENUM_A & ENUM_B & ENUM_C` at compile time. Each variant must be of the same type, or an",
   "/// error will occur at compile-time.",
   "///",
   "/// # Examples",
   "///",
   "/// ```rust",
   "/// # use enumset::*;",
   "/// # #[derive(EnumSetType, Debug)] enum Enum { A, B, C, D }",
   "/// const SET_A: EnumSet<Enum> = enum_set!(Enum::A | Enum::B);",
   "/// const SET_B: EnumSet<Enum> = enum_set!(Enum::B | Enum::C);",
   "/// const CONST_SET: EnumSet<Enum> = enum_set_intersection!(SET_A, SET_B);",
   "/// assert_eq!(CONST_SET, Enum::B);",
   "/// ```",
   "#[macro_export]",
   "macro_rules! enum_set_intersection {",
   "    ($value:path $(,)?) => {",
   "        $crate::enum_set!($value)",
   "    };",
   "    ($value:path, $($rest:path),* $(,)?) => {",
   "        {",
   "            #[allow(deprecated)] let helper = $value.__impl_enumset_internal__const_helper();",
   "            #[allow(deprecated)] let value = $value.__impl_enumset_internal__const_only();",
   "            $(#[allow(deprecated)] let value = {",
   "                let new = $rest.__impl_enumset_internal__const_only();",
   "                helper.const_intersection(value, new)",
   "            };)*",
   "            value",
   "        }",
   "    };",
   "}",
   "",
   "/// Computes the complement of an enums or constants enumset at compile time.",
   "///",
   "/// # Examples",
   "///",
   "/// ```rust",
   "/// # use enumset::*;",
   "/// #[derive(EnumSetType, Debug)]",
   "/// enum Enum { A, B, C, D }",
   "///",
   "/// const SET: EnumSet<Enum> = enum_set!(Enum::B | Enum::C);",
   "/// const CONST_SET: EnumSet<Enum> = enum_set_complement!(SET);",
   "/// assert_eq!(CONST_SET, Enum::A | Enum::D);",
   "/// ```",
   "#[macro_export]",
   "macro_rules! enum_set_complement {",
   "    ($value:path $(,)?) => {{",
   "        #[allow(deprecated)]",
   "        let helper = $value.__impl_enumset_internal__const_helper();",
   "        #[allow(deprecated)]",
   "        let value = $value.__impl_enumset_internal__const_only();",
   "        helper.const_complement(value)",
   "    }};",
   "}",
   "",
   "/// Computes the difference of multiple enums or constants enumset at compile time.",
   "///",
   "/// The syntax used is `enum_set_difference!(ENUM_A, ENUM_B, ENUM_C)`, computing the equivalent",
   "/// of `ENUM_A - ENUM_B - ENUM_C` at compile time. Each variant must be of the same type, or an",
   "/// error will occur at compile-time.",
   "///",
   "/// # Examples",
   "///",
   "/// ```rust",
   "/// # use enumset::*;",
   "/// # #[derive(EnumSetType, Debug)] enum Enum { A, B, C, D }",
   "/// const SET_A: EnumSet<Enum> = enum_set!(Enum::A | Enum::B | Enum::D);",
   "/// const SET_B: EnumSet<Enum> = enum_set!(Enum::B | Enum::C);",
   "/// const CONST_SET: EnumSet<Enum> = enum_set_symmetric_difference!(SET_A, SET_B);",
   "/// assert_eq!(CONST_SET, Enum::A | Enum::C | Enum::D);",
   "/// ```",
   "#[macro_export]",
   "macro_rules! enum_set_difference {",
   "    ($value:path $(,)?) => {",
   "        $crate::enum_set!($value)",
   "    };",
   "    ($value:path, $($rest:path),* $(,)?) => {",
   "        {",
   "            #[allow(deprecated)] let helper = $value.__impl_enumset_internal__const_helper();",
   "            #[allow(deprecated)] let value = $value.__impl_enumset_internal__const_only();",
   "            $(#[allow(deprecated)] let value = {",
   "                let new = $rest.__impl_enumset_internal__const_only();",
   "                helper.const_intersection(value, helper.const_complement(new))",
   "            };)*",
   "            value",
   "        }",
   "    };",
   "}",
   "",
   "/// Computes the symmetric difference of multiple enums or constants enumset at compile time.",
   "///",
   "/// The syntax used is `enum_set_symmetric_difference!(ENUM_A, ENUM_B, ENUM_C)`, computing the",
   "/// equivalent of `ENUM_A ^ ENUM_B ^ ENUM_C` at compile time. Each variant must be of the same",
   "/// type, or an error will occur at compile-time.",
   "///",
   "/// # Examples",
   "///",
   "/// ```rust",
   "/// # use enumset::*;",
   "/// # #[derive(EnumSetType, Debug)] enum Enum { A, B, C, D }",
   "/// const SET_A: EnumSet<Enum> = EnumSet::all();",
   "/// const SET_B: EnumSet<Enum> = enum_set!(Enum::B | Enum::C);",
   "/// const CONST_SET: EnumSet<Enum> = enum_set_difference!(SET_A, SET_B);",
   "/// assert_eq!(CONST_SET, Enum::A | Enum::D);",
   "/// ```",
   "#[macro_export]",
   "macro_rules! enum_set_symmetric_difference {",
   "    ($value:path $(,)?) => {",
   "        $crate::enum_set!($value)",
   "    };",
   "    ($value:path, $($rest:path),* $(,)?) => {",
   "        {",
   "            #[allow(deprecated)] let helper = $value.__impl_enumset_internal__const_helper();",
   "            #[allow(deprecated)] let value = $value.__impl_enumset_internal__const_only();",
   "            $(#[allow(deprecated)] let value = {",
   "                let new = $rest.__impl_enumset_internal__const_only();",
   "                helper.const_symmetric_difference(value, new)",
   "            };)*",
   "            value",
   "        }",
   "    };",
   "}"]

/-- the characters of `text` -/
def chars : List (List Char) :=
  [['/', '/', '/', ' ', 'E', 'v', 'e', 'r', 'y', 't', 'h', 'i', 'n', 'g', ' ', 'i', 'n', ' ', 't', 'h', 'i', 's', ' ', 'm', 'o', 'd', 'u', 'l', 'e', ' ', 'i', 's', ' ', 'i', 'n', 't', 'e', 'r', 'n', 'a', 'l', ' ', 'A', 'P', 'I', ' ', 'a', 'n', 'd', ' ', 'm', 'a', 'y', ' ', 'c', 'h', 'a', 'n', 'g', 'e', ' ', 'a', 't', ' ', 'a', 'n', 'y', ' ', 't', 'i', 'm', 'e', '.'],
   ['#', '[', 'd', 'o', 'c', '(', 'h', 'i', 'd', 'd', 'e', 'n', ')', ']'],
   ['p', 'u', 'b', ' ', 'm', 'o', 'd', ' ', '_', '_', 'i', 'n', 't', 'e', 'r', 'n', 'a', 'l', ' ', '{'],
   [' ', ' ', ' ', ' ', '/', '/', '/', ' ', 'A', ' ', 'r', 'e', 'e', 'x', 'p', 'o', 'r', 't', ' ', 'o', 'f', ' ', 'c', 'o', 'r', 'e', ' ', 't', 'o', ' ', 'a', 'l', 'l', 'o', 'w', ' ', 'o', 'u', 'r', ' ', 'm', 'a', 'c', 'r', 'o', 's', ' ', 't', 'o', ' ', 'b', 'e', ' ', 'g', 'e', 'n', 'e', 'r', 'i', 'c', ' ', 't', 'o', ' ', 's', 't', 'd', ' ', 'v', 's', ' ', 'c', 'o', 'r', 'e', '.'],
   [' ', ' ', ' ', ' ', 'p', 'u', 'b', ' ', 'u', 's', 'e', ' ', ':', ':', 'c', 'o', 'r', 'e', ' ', 'a', 's', ' ', 'c', 'o', 'r', 'e', '_', 'e', 'x', 'p', 'o', 'r', 't', ';'],
   [],
   [' ', ' ', ' ', ' ', '/', '/', '/', ' ', 'A', ' ', 'r', 'e', 'e', 'x', 'p', 'o', 'r', 't', ' ', 'o', 'f', ' ', 's', 'e', 'r', 'd', 'e', ' ', 's', 'o', ' ', 'o', 'u', 'r', ' ', 'u', 's', 'e', 'r', 's', ' ', 'd', 'o', 'n', '\'', 't', ' ', 'h', 'a', 'v', 'e', ' ', 't', 'o', ' ', 'a', 'l', 's', 'o', ' ', 'h', 'a', 'v', 'e', ' ', 'a', ' ', 's', 'e', 'r', 'd', 'e', ' ', 'd', 'e', 'p', 'e', 'n', 'd', 'e', 'n', 'c', 'y', '.'],
   [' ', ' ', ' ', ' ', '#', '[', 'c', 'f', 'g', '(', 'f', 'e', 'a', 't', 'u', 'r', 'e', ' ', '=', ' ', '"', 's', 'e', 'r', 'd', 'e', '"', ')', ']'],
   [' ', ' ', ' ', ' ', 'p', 'u', 'b', ' ', 'u', 's', 'e', ' ', 's', 'e', 'r', 'd', 'e', '2', ' ', 'a', 's', ' ', 's', 'e', 'r', 'd', 'e', ';'],
   [],
   [' ', ' ', ' ', ' ', '/', '/', '/', ' ', 'R', 'e', 'e', 'x', 'p', 'o', 'r', 't', 's', ' ', 'o', 'f', ' ', 'i', 'n', 't', 'e', 'r', 'n', 'a', 'l', ' ', 't', 'y', 'p', 'e', 's'],
   [' ', ' ', ' ', ' ', 'p', 'u', 'b', ' ', 'u', 's', 'e', ' ', 'c', 'r', 'a', 't', 'e', ':', ':', '{'],
   [' ', ' ', ' ', ' ', ' ', ' ', ' ', ' ', 'r', 'e', 'p', 'r', ':', ':', '{', 'A', 'r', 'r', 'a', 'y', 'R', 'e', 'p', 'r', ',', ' ', 'E', 'n', 'u', 'm', 'S', 'e', 't', 'T', 'y', 'p', 'e', 'R', 'e', 'p', 'r', '}', ','],
   [' ', ' ', ' ', ' ', ' ', ' ', ' ', ' ', 't', 'r', 'a', 'i', 't', 's', ':', ':', 'E', 'n', 'u', 'm', 'S', 'e', 't', 'T', 'y', 'p', 'e', 'P', 'r', 'i', 'v', 'a', 't', 'e', ','],
   [' ', ' ', ' ', ' ', '}', ';'],
   ['}'],
   [],
   ['/', '/', '/', ' ', 'C', 'r', 'e', 'a', 't', 'e', 's', ' ', 'a', ' ', 'E', 'n', 'u', 'm', 'S', 'e', 't', ' ', 'l', 'i', 't', 'e', 'r', 'a', 'l', ',', ' ', 'w', 'h', 'i', 'c', 'h', ' ', 'c', 'a', 'n', ' ', 'b', 'e', ' ', 'u', 's', 'e', 'd', ' ', 'i', 'n', ' ', 'c', 'o', 'n', 's', 't', ' ', 'c', 'o', 'n', 't', 'e', 'x', 't', 's', '.'],
   ['/', '/', '/'],
   ['/', '/', '/', ' ', 'T', 'h', 'e', ' ', 's', 'y', 'n', 't', 'a', 'x', ' ', 'u', 's', 'e', 'd', ' ', 'i', 's', ' ', '`', 'e', 'n', 'u', 'm', '_', 's', 'e', 't', '!', '(', 'T', 'y', 'p', 'e', ':', ':', 'A', ' ', '|', ' ', 'T', 'y', 'p', 'e', ':', ':', 'B', ' ', '|', ' ', 'T', 'y', 'p', 'e', ':', ':', 'C', ')', '`', '.', ' ', 'E', 'a', 'c', 'h', ' ', 'v', 'a', 'r', 'i', 'a', 'n', 't', ' ', 'm', 'u', 's', 't', ' ', 'b', 'e', ' ', 'o', 'f', ' ', 't', 'h', 'e', ' ', 's', 'a', 'm', 'e'],
   ['/', '/', '/', ' ', 't', 'y', 'p', 'e', ',', ' ', 'o', 'r', ' ', 'a', 'n', ' ', 'e', 'r', 'r', 'o', 'r', ' ', 'w', 'i', 'l', 'l', ' ', 'o', 'c', 'c', 'u', 'r', ' ', 'a', 't', ' ', 'c', 'o', 'm', 'p', 'i', 'l', 'e', '-', 't', 'i', 'm', 'e', '.'],
   ['/', '/', '/'],
   ['/', '/', '/', ' ', 'T', 'h', 'i', 's', ' ', 'm', 'a', 'c', 'r', 'o', ' ', 'a', 'c', 'c', 'e', 'p', 't', 's', ' ', 't', 'r', 'a', 'i', 'l', 'i', 'n', 'g', ' ', '`', '|', '`', 's', ' ', 't', 'o', ' ', 'a', 'l', 'l', 'o', 'w', ' ', 'e', 'a', 's', 'i', 'e', 'r', ' ', 'u', 's', 'e', ' ', 'i', 'n', ' ', 'o', 't', 'h', 'e', 'r', ' ', 'm', 'a', 'c', 'r', 'o', 's', '.'],
   ['/', '/', '/'],
   ['/', '/', '/', ' ', '#', ' ', 'E', 'x', 'a', 'm', 'p', 'l', 'e', 's'],
   ['/', '/', '/'],
   ['/', '/', '/', ' ', '`', '`', '`', 'r', 'u', 's', 't'],
   ['/', '/', '/', ' ', '#', ' ', 'u', 's', 'e', ' ', 'e', 'n', 'u', 'm', 's', 'e', 't', ':', ':', '*', ';'],
   ['/', '/', '/', ' ', '#', ' ', '#', '[', 'd', 'e', 'r', 'i', 'v', 'e', '(', 'E', 'n', 'u', 'm', 'S', 'e', 't', 'T', 'y', 'p', 'e', ',', ' ', 'D', 'e', 'b', 'u', 'g', ')', ']', ' ', 'e', 'n', 'u', 'm', ' ', 'E', 'n', 'u', 'm', ' ', '{', ' ', 'A', ',', ' ', 'B', ',', ' ', 'C', ' ', '}'],
   ['/', '/', '/', ' ', 'c', 'o', 'n', 's', 't', ' ', 'C', 'O', 'N', 'S', 'T', '_', 'S', 'E', 'T', ':', ' ', 'E', 'n', 'u', 'm', 'S', 'e', 't', '<', 'E', 'n', 'u', 'm', '>', ' ', '=', ' ', 'e', 'n', 'u', 'm', '_', 's', 'e', 't', '!', '(', 'E', 'n', 'u', 'm', ':', ':', 'A', ' ', '|', ' ', 'E', 'n', 'u', 'm', ':', ':', 'B', ')', ';'],
   ['/', '/', '/', ' ', 'a', 's', 's', 'e', 'r', 't', '_', 'e', 'q', '!', '(', 'C', 'O', 'N', 'S', 'T', '_', 'S', 'E', 'T', ',', ' ', 'E', 'n', 'u', 'm', ':', ':', 'A', ' ', '|', ' ', 'E', 'n', 'u', 'm', ':', ':', 'B', ')', ';'],
   ['/', '/', '/', ' ', '`', '`', '`'],
   ['/', '/', '/'],
   ['/', '/', '/', ' ', 'T', 'h', 'i', 's', ' ', 'm', 'a', 'c', 'r', 'o', ' ', 'i', 's', ' ', 's', 't', 'r', 'o', 'n', 'g', 'l', 'y', ' ', 't', 'y', 'p', 'e', 'd', '.', ' ', 'F', 'o', 'r', ' ', 'e', 'x', 'a', 'm', 'p', 'l', 'e', ',', ' ', 't', 'h', 'e', ' ', 'f', 'o', 'l', 'l', 'o', 'w', 'i', 'n', 'g', ' ', 'w', 'i', 'l', 'l', ' ', 'n', 'o', 't', ' ', 'c', 'o', 'm', 'p', 'i', 'l', 'e', ':'],
   ['/', '/', '/'],
   ['/', '/', '/', ' ', '`', '`', '`', 'c', 'o', 'm', 'p', 'i', 'l', 'e', '_', 'f', 'a', 'i', 'l'],
   ['/', '/', '/', ' ', '#', ' ', 'u', 's', 'e', ' ', 'e', 'n', 'u', 'm', 's', 'e', 't', ':', ':', '*', ';'],
   ['/', '/', '/', ' ', '#', ' ', '#', '[', 'd', 'e', 'r', 'i', 'v', 'e', '(', 'E', 'n', 'u', 'm', 'S', 'e', 't', 'T', 'y', 'p', 'e', ',', ' ', 'D', 'e', 'b', 'u', 'g', ')', ']', ' ', 'e', 'n', 'u', 'm', ' ', 'E', 'n', 'u', 'm', ' ', '{', ' ', 'A', ',', ' ', 'B', ',', ' ', 'C', ' ', '}'],
   ['/', '/', '/', ' ', '#', ' ', '#', '[', 'd', 'e', 'r', 'i', 'v', 'e', '(', 'E', 'n', 'u', 'm', 'S', 'e', 't', 'T', 'y', 'p', 'e', ',', ' ', 'D', 'e', 'b', 'u', 'g', ')', ']', ' ', 'e', 'n', 'u', 'm', ' ', 'E', 'n', 'u', 'm', '2', ' ', '{', ' ', 'A', ',', ' ', 'B', ',', ' ', 'C', ' ', '}'],
   ['/', '/', '/', ' ', 'l', 'e', 't', ' ', 't', 'y', 'p', 'e', '_', 'e', 'r', 'r', 'o', 'r', ' ', '=', ' ', 'e', 'n', 'u', 'm', '_', 's', 'e', 't', '!', '(', 'E', 'n', 'u', 'm', ':', ':', 'A', ' ', '|', ' ', 'E', 'n', 'u', 'm', '2', ':', ':', 'B', ')', ';'],
   ['/', '/', '/', ' ', '`', '`', '`'],
   ['#', '[', 'm', 'a', 'c', 'r', 'o', '_', 'e', 'x', 'p', 'o', 'r', 't', ']'],
   ['m', 'a', 'c', 'r', 'o', '_', 'r', 'u', 'l', 'e', 's', '!', ' ', 'e', 'n', 'u', 'm', '_', 's', 'e', 't', ' ', '{'],
   [' ', ' ', ' ', ' ', '(', '$', '(', '|', ')', '*', ')', ' ', '=', '>', ' ', '{'],
   [' ', ' ', ' ', ' ', ' ', ' ', ' ', ' ', 'E', 'n', 'u', 'm', 'S', 'e', 't', ':', ':', 'e', 'm', 'p', 't', 'y', '(', ')'],
   [' ', ' ', ' ', ' ', '}', ';'],
   [' ', ' ', ' ', ' ', '(', '$', 'v', 'a', 'l', 'u', 'e', ':', 'p', 'a', 't', 'h', ' ', '$', '(', '|', ')', '*', ')', ' ', '=', '>', ' ', '{'],
   [' ', ' ', ' ', ' ', ' ', ' ', ' ', ' ', '{'],
   [' ', ' ', ' ', ' ', ' ', ' ', ' ', ' ', ' ', ' ', ' ', ' ', '#', '[', 'a', 'l', 'l', 'o', 'w', '(', 'd', 'e', 'p', 'r', 'e', 'c', 'a', 't', 'e', 'd', ')', ']', ' ', 'l', 'e', 't', ' ', 'v', 'a', 'l', 'u', 'e', ' ', '=', ' ', '$', 'v', 'a', 'l', 'u', 'e', '.', '_', '_', 'i', 'm', 'p', 'l', '_', 'e', 'n', 'u', 'm', 's', 'e', 't', '_', 'i', 'n', 't', 'e', 'r', 'n', 'a', 'l', '_', '_', 'c', 'o', 'n', 's', 't', '_', 'o', 'n', 'l', 'y', '(', ')', ';'],
   [' ', ' ', ' ', ' ', ' ', ' ', ' ', ' ', ' ', ' ', ' ', ' ', 'v', 'a', 'l', 'u', 'e'],
   [' ', ' ', ' ', ' ', ' ', ' ', ' ', ' ', '}'],
   [' ', ' ', ' ', ' ', '}', ';'],
   [' ', ' ', ' ', ' ', '(', '$', 'v', 'a', 'l', 'u', 'e', ':', 'p', 'a', 't', 'h', ' ', '|', ' ', '$', '(', '$', 'r', 'e', 's', 't', ':', 'p', 'a', 't', 'h', ')', '|', '*', ' ', '$', '(', '|', ')', '*', ')', ' ', '=', '>', ' ', '{'],
   [' ', ' ', ' ', ' ', ' ', ' ', ' ', ' ', '$', 'c', 'r', 'a', 't', 'e', ':', ':', 'e', 'n', 'u', 'm', '_', 's', 'e', 't', '_', 'u', 'n', 'i', 'o', 'n', '!', '(', '$', 'v', 'a', 'l', 'u', 'e', ',', ' ', '$', '(', '$', 'r', 'e', 's', 't', ',', ')', '*', ')'],
   [' ', ' ', ' ', ' ', '}', ';'],
   ['}'],
   [],
   ['/', '/', '/', ' ', 'C', 'o', 'm', 'p', 'u', 't', 'e', 's', ' ', 't', 'h', 'e', ' ', 'u', 'n', 'i', 'o', 'n', ' ', 'o', 'f', ' ', 'm', 'u', 'l', 't', 'i', 'p', 'l', 'e', ' ', 'e', 'n', 'u', 'm', 's', ' ', 'o', 'r', ' ', 'c', 'o', 'n', 's', 't', 'a', 'n', 't', 's', ' ', 'e', 'n', 'u', 'm', 's', 'e', 't', ' ', 'a', 't', ' ', 'c', 'o', 'm', 'p', 'i', 'l', 'e', ' ', 't', 'i', 'm', 'e', '.'],
   ['/', '/', '/'],
   ['/', '/', '/', ' ', 'T', 'h', 'e', ' ', 's', 'y', 'n', 't', 'a', 'x', ' ', 'u', 's', 'e', 'd', ' ', 'i', 's', ' ', '`', 'e', 'n', 'u', 'm', '_', 's', 'e', 't', '_', 'u', 'n', 'i', 'o', 'n', '!', '(', 'E', 'N', 'U', 'M', '_', 'A', ',', ' ', 'E', 'N', 'U', 'M', '_', 'B', ',', ' ', 'E', 'N', 'U', 'M', '_', 'C', ')', '`', ',', ' ', 'c', 'o', 'm', 'p', 'u', 't', 'i', 'n', 'g', ' ', 't', 'h', 'e', ' ', 'e', 'q', 'u', 'i', 'v', 'a', 'l', 'e', 'n', 't', ' ', 'o', 'f'],
   ['/', '/', '/', ' ', '`', 'E', 'N', 'U', 'M', '_', 'A', ' ', '|', ' ', 'E', 'N', 'U', 'M', '_', 'B', ' ', '|', ' ', 'E', 'N', 'U', 'M', '_', 'C', '`', ' ', 'a', 't', ' ', 'c', 'o', 'm', 'p', 'i', 'l', 'e', ' ', 't', 'i', 'm', 'e', '.', ' ', 'E', 'a', 'c', 'h', ' ', 'v', 'a', 'r', 'i', 'a', 'n', 't', ' ', 'm', 'u', 's', 't', ' ', 'b', 'e', ' ', 'o', 'f', ' ', 't', 'h', 'e', ' ', 's', 'a', 'm', 'e', ' ', 't', 'y', 'p', 'e', ',', ' ', 'o', 'r', ' ', 'a', 'n', ' ', 'e', 'r', 'r', 'o', 'r'],
   ['/', '/', '/', ' ', 'w', 'i', 'l', 'l', ' ', 'o', 'c', 'c', 'u', 'r', ' ', 'a', 't', ' ', 'c', 'o', 'm', 'p', 'i', 'l', 'e', '-', 't', 'i', 'm', 'e', '.'],
   ['/', '/', '/'],
   ['/', '/', '/', ' ', '#', ' ', 'E', 'x', 'a', 'm', 'p', 'l', 'e', 's'],
   ['/', '/', '/'],
   ['/', '/', '/', ' ', '`', '`', '`', 'r', 'u', 's', 't'],
   ['/', '/', '/', ' ', '#', ' ', 'u', 's', 'e', ' ', 'e', 'n', 'u', 'm', 's', 'e', 't', ':', ':', '*', ';'],
   ['/', '/', '/', ' ', '#', ' ', '#', '[', 'd', 'e', 'r', 'i', 'v', 'e', '(', 'E', 'n', 'u', 'm', 'S', 'e', 't', 'T', 'y', 'p', 'e', ',', ' ', 'D', 'e', 'b', 'u', 'g', ')', ']', ' ', 'e', 'n', 'u', 'm', ' ', 'E', 'n', 'u', 'm', ' ', '{', ' ', 'A', ',', ' ', 'B', ',', ' ', 'C', ' ', '}'],
   ['/', '/', '/', ' ', 'c', 'o', 'n', 's', 't', ' ', 'C', 'O', 'N', 'S', 'T', '_', 'S', 'E', 'T', ':', ' ', 'E', 'n', 'u', 'm', 'S', 'e', 't', '<', 'E', 'n', 'u', 'm', '>', ' ', '=', ' ', 'e', 'n', 'u', 'm', '_', 's', 'e', 't', '_', 'u', 'n', 'i', 'o', 'n', '!', '(', 'E', 'n', 'u', 'm', ':', ':', 'A', ',', ' ', 'E', 'n', 'u', 'm', ':', ':', 'B', ')', ';'],
   ['/', '/', '/', ' ', 'a', 's', 's', 'e', 'r', 't', '_', 'e', 'q', '!', '(', 'C', 'O', 'N', 'S', 'T', '_', 'S', 'E', 'T', ',', ' ', 'E', 'n', 'u', 'm', ':', ':', 'A', ' ', '|', ' ', 'E', 'n', 'u', 'm', ':', ':', 'B', ')', ';'],
   ['/', '/', '/', ' ', '`', '`', '`'],
   ['#', '[', 'm', 'a', 'c', 'r', 'o', '_', 'e', 'x', 'p', 'o', 'r', 't', ']'],
   ['m', 'a', 'c', 'r', 'o', '_', 'r', 'u', 'l', 'e', 's', '!', ' ', 'e', 'n', 'u', 'm', '_', 's', 'e', 't', '_', 'u', 'n', 'i', 'o', 'n', ' ', '{'],
   [' ', ' ', ' ', ' ', '(', '$', 'v', 'a', 'l', 'u', 'e', ':', 'p', 'a', 't', 'h', ' ', '$', '(', ',', ')', '?', ')', ' ', '=', '>', ' ', '{'],
   [' ', ' ', ' ', ' ', ' ', ' ', ' ', ' ', '$', 'c', 'r', 'a', 't', 'e', ':', ':', 'e', 'n', 'u', 'm', '_', 's', 'e', 't', '!', '(', '$', 'v', 'a', 'l', 'u', 'e', ')'],
   [' ', ' ', ' ', ' ', '}', ';'],
   [' ', ' ', ' ', ' ', '(', '$', 'v', 'a', 'l', 'u', 'e', ':', 'p', 'a', 't', 'h', ',', ' ', '$', '(', '$', 'r', 'e', 's', 't', ':', 'p', 'a', 't', 'h', ')', ',', '*', ' ', '$', '(', ',', ')', '?', ')', ' ', '=', '>', ' ', '{'],
   [' ', ' ', ' ', ' ', ' ', ' ', ' ', ' ', '{'],
   [' ', ' ', ' ', ' ', ' ', ' ', ' ', ' ', ' ', ' ', ' ', ' ', '#', '[', 'a', 'l', 'l', 'o', 'w', '(', 'd', 'e', 'p', 'r', 'e', 'c', 'a', 't', 'e', 'd', ')', ']', ' ', 'l', 'e', 't', ' ', 'h', 'e', 'l', 'p', 'e', 'r', ' ', '=', ' ', '$', 'v', 'a', 'l', 'u', 'e', '.', '_', '_', 'i', 'm', 'p', 'l', '_', 'e', 'n', 'u', 'm', 's', 'e', 't', '_', 'i', 'n', 't', 'e', 'r', 'n', 'a', 'l', '_', '_', 'c', 'o', 'n', 's', 't', '_', 'h', 'e', 'l', 'p', 'e', 'r', '(', ')', ';'],
   [' ', ' ', ' ', ' ', ' ', ' ', ' ', ' ', ' ', ' ', ' ', ' ', '#', '[', 'a', 'l', 'l', 'o', 'w', '(', 'd', 'e', 'p', 'r', 'e', 'c', 'a', 't', 'e', 'd', ')', ']', ' ', 'l', 'e', 't', ' ', 'v', 'a', 'l', 'u', 'e', ' ', '=', ' ', '$', 'v', 'a', 'l', 'u', 'e', '.', '_', '_', 'i', 'm', 'p', 'l', '_', 'e', 'n', 'u', 'm', 's', 'e', 't', '_', 'i', 'n', 't', 'e', 'r', 'n', 'a', 'l', '_', '_', 'c', 'o', 'n', 's', 't', '_', 'o', 'n', 'l', 'y', '(', ')', ';'],
   [' ', ' ', ' ', ' ', ' ', ' ', ' ', ' ', ' ', ' ', ' ', ' ', '$', '(', '#', '[', 'a', 'l', 'l', 'o', 'w', '(', 'd', 'e', 'p', 'r', 'e', 'c', 'a', 't', 'e', 'd', ')', ']', ' ', 'l', 'e', 't', ' ', 'v', 'a', 'l', 'u', 'e', ' ', '=', ' ', '{'],
   [' ', ' ', ' ', ' ', ' ', ' ', ' ', ' ', ' ', ' ', ' ', ' ', ' ', ' ', ' ', ' ', 'l', 'e', 't', ' ', 'n', 'e', 'w', ' ', '=', ' ', '$', 'r', 'e', 's', 't', '.', '_', '_', 'i', 'm', 'p', 'l', '_', 'e', 'n', 'u', 'm', 's', 'e', 't', '_', 'i', 'n', 't', 'e', 'r', 'n', 'a', 'l', '_', '_', 'c', 'o', 'n', 's', 't', '_', 'o', 'n', 'l', 'y', '(', ')', ';'],
   [' ', ' ', ' ', ' ', ' ', ' ', ' ', ' ', ' ', ' ', ' ', ' ', ' ', ' ', ' ', ' ', 'h', 'e', 'l', 'p', 'e', 'r', '.', 'c', 'o', 'n', 's', 't', '_', 'u', 'n', 'i', 'o', 'n', '(', 'v', 'a', 'l', 'u', 'e', ',', ' ', 'n', 'e', 'w', ')'],
   [' ', ' ', ' ', ' ', ' ', ' ', ' ', ' ', ' ', ' ', ' ', ' ', '}', ';', ')', '*'],
   [' ', ' ', ' ', ' ', ' ', ' ', ' ', ' ', ' ', ' ', ' ', ' ', 'v', 'a', 'l', 'u', 'e'],
   [' ', ' ', ' ', ' ', ' ', ' ', ' ', ' ', '}'],
   [' ', ' ', ' ', ' ', '}', ';'],
   ['}'],
   [],
   ['/', '/', '/', ' ', 'C', 'o', 'm', 'p', 'u', 't', 'e', 's', ' ', 't', 'h', 'e', ' ', 'i', 'n', 't', 'e', 'r', 's', 'e', 'c', 't', 'i', 'o', 'n', ' ', 'o', 'f', ' ', 'm', 'u', 'l', 't', 'i', 'p', 'l', 'e', ' ', 'e', 'n', 'u', 'm', 's', ' ', 'o', 'r', ' ', 'c', 'o', 'n', 's', 't', 'a', 'n', 't', 's', ' ', 'e', 'n', 'u', 'm', 's', 'e', 't', ' ', 'a', 't', ' ', 'c', 'o', 'm', 'p', 'i', 'l', 'e', ' ', 't', 'i', 'm', 'e', '.'],
   ['/', '/', '/'],
   ['/', '/', '/', ' ', 'T', 'h', 'e', ' ', 's', 'y', 'n', 't', 'a', 'x', ' ', 'u', 's', 'e', 'd', ' ', 'i', 's', ' ', '`', 'e', 'n', 'u', 'm', '_', 's', 'e', 't', '_', 'i', 'n', 't', 'e', 'r', 's', 'e', 'c', 't', 'i', 'o', 'n', '!', '(', 'E', 'N', 'U', 'M', '_', 'A', ',', ' ', 'E', 'N', 'U', 'M', '_', 'B', ',', ' ', 'E', 'N', 'U', 'M', '_', 'C', ')', '`', ',', ' ', 'c', 'o', 'm', 'p', 'u', 't', 'i', 'n', 'g', ' ', 't', 'h', 'e', ' ', 'e', 'q', 'u', 'i', 'v', 'a', 'l', 'e', 'n', 't'],
   ['/', '/', '/', ' ', 'o', 'f', ' ', '`', 'E', 'N', 'U', 'M', '_', 'A', ' ', '&', ' ', 'E', 'N', 'U', 'M', '_', 'B', ' ', '&', ' ', 'E', 'N', 'U', 'M', '_', 'C', '`', ' ', 'a', 't', ' ', 'c', 'o', 'm', 'p', 'i', 'l', 'e', ' ', 't', 'i', 'm', 'e', '.', ' ', 'E', 'a', 'c', 'h', ' ', 'v', 'a', 'r', 'i', 'a', 'n', 't', ' ', 'm', 'u', 's', 't', ' ', 'b', 'e', ' ', 'o', 'f', ' ', 't', 'h', 'e', ' ', 's', 'a', 'm', 'e', ' ', 't', 'y', 'p', 'e', ',', ' ', 'o', 'r', ' ', 'a', 'n'],
   ['/', '/', '/', ' ', 'e', 'r', 'r', 'o', 'r', ' ', 'w', 'i', 'l', 'l', ' ', 'o', 'c', 'c', 'u', 'r', ' ', 'a', 't', ' ', 'c', 'o', 'm', 'p', 'i', 'l', 'e', '-', 't', 'i', 'm', 'e', '.'],
   ['/', '/', '/'],
   ['/', '/', '/', ' ', '#', ' ', 'E', 'x', 'a', 'm', 'p', 'l', 'e', 's'],
   ['/', '/', '/'],
   ['/', '/', '/', ' ', '`', '`', '`', 'r', 'u', 's', 't'],
   ['/', '/', '/', ' ', '#', ' ', 'u', 's', 'e', ' ', 'e', 'n', 'u', 'm', 's', 'e', 't', ':', ':', '*', ';'],
   ['/', '/', '/', ' ', '#', ' ', '#', '[', 'd', 'e', 'r', 'i', 'v', 'e', '(', 'E', 'n', 'u', 'm', 'S', 'e', 't', 'T', 'y', 'p', 'e', ',', ' ', 'D', 'e', 'b', 'u', 'g', ')', ']', ' ', 'e', 'n', 'u', 'm', ' ', 'E', 'n', 'u', 'm', ' ', '{', ' ', 'A', ',', ' ', 'B', ',', ' ', 'C', ',', ' ', 'D', ' ', '}'],
   ['/', '/', '/', ' ', 'c', 'o', 'n', 's', 't', ' ', 'S', 'E', 'T', '_', 'A', ':', ' ', 'E', 'n', 'u', 'm', 'S', 'e', 't', '<', 'E', 'n', 'u', 'm', '>', ' ', '=', ' ', 'e', 'n', 'u', 'm', '_', 's', 'e', 't', '!', '(', 'E', 'n', 'u', 'm', ':', ':', 'A', ' ', '|', ' ', 'E', 'n', 'u', 'm', ':', ':', 'B', ')', ';'],
   ['/', '/', '/', ' ', 'c', 'o', 'n', 's', 't', ' ', 'S', 'E', 'T', '_', 'B', ':', ' ', 'E', 'n', 'u', 'm', 'S', 'e', 't', '<', 'E', 'n', 'u', 'm', '>', ' ', '=', ' ', 'e', 'n', 'u', 'm', '_', 's', 'e', 't', '!', '(', 'E', 'n', 'u', 'm', ':', ':', 'B', ' ', '|', ' ', 'E', 'n', 'u', 'm', ':', ':', 'C', ')', ';'],
   ['/', '/', '/', ' ', 'c', 'o', 'n', 's', 't', ' ', 'C', 'O', 'N', 'S', 'T', '_', 'S', 'E', 'T', ':', ' ', 'E', 'n', 'u', 'm', 'S', 'e', 't', '<', 'E', 'n', 'u', 'm', '>', ' ', '=', ' ', 'e', 'n', 'u', 'm', '_', 's', 'e', 't', '_', 'i', 'n', 't', 'e', 'r', 's', 'e', 'c', 't', 'i', 'o', 'n', '!', '(', 'S', 'E', 'T', '_', 'A', ',', ' ', 'S', 'E', 'T', '_', 'B', ')', ';'],
   ['/', '/', '/', ' ', 'a', 's', 's', 'e', 'r', 't', '_', 'e', 'q', '!', '(', 'C', 'O', 'N', 'S', 'T', '_', 'S', 'E', 'T', ',', ' ', 'E', 'n', 'u', 'm', ':', ':', 'B', ')', ';'],
   ['/', '/', '/', ' ', '`', '`', '`'],
   ['#', '[', 'm', 'a', 'c', 'r', 'o', '_', 'e', 'x', 'p', 'o', 'r', 't', ']'],
   ['m', 'a', 'c', 'r', 'o', '_', 'r', 'u', 'l', 'e', 's', '!', ' ', 'e', 'n', 'u', 'm', '_', 's', 'e', 't', '_', 'i', 'n', 't', 'e', 'r', 's', 'e', 'c', 't', 'i', 'o', 'n', ' ', '{'],
   [' ', ' ', ' ', ' ', '(', '$', 'v', 'a', 'l', 'u', 'e', ':', 'p', 'a', 't', 'h', ' ', '$', '(', ',', ')', '?', ')', ' ', '=', '>', ' ', '{'],
   [' ', ' ', ' ', ' ', ' ', ' ', ' ', ' ', '$', 'c', 'r', 'a', 't', 'e', ':', ':', 'e', 'n', 'u', 'm', '_', 's', 'e', 't', '!', '(', '$', 'v', 'a', 'l', 'u', 'e', ')'],
   [' ', ' ', ' ', ' ', '}', ';'],
   [' ', ' ', ' ', ' ', '(', '$', 'v', 'a', 'l', 'u', 'e', ':', 'p', 'a', 't', 'h', ',', ' ', '$', '(', '$', 'r', 'e', 's', 't', ':', 'p', 'a', 't', 'h', ')', ',', '*', ' ', '$', '(', ',', ')', '?', ')', ' ', '=', '>', ' ', '{'],
   [' ', ' ', ' ', ' ', ' ', ' ', ' ', ' ', '{'],
   [' ', ' ', ' ', ' ', ' ', ' ', ' ', ' ', ' ', ' ', ' ', ' ', '#', '[', 'a', 'l', 'l', 'o', 'w', '(', 'd', 'e', 'p', 'r', 'e', 'c', 'a', 't', 'e', 'd', ')', ']', ' ', 'l', 'e', 't', ' ', 'h', 'e', 'l', 'p', 'e', 'r', ' ', '=', ' ', '$', 'v', 'a', 'l', 'u', 'e', '.', '_', '_', 'i', 'm', 'p', 'l', '_', 'e', 'n', 'u', 'm', 's', 'e', 't', '_', 'i', 'n', 't', 'e', 'r', 'n', 'a', 'l', '_', '_', 'c', 'o', 'n', 's', 't', '_', 'h', 'e', 'l', 'p', 'e', 'r', '(', ')', ';'],
   [' ', ' ', ' ', ' ', ' ', ' ', ' ', ' ', ' ', ' ', ' ', ' ', '#', '[', 'a', 'l', 'l', 'o', 'w', '(', 'd', 'e', 'p', 'r', 'e', 'c', 'a', 't', 'e', 'd', ')', ']', ' ', 'l', 'e', 't', ' ', 'v', 'a', 'l', 'u', 'e', ' ', '=', ' ', '$', 'v', 'a', 'l', 'u', 'e', '.', '_', '_', 'i', 'm', 'p', 'l', '_', 'e', 'n', 'u', 'm', 's', 'e', 't', '_', 'i', 'n', 't', 'e', 'r', 'n', 'a', 'l', '_', '_', 'c', 'o', 'n', 's', 't', '_', 'o', 'n', 'l', 'y', '(', ')', ';'],
   [' ', ' ', ' ', ' ', ' ', ' ', ' ', ' ', ' ', ' ', ' ', ' ', '$', '(', '#', '[', 'a', 'l', 'l', 'o', 'w', '(', 'd', 'e', 'p', 'r', 'e', 'c', 'a', 't', 'e', 'd', ')', ']', ' ', 'l', 'e', 't', ' ', 'v', 'a', 'l', 'u', 'e', ' ', '=', ' ', '{'],
   [' ', ' ', ' ', ' ', ' ', ' ', ' ', ' ', ' ', ' ', ' ', ' ', ' ', ' ', ' ', ' ', 'l', 'e', 't', ' ', 'n', 'e', 'w', ' ', '=', ' ', '$', 'r', 'e', 's', 't', '.', '_', '_', 'i', 'm', 'p', 'l', '_', 'e', 'n', 'u', 'm', 's', 'e', 't', '_', 'i', 'n', 't', 'e', 'r', 'n', 'a', 'l', '_', '_', 'c', 'o', 'n', 's', 't', '_', 'o', 'n', 'l', 'y', '(', ')', ';'],
   [' ', ' ', ' ', ' ', ' ', ' ', ' ', ' ', ' ', ' ', ' ', ' ', ' ', ' ', ' ', ' ', 'h', 'e', 'l', 'p', 'e', 'r', '.', 'c', 'o', 'n', 's', 't', '_', 'i', 'n', 't', 'e', 'r', 's', 'e', 'c', 't', 'i', 'o', 'n', '(', 'v', 'a', 'l', 'u', 'e', ',', ' ', 'n', 'e', 'w', ')'],
   [' ', ' ', ' ', ' ', ' ', ' ', ' ', ' ', ' ', ' ', ' ', ' ', '}', ';', ')', '*'],
   [' ', ' ', ' ', ' ', ' ', ' ', ' ', ' ', ' ', ' ', ' ', ' ', 'v', 'a', 'l', 'u', 'e'],
   [' ', ' ', ' ', ' ', ' ', ' ', ' ', ' ', '}'],
   [' ', ' ', ' ', ' ', '}', ';'],
   ['}'],
   [],
   ['/', '/', '/', ' ', 'C', 'o', 'm', 'p', 'u', 't', 'e', 's', ' ', 't', 'h', 'e', ' ', 'c', 'o', 'm', 'p', 'l', 'e', 'm', 'e', 'n', 't', ' ', 'o', 'f', ' ', 'a', 'n', ' ', 'e', 'n', 'u', 'm', 's', ' ', 'o', 'r', ' ', 'c', 'o', 'n', 's', 't', 'a', 'n', 't', 's', ' ', 'e', 'n', 'u', 'm', 's', 'e', 't', ' ', 'a', 't', ' ', 'c', 'o', 'm', 'p', 'i', 'l', 'e', ' ', 't', 'i', 'm', 'e', '.'],
   ['/', '/', '/'],
   ['/', '/', '/', ' ', '#', ' ', 'E', 'x', 'a', 'm', 'p', 'l', 'e', 's'],
   ['/', '/', '/'],
   ['/', '/', '/', ' ', '`', '`', '`', 'r', 'u', 's', 't'],
   ['/', '/', '/', ' ', '#', ' ', 'u', 's', 'e', ' ', 'e', 'n', 'u', 'm', 's', 'e', 't', ':', ':', '*', ';'],
   ['/', '/', '/', ' ', '#', '[', 'd', 'e', 'r', 'i', 'v', 'e', '(', 'E', 'n', 'u', 'm', 'S', 'e', 't', 'T', 'y', 'p', 'e', ',', ' ', 'D', 'e', 'b', 'u', 'g', ')', ']'],
   ['/', '/', '/', ' ', 'e', 'n', 'u', 'm', ' ', 'E', 'n', 'u', 'm', ' ', '{', ' ', 'A', ',', ' ', 'B', ',', ' ', 'C', ',', ' ', 'D', ' ', '}'],
   ['/', '/', '/'],
   ['/', '/', '/', ' ', 'c', 'o', 'n', 's', 't', ' ', 'S', 'E', 'T', ':', ' ', 'E', 'n', 'u', 'm', 'S', 'e', 't', '<', 'E', 'n', 'u', 'm', '>', ' ', '=', ' ', 'e', 'n', 'u', 'm', '_', 's', 'e', 't', '!', '(', 'E', 'n', 'u', 'm', ':', ':', 'B', ' ', '|', ' ', 'E', 'n', 'u', 'm', ':', ':', 'C', ')', ';'],
   ['/', '/', '/', ' ', 'c', 'o', 'n', 's', 't', ' ', 'C', 'O', 'N', 'S', 'T', '_', 'S', 'E', 'T', ':', ' ', 'E', 'n', 'u', 'm', 'S', 'e', 't', '<', 'E', 'n', 'u', 'm', '>', ' ', '=', ' ', 'e', 'n', 'u', 'm', '_', 's', 'e', 't', '_', 'c', 'o', 'm', 'p', 'l', 'e', 'm', 'e', 'n', 't', '!', '(', 'S', 'E', 'T', ')', ';'],
   ['/', '/', '/', ' ', 'a', 's', 's', 'e', 'r', 't', '_', 'e', 'q', '!', '(', 'C', 'O', 'N', 'S', 'T', '_', 'S', 'E', 'T', ',', ' ', 'E', 'n', 'u', 'm', ':', ':', 'A', ' ', '|', ' ', 'E', 'n', 'u', 'm', ':', ':', 'D', ')', ';'],
   ['/', '/', '/', ' ', '`', '`', '`'],
   ['#', '[', 'm', 'a', 'c', 'r', 'o', '_', 'e', 'x', 'p', 'o', 'r', 't', ']'],
   ['m', 'a', 'c', 'r', 'o', '_', 'r', 'u', 'l', 'e', 's', '!', ' ', 'e', 'n', 'u', 'm', '_', 's', 'e', 't', '_', 'c', 'o', 'm', 'p', 'l', 'e', 'm', 'e', 'n', 't', ' ', '{'],
   [' ', ' ', ' ', ' ', '(', '$', 'v', 'a', 'l', 'u', 'e', ':', 'p', 'a', 't', 'h', ' ', '$', '(', ',', ')', '?', ')', ' ', '=', '>', ' ', '{', '{'],
   [' ', ' ', ' ', ' ', ' ', ' ', ' ', ' ', '#', '[', 'a', 'l', 'l', 'o', 'w', '(', 'd', 'e', 'p', 'r', 'e', 'c', 'a', 't', 'e', 'd', ')', ']'],
   [' ', ' ', ' ', ' ', ' ', ' ', ' ', ' ', 'l', 'e', 't', ' ', 'h', 'e', 'l', 'p', 'e', 'r', ' ', '=', ' ', '$', 'v', 'a', 'l', 'u', 'e', '.', '_', '_', 'i', 'm', 'p', 'l', '_', 'e', 'n', 'u', 'm', 's', 'e', 't', '_', 'i', 'n', 't', 'e', 'r', 'n', 'a', 'l', '_', '_', 'c', 'o', 'n', 's', 't', '_', 'h', 'e', 'l', 'p', 'e', 'r', '(', ')', ';'],
   [' ', ' ', ' ', ' ', ' ', ' ', ' ', ' ', '#', '[', 'a', 'l', 'l', 'o', 'w', '(', 'd', 'e', 'p', 'r', 'e', 'c', 'a', 't', 'e', 'd', ')', ']'],
   [' ', ' ', ' ', ' ', ' ', ' ', ' ', ' ', 'l', 'e', 't', ' ', 'v', 'a', 'l', 'u', 'e', ' ', '=', ' ', '$', 'v', 'a', 'l', 'u', 'e', '.', '_', '_', 'i', 'm', 'p', 'l', '_', 'e', 'n', 'u', 'm', 's', 'e', 't', '_', 'i', 'n', 't', 'e', 'r', 'n', 'a', 'l', '_', '_', 'c', 'o', 'n', 's', 't', '_', 'o', 'n', 'l', 'y', '(', ')', ';'],
   [' ', ' ', ' ', ' ', ' ', ' ', ' ', ' ', 'h', 'e', 'l', 'p', 'e', 'r', '.', 'c', 'o', 'n', 's', 't', '_', 'c', 'o', 'm', 'p', 'l', 'e', 'm', 'e', 'n', 't', '(', 'v', 'a', 'l', 'u', 'e', ')'],
   [' ', ' ', ' ', ' ', '}', '}', ';'],
   ['}'],
   [],
   ['/', '/', '/', ' ', 'C', 'o', 'm', 'p', 'u', 't', 'e', 's', ' ', 't', 'h', 'e', ' ', 'd', 'i', 'f', 'f', 'e', 'r', 'e', 'n', 'c', 'e', ' ', 'o', 'f', ' ', 'm', 'u', 'l', 't', 'i', 'p', 'l', 'e', ' ', 'e', 'n', 'u', 'm', 's', ' ', 'o', 'r', ' ', 'c', 'o', 'n', 's', 't', 'a', 'n', 't', 's', ' ', 'e', 'n', 'u', 'm', 's', 'e', 't', ' ', 'a', 't', ' ', 'c', 'o', 'm', 'p', 'i', 'l', 'e', ' ', 't', 'i', 'm', 'e', '.'],
   ['/', '/', '/'],
   ['/', '/', '/', ' ', 'T', 'h', 'e', ' ', 's', 'y', 'n', 't', 'a', 'x', ' ', 'u', 's', 'e', 'd', ' ', 'i', 's', ' ', '`', 'e', 'n', 'u', 'm', '_', 's', 'e', 't', '_', 'd', 'i', 'f', 'f', 'e', 'r', 'e', 'n', 'c', 'e', '!', '(', 'E', 'N', 'U', 'M', '_', 'A', ',', ' ', 'E', 'N', 'U', 'M', '_', 'B', ',', ' ', 'E', 'N', 'U', 'M', '_', 'C', ')', '`', ',', ' ', 'c', 'o', 'm', 'p', 'u', 't', 'i', 'n', 'g', ' ', 't', 'h', 'e', ' ', 'e', 'q', 'u', 'i', 'v', 'a', 'l', 'e', 'n', 't'],
   ['/', '/', '/', ' ', 'o', 'f', ' ', '`', 'E', 'N', 'U', 'M', '_', 'A', ' ', '-', ' ', 'E', 'N', 'U', 'M', '_', 'B', ' ', '-', ' ', 'E', 'N', 'U', 'M', '_', 'C', '`', ' ', 'a', 't', ' ', 'c', 'o', 'm', 'p', 'i', 'l', 'e', ' ', 't', 'i', 'm', 'e', '.', ' ', 'E', 'a', 'c', 'h', ' ', 'v', 'a', 'r', 'i', 'a', 'n', 't', ' ', 'm', 'u', 's', 't', ' ', 'b', 'e', ' ', 'o', 'f', ' ', 't', 'h', 'e', ' ', 's', 'a', 'm', 'e', ' ', 't', 'y', 'p', 'e', ',', ' ', 'o', 'r', ' ', 'a', 'n'],
   ['/', '/', '/', ' ', 'e', 'r', 'r', 'o', 'r', ' ', 'w', 'i', 'l', 'l', ' ', 'o', 'c', 'c', 'u', 'r', ' ', 'a', 't', ' ', 'c', 'o', 'm', 'p', 'i', 'l', 'e', '-', 't', 'i', 'm', 'e', '.'],
   ['/', '/', '/'],
   ['/', '/', '/', ' ', '#', ' ', 'E', 'x', 'a', 'm', 'p', 'l', 'e', 's'],
   ['/', '/', '/'],
   ['/', '/', '/', ' ', '`', '`', '`', 'r', 'u', 's', 't'],
   ['/', '/', '/', ' ', '#', ' ', 'u', 's', 'e', ' ', 'e', 'n', 'u', 'm', 's', 'e', 't', ':', ':', '*', ';'],
   ['/', '/', '/', ' ', '#', ' ', '#', '[', 'd', 'e', 'r', 'i', 'v', 'e', '(', 'E', 'n', 'u', 'm', 'S', 'e', 't', 'T', 'y', 'p', 'e', ',', ' ', 'D', 'e', 'b', 'u', 'g', ')', ']', ' ', 'e', 'n', 'u', 'm', ' ', 'E', 'n', 'u', 'm', ' ', '{', ' ', 'A', ',', ' ', 'B', ',', ' ', 'C', ',', ' ', 'D', ' ', '}'],
   ['/', '/', '/', ' ', 'c', 'o', 'n', 's', 't', ' ', 'S', 'E', 'T', '_', 'A', ':', ' ', 'E', 'n', 'u', 'm', 'S', 'e', 't', '<', 'E', 'n', 'u', 'm', '>', ' ', '=', ' ', 'e', 'n', 'u', 'm', '_', 's', 'e', 't', '!', '(', 'E', 'n', 'u', 'm', ':', ':', 'A', ' ', '|', ' ', 'E', 'n', 'u', 'm', ':', ':', 'B', ' ', '|', ' ', 'E', 'n', 'u', 'm', ':', ':', 'D', ')', ';'],
   ['/', '/', '/', ' ', 'c', 'o', 'n', 's', 't', ' ', 'S', 'E', 'T', '_', 'B', ':', ' ', 'E', 'n', 'u', 'm', 'S', 'e', 't', '<', 'E', 'n', 'u', 'm', '>', ' ', '=', ' ', 'e', 'n', 'u', 'm', '_', 's', 'e', 't', '!', '(', 'E', 'n', 'u', 'm', ':', ':', 'B', ' ', '|', ' ', 'E', 'n', 'u', 'm', ':', ':', 'C', ')', ';'],
   ['/', '/', '/', ' ', 'c', 'o', 'n', 's', 't', ' ', 'C', 'O', 'N', 'S', 'T', '_', 'S', 'E', 'T', ':', ' ', 'E', 'n', 'u', 'm', 'S', 'e', 't', '<', 'E', 'n', 'u', 'm', '>', ' ', '=', ' ', 'e', 'n', 'u', 'm', '_', 's', 'e', 't', '_', 's', 'y', 'm', 'm', 'e', 't', 'r', 'i', 'c', '_', 'd', 'i', 'f', 'f', 'e', 'r', 'e', 'n', 'c', 'e', '!', '(', 'S', 'E', 'T', '_', 'A', ',', ' ', 'S', 'E', 'T', '_', 'B', ')', ';'],
   ['/', '/', '/', ' ', 'a', 's', 's', 'e', 'r', 't', '_', 'e', 'q', '!', '(', 'C', 'O', 'N', 'S', 'T', '_', 'S', 'E', 'T', ',', ' ', 'E', 'n', 'u', 'm', ':', ':', 'A', ' ', '|', ' ', 'E', 'n', 'u', 'm', ':', ':', 'C', ' ', '|', ' ', 'E', 'n', 'u', 'm', ':', ':', 'D', ')', ';'],
   ['/', '/', '/', ' ', '`', '`', '`'],
   ['#', '[', 'm', 'a', 'c', 'r', 'o', '_', 'e', 'x', 'p', 'o', 'r', 't', ']'],
   ['m', 'a', 'c', 'r', 'o', '_', 'r', 'u', 'l', 'e', 's', '!', ' ', 'e', 'n', 'u', 'm', '_', 's', 'e', 't', '_', 'd', 'i', 'f', 'f', 'e', 'r', 'e', 'n', 'c', 'e', ' ', '{'],
   [' ', ' ', ' ', ' ', '(', '$', 'v', 'a', 'l', 'u', 'e', ':', 'p', 'a', 't', 'h', ' ', '$', '(', ',', ')', '?', ')', ' ', '=', '>', ' ', '{'],
   [' ', ' ', ' ', ' ', ' ', ' ', ' ', ' ', '$', 'c', 'r', 'a', 't', 'e', ':', ':', 'e', 'n', 'u', 'm', '_', 's', 'e', 't', '!', '(', '$', 'v', 'a', 'l', 'u', 'e', ')'],
   [' ', ' ', ' ', ' ', '}', ';'],
   [' ', ' ', ' ', ' ', '(', '$', 'v', 'a', 'l', 'u', 'e', ':', 'p', 'a', 't', 'h', ',', ' ', '$', '(', '$', 'r', 'e', 's', 't', ':', 'p', 'a', 't', 'h', ')', ',', '*', ' ', '$', '(', ',', ')', '?', ')', ' ', '=', '>', ' ', '{'],
   [' ', ' ', ' ', ' ', ' ', ' ', ' ', ' ', '{'],
   [' ', ' ', ' ', ' ', ' ', ' ', ' ', ' ', ' ', ' ', ' ', ' ', '#', '[', 'a', 'l', 'l', 'o', 'w', '(', 'd', 'e', 'p', 'r', 'e', 'c', 'a', 't', 'e', 'd', ')', ']', ' ', 'l', 'e', 't', ' ', 'h', 'e', 'l', 'p', 'e', 'r', ' ', '=', ' ', '$', 'v', 'a', 'l', 'u', 'e', '.', '_', '_', 'i', 'm', 'p', 'l', '_', 'e', 'n', 'u', 'm', 's', 'e', 't', '_', 'i', 'n', 't', 'e', 'r', 'n', 'a', 'l', '_', '_', 'c', 'o', 'n', 's', 't', '_', 'h', 'e', 'l', 'p', 'e', 'r', '(', ')', ';'],
   [' ', ' ', ' ', ' ', ' ', ' ', ' ', ' ', ' ', ' ', ' ', ' ', '#', '[', 'a', 'l', 'l', 'o', 'w', '(', 'd', 'e', 'p', 'r', 'e', 'c', 'a', 't', 'e', 'd', ')', ']', ' ', 'l', 'e', 't', ' ', 'v', 'a', 'l', 'u', 'e', ' ', '=', ' ', '$', 'v', 'a', 'l', 'u', 'e', '.', '_', '_', 'i', 'm', 'p', 'l', '_', 'e', 'n', 'u', 'm', 's', 'e', 't', '_', 'i', 'n', 't', 'e', 'r', 'n', 'a', 'l', '_', '_', 'c', 'o', 'n', 's', 't', '_', 'o', 'n', 'l', 'y', '(', ')', ';'],
   [' ', ' ', ' ', ' ', ' ', ' ', ' ', ' ', ' ', ' ', ' ', ' ', '$', '(', '#', '[', 'a', 'l', 'l', 'o', 'w', '(', 'd', 'e', 'p', 'r', 'e', 'c', 'a', 't', 'e', 'd', ')', ']', ' ', 'l', 'e', 't', ' ', 'v', 'a', 'l', 'u', 'e', ' ', '=', ' ', '{'],
   [' ', ' ', ' ', ' ', ' ', ' ', ' ', ' ', ' ', ' ', ' ', ' ', ' ', ' ', ' ', ' ', 'l', 'e', 't', ' ', 'n', 'e', 'w', ' ', '=', ' ', '$', 'r', 'e', 's', 't', '.', '_', '_', 'i', 'm', 'p', 'l', '_', 'e', 'n', 'u', 'm', 's', 'e', 't', '_', 'i', 'n', 't', 'e', 'r', 'n', 'a', 'l', '_', '_', 'c', 'o', 'n', 's', 't', '_', 'o', 'n', 'l', 'y', '(', ')', ';'],
   [' ', ' ', ' ', ' ', ' ', ' ', ' ', ' ', ' ', ' ', ' ', ' ', ' ', ' ', ' ', ' ', 'h', 'e', 'l', 'p', 'e', 'r', '.', 'c', 'o', 'n', 's', 't', '_', 'i', 'n', 't', 'e', 'r', 's', 'e', 'c', 't', 'i', 'o', 'n', '(', 'v', 'a', 'l', 'u', 'e', ',', ' ', 'h', 'e', 'l', 'p', 'e', 'r', '.', 'c', 'o', 'n', 's', 't', '_', 'c', 'o', 'm', 'p', 'l', 'e', 'm', 'e', 'n', 't', '(', 'n', 'e', 'w', ')', ')'],
   [' ', ' ', ' ', ' ', ' ', ' ', ' ', ' ', ' ', ' ', ' ', ' ', '}', ';', ')', '*'],
   [' ', ' ', ' ', ' ', ' ', ' ', ' ', ' ', ' ', ' ', ' ', ' ', 'v', 'a', 'l', 'u', 'e'],
   [' ', ' ', ' ', ' ', ' ', ' ', ' ', ' ', '}'],
   [' ', ' ', ' ', ' ', '}', ';'],
   ['}'],
   [],
   ['/', '/', '/', ' ', 'C', 'o', 'm', 'p', 'u', 't', 'e', 's', ' ', 't', 'h', 'e', ' ', 's', 'y', 'm', 'm', 'e', 't', 'r', 'i', 'c', ' ', 'd', 'i', 'f', 'f', 'e', 'r', 'e', 'n', 'c', 'e', ' ', 'o', 'f', ' ', 'm', 'u', 'l', 't', 'i', 'p', 'l', 'e', ' ', 'e', 'n', 'u', 'm', 's', ' ', 'o', 'r', ' ', 'c', 'o', 'n', 's', 't', 'a', 'n', 't', 's', ' ', 'e', 'n', 'u', 'm', 's', 'e', 't', ' ', 'a', 't', ' ', 'c', 'o', 'm', 'p', 'i', 'l', 'e', ' ', 't', 'i', 'm', 'e', '.'],
   ['/', '/', '/'],
   ['/', '/', '/', ' ', 'T', 'h', 'e', ' ', 's', 'y', 'n', 't', 'a', 'x', ' ', 'u', 's', 'e', 'd', ' ', 'i', 's', ' ', '`', 'e', 'n', 'u', 'm', '_', 's', 'e', 't', '_', 's', 'y', 'm', 'm', 'e', 't', 'r', 'i', 'c', '_', 'd', 'i', 'f', 'f', 'e', 'r', 'e', 'n', 'c', 'e', '!', '(', 'E', 'N', 'U', 'M', '_', 'A', ',', ' ', 'E', 'N', 'U', 'M', '_', 'B', ',', ' ', 'E', 'N', 'U', 'M', '_', 'C', ')', '`', ',', ' ', 'c', 'o', 'm', 'p', 'u', 't', 'i', 'n', 'g', ' ', 't', 'h', 'e'],
   ['/', '/', '/', ' ', 'e', 'q', 'u', 'i', 'v', 'a', 'l', 'e', 'n', 't', ' ', 'o', 'f', ' ', '`', 'E', 'N', 'U', 'M', '_', 'A', ' ', '^', ' ', 'E', 'N', 'U', 'M', '_', 'B', ' ', '^', ' ', 'E', 'N', 'U', 'M', '_', 'C', '`', ' ', 'a', 't', ' ', 'c', 'o', 'm', 'p', 'i', 'l', 'e', ' ', 't', 'i', 'm', 'e', '.', ' ', 'E', 'a', 'c', 'h', ' ', 'v', 'a', 'r', 'i', 'a', 'n', 't', ' ', 'm', 'u', 's', 't', ' ', 'b', 'e', ' ', 'o', 'f', ' ', 't', 'h', 'e', ' ', 's', 'a', 'm', 'e'],
   ['/', '/', '/', ' ', 't', 'y', 'p', 'e', ',', ' ', 'o', 'r', ' ', 'a', 'n', ' ', 'e', 'r', 'r', 'o', 'r', ' ', 'w', 'i', 'l', 'l', ' ', 'o', 'c', 'c', 'u', 'r', ' ', 'a', 't', ' ', 'c', 'o', 'm', 'p', 'i', 'l', 'e', '-', 't', 'i', 'm', 'e', '.'],
   ['/', '/', '/'],
   ['/', '/', '/', ' ', '#', ' ', 'E', 'x', 'a', 'm', 'p', 'l', 'e', 's'],
   ['/', '/', '/'],
   ['/', '/', '/', ' ', '`', '`', '`', 'r', 'u', 's', 't'],
   ['/', '/', '/', ' ', '#', ' ', 'u', 's', 'e', ' ', 'e', 'n', 'u', 'm', 's', 'e', 't', ':', ':', '*', ';'],
   ['/', '/', '/', ' ', '#', ' ', '#', '[', 'd', 'e', 'r', 'i', 'v', 'e', '(', 'E', 'n', 'u', 'm', 'S', 'e', 't', 'T', 'y', 'p', 'e', ',', ' ', 'D', 'e', 'b', 'u', 'g', ')', ']', ' ', 'e', 'n', 'u', 'm', ' ', 'E', 'n', 'u', 'm', ' ', '{', ' ', 'A', ',', ' ', 'B', ',', ' ', 'C', ',', ' ', 'D', ' ', '}'],
   ['/', '/', '/', ' ', 'c', 'o', 'n', 's', 't', ' ', 'S', 'E', 'T', '_', 'A', ':', ' ', 'E', 'n', 'u', 'm', 'S', 'e', 't', '<', 'E', 'n', 'u', 'm', '>', ' ', '=', ' ', 'E', 'n', 'u', 'm', 'S', 'e', 't', ':', ':', 'a', 'l', 'l', '(', ')', ';'],
   ['/', '/', '/', ' ', 'c', 'o', 'n', 's', 't', ' ', 'S', 'E', 'T', '_', 'B', ':', ' ', 'E', 'n', 'u', 'm', 'S', 'e', 't', '<', 'E', 'n', 'u', 'm', '>', ' ', '=', ' ', 'e', 'n', 'u', 'm', '_', 's', 'e', 't', '!', '(', 'E', 'n', 'u', 'm', ':', ':', 'B', ' ', '|', ' ', 'E', 'n', 'u', 'm', ':', ':', 'C', ')', ';'],
   ['/', '/', '/', ' ', 'c', 'o', 'n', 's', 't', ' ', 'C', 'O', 'N', 'S', 'T', '_', 'S', 'E', 'T', ':', ' ', 'E', 'n', 'u', 'm', 'S', 'e', 't', '<', 'E', 'n', 'u', 'm', '>', ' ', '=', ' ', 'e', 'n', 'u', 'm', '_', 's', 'e', 't', '_', 'd', 'i', 'f', 'f', 'e', 'r', 'e', 'n', 'c', 'e', '!', '(', 'S', 'E', 'T', '_', 'A', ',', ' ', 'S', 'E', 'T', '_', 'B', ')', ';'],
   ['/', '/', '/', ' ', 'a', 's', 's', 'e', 'r', 't', '_', 'e', 'q', '!', '(', 'C', 'O', 'N', 'S', 'T', '_', 'S', 'E', 'T', ',', ' ', 'E', 'n', 'u', 'm', ':', ':', 'A', ' ', '|', ' ', 'E', 'n', 'u', 'm', ':', ':', 'D', ')', ';'],
   ['/', '/', '/', ' ', '`', '`', '`'],
   ['#', '[', 'm', 'a', 'c', 'r', 'o', '_', 'e', 'x', 'p', 'o', 'r', 't', ']'],
   ['m', 'a', 'c', 'r', 'o', '_', 'r', 'u', 'l', 'e', 's', '!', ' ', 'e', 'n', 'u', 'm', '_', 's', 'e', 't', '_', 's', 'y', 'm', 'm', 'e', 't', 'r', 'i', 'c', '_', 'd', 'i', 'f', 'f', 'e', 'r', 'e', 'n', 'c', 'e', ' ', '{'],
   [' ', ' ', ' ', ' ', '(', '$', 'v', 'a', 'l', 'u', 'e', ':', 'p', 'a', 't', 'h', ' ', '$', '(', ',', ')', '?', ')', ' ', '=', '>', ' ', '{'],
   [' ', ' ', ' ', ' ', ' ', ' ', ' ', ' ', '$', 'c', 'r', 'a', 't', 'e', ':', ':', 'e', 'n', 'u', 'm', '_', 's', 'e', 't', '!', '(', '$', 'v', 'a', 'l', 'u', 'e', ')'],
   [' ', ' ', ' ', ' ', '}', ';'],
   [' ', ' ', ' ', ' ', '(', '$', 'v', 'a', 'l', 'u', 'e', ':', 'p', 'a', 't', 'h', ',', ' ', '$', '(', '$', 'r', 'e', 's', 't', ':', 'p', 'a', 't', 'h', ')', ',', '*', ' ', '$', '(', ',', ')', '?', ')', ' ', '=', '>', ' ', '{'],
   [' ', ' ', ' ', ' ', ' ', ' ', ' ', ' ', '{'],
   [' ', ' ', ' ', ' ', ' ', ' ', ' ', ' ', ' ', ' ', ' ', ' ', '#', '[', 'a', 'l', 'l', 'o', 'w', '(', 'd', 'e', 'p', 'r', 'e', 'c', 'a', 't', 'e', 'd', ')', ']', ' ', 'l', 'e', 't', ' ', 'h', 'e', 'l', 'p', 'e', 'r', ' ', '=', ' ', '$', 'v', 'a', 'l', 'u', 'e', '.', '_', '_', 'i', 'm', 'p', 'l', '_', 'e', 'n', 'u', 'm', 's', 'e', 't', '_', 'i', 'n', 't', 'e', 'r', 'n', 'a', 'l', '_', '_', 'c', 'o', 'n', 's', 't', '_', 'h', 'e', 'l', 'p', 'e', 'r', '(', ')', ';'],
   [' ', ' ', ' ', ' ', ' ', ' ', ' ', ' ', ' ', ' ', ' ', ' ', '#', '[', 'a', 'l', 'l', 'o', 'w', '(', 'd', 'e', 'p', 'r', 'e', 'c', 'a', 't', 'e', 'd', ')', ']', ' ', 'l', 'e', 't', ' ', 'v', 'a', 'l', 'u', 'e', ' ', '=', ' ', '$', 'v', 'a', 'l', 'u', 'e', '.', '_', '_', 'i', 'm', 'p', 'l', '_', 'e', 'n', 'u', 'm', 's', 'e', 't', '_', 'i', 'n', 't', 'e', 'r', 'n', 'a', 'l', '_', '_', 'c', 'o', 'n', 's', 't', '_', 'o', 'n', 'l', 'y', '(', ')', ';'],
   [' ', ' ', ' ', ' ', ' ', ' ', ' ', ' ', ' ', ' ', ' ', ' ', '$', '(', '#', '[', 'a', 'l', 'l', 'o', 'w', '(', 'd', 'e', 'p', 'r', 'e', 'c', 'a', 't', 'e', 'd', ')', ']', ' ', 'l', 'e', 't', ' ', 'v', 'a', 'l', 'u', 'e', ' ', '=', ' ', '{'],
   [' ', ' ', ' ', ' ', ' ', ' ', ' ', ' ', ' ', ' ', ' ', ' ', ' ', ' ', ' ', ' ', 'l', 'e', 't', ' ', 'n', 'e', 'w', ' ', '=', ' ', '$', 'r', 'e', 's', 't', '.', '_', '_', 'i', 'm', 'p', 'l', '_', 'e', 'n', 'u', 'm', 's', 'e', 't', '_', 'i', 'n', 't', 'e', 'r', 'n', 'a', 'l', '_', '_', 'c', 'o', 'n', 's', 't', '_', 'o', 'n', 'l', 'y', '(', ')', ';'],
   [' ', ' ', ' ', ' ', ' ', ' ', ' ', ' ', ' ', ' ', ' ', ' ', ' ', ' ', ' ', ' ', 'h', 'e', 'l', 'p', 'e', 'r', '.', 'c', 'o', 'n', 's', 't', '_', 's', 'y', 'm', 'm', 'e', 't', 'r', 'i', 'c', '_', 'd', 'i', 'f', 'f', 'e', 'r', 'e', 'n', 'c', 'e', '(', 'v', 'a', 'l', 'u', 'e', ',', ' ', 'n', 'e', 'w', ')'],
   [' ', ' ', ' ', ' ', ' ', ' ', ' ', ' ', ' ', ' ', ' ', ' ', '}', ';', ')', '*'],
   [' ', ' ', ' ', ' ', ' ', ' ', ' ', ' ', ' ', ' ', ' ', ' ', 'v', 'a', 'l', 'u', 'e'],
   [' ', ' ', ' ', ' ', ' ', ' ', ' ', ' ', '}'],
   [' ', ' ', ' ', ' ', '}', ';'],
   ['}']]

theorem text_eq : text = chars.map String.ofList := by rfl

end Enumset.Src.MacrosRs
