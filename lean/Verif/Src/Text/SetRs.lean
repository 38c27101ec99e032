/-!
# The text of `enumset/src/set.rs`

Written by `tools/generate.sh`.
-/

set_option maxRecDepth 100000

namespace Enumset.Src.SetRs

/-- enumset/src/set.rs, line by line -/
def text : List String :=
  ["use crate::repr::EnumSetTypeRepr;",
   "use crate::traits::EnumSetType;",
   "use crate::EnumSetTypeWithRepr;",
   "use core::cmp::Ordering;",
   "use core::fmt::{Debug, Display, Formatter};",
   "use core::hash::{Hash, Hasher};",
   "use core::iter::Sum;",
   "use core::ops::{",
   "    BitAnd, BitAndAssign, BitOr, BitOrAssign, BitXor, BitXorAssign, Not, Sub, SubAssign,",
   "};",
   "",
   "#[cfg(feature = \"serde\")]",
   "use {",
   "    serde2 as serde,",
   "    serde2::{Deserialize, Serialize},",
   "};",
   "",
   "/// An efficient set type for enums.",
   "///",
   "/// It is implemented using a bitset stored using the smallest integer that can fit all bits",
   "/// in the underlying enum. In general, an enum variant with a discriminator of `n` is stored in",
   "/// the nth least significant bit (corresponding with a mask of, e.g. `1 << enum as u32`).",
   "///",
   "/// # Numeric representation",
   "///",
   "/// `EnumSet` is internally implemented using integer types, and as such can be easily converted",
   "/// from and to numbers.",
   "///",
   "/// Each bit of the underlying integer corresponds to at most one particular enum variant. If the",
   "/// corresponding bit for a variant is set, it present in the set. Bits that do not correspond to",
   "/// any variant are always unset.",
   "///",
   "/// By default, each enum variant is stored in a bit corresponding to its discriminator. An enum",
   "/// variant with a discriminator of `n` is stored in the `n + 1`th least significant bit",
   "/// (corresponding to a mask of e.g. `1 << enum as u32`).",
   "///",
   "/// # Array representation",
   "///",
   "/// Sets with more than 128 variants are instead stored with an underlying array of `u64`s. This",
   "/// is treated as if it was a single large integer. The `n`th least significant bit of this integer",
   "/// is stored in the `n % 64`th least significant bit of the `n / 64`th element in the array.",
   "///",
   "/// # Serialization",
   "///",
   "/// When the `serde` feature is enabled, `EnumSet`s can be serialized and deserialized using",
   "/// the `serde` crate. The exact serialization format can be controlled with additional attributes",
   "/// on the enum type. These attributes are valid regardless of whether the `serde` feature",
   "/// is enabled.",
   "///",
   "/// By default, `EnumSet` is serialized by directly writing out a single integer containing the",
   "/// numeric representation of the bitset. The integer type used is the smallest one that can fit",
   "/// the largest variant in the enum. If no integer type is large enough, instead the `EnumSet` is",
   "/// serialized as an array of `u64`s containing the array representation.",
   "///",
   "/// The `#[enumset(serialize_repr = \"…\")]` attribute can be used to override the representation",
   "/// used. Valid values are as follows:",
   "///",
   "/// * `u8`, `u16`, `u32`, `u64`, and `u128` serialize the type as the corresponding integer type.",
   "/// * `array` serializes the set as an list of `u64`s corresponding to the array representation.",
   "/// * `list` serializes the set as a list of enum variants. This requires your enum type implement",
   "///   [`Serialize`] and [`Deserialize`].",
   "/// * `map` serializes the set as a map of enum variants to booleans. The set contains a value if",
   "///   the boolean is `true`. This requires your enum type implement `Serialize` and `Deserialize`.",
   "///",
   "/// The representation used is determined statically at compile time, and there is currently no",
   "/// support for reading different formats with the same deserializer.",
   "///",
   "/// By default, unknown bits are ignored and silently removed from the bitset. To override this",
   "/// behavior, you can add a `#[enumset(serialize_deny_unknown)]` attribute. This will cause",
   "/// deserialization to fail if an invalid bit is set.",
   "///",
   "/// # FFI, Safety and `repr`",
   "///",
   "/// If an enum type `T` is annotated with",
   "/// [`#[enumset(repr = \"…\")]`](derive@crate::EnumSetType#options) where `…` is a primitive integer",
   "/// type, then several things happen:",
   "///",
   "/// * `T` will implement",
   "///   <code>[EnumSetTypeWithRepr](crate::traits::EnumSetTypeWithRepr)&lt;Repr = R&gt;</code> in",
   "///   addition to [`EnumSetType`].",
   "/// * The `EnumSet` methods with `repr` in their name, such as [`as_repr`][EnumSet::as_repr] and",
   "///   [`from_repr`][EnumSet::from_repr], will be available for `EnumSet<T>`.",
   "/// * The in-memory representation of `EnumSet<T>` is guaranteed to be `R`.",
   "///",
   "/// That last guarantee makes it sound to send `EnumSet<T>` across an FFI boundary. For example:",
   "///",
   "/// ```",
   "/// # use enumset::*;",
   "/// #",
   "/// # mod ffi_impl {",
   "/// #     // This example “foreign” function is actually written in Rust, but for the sake",
   "/// #     // of example, we'll pretend it's written in C.",
   "/// #     #[no_mangle]",
   "/// #     extern \"C\" fn some_foreign_function(set: u32) -> u32 {",
   "/// #         set & 0b100",
   "/// #     }",
   "/// # }",
   "/// #",
   "/// extern \"C\" {",
   "///     // This function is written in C like:",
   "///     // uint32_t some_foreign_function(uint32_t set) { … }",
   "///     fn some_foreign_function(set: EnumSet<MyEnum>) -> EnumSet<MyEnum>;",
   "/// }",
   "///",
   "/// #[derive(Debug, EnumSetType)]",
   "/// #[enumset(repr = \"u32\")]",
   "/// enum MyEnum { A, B, C }",
   "///",
   "/// let set: EnumSet<MyEnum> = enum_set!(MyEnum::A | MyEnum::C);",
   "///",
   "/// let new_set: EnumSet<MyEnum> = unsafe { some_foreign_function(set) };",
   "/// assert_eq!(new_set, enum_set!(MyEnum::C));",
   "/// ```",
   "///",
   "/// When an `EnumSet<T>` is received via FFI, all bits that don't correspond to an enum variant",
   "/// of `T` must be set to `0`. Behavior is **undefined** if any of these bits are set to `1`.",
   "#[cfg_attr(",
   "    not(feature = \"serde\"),",
   "    doc = \"\\n\\n\",",
   "    doc = \"[`Serialize`]: https://docs.rs/serde/latest/serde/trait.Serialize.html\\n\",",
   "    doc = \"[`Deserialize`]: https://docs.rs/serde/latest/serde/trait.Deserialize.html\\n\"",
   ")]",
   "#[derive(Copy, Clone, PartialEq, Eq)]",
   "#[repr(transparent)]",
   "pub struct EnumSet<T: EnumSetType> {",
   "    #[doc(hidden)]",
   "    /// This is public due to the `enum_set!` macro.",
   "    /// This is **NOT** public API and may change at any time.",
   "    pub __priv_repr: T::Repr,",
   "}",
   "",
   "//region EnumSet operations",
   "impl<T: EnumSetType> EnumSet<T> {",
   "    const EMPTY_REPR: Self = EnumSet { __priv_repr: T::Repr::EMPTY };",
   "    const ALL_REPR: Self = EnumSet { __priv_repr: T::ALL_BITS };",
   "",
   "    /// Creates an empty `EnumSet`.",
   "    #[inline(always)]",
   "    pub const fn new() -> Self {",
   "        Self::EMPTY_REPR",
   "    }",
   "",
   "    /// Returns an `EnumSet` containing a single element.",
   "    #[inline(always)]",
   "    pub fn only(t: T) -> Self {",
   "        let mut set = Self::new();",
   "        set.insert(t);",
   "        set",
   "    }",
   "",
   "    /// Creates an empty `EnumSet`.",
   "    ///",
   "    /// This is an alias for [`EnumSet::new`].",
   "    #[inline(always)]",
   "    pub const fn empty() -> Self {",
   "        Self::EMPTY_REPR",
   "    }",
   "",
   "    /// Returns an `EnumSet` containing all valid variants of the enum.",
   "    #[inline(always)]",
   "    pub const fn all() -> Self {",
   "        Self::ALL_REPR",
   "    }",
   "",
   "    /// Total number of bits used by this type. Note that the actual amount of space used is",
   "    /// rounded up to the next highest integer type (`u8`, `u16`, `u32`, `u64`, or `u128`).",
   "    ///",
   "    /// This is the same as [`EnumSet::variant_count`] except in enums with \"sparse\" variants.",
   "    /// (e.g. `enum Foo { A = 10, B = 20 }`)",
   "    #[inline(always)]",
   "    pub const fn bit_width() -> u32 {",
   "        T::BIT_WIDTH",
   "    }",
   "",
   "    /// The number of valid variants that this type can contain.",
   "    ///",
   "    /// This is the same as [`EnumSet::bit_width`] except in enums with \"sparse\" variants.",
   "    /// (e.g. `enum Foo { A = 10, B = 20 }`)",
   "    #[inline(always)]",
   "    pub const fn variant_count() -> u32 {",
   "        T::VARIANT_COUNT",
   "    }",
   "",
   "    /// Returns the number of elements in this set.",
   "    #[inline(always)]",
   "    pub fn len(&self) -> usize {",
   "        self.__priv_repr.count_ones() as usize",
   "    }",
   "    /// Returns `true` if the set contains no elements.",
   "    #[inline(always)]",
   "    pub fn is_empty(&self) -> bool {",
   "        self.__priv_repr.is_empty()",
   "    }",
   "    /// Removes all elements from the set.",
   "    #[inline(always)]",
   "    pub fn clear(&mut self) {",
   "        self.__priv_repr = T::Repr::EMPTY;",
   "    }",
   "",
   "    /// Returns `true` if `self` has no elements in common with `other`. This is equivalent to",
   "    /// checking for an empty intersection.",
   "    #[inline(always)]",
   "    pub fn is_disjoint(&self, other: Self) -> bool {",
   "        (*self & other).is_empty()",
   "    }",
   "    /// Returns `true` if the set is a superset of another, i.e., `self` contains at least all the",
   "    /// values in `other`.",
   "    #[inline(always)]",
   "    pub fn is_superset(&self, other: Self) -> bool {",
   "        (*self & other).__priv_repr == other.__priv_repr",
   "    }",
   "    /// Returns `true` if the set is a subset of another, i.e., `other` contains at least all",
   "    /// the values in `self`.",
   "    #[inline(always)]",
   "    pub fn is_subset(&self, other: Self) -> bool {",
   "        other.is_superset(*self)",
   "    }",
   "",
   "    /// Returns a set containing any elements present in either set.",
   "    #[inline(always)]",
   "    pub fn union(&self, other: Self) -> Self {",
   "        EnumSet { __priv_repr: self.__priv_repr | other.__priv_repr }",
   "    }",
   "    /// Returns a set containing every element present in both sets.",
   "    #[inline(always)]",
   "    pub fn intersection(&self, other: Self) -> Self {",
   "        EnumSet { __priv_repr: self.__priv_repr & other.__priv_repr }",
   "    }",
   "    /// Returns a set containing element present in `self` but not in `other`.",
   "    #[inline(always)]",
   "    pub fn difference(&self, other: Self) -> Self {",
   "        EnumSet { __priv_repr: self.__priv_repr.and_not(other.__priv_repr) }",
   "    }",
   "    /// Returns a set containing every element present in either `self` or `other`, but is not",
   "    /// present in both.",
   "    #[inline(always)]",
   "    pub fn symmetrical_difference(&self, other: Self) -> Self {",
   "        EnumSet { __priv_repr: self.__priv_repr ^ other.__priv_repr }",
   "    }",
   "    /// Returns a set containing all enum variants not in this set.",
   "    #[inline(always)]",
   "    pub fn complement(&self) -> Self {",
   "        EnumSet { __priv_repr: !self.__priv_repr & T::ALL_BITS }",
   "    }",
   "",
   "    /// Checks whether this set contains a value.",
   "    #[inline(always)]",
   "    pub fn contains(&self, value: T) -> bool {",
   "        self.__priv_repr.has_bit(value.enum_into_u32())",
   "    }",
   "",
   "    /// Adds a value to this set.",
   "    ///",
   "    /// If the set did not have this value present, `true` is returned.",
   "    ///",
   "    /// If the set did have this value present, `false` is returned.",
   "    #[inline(always)]",
   "    pub fn insert(&mut self, value: T) -> bool {",
   "        let contains = !self.contains(value);",
   "        self.__priv_repr.add_bit(value.enum_into_u32());",
   "        contains",
   "    }",
   "    /// Removes a value from this set. Returns whether the value was present in the set.",
   "    #[inline(always)]",
   "    pub fn remove(&mut self, value: T) -> bool {",
   "        let contains = self.contains(value);",
   "        self.__priv_repr.remove_bit(value.enum_into_u32());",
   "        contains",
   "    }",
   "",
   "    /// Adds all elements in another set to this one.",
   "    #[inline(always)]",
   "    pub fn insert_all(&mut self, other: Self) {",
   "        self.__priv_repr = self.__priv_repr | other.__priv_repr",
   "    }",
   "    /// Removes all values in another set from this one.",
   "    #[inline(always)]",
   "    pub fn remove_all(&mut self, other: Self) {",
   "        self.__priv_repr = self.__priv_repr.and_not(other.__priv_repr);",
   "    }",
   "}",
   "",
   "#[doc(hidden)]",
   "impl<T: EnumSetType> EnumSet<T> {",
   "    /// Creates a new enumset helper.",
   "    #[deprecated(note = \"This method is an internal implementation detail generated by the \\",
   "                         `enumset` crate's procedural macro. It should not be used directly.\")]",
   "    #[doc(hidden)]",
   "    #[allow(non_snake_case)]",
   "    pub const fn __impl_enumset_internal__const_helper(&self) -> T::ConstHelper {",
   "        T::CONST_HELPER_INSTANCE",
   "    }",
   "",
   "    /// Creates a new enumset with only this variant.",
   "    #[deprecated(note = \"This method is an internal implementation detail generated by the \\",
   "                         `enumset` crate's procedural macro. It should not be used directly.\")]",
   "    #[doc(hidden)]",
   "    #[allow(non_snake_case)]",
   "    pub const fn __impl_enumset_internal__const_only(self) -> Self {",
   "        self",
   "    }",
   "}",
   "",
   "impl<T: EnumSetType> Default for EnumSet<T> {",
   "    /// Returns an empty set.",
   "    fn default() -> Self {",
   "        Self::new()",
   "    }",
   "}",
   "",
   "impl<T: EnumSetType, O: Into<EnumSet<T>>> Sub<O> for EnumSet<T> {",
   "    type Output = Self;",
   "    #[inline(always)]",
   "    fn sub(self, other: O) -> Self::Output {",
   "        self.difference(other.into())",
   "    }",
   "}",
   "impl<T: EnumSetType, O: Into<EnumSet<T>>> BitAnd<O> for EnumSet<T> {",
   "    type Output = Self;",
   "    #[inline(always)]",
   "    fn bitand(self, other: O) -> Self::Output {",
   "        self.intersection(other.into())",
   "    }",
   "}",
   "impl<T: EnumSetType, O: Into<EnumSet<T>>> BitOr<O> for EnumSet<T> {",
   "    type Output = Self;",
   "    #[inline(always)]",
   "    fn bitor(self, other: O) -> Self::Output {",
   "        self.union(other.into())",
   "    }",
   "}",
   "impl<T: EnumSetType, O: Into<EnumSet<T>>> BitXor<O> for EnumSet<T> {",
   "    type Output = Self;",
   "    #[inline(always)]",
   "    fn bitxor(self, other: O) -> Self::Output {",
   "        self.symmetrical_difference(other.into())",
   "    }",
   "}",
   "",
   "impl<T: EnumSetType, O: Into<EnumSet<T>>> SubAssign<O> for EnumSet<T> {",
   "    #[inline(always)]",
   "    fn sub_assign(&mut self, rhs: O) {",
   "        *self = *self - rhs;",
   "    }",
   "}",
   "impl<T: EnumSetType, O: Into<EnumSet<T>>> BitAndAssign<O> for EnumSet<T> {",
   "    #[inline(always)]",
   "    fn bitand_assign(&mut self, rhs: O) {",
   "        *self = *self & rhs;",
   "    }",
   "}",
   "impl<T: EnumSetType, O: Into<EnumSet<T>>> BitOrAssign<O> for EnumSet<T> {",
   "    #[inline(always)]",
   "    fn bitor_assign(&mut self, rhs: O) {",
   "        *self = *self | rhs;",
   "    }",
   "}",
   "impl<T: EnumSetType, O: Into<EnumSet<T>>> BitXorAssign<O> for EnumSet<T> {",
   "    #[inline(always)]",
   "    fn bitxor_assign(&mut self, rhs: O) {",
   "        *self = *self ^ rhs;",
   "    }",
   "}",
   "",
   "impl<T: EnumSetType> Not for EnumSet<T> {",
   "    type Output = Self;",
   "    #[inline(always)]",
   "    fn not(self) -> Self::Output {",
   "        self.complement()",
   "    }",
   "}",
   "",
   "impl<T: EnumSetType> From<T> for EnumSet<T> {",
   "    fn from(t: T) -> Self {",
   "        EnumSet::only(t)",
   "    }",
   "}",
   "",
   "impl<T: EnumSetType> PartialEq<T> for EnumSet<T> {",
   "    fn eq(&self, other: &T) -> bool {",
   "        self.__priv_repr == EnumSet::only(*other).__priv_repr",
   "    }",
   "}",
   "",
   "impl<T: EnumSetType + Debug> Debug for EnumSet<T> {",
   "    fn fmt(&self, f: &mut Formatter<'_>) -> core::fmt::Result {",
   "        let mut is_first = true;",
   "        // Note: We don't use `.debug_struct` to avoid splitting lines when using `{:x}`",
   "        f.write_str(\"EnumSet(\")?;",
   "        for v in self.iter() {",
   "            if !is_first {",
   "                f.write_str(\" | \")?;",
   "            }",
   "            is_first = false;",
   "            v.fmt(f)?;",
   "        }",
   "        f.write_str(\")\")?;",
   "        Ok(())",
   "    }",
   "}",
   "impl<T: EnumSetType + Display> Display for EnumSet<T> {",
   "    fn fmt(&self, f: &mut Formatter<'_>) -> core::fmt::Result {",
   "        let mut is_first = true;",
   "        for v in self.iter() {",
   "            if !is_first {",
   "                f.write_str(\" | \")?;",
   "            }",
   "            is_first = false;",
   "            v.fmt(f)?;",
   "        }",
   "        Ok(())",
   "    }",
   "}",
   "",
   "#[allow(clippy::derived_hash_with_manual_eq)] // This impl exists to change trait bounds only.",
   "impl<T: EnumSetType> Hash for EnumSet<T> {",
   "    fn hash<H: Hasher>(&self, state: &mut H) {",
   "        self.__priv_repr.hash(state)",
   "    }",
   "}",
   "#[allow(clippy::non_canonical_partial_ord_impl)]",
   "impl<T: EnumSetType> PartialOrd for EnumSet<T> {",
   "    fn partial_cmp(&self, other: &Self) -> Option<Ordering> {",
   "        self.__priv_repr.partial_cmp(&other.__priv_repr)",
   "    }",
   "}",
   "impl<T: EnumSetType> Ord for EnumSet<T> {",
   "    fn cmp(&self, other: &Self) -> Ordering {",
   "        self.__priv_repr.cmp(&other.__priv_repr)",
   "    }",
   "}",
   "",
   "#[cfg(feature = \"serde\")]",
   "impl<T: EnumSetType> Serialize for EnumSet<T> {",
   "    fn serialize<S: serde::Serializer>(&self, serializer: S) -> Result<S::Ok, S::Error> {",
   "        T::serialize(*self, serializer)",
   "    }",
   "}",
   "",
   "#[cfg(feature = \"serde\")]",
   "impl<'de, T: EnumSetType> Deserialize<'de> for EnumSet<T> {",
   "    fn deserialize<D: serde::Deserializer<'de>>(deserializer: D) -> Result<Self, D::Error> {",
   "        T::deserialize(deserializer)",
   "    }",
   "}",
   "//endregion",
   "",
   "//region Deprecated functions",
   "/// This impl contains all outdated or deprecated functions.",
   "impl<T: EnumSetType> EnumSet<T> {",
   "    /// An empty `EnumSet`.",
   "    ///",
   "    /// This is deprecated because [`EnumSet::empty`] is now `const`.",
   "    #[deprecated = \"Use `EnumSet::empty()` instead.\"]",
   "    pub const EMPTY: Self = Self::EMPTY_REPR;",
   "",
   "    /// An `EnumSet` containing all valid variants of the enum.",
   "    ///",
   "    /// This is deprecated because [`EnumSet::all`] is now `const`.",
   "    #[deprecated = \"Use `EnumSet::all()` instead.\"]",
   "    pub const ALL: Self = Self::ALL_REPR;",
   "}",
   "//endregion",
   "",
   "//region EnumSet conversions",
   "impl<T: EnumSetType + EnumSetTypeWithRepr> EnumSet<T> {",
   "    /// Returns a `T::Repr` representing the elements of this set.",
   "    ///",
   "    /// Unlike the other `as_*` methods, this method is zero-cost and guaranteed not to fail,",
   "    /// panic or truncate any bits.",
   "    ///",
   "    /// In order to use this method, the definition of `T` must have the `#[enumset(repr = \"…\")]`",
   "    /// annotation.",
   "    #[inline(always)]",
   "    pub const fn as_repr(&self) -> <T as EnumSetTypeWithRepr>::Repr {",
   "        self.__priv_repr",
   "    }",
   "",
   "    /// Constructs a bitset from a `T::Repr` without checking for invalid bits.",
   "    ///",
   "    /// Unlike the other `from_*` methods, this method is zero-cost and guaranteed not to fail,",
   "    /// panic or truncate any bits, provided the conditions under “Safety” are upheld.",
   "    ///",
   "    /// In order to use this method, the definition of `T` must have the `#[enumset(repr = \"…\")]`",
   "    /// annotation.",
   "    ///",
   "    /// # Safety",
   "    ///",
   "    /// All bits in the provided parameter `bits` that don't correspond to an enum variant of",
   "    /// `T` must be set to `0`. Behavior is **undefined** if any of these bits are set to `1`.",
   "    #[inline(always)]",
   "    pub unsafe fn from_repr_unchecked(bits: <T as EnumSetTypeWithRepr>::Repr) -> Self {",
   "        Self { __priv_repr: bits }",
   "    }",
   "",
   "    /// Constructs a bitset from a `T::Repr`.",
   "    ///",
   "    /// If a bit that doesn't correspond to an enum variant is set, this",
   "    /// method will panic.",
   "    ///",
   "    /// In order to use this method, the definition of `T` must have the `#[enumset(repr = \"…\")]`",
   "    /// annotation.",
   "    #[inline(always)]",
   "    pub fn from_repr(bits: <T as EnumSetTypeWithRepr>::Repr) -> Self {",
   "        Self::try_from_repr(bits).expect(\"Bitset contains invalid variants.\")",
   "    }",
   "",
   "    /// Attempts to constructs a bitset from a `T::Repr`.",
   "    ///",
   "    /// If a bit that doesn't correspond to an enum variant is set, this",
   "    /// method will return `None`.",
   "    ///",
   "    /// In order to use this method, the definition of `T` must have the `#[enumset(repr = \"…\")]`",
   "    /// annotation.",
   "    #[inline(always)]",
   "    pub fn try_from_repr(bits: <T as EnumSetTypeWithRepr>::Repr) -> Option<Self> {",
   "        let mask = Self::all().__priv_repr;",
   "        if bits.and_not(mask).is_empty() {",
   "            Some(EnumSet { __priv_repr: bits })",
   "        } else {",
   "            None",
   "        }",
   "    }",
   "",
   "    /// Constructs a bitset from a `T::Repr`, ignoring invalid variants.",
   "    ///",
   "    /// In order to use this method, the definition of `T` must have the `#[enumset(repr = \"…\")]`",
   "    /// annotation.",
   "    #[inline(always)]",
   "    pub fn from_repr_truncated(bits: <T as EnumSetTypeWithRepr>::Repr) -> Self {",
   "        let mask = Self::all().as_repr();",
   "        let bits = bits & mask;",
   "        EnumSet { __priv_repr: bits }",
   "    }",
   "}",
   "",
   "/// Helper macro for generating conversion functions.",
   "macro_rules! conversion_impls {",
   "    (",
   "        $(for_num!(",
   "            $underlying:ty, $underlying_str:expr,",
   "            $from_fn:ident $to_fn:ident $from_fn_opt:ident $to_fn_opt:ident,",
   "            $from:ident $try_from:ident $from_truncated:ident $from_unchecked:ident,",
   "            $to:ident $try_to:ident $to_truncated:ident",
   "        );)*",
   "    ) => {",
   "        impl<T: EnumSetType> EnumSet<T> {$(",
   "            #[doc = \"Returns a `\"]",
   "            #[doc = $underlying_str]",
   "            #[doc = \"` representing the elements of this set.\\n\\nIf the underlying bitset will \\",
   "                     not fit in a `\"]",
   "            #[doc = $underlying_str]",
   "            #[doc = \"`, this method will panic.\"]",
   "            #[inline(always)]",
   "            pub fn $to(&self) -> $underlying {",
   "                self.$try_to().expect(\"Bitset will not fit into this type.\")",
   "            }",
   "",
   "            #[doc = \"Tries to return a `\"]",
   "            #[doc = $underlying_str]",
   "            #[doc = \"` representing the elements of this set.\\n\\nIf the underlying bitset will \\",
   "                     not fit in a `\"]",
   "            #[doc = $underlying_str]",
   "            #[doc = \"`, this method will panic.\"]",
   "            #[inline(always)]",
   "            pub fn $try_to(&self) -> Option<$underlying> {",
   "                EnumSetTypeRepr::$to_fn_opt(&self.__priv_repr)",
   "            }",
   "",
   "            #[doc = \"Returns a truncated `\"]",
   "            #[doc = $underlying_str]",
   "            #[doc = \"` representing the elements of this set.\\n\\nIf the underlying bitset will \\",
   "                     not fit in a `\"]",
   "            #[doc = $underlying_str]",
   "            #[doc = \"`, this method will truncate any bits that don't fit.\"]",
   "            #[inline(always)]",
   "            pub fn $to_truncated(&self) -> $underlying {",
   "                EnumSetTypeRepr::$to_fn(&self.__priv_repr)",
   "            }",
   "",
   "            #[doc = \"Constructs a bitset from a `\"]",
   "            #[doc = $underlying_str]",
   "            #[doc = \"`.\\n\\nIf a bit that doesn't correspond to an enum variant is set, this \\",
   "                     method will panic.\"]",
   "            #[inline(always)]",
   "            pub fn $from(bits: $underlying) -> Self {",
   "                Self::$try_from(bits).expect(\"Bitset contains invalid variants.\")",
   "            }",
   "",
   "            #[doc = \"Attempts to constructs a bitset from a `\"]",
   "            #[doc = $underlying_str]",
   "            #[doc = \"`.\\n\\nIf a bit that doesn't correspond to an enum variant is set, this \\",
   "                     method will return `None`.\"]",
   "            #[inline(always)]",
   "            pub fn $try_from(bits: $underlying) -> Option<Self> {",
   "                let bits = T::Repr::$from_fn_opt(bits);",
   "                let mask = T::ALL_BITS;",
   "                bits.and_then(|bits| if bits.and_not(mask).is_empty() {",
   "                    Some(EnumSet { __priv_repr: bits })",
   "                } else {",
   "                    None",
   "                })",
   "            }",
   "",
   "            #[doc = \"Constructs a bitset from a `\"]",
   "            #[doc = $underlying_str]",
   "            #[doc = \"`, ignoring bits that do not correspond to a variant.\"]",
   "            #[inline(always)]",
   "            pub fn $from_truncated(bits: $underlying) -> Self {",
   "                let mask = Self::all().$to_truncated();",
   "                let bits = <T::Repr as EnumSetTypeRepr>::$from_fn(bits & mask);",
   "                EnumSet { __priv_repr: bits }",
   "            }",
   "",
   "            #[doc = \"Constructs a bitset from a `\"]",
   "            #[doc = $underlying_str]",
   "            #[doc = \"`, without checking for invalid bits.\"]",
   "            ///",
   "            /// # Safety",
   "            ///",
   "            /// All bits in the provided parameter `bits` that don't correspond to an enum variant",
   "            /// of `T` must be set to `0`. Behavior is **undefined** if any of these bits are set",
   "            /// to `1`.",
   "            #[inline(always)]",
   "            pub unsafe fn $from_unchecked(bits: $underlying) -> Self {",
   "                EnumSet { __priv_repr: <T::Repr as EnumSetTypeRepr>::$from_fn(bits) }",
   "            }",
   "        )*}",
   "    }",
   "}",
   "conversion_impls! {",
   "    for_num!(u8, \"u8\",",
   "             from_u8 to_u8 from_u8_opt to_u8_opt,",
   "             from_u8 try_from_u8 from_u8_truncated from_u8_unchecked,",
   "             as_u8 try_as_u8 as_u8_truncated);",
   "    for_num!(u16, \"u16\",",
   "             from_u16 to_u16 from_u16_opt to_u16_opt,",
   "             from_u16 try_from_u16 from_u16_truncated from_u16_unchecked,",
   "             as_u16 try_as_u16 as_u16_truncated);",
   "    for_num!(u32, \"u32\",",
   "             from_u32 to_u32 from_u32_opt to_u32_opt,",
   "             from_u32 try_from_u32 from_u32_truncated from_u32_unchecked,",
   "             as_u32 try_as_u32 as_u32_truncated);",
   "    for_num!(u64, \"u64\",",
   "             from_u64 to_u64 from_u64_opt to_u64_opt,",
   "             from_u64 try_from_u64 from_u64_truncated from_u64_unchecked,",
   "             as_u64 try_as_u64 as_u64_truncated);",
   "    for_num!(u128, \"u128\",",
   "             from_u128 to_u128 from_u128_opt to_u128_opt,",
   "             from_u128 try_from_u128 from_u128_truncated from_u128_unchecked,",
   "             as_u128 try_as_u128 as_u128_truncated);",
   "    for_num!(usize, \"usize\",",
   "             from_usize to_usize from_usize_opt to_usize_opt,",
   "             from_usize try_from_usize from_usize_truncated from_usize_unchecked,",
   "             as_usize try_as_usize as_usize_truncated);",
   "}",
   "",
   "impl<T: EnumSetType> EnumSet<T> {",
   "    /// Returns an `[u64; O]` representing the elements of this set.",
   "    ///",
   "    /// If the underlying bitset will not fit in a `[u64; O]`, this method will panic.",
   "    pub fn as_array<const O: usize>(&self) -> [u64; O] {",
   "        self.try_as_array()",
   "            .expect(\"Bitset will not fit into this type.\")",
   "    }",
   "",
   "    /// Returns an `[u64; O]` representing the elements of this set.",
   "    ///",
   "    /// If the underlying bitset will not fit in a `[u64; O]`, this method will instead return",
   "    /// `None`.",
   "    pub fn try_as_array<const O: usize>(&self) -> Option<[u64; O]> {",
   "        self.__priv_repr.to_u64_array_opt()",
   "    }",
   "",
   "    /// Returns an `[u64; O]` representing the elements of this set.",
   "    ///",
   "    /// If the underlying bitset will not fit in a `[u64; O]`, this method will truncate any bits",
   "    /// that don't fit.",
   "    pub fn as_array_truncated<const O: usize>(&self) -> [u64; O] {",
   "        self.__priv_repr.to_u64_array()",
   "    }",
   "",
   "    /// Attempts to constructs a bitset from a `[u64; O]`.",
   "    ///",
   "    /// If a bit that doesn't correspond to an enum variant is set, this method will panic.",
   "    pub fn from_array<const O: usize>(v: [u64; O]) -> Self {",
   "        Self::try_from_array(v).expect(\"Bitset contains invalid variants.\")",
   "    }",
   "",
   "    /// Attempts to constructs a bitset from a `[u64; O]`.",
   "    ///",
   "    /// If a bit that doesn't correspond to an enum variant is set, this method will return `None`.",
   "    pub fn try_from_array<const O: usize>(bits: [u64; O]) -> Option<Self> {",
   "        let bits = T::Repr::from_u64_array_opt::<O>(bits);",
   "        let mask = T::ALL_BITS;",
   "        bits.and_then(|bits| {",
   "            if bits.and_not(mask).is_empty() {",
   "                Some(EnumSet { __priv_repr: bits })",
   "            } else {",
   "                None",
   "            }",
   "        })",
   "    }",
   "",
   "    /// Constructs a bitset from a `[u64; O]`, ignoring bits that do not correspond to a variant.",
   "    pub fn from_array_truncated<const O: usize>(bits: [u64; O]) -> Self {",
   "        let bits = T::Repr::from_u64_array(bits) & T::ALL_BITS;",
   "        EnumSet { __priv_repr: bits }",
   "    }",
   "",
   "    /// Constructs a bitset from a `[u64; O]`, without checking for invalid bits.",
   "    ///",
   "    /// # Safety",
   "    ///",
   "    /// All bits in the provided parameter `bits` that don't correspond to an enum variant",
   "    /// of `T` must be set to `0`. Behavior is **undefined** if any of these bits are set",
   "    /// to `1`.",
   "    #[inline(always)]",
   "    pub unsafe fn from_array_unchecked<const O: usize>(bits: [u64; O]) -> Self {",
   "        EnumSet { __priv_repr: T::Repr::from_u64_array(bits) }",
   "    }",
   "",
   "    /// Returns a `Vec<u64>` representing the elements of this set.",
   "    #[cfg(feature = \"alloc\")]",
   "    #[cfg_attr(docsrs, doc(cfg(feature = \"alloc\")))]",
   "    pub fn to_vec(&self) -> alloc::vec::Vec<u64> {",
   "        let mut vec = alloc::vec![0; T::Repr::PREFERRED_ARRAY_LEN];",
   "        self.__priv_repr.to_u64_slice(&mut vec);",
   "        vec",
   "    }",
   "",
   "    /// Copies the elements of this set into a `&mut [u64]`.",
   "    ///",
   "    /// If the underlying bitset will not fit in the provided slice, this method will panic.",
   "    pub fn copy_into_slice(&self, data: &mut [u64]) {",
   "        self.try_copy_into_slice(data)",
   "            .expect(\"Bitset will not fit into slice.\")",
   "    }",
   "",
   "    /// Copies the elements of this set into a `&mut [u64]`.",
   "    ///",
   "    /// If the underlying bitset will not fit in the provided slice, this method will return",
   "    /// `None`. Otherwise, it will return `Some(())`.",
   "    #[must_use]",
   "    pub fn try_copy_into_slice(&self, data: &mut [u64]) -> Option<()> {",
   "        self.__priv_repr.to_u64_slice_opt(data)",
   "    }",
   "",
   "    /// Copies the elements of this set into a `&mut [u64]`.",
   "    ///",
   "    /// If the underlying bitset will not fit in the provided slice, this method will truncate any",
   "    /// bits that don't fit.",
   "    pub fn copy_into_slice_truncated(&self, data: &mut [u64]) {",
   "        self.__priv_repr.to_u64_slice(data)",
   "    }",
   "",
   "    /// Attempts to constructs a bitset from a `&[u64]`.",
   "    ///",
   "    /// If a bit that doesn't correspond to an enum variant is set, this method will panic.",
   "    pub fn from_slice(v: &[u64]) -> Self {",
   "        Self::try_from_slice(v).expect(\"Bitset contains invalid variants.\")",
   "    }",
   "",
   "    /// Attempts to constructs a bitset from a `&[u64]`.",
   "    ///",
   "    /// If a bit that doesn't correspond to an enum variant is set, this method will return `None`.",
   "    pub fn try_from_slice(bits: &[u64]) -> Option<Self> {",
   "        let bits = T::Repr::from_u64_slice_opt(bits);",
   "        let mask = T::ALL_BITS;",
   "        bits.and_then(|bits| {",
   "            if bits.and_not(mask).is_empty() {",
   "                Some(EnumSet { __priv_repr: bits })",
   "            } else {",
   "                None",
   "            }",
   "        })",
   "    }",
   "",
   "    /// Constructs a bitset from a `&[u64]`, ignoring bits that do not correspond to a variant.",
   "    pub fn from_slice_truncated(bits: &[u64]) -> Self {",
   "        let bits = T::Repr::from_u64_slice(bits) & T::ALL_BITS;",
   "        EnumSet { __priv_repr: bits }",
   "    }",
   "",
   "    /// Constructs a bitset from a `&[u64]`, without checking for invalid bits.",
   "    ///",
   "    /// # Safety",
   "    ///",
   "    /// All bits in the provided parameter `bits` that don't correspond to an enum variant",
   "    /// of `T` must be set to `0`. Behavior is **undefined** if any of these bits are set",
   "    /// to `1`.",
   "    #[inline(always)]",
   "    pub unsafe fn from_slice_unchecked(bits: &[u64]) -> Self {",
   "        EnumSet { __priv_repr: T::Repr::from_u64_slice(bits) }",
   "    }",
   "}",
   "//endregion",
   "",
   "//region EnumSet iter",
   "/// The iterator used by [`EnumSet`]s.",
   "#[derive(Clone, Debug)]",
   "pub struct EnumSetIter<T: EnumSetType> {",
   "    iter: <T::Repr as EnumSetTypeRepr>::Iter,",
   "}",
   "impl<T: EnumSetType> EnumSetIter<T> {",
   "    fn new(set: EnumSet<T>) -> EnumSetIter<T> {",
   "        EnumSetIter { iter: set.__priv_repr.iter() }",
   "    }",
   "}",
   "",
   "impl<T: EnumSetType> EnumSet<T> {",
   "    /// Iterates the contents of the set in order from the least significant bit to the most",
   "    /// significant bit.",
   "    ///",
   "    /// Note that iterator invalidation is impossible as the iterator contains a copy of this type,",
   "    /// rather than holding a reference to it.",
   "    pub fn iter(&self) -> EnumSetIter<T> {",
   "        EnumSetIter::new(*self)",
   "    }",
   "}",
   "",
   "impl<T: EnumSetType> Iterator for EnumSetIter<T> {",
   "    type Item = T;",
   "",
   "    fn next(&mut self) -> Option<Self::Item> {",
   "        self.iter.next().map(|x| unsafe { T::enum_from_u32(x) })",
   "    }",
   "    fn size_hint(&self) -> (usize, Option<usize>) {",
   "        self.iter.size_hint()",
   "    }",
   "}",
   "",
   "impl<T: EnumSetType> DoubleEndedIterator for EnumSetIter<T> {",
   "    fn next_back(&mut self) -> Option<Self::Item> {",
   "        self.iter",
   "            .next_back()",
   "            .map(|x| unsafe { T::enum_from_u32(x) })",
   "    }",
   "}",
   "",
   "impl<T: EnumSetType> ExactSizeIterator for EnumSetIter<T> {}",
   "",
   "impl<T: EnumSetType> Extend<T> for EnumSet<T> {",
   "    fn extend<I: IntoIterator<Item = T>>(&mut self, iter: I) {",
   "        iter.into_iter().for_each(|v| {",
   "            self.insert(v);",
   "        });",
   "    }",
   "}",
   "",
   "impl<T: EnumSetType> FromIterator<T> for EnumSet<T> {",
   "    fn from_iter<I: IntoIterator<Item = T>>(iter: I) -> Self {",
   "        let mut set = EnumSet::default();",
   "        set.extend(iter);",
   "        set",
   "    }",
   "}",
   "",
   "impl<T: EnumSetType> Extend<EnumSet<T>> for EnumSet<T> {",
   "    fn extend<I: IntoIterator<Item = EnumSet<T>>>(&mut self, iter: I) {",
   "        iter.into_iter().for_each(|v| {",
   "            self.insert_all(v);",
   "        });",
   "    }",
   "}",
   "",
   "impl<T: EnumSetType> FromIterator<EnumSet<T>> for EnumSet<T> {",
   "    fn from_iter<I: IntoIterator<Item = EnumSet<T>>>(iter: I) -> Self {",
   "        let mut set = EnumSet::default();",
   "        set.extend(iter);",
   "        set",
   "    }",
   "}",
   "",
   "impl<T: EnumSetType> IntoIterator for EnumSet<T> {",
   "    type Item = T;",
   "    type IntoIter = EnumSetIter<T>;",
   "",
   "    fn into_iter(self) -> Self::IntoIter {",
   "        self.iter()",
   "    }",
   "}",
   "impl<T: EnumSetType> Sum for EnumSet<T> {",
   "    fn sum<I: Iterator<Item = Self>>(iter: I) -> Self {",
   "        iter.fold(EnumSet::empty(), |a, v| a | v)",
   "    }",
   "}",
   "impl<'a, T: EnumSetType> Sum<&'a EnumSet<T>> for EnumSet<T> {",
   "    fn sum<I: Iterator<Item = &'a Self>>(iter: I) -> Self {",
   "        iter.fold(EnumSet::empty(), |a, v| a | *v)",
   "    }",
   "}",
   "impl<T: EnumSetType> Sum<T> for EnumSet<T> {",
   "    fn sum<I: Iterator<Item = T>>(iter: I) -> Self {",
   "        iter.fold(EnumSet::empty(), |a, v| a | v)",
   "    }",
   "}",
   "impl<'a, T: EnumSetType> Sum<&'a T> for EnumSet<T> {",
   "    fn sum<I: Iterator<Item = &'a T>>(iter: I) -> Self {",
   "        iter.fold(EnumSet::empty(), |a, v| a | *v)",
   "    }",
   "}",
   "//endregion"]

/-- the characters of `text` -/
def chars : List (List Char) :=
  [['u', 's', 'e', ' ', 'c', 'r', 'a', 't', 'e', ':', ':', 'r', 'e', 'p', 'r', ':', ':', 'E', 'n', 'u', 'm', 'S', 'e', 't', 'T', 'y', 'p', 'e', 'R', 'e', 'p', 'r', ';'],
   ['u', 's', 'e', ' ', 'c', 'r', 'a', 't', 'e', ':', ':', 't', 'r', 'a', 'i', 't', 's', ':', ':', 'E', 'n', 'u', 'm', 'S', 'e', 't', 'T', 'y', 'p', 'e', ';'],
   ['u', 's', 'e', ' ', 'c', 'r', 'a', 't', 'e', ':', ':', 'E', 'n', 'u', 'm', 'S', 'e', 't', 'T', 'y', 'p', 'e', 'W', 'i', 't', 'h', 'R', 'e', 'p', 'r', ';'],
   ['u', 's', 'e', ' ', 'c', 'o', 'r', 'e', ':', ':', 'c', 'm', 'p', ':', ':', 'O', 'r', 'd', 'e', 'r', 'i', 'n', 'g', ';'],
   ['u', 's', 'e', ' ', 'c', 'o', 'r', 'e', ':', ':', 'f', 'm', 't', ':', ':', '{', 'D', 'e', 'b', 'u', 'g', ',', ' ', 'D', 'i', 's', 'p', 'l', 'a', 'y', ',', ' ', 'F', 'o', 'r', 'm', 'a', 't', 't', 'e', 'r', '}', ';'],
   ['u', 's', 'e', ' ', 'c', 'o', 'r', 'e', ':', ':', 'h', 'a', 's', 'h', ':', ':', '{', 'H', 'a', 's', 'h', ',', ' ', 'H', 'a', 's', 'h', 'e', 'r', '}', ';'],
   ['u', 's', 'e', ' ', 'c', 'o', 'r', 'e', ':', ':', 'i', 't', 'e', 'r', ':', ':', 'S', 'u', 'm', ';'],
   ['u', 's', 'e', ' ', 'c', 'o', 'r', 'e', ':', ':', 'o', 'p', 's', ':', ':', '{'],
   [' ', ' ', ' ', ' ', 'B', 'i', 't', 'A', 'n', 'd', ',', ' ', 'B', 'i', 't', 'A', 'n', 'd', 'A', 's', 's', 'i', 'g', 'n', ',', ' ', 'B', 'i', 't', 'O', 'r', ',', ' ', 'B', 'i', 't', 'O', 'r', 'A', 's', 's', 'i', 'g', 'n', ',', ' ', 'B', 'i', 't', 'X', 'o', 'r', ',', ' ', 'B', 'i', 't', 'X', 'o', 'r', 'A', 's', 's', 'i', 'g', 'n', ',', ' ', 'N', 'o', 't', ',', ' ', 'S', 'u', 'b', ',', ' ', 'S', 'u', 'b', 'A', 's', 's', 'i', 'g', 'n', ','],
   ['}', ';'],
   [],
   ['#', '[', 'c', 'f', 'g', '(', 'f', 'e', 'a', 't', 'u', 'r', 'e', ' ', '=', ' ', '"', 's', 'e', 'r', 'd', 'e', '"', ')', ']'],
   ['u', 's', 'e', ' ', '{'],
   [' ', ' ', ' ', ' ', 's', 'e', 'r', 'd', 'e', '2', ' ', 'a', 's', ' ', 's', 'e', 'r', 'd', 'e', ','],
   [' ', ' ', ' ', ' ', 's', 'e', 'r', 'd', 'e', '2', ':', ':', '{', 'D', 'e', 's', 'e', 'r', 'i', 'a', 'l', 'i', 'z', 'e', ',', ' ', 'S', 'e', 'r', 'i', 'a', 'l', 'i', 'z', 'e', '}', ','],
   ['}', ';'],
   [],
   ['/', '/', '/', ' ', 'A', 'n', ' ', 'e', 'f', 'f', 'i', 'c', 'i', 'e', 'n', 't', ' ', 's', 'e', 't', ' ', 't', 'y', 'p', 'e', ' ', 'f', 'o', 'r', ' ', 'e', 'n', 'u', 'm', 's', '.'],
   ['/', '/', '/'],
   ['/', '/', '/', ' ', 'I', 't', ' ', 'i', 's', ' ', 'i', 'm', 'p', 'l', 'e', 'm', 'e', 'n', 't', 'e', 'd', ' ', 'u', 's', 'i', 'n', 'g', ' ', 'a', ' ', 'b', 'i', 't', 's', 'e', 't', ' ', 's', 't', 'o', 'r', 'e', 'd', ' ', 'u', 's', 'i', 'n', 'g', ' ', 't', 'h', 'e', ' ', 's', 'm', 'a', 'l', 'l', 'e', 's', 't', ' ', 'i', 'n', 't', 'e', 'g', 'e', 'r', ' ', 't', 'h', 'a', 't', ' ', 'c', 'a', 'n', ' ', 'f', 'i', 't', ' ', 'a', 'l', 'l', ' ', 'b', 'i', 't', 's'],
   ['/', '/', '/', ' ', 'i', 'n', ' ', 't', 'h', 'e', ' ', 'u', 'n', 'd', 'e', 'r', 'l', 'y', 'i', 'n', 'g', ' ', 'e', 'n', 'u', 'm', '.', ' ', 'I', 'n', ' ', 'g', 'e', 'n', 'e', 'r', 'a', 'l', ',', ' ', 'a', 'n', ' ', 'e', 'n', 'u', 'm', ' ', 'v', 'a', 'r', 'i', 'a', 'n', 't', ' ', 'w', 'i', 't', 'h', ' ', 'a', ' ', 'd', 'i', 's', 'c', 'r', 'i', 'm', 'i', 'n', 'a', 't', 'o', 'r', ' ', 'o', 'f', ' ', '`', 'n', '`', ' ', 'i', 's', ' ', 's', 't', 'o', 'r', 'e', 'd', ' ', 'i', 'n'],
   ['/', '/', '/', ' ', 't', 'h', 'e', ' ', 'n', 't', 'h', ' ', 'l', 'e', 'a', 's', 't', ' ', 's', 'i', 'g', 'n', 'i', 'f', 'i', 'c', 'a', 'n', 't', ' ', 'b', 'i', 't', ' ', '(', 'c', 'o', 'r', 'r', 'e', 's', 'p', 'o', 'n', 'd', 'i', 'n', 'g', ' ', 'w', 'i', 't', 'h', ' ', 'a', ' ', 'm', 'a', 's', 'k', ' ', 'o', 'f', ',', ' ', 'e', '.', 'g', '.', ' ', '`', '1', ' ', '<', '<', ' ', 'e', 'n', 'u', 'm', ' ', 'a', 's', ' ', 'u', '3', '2', '`', ')', '.'],
   ['/', '/', '/'],
   ['/', '/', '/', ' ', '#', ' ', 'N', 'u', 'm', 'e', 'r', 'i', 'c', ' ', 'r', 'e', 'p', 'r', 'e', 's', 'e', 'n', 't', 'a', 't', 'i', 'o', 'n'],
   ['/', '/', '/'],
   ['/', '/', '/', ' ', '`', 'E', 'n', 'u', 'm', 'S', 'e', 't', '`', ' ', 'i', 's', ' ', 'i', 'n', 't', 'e', 'r', 'n', 'a', 'l', 'l', 'y', ' ', 'i', 'm', 'p', 'l', 'e', 'm', 'e', 'n', 't', 'e', 'd', ' ', 'u', 's', 'i', 'n', 'g', ' ', 'i', 'n', 't', 'e', 'g', 'e', 'r', ' ', 't', 'y', 'p', 'e', 's', ',', ' ', 'a', 'n', 'd', ' ', 'a', 's', ' ', 's', 'u', 'c', 'h', ' ', 'c', 'a', 'n', ' ', 'b', 'e', ' ', 'e', 'a', 's', 'i', 'l', 'y', ' ', 'c', 'o', 'n', 'v', 'e', 'r', 't', 'e', 'd'],
   ['/', '/', '/', ' ', 'f', 'r', 'o', 'm', ' ', 'a', 'n', 'd', ' ', 't', 'o', ' ', 'n', 'u', 'm', 'b', 'e', 'r', 's', '.'],
   ['/', '/', '/'],
   ['/', '/', '/', ' ', 'E', 'a', 'c', 'h', ' ', 'b', 'i', 't', ' ', 'o', 'f', ' ', 't', 'h', 'e', ' ', 'u', 'n', 'd', 'e', 'r', 'l', 'y', 'i', 'n', 'g', ' ', 'i', 'n', 't', 'e', 'g', 'e', 'r', ' ', 'c', 'o', 'r', 'r', 'e', 's', 'p', 'o', 'n', 'd', 's', ' ', 't', 'o', ' ', 'a', 't', ' ', 'm', 'o', 's', 't', ' ', 'o', 'n', 'e', ' ', 'p', 'a', 'r', 't', 'i', 'c', 'u', 'l', 'a', 'r', ' ', 'e', 'n', 'u', 'm', ' ', 'v', 'a', 'r', 'i', 'a', 'n', 't', '.', ' ', 'I', 'f', ' ', 't', 'h', 'e'],
   ['/', '/', '/', ' ', 'c', 'o', 'r', 'r', 'e', 's', 'p', 'o', 'n', 'd', 'i', 'n', 'g', ' ', 'b', 'i', 't', ' ', 'f', 'o', 'r', ' ', 'a', ' ', 'v', 'a', 'r', 'i', 'a', 'n', 't', ' ', 'i', 's', ' ', 's', 'e', 't', ',', ' ', 'i', 't', ' ', 'p', 'r', 'e', 's', 'e', 'n', 't', ' ', 'i', 'n', ' ', 't', 'h', 'e', ' ', 's', 'e', 't', '.', ' ', 'B', 'i', 't', 's', ' ', 't', 'h', 'a', 't', ' ', 'd', 'o', ' ', 'n', 'o', 't', ' ', 'c', 'o', 'r', 'r', 'e', 's', 'p', 'o', 'n', 'd', ' ', 't', 'o'],
   ['/', '/', '/', ' ', 'a', 'n', 'y', ' ', 'v', 'a', 'r', 'i', 'a', 'n', 't', ' ', 'a', 'r', 'e', ' ', 'a', 'l', 'w', 'a', 'y', 's', ' ', 'u', 'n', 's', 'e', 't', '.'],
   ['/', '/', '/'],
   ['/', '/', '/', ' ', 'B', 'y', ' ', 'd', 'e', 'f', 'a', 'u', 'l', 't', ',', ' ', 'e', 'a', 'c', 'h', ' ', 'e', 'n', 'u', 'm', ' ', 'v', 'a', 'r', 'i', 'a', 'n', 't', ' ', 'i', 's', ' ', 's', 't', 'o', 'r', 'e', 'd', ' ', 'i', 'n', ' ', 'a', ' ', 'b', 'i', 't', ' ', 'c', 'o', 'r', 'r', 'e', 's', 'p', 'o', 'n', 'd', 'i', 'n', 'g', ' ', 't', 'o', ' ', 'i', 't', 's', ' ', 'd', 'i', 's', 'c', 'r', 'i', 'm', 'i', 'n', 'a', 't', 'o', 'r', '.', ' ', 'A', 'n', ' ', 'e', 'n', 'u', 'm'],
   ['/', '/', '/', ' ', 'v', 'a', 'r', 'i', 'a', 'n', 't', ' ', 'w', 'i', 't', 'h', ' ', 'a', ' ', 'd', 'i', 's', 'c', 'r', 'i', 'm', 'i', 'n', 'a', 't', 'o', 'r', ' ', 'o', 'f', ' ', '`', 'n', '`', ' ', 'i', 's', ' ', 's', 't', 'o', 'r', 'e', 'd', ' ', 'i', 'n', ' ', 't', 'h', 'e', ' ', '`', 'n', ' ', '+', ' ', '1', '`', 't', 'h', ' ', 'l', 'e', 'a', 's', 't', ' ', 's', 'i', 'g', 'n', 'i', 'f', 'i', 'c', 'a', 'n', 't', ' ', 'b', 'i', 't'],
   ['/', '/', '/', ' ', '(', 'c', 'o', 'r', 'r', 'e', 's', 'p', 'o', 'n', 'd', 'i', 'n', 'g', ' ', 't', 'o', ' ', 'a', ' ', 'm', 'a', 's', 'k', ' ', 'o', 'f', ' ', 'e', '.', 'g', '.', ' ', '`', '1', ' ', '<', '<', ' ', 'e', 'n', 'u', 'm', ' ', 'a', 's', ' ', 'u', '3', '2', '`', ')', '.'],
   ['/', '/', '/'],
   ['/', '/', '/', ' ', '#', ' ', 'A', 'r', 'r', 'a', 'y', ' ', 'r', 'e', 'p', 'r', 'e', 's', 'e', 'n', 't', 'a', 't', 'i', 'o', 'n'],
   ['/', '/', '/'],
   ['/', '/', '/', ' ', 'S', 'e', 't', 's', ' ', 'w', 'i', 't', 'h', ' ', 'm', 'o', 'r', 'e', ' ', 't', 'h', 'a', 'n', ' ', '1', '2', '8', ' ', 'v', 'a', 'r', 'i', 'a', 'n', 't', 's', ' ', 'a', 'r', 'e', ' ', 'i', 'n', 's', 't', 'e', 'a', 'd', ' ', 's', 't', 'o', 'r', 'e', 'd', ' ', 'w', 'i', 't', 'h', ' ', 'a', 'n', ' ', 'u', 'n', 'd', 'e', 'r', 'l', 'y', 'i', 'n', 'g', ' ', 'a', 'r', 'r', 'a', 'y', ' ', 'o', 'f', ' ', '`', 'u', '6', '4', '`', 's', '.', ' ', 'T', 'h', 'i', 's'],
   ['/', '/', '/', ' ', 'i', 's', ' ', 't', 'r', 'e', 'a', 't', 'e', 'd', ' ', 'a', 's', ' ', 'i', 'f', ' ', 'i', 't', ' ', 'w', 'a', 's', ' ', 'a', ' ', 's', 'i', 'n', 'g', 'l', 'e', ' ', 'l', 'a', 'r', 'g', 'e', ' ', 'i', 'n', 't', 'e', 'g', 'e', 'r', '.', ' ', 'T', 'h', 'e', ' ', '`', 'n', '`', 't', 'h', ' ', 'l', 'e', 'a', 's', 't', ' ', 's', 'i', 'g', 'n', 'i', 'f', 'i', 'c', 'a', 'n', 't', ' ', 'b', 'i', 't', ' ', 'o', 'f', ' ', 't', 'h', 'i', 's', ' ', 'i', 'n', 't', 'e', 'g', 'e', 'r'],
   ['/', '/', '/', ' ', 'i', 's', ' ', 's', 't', 'o', 'r', 'e', 'd', ' ', 'i', 'n', ' ', 't', 'h', 'e', ' ', '`', 'n', ' ', '%', ' ', '6', '4', '`', 't', 'h', ' ', 'l', 'e', 'a', 's', 't', ' ', 's', 'i', 'g', 'n', 'i', 'f', 'i', 'c', 'a', 'n', 't', ' ', 'b', 'i', 't', ' ', 'o', 'f', ' ', 't', 'h', 'e', ' ', '`', 'n', ' ', '/', ' ', '6', '4', '`', 't', 'h', ' ', 'e', 'l', 'e', 'm', 'e', 'n', 't', ' ', 'i', 'n', ' ', 't', 'h', 'e', ' ', 'a', 'r', 'r', 'a', 'y', '.'],
   ['/', '/', '/'],
   ['/', '/', '/', ' ', '#', ' ', 'S', 'e', 'r', 'i', 'a', 'l', 'i', 'z', 'a', 't', 'i', 'o', 'n'],
   ['/', '/', '/'],
   ['/', '/', '/', ' ', 'W', 'h', 'e', 'n', ' ', 't', 'h', 'e', ' ', '`', 's', 'e', 'r', 'd', 'e', '`', ' ', 'f', 'e', 'a', 't', 'u', 'r', 'e', ' ', 'i', 's', ' ', 'e', 'n', 'a', 'b', 'l', 'e', 'd', ',', ' ', '`', 'E', 'n', 'u', 'm', 'S', 'e', 't', '`', 's', ' ', 'c', 'a', 'n', ' ', 'b', 'e', ' ', 's', 'e', 'r', 'i', 'a', 'l', 'i', 'z', 'e', 'd', ' ', 'a', 'n', 'd', ' ', 'd', 'e', 's', 'e', 'r', 'i', 'a', 'l', 'i', 'z', 'e', 'd', ' ', 'u', 's', 'i', 'n', 'g'],
   ['/', '/', '/', ' ', 't', 'h', 'e', ' ', '`', 's', 'e', 'r', 'd', 'e', '`', ' ', 'c', 'r', 'a', 't', 'e', '.', ' ', 'T', 'h', 'e', ' ', 'e', 'x', 'a', 'c', 't', ' ', 's', 'e', 'r', 'i', 'a', 'l', 'i', 'z', 'a', 't', 'i', 'o', 'n', ' ', 'f', 'o', 'r', 'm', 'a', 't', ' ', 'c', 'a', 'n', ' ', 'b', 'e', ' ', 'c', 'o', 'n', 't', 'r', 'o', 'l', 'l', 'e', 'd', ' ', 'w', 'i', 't', 'h', ' ', 'a', 'd', 'd', 'i', 't', 'i', 'o', 'n', 'a', 'l', ' ', 'a', 't', 't', 'r', 'i', 'b', 'u', 't', 'e', 's'],
   ['/', '/', '/', ' ', 'o', 'n', ' ', 't', 'h', 'e', ' ', 'e', 'n', 'u', 'm', ' ', 't', 'y', 'p', 'e', '.', ' ', 'T', 'h', 'e', 's', 'e', ' ', 'a', 't', 't', 'r', 'i', 'b', 'u', 't', 'e', 's', ' ', 'a', 'r', 'e', ' ', 'v', 'a', 'l', 'i', 'd', ' ', 'r', 'e', 'g', 'a', 'r', 'd', 'l', 'e', 's', 's', ' ', 'o', 'f', ' ', 'w', 'h', 'e', 't', 'h', 'e', 'r', ' ', 't', 'h', 'e', ' ', '`', 's', 'e', 'r', 'd', 'e', '`', ' ', 'f', 'e', 'a', 't', 'u', 'r', 'e'],
   ['/', '/', '/', ' ', 'i', 's', ' ', 'e', 'n', 'a', 'b', 'l', 'e', 'd', '.'],
   ['/', '/', '/'],
   ['/', '/', '/', ' ', 'B', 'y', ' ', 'd', 'e', 'f', 'a', 'u', 'l', 't', ',', ' ', '`', 'E', 'n', 'u', 'm', 'S', 'e', 't', '`', ' ', 'i', 's', ' ', 's', 'e', 'r', 'i', 'a', 'l', 'i', 'z', 'e', 'd', ' ', 'b', 'y', ' ', 'd', 'i', 'r', 'e', 'c', 't', 'l', 'y', ' ', 'w', 'r', 'i', 't', 'i', 'n', 'g', ' ', 'o', 'u', 't', ' ', 'a', ' ', 's', 'i', 'n', 'g', 'l', 'e', ' ', 'i', 'n', 't', 'e', 'g', 'e', 'r', ' ', 'c', 'o', 'n', 't', 'a', 'i', 'n', 'i', 'n', 'g', ' ', 't', 'h', 'e'],
   ['/', '/', '/', ' ', 'n', 'u', 'm', 'e', 'r', 'i', 'c', ' ', 'r', 'e', 'p', 'r', 'e', 's', 'e', 'n', 't', 'a', 't', 'i', 'o', 'n', ' ', 'o', 'f', ' ', 't', 'h', 'e', ' ', 'b', 'i', 't', 's', 'e', 't', '.', ' ', 'T', 'h', 'e', ' ', 'i', 'n', 't', 'e', 'g', 'e', 'r', ' ', 't', 'y', 'p', 'e', ' ', 'u', 's', 'e', 'd', ' ', 'i', 's', ' ', 't', 'h', 'e', ' ', 's', 'm', 'a', 'l', 'l', 'e', 's', 't', ' ', 'o', 'n', 'e', ' ', 't', 'h', 'a', 't', ' ', 'c', 'a', 'n', ' ', 'f', 'i', 't'],
   ['/', '/', '/', ' ', 't', 'h', 'e', ' ', 'l', 'a', 'r', 'g', 'e', 's', 't', ' ', 'v', 'a', 'r', 'i', 'a', 'n', 't', ' ', 'i', 'n', ' ', 't', 'h', 'e', ' ', 'e', 'n', 'u', 'm', '.', ' ', 'I', 'f', ' ', 'n', 'o', ' ', 'i', 'n', 't', 'e', 'g', 'e', 'r', ' ', 't', 'y', 'p', 'e', ' ', 'i', 's', ' ', 'l', 'a', 'r', 'g', 'e', ' ', 'e', 'n', 'o', 'u', 'g', 'h', ',', ' ', 'i', 'n', 's', 't', 'e', 'a', 'd', ' ', 't', 'h', 'e', ' ', '`', 'E', 'n', 'u', 'm', 'S', 'e', 't', '`', ' ', 'i', 's'],
   ['/', '/', '/', ' ', 's', 'e', 'r', 'i', 'a', 'l', 'i', 'z', 'e', 'd', ' ', 'a', 's', ' ', 'a', 'n', ' ', 'a', 'r', 'r', 'a', 'y', ' ', 'o', 'f', ' ', '`', 'u', '6', '4', '`', 's', ' ', 'c', 'o', 'n', 't', 'a', 'i', 'n', 'i', 'n', 'g', ' ', 't', 'h', 'e', ' ', 'a', 'r', 'r', 'a', 'y', ' ', 'r', 'e', 'p', 'r', 'e', 's', 'e', 'n', 't', 'a', 't', 'i', 'o', 'n', '.'],
   ['/', '/', '/'],
   ['/', '/', '/', ' ', 'T', 'h', 'e', ' ', '`', '#', '[', 'e', 'n', 'u', 'm', 's', 'e', 't', '(', 's', 'e', 'r', 'i', 'a', 'l', 'i', 'z', 'e', '_', 'r', 'e', 'p', 'r', ' ', '=', ' ', '"', '…', '"', ')', ']', '`', ' ', 'a', 't', 't', 'r', 'i', 'b', 'u', 't', 'e', ' ', 'c', 'a', 'n', ' ', 'b', 'e', ' ', 'u', 's', 'e', 'd', ' ', 't', 'o', ' ', 'o', 'v', 'e', 'r', 'r', 'i', 'd', 'e', ' ', 't', 'h', 'e', ' ', 'r', 'e', 'p', 'r', 'e', 's', 'e', 'n', 't', 'a', 't', 'i', 'o', 'n'],
   ['/', '/', '/', ' ', 'u', 's', 'e', 'd', '.', ' ', 'V', 'a', 'l', 'i', 'd', ' ', 'v', 'a', 'l', 'u', 'e', 's', ' ', 'a', 'r', 'e', ' ', 'a', 's', ' ', 'f', 'o', 'l', 'l', 'o', 'w', 's', ':'],
   ['/', '/', '/'],
   ['/', '/', '/', ' ', '*', ' ', '`', 'u', '8', '`', ',', ' ', '`', 'u', '1', '6', '`', ',', ' ', '`', 'u', '3', '2', '`', ',', ' ', '`', 'u', '6', '4', '`', ',', ' ', 'a', 'n', 'd', ' ', '`', 'u', '1', '2', '8', '`', ' ', 's', 'e', 'r', 'i', 'a', 'l', 'i', 'z', 'e', ' ', 't', 'h', 'e', ' ', 't', 'y', 'p', 'e', ' ', 'a', 's', ' ', 't', 'h', 'e', ' ', 'c', 'o', 'r', 'r', 'e', 's', 'p', 'o', 'n', 'd', 'i', 'n', 'g', ' ', 'i', 'n', 't', 'e', 'g', 'e', 'r', ' ', 't', 'y', 'p', 'e', '.'],
   ['/', '/', '/', ' ', '*', ' ', '`', 'a', 'r', 'r', 'a', 'y', '`', ' ', 's', 'e', 'r', 'i', 'a', 'l', 'i', 'z', 'e', 's', ' ', 't', 'h', 'e', ' ', 's', 'e', 't', ' ', 'a', 's', ' ', 'a', 'n', ' ', 'l', 'i', 's', 't', ' ', 'o', 'f', ' ', '`', 'u', '6', '4', '`', 's', ' ', 'c', 'o', 'r', 'r', 'e', 's', 'p', 'o', 'n', 'd', 'i', 'n', 'g', ' ', 't', 'o', ' ', 't', 'h', 'e', ' ', 'a', 'r', 'r', 'a', 'y', ' ', 'r', 'e', 'p', 'r', 'e', 's', 'e', 'n', 't', 'a', 't', 'i', 'o', 'n', '.'],
   ['/', '/', '/', ' ', '*', ' ', '`', 'l', 'i', 's', 't', '`', ' ', 's', 'e', 'r', 'i', 'a', 'l', 'i', 'z', 'e', 's', ' ', 't', 'h', 'e', ' ', 's', 'e', 't', ' ', 'a', 's', ' ', 'a', ' ', 'l', 'i', 's', 't', ' ', 'o', 'f', ' ', 'e', 'n', 'u', 'm', ' ', 'v', 'a', 'r', 'i', 'a', 'n', 't', 's', '.', ' ', 'T', 'h', 'i', 's', ' ', 'r', 'e', 'q', 'u', 'i', 'r', 'e', 's', ' ', 'y', 'o', 'u', 'r', ' ', 'e', 'n', 'u', 'm', ' ', 't', 'y', 'p', 'e', ' ', 'i', 'm', 'p', 'l', 'e', 'm', 'e', 'n', 't'],
   ['/', '/', '/', ' ', ' ', ' ', '[', '`', 'S', 'e', 'r', 'i', 'a', 'l', 'i', 'z', 'e', '`', ']', ' ', 'a', 'n', 'd', ' ', '[', '`', 'D', 'e', 's', 'e', 'r', 'i', 'a', 'l', 'i', 'z', 'e', '`', ']', '.'],
   ['/', '/', '/', ' ', '*', ' ', '`', 'm', 'a', 'p', '`', ' ', 's', 'e', 'r', 'i', 'a', 'l', 'i', 'z', 'e', 's', ' ', 't', 'h', 'e', ' ', 's', 'e', 't', ' ', 'a', 's', ' ', 'a', ' ', 'm', 'a', 'p', ' ', 'o', 'f', ' ', 'e', 'n', 'u', 'm', ' ', 'v', 'a', 'r', 'i', 'a', 'n', 't', 's', ' ', 't', 'o', ' ', 'b', 'o', 'o', 'l', 'e', 'a', 'n', 's', '.', ' ', 'T', 'h', 'e', ' ', 's', 'e', 't', ' ', 'c', 'o', 'n', 't', 'a', 'i', 'n', 's', ' ', 'a', ' ', 'v', 'a', 'l', 'u', 'e', ' ', 'i', 'f'],
   ['/', '/', '/', ' ', ' ', ' ', 't', 'h', 'e', ' ', 'b', 'o', 'o', 'l', 'e', 'a', 'n', ' ', 'i', 's', ' ', '`', 't', 'r', 'u', 'e', '`', '.', ' ', 'T', 'h', 'i', 's', ' ', 'r', 'e', 'q', 'u', 'i', 'r', 'e', 's', ' ', 'y', 'o', 'u', 'r', ' ', 'e', 'n', 'u', 'm', ' ', 't', 'y', 'p', 'e', ' ', 'i', 'm', 'p', 'l', 'e', 'm', 'e', 'n', 't', ' ', '`', 'S', 'e', 'r', 'i', 'a', 'l', 'i', 'z', 'e', '`', ' ', 'a', 'n', 'd', ' ', '`', 'D', 'e', 's', 'e', 'r', 'i', 'a', 'l', 'i', 'z', 'e', '`', '.'],
   ['/', '/', '/'],
   ['/', '/', '/', ' ', 'T', 'h', 'e', ' ', 'r', 'e', 'p', 'r', 'e', 's', 'e', 'n', 't', 'a', 't', 'i', 'o', 'n', ' ', 'u', 's', 'e', 'd', ' ', 'i', 's', ' ', 'd', 'e', 't', 'e', 'r', 'm', 'i', 'n', 'e', 'd', ' ', 's', 't', 'a', 't', 'i', 'c', 'a', 'l', 'l', 'y', ' ', 'a', 't', ' ', 'c', 'o', 'm', 'p', 'i', 'l', 'e', ' ', 't', 'i', 'm', 'e', ',', ' ', 'a', 'n', 'd', ' ', 't', 'h', 'e', 'r', 'e', ' ', 'i', 's', ' ', 'c', 'u', 'r', 'r', 'e', 'n', 't', 'l', 'y', ' ', 'n', 'o'],
   ['/', '/', '/', ' ', 's', 'u', 'p', 'p', 'o', 'r', 't', ' ', 'f', 'o', 'r', ' ', 'r', 'e', 'a', 'd', 'i', 'n', 'g', ' ', 'd', 'i', 'f', 'f', 'e', 'r', 'e', 'n', 't', ' ', 'f', 'o', 'r', 'm', 'a', 't', 's', ' ', 'w', 'i', 't', 'h', ' ', 't', 'h', 'e', ' ', 's', 'a', 'm', 'e', ' ', 'd', 'e', 's', 'e', 'r', 'i', 'a', 'l', 'i', 'z', 'e', 'r', '.'],
   ['/', '/', '/'],
   ['/', '/', '/', ' ', 'B', 'y', ' ', 'd', 'e', 'f', 'a', 'u', 'l', 't', ',', ' ', 'u', 'n', 'k', 'n', 'o', 'w', 'n', ' ', 'b', 'i', 't', 's', ' ', 'a', 'r', 'e', ' ', 'i', 'g', 'n', 'o', 'r', 'e', 'd', ' ', 'a', 'n', 'd', ' ', 's', 'i', 'l', 'e', 'n', 't', 'l', 'y', ' ', 'r', 'e', 'm', 'o', 'v', 'e', 'd', ' ', 'f', 'r', 'o', 'm', ' ', 't', 'h', 'e', ' ', 'b', 'i', 't', 's', 'e', 't', '.', ' ', 'T', 'o', ' ', 'o', 'v', 'e', 'r', 'r', 'i', 'd', 'e', ' ', 't', 'h', 'i', 's'],
   ['/', '/', '/', ' ', 'b', 'e', 'h', 'a', 'v', 'i', 'o', 'r', ',', ' ', 'y', 'o', 'u', ' ', 'c', 'a', 'n', ' ', 'a', 'd', 'd', ' ', 'a', ' ', '`', '#', '[', 'e', 'n', 'u', 'm', 's', 'e', 't', '(', 's', 'e', 'r', 'i', 'a', 'l', 'i', 'z', 'e', '_', 'd', 'e', 'n', 'y', '_', 'u', 'n', 'k', 'n', 'o', 'w', 'n', ')', ']', '`', ' ', 'a', 't', 't', 'r', 'i', 'b', 'u', 't', 'e', '.', ' ', 'T', 'h', 'i', 's', ' ', 'w', 'i', 'l', 'l', ' ', 'c', 'a', 'u', 's', 'e'],
   ['/', '/', '/', ' ', 'd', 'e', 's', 'e', 'r', 'i', 'a', 'l', 'i', 'z', 'a', 't', 'i', 'o', 'n', ' ', 't', 'o', ' ', 'f', 'a', 'i', 'l', ' ', 'i', 'f', ' ', 'a', 'n', ' ', 'i', 'n', 'v', 'a', 'l', 'i', 'd', ' ', 'b', 'i', 't', ' ', 'i', 's', ' ', 's', 'e', 't', '.'],
   ['/', '/', '/'],
   ['/', '/', '/', ' ', '#', ' ', 'F', 'F', 'I', ',', ' ', 'S', 'a', 'f', 'e', 't', 'y', ' ', 'a', 'n', 'd', ' ', '`', 'r', 'e', 'p', 'r', '`'],
   ['/', '/', '/'],
   ['/', '/', '/', ' ', 'I', 'f', ' ', 'a', 'n', ' ', 'e', 'n', 'u', 'm', ' ', 't', 'y', 'p', 'e', ' ', '`', 'T', '`', ' ', 'i', 's', ' ', 'a', 'n', 'n', 'o', 't', 'a', 't', 'e', 'd', ' ', 'w', 'i', 't', 'h'],
   ['/', '/', '/', ' ', '[', '`', '#', '[', 'e', 'n', 'u', 'm', 's', 'e', 't', '(', 'r', 'e', 'p', 'r', ' ', '=', ' ', '"', '…', '"', ')', ']', '`', ']', '(', 'd', 'e', 'r', 'i', 'v', 'e', '@', 'c', 'r', 'a', 't', 'e', ':', ':', 'E', 'n', 'u', 'm', 'S', 'e', 't', 'T', 'y', 'p', 'e', '#', 'o', 'p', 't', 'i', 'o', 'n', 's', ')', ' ', 'w', 'h', 'e', 'r', 'e', ' ', '`', '…', '`', ' ', 'i', 's', ' ', 'a', ' ', 'p', 'r', 'i', 'm', 'i', 't', 'i', 'v', 'e', ' ', 'i', 'n', 't', 'e', 'g', 'e', 'r'],
   ['/', '/', '/', ' ', 't', 'y', 'p', 'e', ',', ' ', 't', 'h', 'e', 'n', ' ', 's', 'e', 'v', 'e', 'r', 'a', 'l', ' ', 't', 'h', 'i', 'n', 'g', 's', ' ', 'h', 'a', 'p', 'p', 'e', 'n', ':'],
   ['/', '/', '/'],
   ['/', '/', '/', ' ', '*', ' ', '`', 'T', '`', ' ', 'w', 'i', 'l', 'l', ' ', 'i', 'm', 'p', 'l', 'e', 'm', 'e', 'n', 't'],
   ['/', '/', '/', ' ', ' ', ' ', '<', 'c', 'o', 'd', 'e', '>', '[', 'E', 'n', 'u', 'm', 'S', 'e', 't', 'T', 'y', 'p', 'e', 'W', 'i', 't', 'h', 'R', 'e', 'p', 'r', ']', '(', 'c', 'r', 'a', 't', 'e', ':', ':', 't', 'r', 'a', 'i', 't', 's', ':', ':', 'E', 'n', 'u', 'm', 'S', 'e', 't', 'T', 'y', 'p', 'e', 'W', 'i', 't', 'h', 'R', 'e', 'p', 'r', ')', '&', 'l', 't', ';', 'R', 'e', 'p', 'r', ' ', '=', ' ', 'R', '&', 'g', 't', ';', '<', '/', 'c', 'o', 'd', 'e', '>', ' ', 'i', 'n'],
   ['/', '/', '/', ' ', ' ', ' ', 'a', 'd', 'd', 'i', 't', 'i', 'o', 'n', ' ', 't', 'o', ' ', '[', '`', 'E', 'n', 'u', 'm', 'S', 'e', 't', 'T', 'y', 'p', 'e', '`', ']', '.'],
   ['/', '/', '/', ' ', '*', ' ', 'T', 'h', 'e', ' ', '`', 'E', 'n', 'u', 'm', 'S', 'e', 't', '`', ' ', 'm', 'e', 't', 'h', 'o', 'd', 's', ' ', 'w', 'i', 't', 'h', ' ', '`', 'r', 'e', 'p', 'r', '`', ' ', 'i', 'n', ' ', 't', 'h', 'e', 'i', 'r', ' ', 'n', 'a', 'm', 'e', ',', ' ', 's', 'u', 'c', 'h', ' ', 'a', 's', ' ', '[', '`', 'a', 's', '_', 'r', 'e', 'p', 'r', '`', ']', '[', 'E', 'n', 'u', 'm', 'S', 'e', 't', ':', ':', 'a', 's', '_', 'r', 'e', 'p', 'r', ']', ' ', 'a', 'n', 'd'],
   ['/', '/', '/', ' ', ' ', ' ', '[', '`', 'f', 'r', 'o', 'm', '_', 'r', 'e', 'p', 'r', '`', ']', '[', 'E', 'n', 'u', 'm', 'S', 'e', 't', ':', ':', 'f', 'r', 'o', 'm', '_', 'r', 'e', 'p', 'r', ']', ',', ' ', 'w', 'i', 'l', 'l', ' ', 'b', 'e', ' ', 'a', 'v', 'a', 'i', 'l', 'a', 'b', 'l', 'e', ' ', 'f', 'o', 'r', ' ', '`', 'E', 'n', 'u', 'm', 'S', 'e', 't', '<', 'T', '>', '`', '.'],
   ['/', '/', '/', ' ', '*', ' ', 'T', 'h', 'e', ' ', 'i', 'n', '-', 'm', 'e', 'm', 'o', 'r', 'y', ' ', 'r', 'e', 'p', 'r', 'e', 's', 'e', 'n', 't', 'a', 't', 'i', 'o', 'n', ' ', 'o', 'f', ' ', '`', 'E', 'n', 'u', 'm', 'S', 'e', 't', '<', 'T', '>', '`', ' ', 'i', 's', ' ', 'g', 'u', 'a', 'r', 'a', 'n', 't', 'e', 'e', 'd', ' ', 't', 'o', ' ', 'b', 'e', ' ', '`', 'R', '`', '.'],
   ['/', '/', '/'],
   ['/', '/', '/', ' ', 'T', 'h', 'a', 't', ' ', 'l', 'a', 's', 't', ' ', 'g', 'u', 'a', 'r', 'a', 'n', 't', 'e', 'e', ' ', 'm', 'a', 'k', 'e', 's', ' ', 'i', 't', ' ', 's', 'o', 'u', 'n', 'd', ' ', 't', 'o', ' ', 's', 'e', 'n', 'd', ' ', '`', 'E', 'n', 'u', 'm', 'S', 'e', 't', '<', 'T', '>', '`', ' ', 'a', 'c', 'r', 'o', 's', 's', ' ', 'a', 'n', ' ', 'F', 'F', 'I', ' ', 'b', 'o', 'u', 'n', 'd', 'a', 'r', 'y', '.', ' ', 'F', 'o', 'r', ' ', 'e', 'x', 'a', 'm', 'p', 'l', 'e', ':'],
   ['/', '/', '/'],
   ['/', '/', '/', ' ', '`', '`', '`'],
   ['/', '/', '/', ' ', '#', ' ', 'u', 's', 'e', ' ', 'e', 'n', 'u', 'm', 's', 'e', 't', ':', ':', '*', ';'],
   ['/', '/', '/', ' ', '#'],
   ['/', '/', '/', ' ', '#', ' ', 'm', 'o', 'd', ' ', 'f', 'f', 'i', '_', 'i', 'm', 'p', 'l', ' ', '{'],
   ['/', '/', '/', ' ', '#', ' ', ' ', ' ', ' ', ' ', '/', '/', ' ', 'T', 'h', 'i', 's', ' ', 'e', 'x', 'a', 'm', 'p', 'l', 'e', ' ', '“', 'f', 'o', 'r', 'e', 'i', 'g', 'n', '”', ' ', 'f', 'u', 'n', 'c', 't', 'i', 'o', 'n', ' ', 'i', 's', ' ', 'a', 'c', 't', 'u', 'a', 'l', 'l', 'y', ' ', 'w', 'r', 'i', 't', 't', 'e', 'n', ' ', 'i', 'n', ' ', 'R', 'u', 's', 't', ',', ' ', 'b', 'u', 't', ' ', 'f', 'o', 'r', ' ', 't', 'h', 'e', ' ', 's', 'a', 'k', 'e'],
   ['/', '/', '/', ' ', '#', ' ', ' ', ' ', ' ', ' ', '/', '/', ' ', 'o', 'f', ' ', 'e', 'x', 'a', 'm', 'p', 'l', 'e', ',', ' ', 'w', 'e', '\'', 'l', 'l', ' ', 'p', 'r', 'e', 't', 'e', 'n', 'd', ' ', 'i', 't', '\'', 's', ' ', 'w', 'r', 'i', 't', 't', 'e', 'n', ' ', 'i', 'n', ' ', 'C', '.'],
   ['/', '/', '/', ' ', '#', ' ', ' ', ' ', ' ', ' ', '#', '[', 'n', 'o', '_', 'm', 'a', 'n', 'g', 'l', 'e', ']'],
   ['/', '/', '/', ' ', '#', ' ', ' ', ' ', ' ', ' ', 'e', 'x', 't', 'e', 'r', 'n', ' ', '"', 'C', '"', ' ', 'f', 'n', ' ', 's', 'o', 'm', 'e', '_', 'f', 'o', 'r', 'e', 'i', 'g', 'n', '_', 'f', 'u', 'n', 'c', 't', 'i', 'o', 'n', '(', 's', 'e', 't', ':', ' ', 'u', '3', '2', ')', ' ', '-', '>', ' ', 'u', '3', '2', ' ', '{'],
   ['/', '/', '/', ' ', '#', ' ', ' ', ' ', ' ', ' ', ' ', ' ', ' ', ' ', 's', 'e', 't', ' ', '&', ' ', '0', 'b', '1', '0', '0'],
   ['/', '/', '/', ' ', '#', ' ', ' ', ' ', ' ', ' ', '}'],
   ['/', '/', '/', ' ', '#', ' ', '}'],
   ['/', '/', '/', ' ', '#'],
   ['/', '/', '/', ' ', 'e', 'x', 't', 'e', 'r', 'n', ' ', '"', 'C', '"', ' ', '{'],
   ['/', '/', '/', ' ', ' ', ' ', ' ', ' ', '/', '/', ' ', 'T', 'h', 'i', 's', ' ', 'f', 'u', 'n', 'c', 't', 'i', 'o', 'n', ' ', 'i', 's', ' ', 'w', 'r', 'i', 't', 't', 'e', 'n', ' ', 'i', 'n', ' ', 'C', ' ', 'l', 'i', 'k', 'e', ':'],
   ['/', '/', '/', ' ', ' ', ' ', ' ', ' ', '/', '/', ' ', 'u', 'i', 'n', 't', '3', '2', '_', 't', ' ', 's', 'o', 'm', 'e', '_', 'f', 'o', 'r', 'e', 'i', 'g', 'n', '_', 'f', 'u', 'n', 'c', 't', 'i', 'o', 'n', '(', 'u', 'i', 'n', 't', '3', '2', '_', 't', ' ', 's', 'e', 't', ')', ' ', '{', ' ', '…', ' ', '}'],
   ['/', '/', '/', ' ', ' ', ' ', ' ', ' ', 'f', 'n', ' ', 's', 'o', 'm', 'e', '_', 'f', 'o', 'r', 'e', 'i', 'g', 'n', '_', 'f', 'u', 'n', 'c', 't', 'i', 'o', 'n', '(', 's', 'e', 't', ':', ' ', 'E', 'n', 'u', 'm', 'S', 'e', 't', '<', 'M', 'y', 'E', 'n', 'u', 'm', '>', ')', ' ', '-', '>', ' ', 'E', 'n', 'u', 'm', 'S', 'e', 't', '<', 'M', 'y', 'E', 'n', 'u', 'm', '>', ';'],
   ['/', '/', '/', ' ', '}'],
   ['/', '/', '/'],
   ['/', '/', '/', ' ', '#', '[', 'd', 'e', 'r', 'i', 'v', 'e', '(', 'D', 'e', 'b', 'u', 'g', ',', ' ', 'E', 'n', 'u', 'm', 'S', 'e', 't', 'T', 'y', 'p', 'e', ')', ']'],
   ['/', '/', '/', ' ', '#', '[', 'e', 'n', 'u', 'm', 's', 'e', 't', '(', 'r', 'e', 'p', 'r', ' ', '=', ' ', '"', 'u', '3', '2', '"', ')', ']'],
   ['/', '/', '/', ' ', 'e', 'n', 'u', 'm', ' ', 'M', 'y', 'E', 'n', 'u', 'm', ' ', '{', ' ', 'A', ',', ' ', 'B', ',', ' ', 'C', ' ', '}'],
   ['/', '/', '/'],
   ['/', '/', '/', ' ', 'l', 'e', 't', ' ', 's', 'e', 't', ':', ' ', 'E', 'n', 'u', 'm', 'S', 'e', 't', '<', 'M', 'y', 'E', 'n', 'u', 'm', '>', ' ', '=', ' ', 'e', 'n', 'u', 'm', '_', 's', 'e', 't', '!', '(', 'M', 'y', 'E', 'n', 'u', 'm', ':', ':', 'A', ' ', '|', ' ', 'M', 'y', 'E', 'n', 'u', 'm', ':', ':', 'C', ')', ';'],
   ['/', '/', '/'],
   ['/', '/', '/', ' ', 'l', 'e', 't', ' ', 'n', 'e', 'w', '_', 's', 'e', 't', ':', ' ', 'E', 'n', 'u', 'm', 'S', 'e', 't', '<', 'M', 'y', 'E', 'n', 'u', 'm', '>', ' ', '=', ' ', 'u', 'n', 's', 'a', 'f', 'e', ' ', '{', ' ', 's', 'o', 'm', 'e', '_', 'f', 'o', 'r', 'e', 'i', 'g', 'n', '_', 'f', 'u', 'n', 'c', 't', 'i', 'o', 'n', '(', 's', 'e', 't', ')', ' ', '}', ';'],
   ['/', '/', '/', ' ', 'a', 's', 's', 'e', 'r', 't', '_', 'e', 'q', '!', '(', 'n', 'e', 'w', '_', 's', 'e', 't', ',', ' ', 'e', 'n', 'u', 'm', '_', 's', 'e', 't', '!', '(', 'M', 'y', 'E', 'n', 'u', 'm', ':', ':', 'C', ')', ')', ';'],
   ['/', '/', '/', ' ', '`', '`', '`'],
   ['/', '/', '/'],
   ['/', '/', '/', ' ', 'W', 'h', 'e', 'n', ' ', 'a', 'n', ' ', '`', 'E', 'n', 'u', 'm', 'S', 'e', 't', '<', 'T', '>', '`', ' ', 'i', 's', ' ', 'r', 'e', 'c', 'e', 'i', 'v', 'e', 'd', ' ', 'v', 'i', 'a', ' ', 'F', 'F', 'I', ',', ' ', 'a', 'l', 'l', ' ', 'b', 'i', 't', 's', ' ', 't', 'h', 'a', 't', ' ', 'd', 'o', 'n', '\'', 't', ' ', 'c', 'o', 'r', 'r', 'e', 's', 'p', 'o', 'n', 'd', ' ', 't', 'o', ' ', 'a', 'n', ' ', 'e', 'n', 'u', 'm', ' ', 'v', 'a', 'r', 'i', 'a', 'n', 't'],
   ['/', '/', '/', ' ', 'o', 'f', ' ', '`', 'T', '`', ' ', 'm', 'u', 's', 't', ' ', 'b', 'e', ' ', 's', 'e', 't', ' ', 't', 'o', ' ', '`', '0', '`', '.', ' ', 'B', 'e', 'h', 'a', 'v', 'i', 'o', 'r', ' ', 'i', 's', ' ', '*', '*', 'u', 'n', 'd', 'e', 'f', 'i', 'n', 'e', 'd', '*', '*', ' ', 'i', 'f', ' ', 'a', 'n', 'y', ' ', 'o', 'f', ' ', 't', 'h', 'e', 's', 'e', ' ', 'b', 'i', 't', 's', ' ', 'a', 'r', 'e', ' ', 's', 'e', 't', ' ', 't', 'o', ' ', '`', '1', '`', '.'],
   ['#', '[', 'c', 'f', 'g', '_', 'a', 't', 't', 'r', '('],
   [' ', ' ', ' ', ' ', 'n', 'o', 't', '(', 'f', 'e', 'a', 't', 'u', 'r', 'e', ' ', '=', ' ', '"', 's', 'e', 'r', 'd', 'e', '"', ')', ','],
   [' ', ' ', ' ', ' ', 'd', 'o', 'c', ' ', '=', ' ', '"', '\\', 'n', '\\', 'n', '"', ','],
   [' ', ' ', ' ', ' ', 'd', 'o', 'c', ' ', '=', ' ', '"', '[', '`', 'S', 'e', 'r', 'i', 'a', 'l', 'i', 'z', 'e', '`', ']', ':', ' ', 'h', 't', 't', 'p', 's', ':', '/', '/', 'd', 'o', 'c', 's', '.', 'r', 's', '/', 's', 'e', 'r', 'd', 'e', '/', 'l', 'a', 't', 'e', 's', 't', '/', 's', 'e', 'r', 'd', 'e', '/', 't', 'r', 'a', 'i', 't', '.', 'S', 'e', 'r', 'i', 'a', 'l', 'i', 'z', 'e', '.', 'h', 't', 'm', 'l', '\\', 'n', '"', ','],
   [' ', ' ', ' ', ' ', 'd', 'o', 'c', ' ', '=', ' ', '"', '[', '`', 'D', 'e', 's', 'e', 'r', 'i', 'a', 'l', 'i', 'z', 'e', '`', ']', ':', ' ', 'h', 't', 't', 'p', 's', ':', '/', '/', 'd', 'o', 'c', 's', '.', 'r', 's', '/', 's', 'e', 'r', 'd', 'e', '/', 'l', 'a', 't', 'e', 's', 't', '/', 's', 'e', 'r', 'd', 'e', '/', 't', 'r', 'a', 'i', 't', '.', 'D', 'e', 's', 'e', 'r', 'i', 'a', 'l', 'i', 'z', 'e', '.', 'h', 't', 'm', 'l', '\\', 'n', '"'],
   [')', ']'],
   ['#', '[', 'd', 'e', 'r', 'i', 'v', 'e', '(', 'C', 'o', 'p', 'y', ',', ' ', 'C', 'l', 'o', 'n', 'e', ',', ' ', 'P', 'a', 'r', 't', 'i', 'a', 'l', 'E', 'q', ',', ' ', 'E', 'q', ')', ']'],
   ['#', '[', 'r', 'e', 'p', 'r', '(', 't', 'r', 'a', 'n', 's', 'p', 'a', 'r', 'e', 'n', 't', ')', ']'],
   ['p', 'u', 'b', ' ', 's', 't', 'r', 'u', 'c', 't', ' ', 'E', 'n', 'u', 'm', 'S', 'e', 't', '<', 'T', ':', ' ', 'E', 'n', 'u', 'm', 'S', 'e', 't', 'T', 'y', 'p', 'e', '>', ' ', '{'],
   [' ', ' ', ' ', ' ', '#', '[', 'd', 'o', 'c', '(', 'h', 'i', 'd', 'd', 'e', 'n', ')', ']'],
   [' ', ' ', ' ', ' ', '/', '/', '/', ' ', 'T', 'h', 'i', 's', ' ', 'i', 's', ' ', 'p', 'u', 'b', 'l', 'i', 'c', ' ', 'd', 'u', 'e', ' ', 't', 'o', ' ', 't', 'h', 'e', ' ', '`', 'e', 'n', 'u', 'm', '_', 's', 'e', 't', '!', '`', ' ', 'm', 'a', 'c', 'r', 'o', '.'],
   [' ', ' ', ' ', ' ', '/', '/', '/', ' ', 'T', 'h', 'i', 's', ' ', 'i', 's', ' ', '*', '*', 'N', 'O', 'T', '*', '*', ' ', 'p', 'u', 'b', 'l', 'i', 'c', ' ', 'A', 'P', 'I', ' ', 'a', 'n', 'd', ' ', 'm', 'a', 'y', ' ', 'c', 'h', 'a', 'n', 'g', 'e', ' ', 'a', 't', ' ', 'a', 'n', 'y', ' ', 't', 'i', 'm', 'e', '.'],
   [' ', ' ', ' ', ' ', 'p', 'u', 'b', ' ', '_', '_', 'p', 'r', 'i', 'v', '_', 'r', 'e', 'p', 'r', ':', ' ', 'T', ':', ':', 'R', 'e', 'p', 'r', ','],
   ['}'],
   [],
   ['/', '/', 'r', 'e', 'g', 'i', 'o', 'n', ' ', 'E', 'n', 'u', 'm', 'S', 'e', 't', ' ', 'o', 'p', 'e', 'r', 'a', 't', 'i', 'o', 'n', 's'],
   ['i', 'm', 'p', 'l', '<', 'T', ':', ' ', 'E', 'n', 'u', 'm', 'S', 'e', 't', 'T', 'y', 'p', 'e', '>', ' ', 'E', 'n', 'u', 'm', 'S', 'e', 't', '<', 'T', '>', ' ', '{'],
   [' ', ' ', ' ', ' ', 'c', 'o', 'n', 's', 't', ' ', 'E', 'M', 'P', 'T', 'Y', '_', 'R', 'E', 'P', 'R', ':', ' ', 'S', 'e', 'l', 'f', ' ', '=', ' ', 'E', 'n', 'u', 'm', 'S', 'e', 't', ' ', '{', ' ', '_', '_', 'p', 'r', 'i', 'v', '_', 'r', 'e', 'p', 'r', ':', ' ', 'T', ':', ':', 'R', 'e', 'p', 'r', ':', ':', 'E', 'M', 'P', 'T', 'Y', ' ', '}', ';'],
   [' ', ' ', ' ', ' ', 'c', 'o', 'n', 's', 't', ' ', 'A', 'L', 'L', '_', 'R', 'E', 'P', 'R', ':', ' ', 'S', 'e', 'l', 'f', ' ', '=', ' ', 'E', 'n', 'u', 'm', 'S', 'e', 't', ' ', '{', ' ', '_', '_', 'p', 'r', 'i', 'v', '_', 'r', 'e', 'p', 'r', ':', ' ', 'T', ':', ':', 'A', 'L', 'L', '_', 'B', 'I', 'T', 'S', ' ', '}', ';'],
   [],
   [' ', ' ', ' ', ' ', '/', '/', '/', ' ', 'C', 'r', 'e', 'a', 't', 'e', 's', ' ', 'a', 'n', ' ', 'e', 'm', 'p', 't', 'y', ' ', '`', 'E', 'n', 'u', 'm', 'S', 'e', 't', '`', '.'],
   [' ', ' ', ' ', ' ', '#', '[', 'i', 'n', 'l', 'i', 'n', 'e', '(', 'a', 'l', 'w', 'a', 'y', 's', ')', ']'],
   [' ', ' ', ' ', ' ', 'p', 'u', 'b', ' ', 'c', 'o', 'n', 's', 't', ' ', 'f', 'n', ' ', 'n', 'e', 'w', '(', ')', ' ', '-', '>', ' ', 'S', 'e', 'l', 'f', ' ', '{'],
   [' ', ' ', ' ', ' ', ' ', ' ', ' ', ' ', 'S', 'e', 'l', 'f', ':', ':', 'E', 'M', 'P', 'T', 'Y', '_', 'R', 'E', 'P', 'R'],
   [' ', ' ', ' ', ' ', '}'],
   [],
   [' ', ' ', ' ', ' ', '/', '/', '/', ' ', 'R', 'e', 't', 'u', 'r', 'n', 's', ' ', 'a', 'n', ' ', '`', 'E', 'n', 'u', 'm', 'S', 'e', 't', '`', ' ', 'c', 'o', 'n', 't', 'a', 'i', 'n', 'i', 'n', 'g', ' ', 'a', ' ', 's', 'i', 'n', 'g', 'l', 'e', ' ', 'e', 'l', 'e', 'm', 'e', 'n', 't', '.'],
   [' ', ' ', ' ', ' ', '#', '[', 'i', 'n', 'l', 'i', 'n', 'e', '(', 'a', 'l', 'w', 'a', 'y', 's', ')', ']'],
   [' ', ' ', ' ', ' ', 'p', 'u', 'b', ' ', 'f', 'n', ' ', 'o', 'n', 'l', 'y', '(', 't', ':', ' ', 'T', ')', ' ', '-', '>', ' ', 'S', 'e', 'l', 'f', ' ', '{'],
   [' ', ' ', ' ', ' ', ' ', ' ', ' ', ' ', 'l', 'e', 't', ' ', 'm', 'u', 't', ' ', 's', 'e', 't', ' ', '=', ' ', 'S', 'e', 'l', 'f', ':', ':', 'n', 'e', 'w', '(', ')', ';'],
   [' ', ' ', ' ', ' ', ' ', ' ', ' ', ' ', 's', 'e', 't', '.', 'i', 'n', 's', 'e', 'r', 't', '(', 't', ')', ';'],
   [' ', ' ', ' ', ' ', ' ', ' ', ' ', ' ', 's', 'e', 't'],
   [' ', ' ', ' ', ' ', '}'],
   [],
   [' ', ' ', ' ', ' ', '/', '/', '/', ' ', 'C', 'r', 'e', 'a', 't', 'e', 's', ' ', 'a', 'n', ' ', 'e', 'm', 'p', 't', 'y', ' ', '`', 'E', 'n', 'u', 'm', 'S', 'e', 't', '`', '.'],
   [' ', ' ', ' ', ' ', '/', '/', '/'],
   [' ', ' ', ' ', ' ', '/', '/', '/', ' ', 'T', 'h', 'i', 's', ' ', 'i', 's', ' ', 'a', 'n', ' ', 'a', 'l', 'i', 'a', 's', ' ', 'f', 'o', 'r', ' ', '[', '`', 'E', 'n', 'u', 'm', 'S', 'e', 't', ':', ':', 'n', 'e', 'w', '`', ']', '.'],
   [' ', ' ', ' ', ' ', '#', '[', 'i', 'n', 'l', 'i', 'n', 'e', '(', 'a', 'l', 'w', 'a', 'y', 's', ')', ']'],
   [' ', ' ', ' ', ' ', 'p', 'u', 'b', ' ', 'c', 'o', 'n', 's', 't', ' ', 'f', 'n', ' ', 'e', 'm', 'p', 't', 'y', '(', ')', ' ', '-', '>', ' ', 'S', 'e', 'l', 'f', ' ', '{'],
   [' ', ' ', ' ', ' ', ' ', ' ', ' ', ' ', 'S', 'e', 'l', 'f', ':', ':', 'E', 'M', 'P', 'T', 'Y', '_', 'R', 'E', 'P', 'R'],
   [' ', ' ', ' ', ' ', '}'],
   [],
   [' ', ' ', ' ', ' ', '/', '/', '/', ' ', 'R', 'e', 't', 'u', 'r', 'n', 's', ' ', 'a', 'n', ' ', '`', 'E', 'n', 'u', 'm', 'S', 'e', 't', '`', ' ', 'c', 'o', 'n', 't', 'a', 'i', 'n', 'i', 'n', 'g', ' ', 'a', 'l', 'l', ' ', 'v', 'a', 'l', 'i', 'd', ' ', 'v', 'a', 'r', 'i', 'a', 'n', 't', 's', ' ', 'o', 'f', ' ', 't', 'h', 'e', ' ', 'e', 'n', 'u', 'm', '.'],
   [' ', ' ', ' ', ' ', '#', '[', 'i', 'n', 'l', 'i', 'n', 'e', '(', 'a', 'l', 'w', 'a', 'y', 's', ')', ']'],
   [' ', ' ', ' ', ' ', 'p', 'u', 'b', ' ', 'c', 'o', 'n', 's', 't', ' ', 'f', 'n', ' ', 'a', 'l', 'l', '(', ')', ' ', '-', '>', ' ', 'S', 'e', 'l', 'f', ' ', '{'],
   [' ', ' ', ' ', ' ', ' ', ' ', ' ', ' ', 'S', 'e', 'l', 'f', ':', ':', 'A', 'L', 'L', '_', 'R', 'E', 'P', 'R'],
   [' ', ' ', ' ', ' ', '}'],
   [],
   [' ', ' ', ' ', ' ', '/', '/', '/', ' ', 'T', 'o', 't', 'a', 'l', ' ', 'n', 'u', 'm', 'b', 'e', 'r', ' ', 'o', 'f', ' ', 'b', 'i', 't', 's', ' ', 'u', 's', 'e', 'd', ' ', 'b', 'y', ' ', 't', 'h', 'i', 's', ' ', 't', 'y', 'p', 'e', '.', ' ', 'N', 'o', 't', 'e', ' ', 't', 'h', 'a', 't', ' ', 't', 'h', 'e', ' ', 'a', 'c', 't', 'u', 'a', 'l', ' ', 'a', 'm', 'o', 'u', 'n', 't', ' ', 'o', 'f', ' ', 's', 'p', 'a', 'c', 'e', ' ', 'u', 's', 'e', 'd', ' ', 'i', 's'],
   [' ', ' ', ' ', ' ', '/', '/', '/', ' ', 'r', 'o', 'u', 'n', 'd', 'e', 'd', ' ', 'u', 'p', ' ', 't', 'o', ' ', 't', 'h', 'e', ' ', 'n', 'e', 'x', 't', ' ', 'h', 'i', 'g', 'h', 'e', 's', 't', ' ', 'i', 'n', 't', 'e', 'g', 'e', 'r', ' ', 't', 'y', 'p', 'e', ' ', '(', '`', 'u', '8', '`', ',', ' ', '`', 'u', '1', '6', '`', ',', ' ', '`', 'u', '3', '2', '`', ',', ' ', '`', 'u', '6', '4', '`', ',', ' ', 'o', 'r', ' ', '`', 'u', '1', '2', '8', '`', ')', '.'],
   [' ', ' ', ' ', ' ', '/', '/', '/'],
   [' ', ' ', ' ', ' ', '/', '/', '/', ' ', 'T', 'h', 'i', 's', ' ', 'i', 's', ' ', 't', 'h', 'e', ' ', 's', 'a', 'm', 'e', ' ', 'a', 's', ' ', '[', '`', 'E', 'n', 'u', 'm', 'S', 'e', 't', ':', ':', 'v', 'a', 'r', 'i', 'a', 'n', 't', '_', 'c', 'o', 'u', 'n', 't', '`', ']', ' ', 'e', 'x', 'c', 'e', 'p', 't', ' ', 'i', 'n', ' ', 'e', 'n', 'u', 'm', 's', ' ', 'w', 'i', 't', 'h', ' ', '"', 's', 'p', 'a', 'r', 's', 'e', '"', ' ', 'v', 'a', 'r', 'i', 'a', 'n', 't', 's', '.'],
   [' ', ' ', ' ', ' ', '/', '/', '/', ' ', '(', 'e', '.', 'g', '.', ' ', '`', 'e', 'n', 'u', 'm', ' ', 'F', 'o', 'o', ' ', '{', ' ', 'A', ' ', '=', ' ', '1', '0', ',', ' ', 'B', ' ', '=', ' ', '2', '0', ' ', '}', '`', ')'],
   [' ', ' ', ' ', ' ', '#', '[', 'i', 'n', 'l', 'i', 'n', 'e', '(', 'a', 'l', 'w', 'a', 'y', 's', ')', ']'],
   [' ', ' ', ' ', ' ', 'p', 'u', 'b', ' ', 'c', 'o', 'n', 's', 't', ' ', 'f', 'n', ' ', 'b', 'i', 't', '_', 'w', 'i', 'd', 't', 'h', '(', ')', ' ', '-', '>', ' ', 'u', '3', '2', ' ', '{'],
   [' ', ' ', ' ', ' ', ' ', ' ', ' ', ' ', 'T', ':', ':', 'B', 'I', 'T', '_', 'W', 'I', 'D', 'T', 'H'],
   [' ', ' ', ' ', ' ', '}'],
   [],
   [' ', ' ', ' ', ' ', '/', '/', '/', ' ', 'T', 'h', 'e', ' ', 'n', 'u', 'm', 'b', 'e', 'r', ' ', 'o', 'f', ' ', 'v', 'a', 'l', 'i', 'd', ' ', 'v', 'a', 'r', 'i', 'a', 'n', 't', 's', ' ', 't', 'h', 'a', 't', ' ', 't', 'h', 'i', 's', ' ', 't', 'y', 'p', 'e', ' ', 'c', 'a', 'n', ' ', 'c', 'o', 'n', 't', 'a', 'i', 'n', '.'],
   [' ', ' ', ' ', ' ', '/', '/', '/'],
   [' ', ' ', ' ', ' ', '/', '/', '/', ' ', 'T', 'h', 'i', 's', ' ', 'i', 's', ' ', 't', 'h', 'e', ' ', 's', 'a', 'm', 'e', ' ', 'a', 's', ' ', '[', '`', 'E', 'n', 'u', 'm', 'S', 'e', 't', ':', ':', 'b', 'i', 't', '_', 'w', 'i', 'd', 't', 'h', '`', ']', ' ', 'e', 'x', 'c', 'e', 'p', 't', ' ', 'i', 'n', ' ', 'e', 'n', 'u', 'm', 's', ' ', 'w', 'i', 't', 'h', ' ', '"', 's', 'p', 'a', 'r', 's', 'e', '"', ' ', 'v', 'a', 'r', 'i', 'a', 'n', 't', 's', '.'],
   [' ', ' ', ' ', ' ', '/', '/', '/', ' ', '(', 'e', '.', 'g', '.', ' ', '`', 'e', 'n', 'u', 'm', ' ', 'F', 'o', 'o', ' ', '{', ' ', 'A', ' ', '=', ' ', '1', '0', ',', ' ', 'B', ' ', '=', ' ', '2', '0', ' ', '}', '`', ')'],
   [' ', ' ', ' ', ' ', '#', '[', 'i', 'n', 'l', 'i', 'n', 'e', '(', 'a', 'l', 'w', 'a', 'y', 's', ')', ']'],
   [' ', ' ', ' ', ' ', 'p', 'u', 'b', ' ', 'c', 'o', 'n', 's', 't', ' ', 'f', 'n', ' ', 'v', 'a', 'r', 'i', 'a', 'n', 't', '_', 'c', 'o', 'u', 'n', 't', '(', ')', ' ', '-', '>', ' ', 'u', '3', '2', ' ', '{'],
   [' ', ' ', ' ', ' ', ' ', ' ', ' ', ' ', 'T', ':', ':', 'V', 'A', 'R', 'I', 'A', 'N', 'T', '_', 'C', 'O', 'U', 'N', 'T'],
   [' ', ' ', ' ', ' ', '}'],
   [],
   [' ', ' ', ' ', ' ', '/', '/', '/', ' ', 'R', 'e', 't', 'u', 'r', 'n', 's', ' ', 't', 'h', 'e', ' ', 'n', 'u', 'm', 'b', 'e', 'r', ' ', 'o', 'f', ' ', 'e', 'l', 'e', 'm', 'e', 'n', 't', 's', ' ', 'i', 'n', ' ', 't', 'h', 'i', 's', ' ', 's', 'e', 't', '.'],
   [' ', ' ', ' ', ' ', '#', '[', 'i', 'n', 'l', 'i', 'n', 'e', '(', 'a', 'l', 'w', 'a', 'y', 's', ')', ']'],
   [' ', ' ', ' ', ' ', 'p', 'u', 'b', ' ', 'f', 'n', ' ', 'l', 'e', 'n', '(', '&', 's', 'e', 'l', 'f', ')', ' ', '-', '>', ' ', 'u', 's', 'i', 'z', 'e', ' ', '{'],
   [' ', ' ', ' ', ' ', ' ', ' ', ' ', ' ', 's', 'e', 'l', 'f', '.', '_', '_', 'p', 'r', 'i', 'v', '_', 'r', 'e', 'p', 'r', '.', 'c', 'o', 'u', 'n', 't', '_', 'o', 'n', 'e', 's', '(', ')', ' ', 'a', 's', ' ', 'u', 's', 'i', 'z', 'e'],
   [' ', ' ', ' ', ' ', '}'],
   [' ', ' ', ' ', ' ', '/', '/', '/', ' ', 'R', 'e', 't', 'u', 'r', 'n', 's', ' ', '`', 't', 'r', 'u', 'e', '`', ' ', 'i', 'f', ' ', 't', 'h', 'e', ' ', 's', 'e', 't', ' ', 'c', 'o', 'n', 't', 'a', 'i', 'n', 's', ' ', 'n', 'o', ' ', 'e', 'l', 'e', 'm', 'e', 'n', 't', 's', '.'],
   [' ', ' ', ' ', ' ', '#', '[', 'i', 'n', 'l', 'i', 'n', 'e', '(', 'a', 'l', 'w', 'a', 'y', 's', ')', ']'],
   [' ', ' ', ' ', ' ', 'p', 'u', 'b', ' ', 'f', 'n', ' ', 'i', 's', '_', 'e', 'm', 'p', 't', 'y', '(', '&', 's', 'e', 'l', 'f', ')', ' ', '-', '>', ' ', 'b', 'o', 'o', 'l', ' ', '{'],
   [' ', ' ', ' ', ' ', ' ', ' ', ' ', ' ', 's', 'e', 'l', 'f', '.', '_', '_', 'p', 'r', 'i', 'v', '_', 'r', 'e', 'p', 'r', '.', 'i', 's', '_', 'e', 'm', 'p', 't', 'y', '(', ')'],
   [' ', ' ', ' ', ' ', '}'],
   [' ', ' ', ' ', ' ', '/', '/', '/', ' ', 'R', 'e', 'm', 'o', 'v', 'e', 's', ' ', 'a', 'l', 'l', ' ', 'e', 'l', 'e', 'm', 'e', 'n', 't', 's', ' ', 'f', 'r', 'o', 'm', ' ', 't', 'h', 'e', ' ', 's', 'e', 't', '.'],
   [' ', ' ', ' ', ' ', '#', '[', 'i', 'n', 'l', 'i', 'n', 'e', '(', 'a', 'l', 'w', 'a', 'y', 's', ')', ']'],
   [' ', ' ', ' ', ' ', 'p', 'u', 'b', ' ', 'f', 'n', ' ', 'c', 'l', 'e', 'a', 'r', '(', '&', 'm', 'u', 't', ' ', 's', 'e', 'l', 'f', ')', ' ', '{'],
   [' ', ' ', ' ', ' ', ' ', ' ', ' ', ' ', 's', 'e', 'l', 'f', '.', '_', '_', 'p', 'r', 'i', 'v', '_', 'r', 'e', 'p', 'r', ' ', '=', ' ', 'T', ':', ':', 'R', 'e', 'p', 'r', ':', ':', 'E', 'M', 'P', 'T', 'Y', ';'],
   [' ', ' ', ' ', ' ', '}'],
   [],
   [' ', ' ', ' ', ' ', '/', '/', '/', ' ', 'R', 'e', 't', 'u', 'r', 'n', 's', ' ', '`', 't', 'r', 'u', 'e', '`', ' ', 'i', 'f', ' ', '`', 's', 'e', 'l', 'f', '`', ' ', 'h', 'a', 's', ' ', 'n', 'o', ' ', 'e', 'l', 'e', 'm', 'e', 'n', 't', 's', ' ', 'i', 'n', ' ', 'c', 'o', 'm', 'm', 'o', 'n', ' ', 'w', 'i', 't', 'h', ' ', '`', 'o', 't', 'h', 'e', 'r', '`', '.', ' ', 'T', 'h', 'i', 's', ' ', 'i', 's', ' ', 'e', 'q', 'u', 'i', 'v', 'a', 'l', 'e', 'n', 't', ' ', 't', 'o'],
   [' ', ' ', ' ', ' ', '/', '/', '/', ' ', 'c', 'h', 'e', 'c', 'k', 'i', 'n', 'g', ' ', 'f', 'o', 'r', ' ', 'a', 'n', ' ', 'e', 'm', 'p', 't', 'y', ' ', 'i', 'n', 't', 'e', 'r', 's', 'e', 'c', 't', 'i', 'o', 'n', '.'],
   [' ', ' ', ' ', ' ', '#', '[', 'i', 'n', 'l', 'i', 'n', 'e', '(', 'a', 'l', 'w', 'a', 'y', 's', ')', ']'],
   [' ', ' ', ' ', ' ', 'p', 'u', 'b', ' ', 'f', 'n', ' ', 'i', 's', '_', 'd', 'i', 's', 'j', 'o', 'i', 'n', 't', '(', '&', 's', 'e', 'l', 'f', ',', ' ', 'o', 't', 'h', 'e', 'r', ':', ' ', 'S', 'e', 'l', 'f', ')', ' ', '-', '>', ' ', 'b', 'o', 'o', 'l', ' ', '{'],
   [' ', ' ', ' ', ' ', ' ', ' ', ' ', ' ', '(', '*', 's', 'e', 'l', 'f', ' ', '&', ' ', 'o', 't', 'h', 'e', 'r', ')', '.', 'i', 's', '_', 'e', 'm', 'p', 't', 'y', '(', ')'],
   [' ', ' ', ' ', ' ', '}'],
   [' ', ' ', ' ', ' ', '/', '/', '/', ' ', 'R', 'e', 't', 'u', 'r', 'n', 's', ' ', '`', 't', 'r', 'u', 'e', '`', ' ', 'i', 'f', ' ', 't', 'h', 'e', ' ', 's', 'e', 't', ' ', 'i', 's', ' ', 'a', ' ', 's', 'u', 'p', 'e', 'r', 's', 'e', 't', ' ', 'o', 'f', ' ', 'a', 'n', 'o', 't', 'h', 'e', 'r', ',', ' ', 'i', '.', 'e', '.', ',', ' ', '`', 's', 'e', 'l', 'f', '`', ' ', 'c', 'o', 'n', 't', 'a', 'i', 'n', 's', ' ', 'a', 't', ' ', 'l', 'e', 'a', 's', 't', ' ', 'a', 'l', 'l', ' ', 't', 'h', 'e'],
   [' ', ' ', ' ', ' ', '/', '/', '/', ' ', 'v', 'a', 'l', 'u', 'e', 's', ' ', 'i', 'n', ' ', '`', 'o', 't', 'h', 'e', 'r', '`', '.'],
   [' ', ' ', ' ', ' ', '#', '[', 'i', 'n', 'l', 'i', 'n', 'e', '(', 'a', 'l', 'w', 'a', 'y', 's', ')', ']'],
   [' ', ' ', ' ', ' ', 'p', 'u', 'b', ' ', 'f', 'n', ' ', 'i', 's', '_', 's', 'u', 'p', 'e', 'r', 's', 'e', 't', '(', '&', 's', 'e', 'l', 'f', ',', ' ', 'o', 't', 'h', 'e', 'r', ':', ' ', 'S', 'e', 'l', 'f', ')', ' ', '-', '>', ' ', 'b', 'o', 'o', 'l', ' ', '{'],
   [' ', ' ', ' ', ' ', ' ', ' ', ' ', ' ', '(', '*', 's', 'e', 'l', 'f', ' ', '&', ' ', 'o', 't', 'h', 'e', 'r', ')', '.', '_', '_', 'p', 'r', 'i', 'v', '_', 'r', 'e', 'p', 'r', ' ', '=', '=', ' ', 'o', 't', 'h', 'e', 'r', '.', '_', '_', 'p', 'r', 'i', 'v', '_', 'r', 'e', 'p', 'r'],
   [' ', ' ', ' ', ' ', '}'],
   [' ', ' ', ' ', ' ', '/', '/', '/', ' ', 'R', 'e', 't', 'u', 'r', 'n', 's', ' ', '`', 't', 'r', 'u', 'e', '`', ' ', 'i', 'f', ' ', 't', 'h', 'e', ' ', 's', 'e', 't', ' ', 'i', 's', ' ', 'a', ' ', 's', 'u', 'b', 's', 'e', 't', ' ', 'o', 'f', ' ', 'a', 'n', 'o', 't', 'h', 'e', 'r', ',', ' ', 'i', '.', 'e', '.', ',', ' ', '`', 'o', 't', 'h', 'e', 'r', '`', ' ', 'c', 'o', 'n', 't', 'a', 'i', 'n', 's', ' ', 'a', 't', ' ', 'l', 'e', 'a', 's', 't', ' ', 'a', 'l', 'l'],
   [' ', ' ', ' ', ' ', '/', '/', '/', ' ', 't', 'h', 'e', ' ', 'v', 'a', 'l', 'u', 'e', 's', ' ', 'i', 'n', ' ', '`', 's', 'e', 'l', 'f', '`', '.'],
   [' ', ' ', ' ', ' ', '#', '[', 'i', 'n', 'l', 'i', 'n', 'e', '(', 'a', 'l', 'w', 'a', 'y', 's', ')', ']'],
   [' ', ' ', ' ', ' ', 'p', 'u', 'b', ' ', 'f', 'n', ' ', 'i', 's', '_', 's', 'u', 'b', 's', 'e', 't', '(', '&', 's', 'e', 'l', 'f', ',', ' ', 'o', 't', 'h', 'e', 'r', ':', ' ', 'S', 'e', 'l', 'f', ')', ' ', '-', '>', ' ', 'b', 'o', 'o', 'l', ' ', '{'],
   [' ', ' ', ' ', ' ', ' ', ' ', ' ', ' ', 'o', 't', 'h', 'e', 'r', '.', 'i', 's', '_', 's', 'u', 'p', 'e', 'r', 's', 'e', 't', '(', '*', 's', 'e', 'l', 'f', ')'],
   [' ', ' ', ' ', ' ', '}'],
   [],
   [' ', ' ', ' ', ' ', '/', '/', '/', ' ', 'R', 'e', 't', 'u', 'r', 'n', 's', ' ', 'a', ' ', 's', 'e', 't', ' ', 'c', 'o', 'n', 't', 'a', 'i', 'n', 'i', 'n', 'g', ' ', 'a', 'n', 'y', ' ', 'e', 'l', 'e', 'm', 'e', 'n', 't', 's', ' ', 'p', 'r', 'e', 's', 'e', 'n', 't', ' ', 'i', 'n', ' ', 'e', 'i', 't', 'h', 'e', 'r', ' ', 's', 'e', 't', '.'],
   [' ', ' ', ' ', ' ', '#', '[', 'i', 'n', 'l', 'i', 'n', 'e', '(', 'a', 'l', 'w', 'a', 'y', 's', ')', ']'],
   [' ', ' ', ' ', ' ', 'p', 'u', 'b', ' ', 'f', 'n', ' ', 'u', 'n', 'i', 'o', 'n', '(', '&', 's', 'e', 'l', 'f', ',', ' ', 'o', 't', 'h', 'e', 'r', ':', ' ', 'S', 'e', 'l', 'f', ')', ' ', '-', '>', ' ', 'S', 'e', 'l', 'f', ' ', '{'],
   [' ', ' ', ' ', ' ', ' ', ' ', ' ', ' ', 'E', 'n', 'u', 'm', 'S', 'e', 't', ' ', '{', ' ', '_', '_', 'p', 'r', 'i', 'v', '_', 'r', 'e', 'p', 'r', ':', ' ', 's', 'e', 'l', 'f', '.', '_', '_', 'p', 'r', 'i', 'v', '_', 'r', 'e', 'p', 'r', ' ', '|', ' ', 'o', 't', 'h', 'e', 'r', '.', '_', '_', 'p', 'r', 'i', 'v', '_', 'r', 'e', 'p', 'r', ' ', '}'],
   [' ', ' ', ' ', ' ', '}'],
   [' ', ' ', ' ', ' ', '/', '/', '/', ' ', 'R', 'e', 't', 'u', 'r', 'n', 's', ' ', 'a', ' ', 's', 'e', 't', ' ', 'c', 'o', 'n', 't', 'a', 'i', 'n', 'i', 'n', 'g', ' ', 'e', 'v', 'e', 'r', 'y', ' ', 'e', 'l', 'e', 'm', 'e', 'n', 't', ' ', 'p', 'r', 'e', 's', 'e', 'n', 't', ' ', 'i', 'n', ' ', 'b', 'o', 't', 'h', ' ', 's', 'e', 't', 's', '.'],
   [' ', ' ', ' ', ' ', '#', '[', 'i', 'n', 'l', 'i', 'n', 'e', '(', 'a', 'l', 'w', 'a', 'y', 's', ')', ']'],
   [' ', ' ', ' ', ' ', 'p', 'u', 'b', ' ', 'f', 'n', ' ', 'i', 'n', 't', 'e', 'r', 's', 'e', 'c', 't', 'i', 'o', 'n', '(', '&', 's', 'e', 'l', 'f', ',', ' ', 'o', 't', 'h', 'e', 'r', ':', ' ', 'S', 'e', 'l', 'f', ')', ' ', '-', '>', ' ', 'S', 'e', 'l', 'f', ' ', '{'],
   [' ', ' ', ' ', ' ', ' ', ' ', ' ', ' ', 'E', 'n', 'u', 'm', 'S', 'e', 't', ' ', '{', ' ', '_', '_', 'p', 'r', 'i', 'v', '_', 'r', 'e', 'p', 'r', ':', ' ', 's', 'e', 'l', 'f', '.', '_', '_', 'p', 'r', 'i', 'v', '_', 'r', 'e', 'p', 'r', ' ', '&', ' ', 'o', 't', 'h', 'e', 'r', '.', '_', '_', 'p', 'r', 'i', 'v', '_', 'r', 'e', 'p', 'r', ' ', '}'],
   [' ', ' ', ' ', ' ', '}'],
   [' ', ' ', ' ', ' ', '/', '/', '/', ' ', 'R', 'e', 't', 'u', 'r', 'n', 's', ' ', 'a', ' ', 's', 'e', 't', ' ', 'c', 'o', 'n', 't', 'a', 'i', 'n', 'i', 'n', 'g', ' ', 'e', 'l', 'e', 'm', 'e', 'n', 't', ' ', 'p', 'r', 'e', 's', 'e', 'n', 't', ' ', 'i', 'n', ' ', '`', 's', 'e', 'l', 'f', '`', ' ', 'b', 'u', 't', ' ', 'n', 'o', 't', ' ', 'i', 'n', ' ', '`', 'o', 't', 'h', 'e', 'r', '`', '.'],
   [' ', ' ', ' ', ' ', '#', '[', 'i', 'n', 'l', 'i', 'n', 'e', '(', 'a', 'l', 'w', 'a', 'y', 's', ')', ']'],
   [' ', ' ', ' ', ' ', 'p', 'u', 'b', ' ', 'f', 'n', ' ', 'd', 'i', 'f', 'f', 'e', 'r', 'e', 'n', 'c', 'e', '(', '&', 's', 'e', 'l', 'f', ',', ' ', 'o', 't', 'h', 'e', 'r', ':', ' ', 'S', 'e', 'l', 'f', ')', ' ', '-', '>', ' ', 'S', 'e', 'l', 'f', ' ', '{'],
   [' ', ' ', ' ', ' ', ' ', ' ', ' ', ' ', 'E', 'n', 'u', 'm', 'S', 'e', 't', ' ', '{', ' ', '_', '_', 'p', 'r', 'i', 'v', '_', 'r', 'e', 'p', 'r', ':', ' ', 's', 'e', 'l', 'f', '.', '_', '_', 'p', 'r', 'i', 'v', '_', 'r', 'e', 'p', 'r', '.', 'a', 'n', 'd', '_', 'n', 'o', 't', '(', 'o', 't', 'h', 'e', 'r', '.', '_', '_', 'p', 'r', 'i', 'v', '_', 'r', 'e', 'p', 'r', ')', ' ', '}'],
   [' ', ' ', ' ', ' ', '}'],
   [' ', ' ', ' ', ' ', '/', '/', '/', ' ', 'R', 'e', 't', 'u', 'r', 'n', 's', ' ', 'a', ' ', 's', 'e', 't', ' ', 'c', 'o', 'n', 't', 'a', 'i', 'n', 'i', 'n', 'g', ' ', 'e', 'v', 'e', 'r', 'y', ' ', 'e', 'l', 'e', 'm', 'e', 'n', 't', ' ', 'p', 'r', 'e', 's', 'e', 'n', 't', ' ', 'i', 'n', ' ', 'e', 'i', 't', 'h', 'e', 'r', ' ', '`', 's', 'e', 'l', 'f', '`', ' ', 'o', 'r', ' ', '`', 'o', 't', 'h', 'e', 'r', '`', ',', ' ', 'b', 'u', 't', ' ', 'i', 's', ' ', 'n', 'o', 't'],
   [' ', ' ', ' ', ' ', '/', '/', '/', ' ', 'p', 'r', 'e', 's', 'e', 'n', 't', ' ', 'i', 'n', ' ', 'b', 'o', 't', 'h', '.'],
   [' ', ' ', ' ', ' ', '#', '[', 'i', 'n', 'l', 'i', 'n', 'e', '(', 'a', 'l', 'w', 'a', 'y', 's', ')', ']'],
   [' ', ' ', ' ', ' ', 'p', 'u', 'b', ' ', 'f', 'n', ' ', 's', 'y', 'm', 'm', 'e', 't', 'r', 'i', 'c', 'a', 'l', '_', 'd', 'i', 'f', 'f', 'e', 'r', 'e', 'n', 'c', 'e', '(', '&', 's', 'e', 'l', 'f', ',', ' ', 'o', 't', 'h', 'e', 'r', ':', ' ', 'S', 'e', 'l', 'f', ')', ' ', '-', '>', ' ', 'S', 'e', 'l', 'f', ' ', '{'],
   [' ', ' ', ' ', ' ', ' ', ' ', ' ', ' ', 'E', 'n', 'u', 'm', 'S', 'e', 't', ' ', '{', ' ', '_', '_', 'p', 'r', 'i', 'v', '_', 'r', 'e', 'p', 'r', ':', ' ', 's', 'e', 'l', 'f', '.', '_', '_', 'p', 'r', 'i', 'v', '_', 'r', 'e', 'p', 'r', ' ', '^', ' ', 'o', 't', 'h', 'e', 'r', '.', '_', '_', 'p', 'r', 'i', 'v', '_', 'r', 'e', 'p', 'r', ' ', '}'],
   [' ', ' ', ' ', ' ', '}'],
   [' ', ' ', ' ', ' ', '/', '/', '/', ' ', 'R', 'e', 't', 'u', 'r', 'n', 's', ' ', 'a', ' ', 's', 'e', 't', ' ', 'c', 'o', 'n', 't', 'a', 'i', 'n', 'i', 'n', 'g', ' ', 'a', 'l', 'l', ' ', 'e', 'n', 'u', 'm', ' ', 'v', 'a', 'r', 'i', 'a', 'n', 't', 's', ' ', 'n', 'o', 't', ' ', 'i', 'n', ' ', 't', 'h', 'i', 's', ' ', 's', 'e', 't', '.'],
   [' ', ' ', ' ', ' ', '#', '[', 'i', 'n', 'l', 'i', 'n', 'e', '(', 'a', 'l', 'w', 'a', 'y', 's', ')', ']'],
   [' ', ' ', ' ', ' ', 'p', 'u', 'b', ' ', 'f', 'n', ' ', 'c', 'o', 'm', 'p', 'l', 'e', 'm', 'e', 'n', 't', '(', '&', 's', 'e', 'l', 'f', ')', ' ', '-', '>', ' ', 'S', 'e', 'l', 'f', ' ', '{'],
   [' ', ' ', ' ', ' ', ' ', ' ', ' ', ' ', 'E', 'n', 'u', 'm', 'S', 'e', 't', ' ', '{', ' ', '_', '_', 'p', 'r', 'i', 'v', '_', 'r', 'e', 'p', 'r', ':', ' ', '!', 's', 'e', 'l', 'f', '.', '_', '_', 'p', 'r', 'i', 'v', '_', 'r', 'e', 'p', 'r', ' ', '&', ' ', 'T', ':', ':', 'A', 'L', 'L', '_', 'B', 'I', 'T', 'S', ' ', '}'],
   [' ', ' ', ' ', ' ', '}'],
   [],
   [' ', ' ', ' ', ' ', '/', '/', '/', ' ', 'C', 'h', 'e', 'c', 'k', 's', ' ', 'w', 'h', 'e', 't', 'h', 'e', 'r', ' ', 't', 'h', 'i', 's', ' ', 's', 'e', 't', ' ', 'c', 'o', 'n', 't', 'a', 'i', 'n', 's', ' ', 'a', ' ', 'v', 'a', 'l', 'u', 'e', '.'],
   [' ', ' ', ' ', ' ', '#', '[', 'i', 'n', 'l', 'i', 'n', 'e', '(', 'a', 'l', 'w', 'a', 'y', 's', ')', ']'],
   [' ', ' ', ' ', ' ', 'p', 'u', 'b', ' ', 'f', 'n', ' ', 'c', 'o', 'n', 't', 'a', 'i', 'n', 's', '(', '&', 's', 'e', 'l', 'f', ',', ' ', 'v', 'a', 'l', 'u', 'e', ':', ' ', 'T', ')', ' ', '-', '>', ' ', 'b', 'o', 'o', 'l', ' ', '{'],
   [' ', ' ', ' ', ' ', ' ', ' ', ' ', ' ', 's', 'e', 'l', 'f', '.', '_', '_', 'p', 'r', 'i', 'v', '_', 'r', 'e', 'p', 'r', '.', 'h', 'a', 's', '_', 'b', 'i', 't', '(', 'v', 'a', 'l', 'u', 'e', '.', 'e', 'n', 'u', 'm', '_', 'i', 'n', 't', 'o', '_', 'u', '3', '2', '(', ')', ')'],
   [' ', ' ', ' ', ' ', '}'],
   [],
   [' ', ' ', ' ', ' ', '/', '/', '/', ' ', 'A', 'd', 'd', 's', ' ', 'a', ' ', 'v', 'a', 'l', 'u', 'e', ' ', 't', 'o', ' ', 't', 'h', 'i', 's', ' ', 's', 'e', 't', '.'],
   [' ', ' ', ' ', ' ', '/', '/', '/'],
   [' ', ' ', ' ', ' ', '/', '/', '/', ' ', 'I', 'f', ' ', 't', 'h', 'e', ' ', 's', 'e', 't', ' ', 'd', 'i', 'd', ' ', 'n', 'o', 't', ' ', 'h', 'a', 'v', 'e', ' ', 't', 'h', 'i', 's', ' ', 'v', 'a', 'l', 'u', 'e', ' ', 'p', 'r', 'e', 's', 'e', 'n', 't', ',', ' ', '`', 't', 'r', 'u', 'e', '`', ' ', 'i', 's', ' ', 'r', 'e', 't', 'u', 'r', 'n', 'e', 'd', '.'],
   [' ', ' ', ' ', ' ', '/', '/', '/'],
   [' ', ' ', ' ', ' ', '/', '/', '/', ' ', 'I', 'f', ' ', 't', 'h', 'e', ' ', 's', 'e', 't', ' ', 'd', 'i', 'd', ' ', 'h', 'a', 'v', 'e', ' ', 't', 'h', 'i', 's', ' ', 'v', 'a', 'l', 'u', 'e', ' ', 'p', 'r', 'e', 's', 'e', 'n', 't', ',', ' ', '`', 'f', 'a', 'l', 's', 'e', '`', ' ', 'i', 's', ' ', 'r', 'e', 't', 'u', 'r', 'n', 'e', 'd', '.'],
   [' ', ' ', ' ', ' ', '#', '[', 'i', 'n', 'l', 'i', 'n', 'e', '(', 'a', 'l', 'w', 'a', 'y', 's', ')', ']'],
   [' ', ' ', ' ', ' ', 'p', 'u', 'b', ' ', 'f', 'n', ' ', 'i', 'n', 's', 'e', 'r', 't', '(', '&', 'm', 'u', 't', ' ', 's', 'e', 'l', 'f', ',', ' ', 'v', 'a', 'l', 'u', 'e', ':', ' ', 'T', ')', ' ', '-', '>', ' ', 'b', 'o', 'o', 'l', ' ', '{'],
   [' ', ' ', ' ', ' ', ' ', ' ', ' ', ' ', 'l', 'e', 't', ' ', 'c', 'o', 'n', 't', 'a', 'i', 'n', 's', ' ', '=', ' ', '!', 's', 'e', 'l', 'f', '.', 'c', 'o', 'n', 't', 'a', 'i', 'n', 's', '(', 'v', 'a', 'l', 'u', 'e', ')', ';'],
   [' ', ' ', ' ', ' ', ' ', ' ', ' ', ' ', 's', 'e', 'l', 'f', '.', '_', '_', 'p', 'r', 'i', 'v', '_', 'r', 'e', 'p', 'r', '.', 'a', 'd', 'd', '_', 'b', 'i', 't', '(', 'v', 'a', 'l', 'u', 'e', '.', 'e', 'n', 'u', 'm', '_', 'i', 'n', 't', 'o', '_', 'u', '3', '2', '(', ')', ')', ';'],
   [' ', ' ', ' ', ' ', ' ', ' ', ' ', ' ', 'c', 'o', 'n', 't', 'a', 'i', 'n', 's'],
   [' ', ' ', ' ', ' ', '}'],
   [' ', ' ', ' ', ' ', '/', '/', '/', ' ', 'R', 'e', 'm', 'o', 'v', 'e', 's', ' ', 'a', ' ', 'v', 'a', 'l', 'u', 'e', ' ', 'f', 'r', 'o', 'm', ' ', 't', 'h', 'i', 's', ' ', 's', 'e', 't', '.', ' ', 'R', 'e', 't', 'u', 'r', 'n', 's', ' ', 'w', 'h', 'e', 't', 'h', 'e', 'r', ' ', 't', 'h', 'e', ' ', 'v', 'a', 'l', 'u', 'e', ' ', 'w', 'a', 's', ' ', 'p', 'r', 'e', 's', 'e', 'n', 't', ' ', 'i', 'n', ' ', 't', 'h', 'e', ' ', 's', 'e', 't', '.'],
   [' ', ' ', ' ', ' ', '#', '[', 'i', 'n', 'l', 'i', 'n', 'e', '(', 'a', 'l', 'w', 'a', 'y', 's', ')', ']'],
   [' ', ' ', ' ', ' ', 'p', 'u', 'b', ' ', 'f', 'n', ' ', 'r', 'e', 'm', 'o', 'v', 'e', '(', '&', 'm', 'u', 't', ' ', 's', 'e', 'l', 'f', ',', ' ', 'v', 'a', 'l', 'u', 'e', ':', ' ', 'T', ')', ' ', '-', '>', ' ', 'b', 'o', 'o', 'l', ' ', '{'],
   [' ', ' ', ' ', ' ', ' ', ' ', ' ', ' ', 'l', 'e', 't', ' ', 'c', 'o', 'n', 't', 'a', 'i', 'n', 's', ' ', '=', ' ', 's', 'e', 'l', 'f', '.', 'c', 'o', 'n', 't', 'a', 'i', 'n', 's', '(', 'v', 'a', 'l', 'u', 'e', ')', ';'],
   [' ', ' ', ' ', ' ', ' ', ' ', ' ', ' ', 's', 'e', 'l', 'f', '.', '_', '_', 'p', 'r', 'i', 'v', '_', 'r', 'e', 'p', 'r', '.', 'r', 'e', 'm', 'o', 'v', 'e', '_', 'b', 'i', 't', '(', 'v', 'a', 'l', 'u', 'e', '.', 'e', 'n', 'u', 'm', '_', 'i', 'n', 't', 'o', '_', 'u', '3', '2', '(', ')', ')', ';'],
   [' ', ' ', ' ', ' ', ' ', ' ', ' ', ' ', 'c', 'o', 'n', 't', 'a', 'i', 'n', 's'],
   [' ', ' ', ' ', ' ', '}'],
   [],
   [' ', ' ', ' ', ' ', '/', '/', '/', ' ', 'A', 'd', 'd', 's', ' ', 'a', 'l', 'l', ' ', 'e', 'l', 'e', 'm', 'e', 'n', 't', 's', ' ', 'i', 'n', ' ', 'a', 'n', 'o', 't', 'h', 'e', 'r', ' ', 's', 'e', 't', ' ', 't', 'o', ' ', 't', 'h', 'i', 's', ' ', 'o', 'n', 'e', '.'],
   [' ', ' ', ' ', ' ', '#', '[', 'i', 'n', 'l', 'i', 'n', 'e', '(', 'a', 'l', 'w', 'a', 'y', 's', ')', ']'],
   [' ', ' ', ' ', ' ', 'p', 'u', 'b', ' ', 'f', 'n', ' ', 'i', 'n', 's', 'e', 'r', 't', '_', 'a', 'l', 'l', '(', '&', 'm', 'u', 't', ' ', 's', 'e', 'l', 'f', ',', ' ', 'o', 't', 'h', 'e', 'r', ':', ' ', 'S', 'e', 'l', 'f', ')', ' ', '{'],
   [' ', ' ', ' ', ' ', ' ', ' ', ' ', ' ', 's', 'e', 'l', 'f', '.', '_', '_', 'p', 'r', 'i', 'v', '_', 'r', 'e', 'p', 'r', ' ', '=', ' ', 's', 'e', 'l', 'f', '.', '_', '_', 'p', 'r', 'i', 'v', '_', 'r', 'e', 'p', 'r', ' ', '|', ' ', 'o', 't', 'h', 'e', 'r', '.', '_', '_', 'p', 'r', 'i', 'v', '_', 'r', 'e', 'p', 'r'],
   [' ', ' ', ' ', ' ', '}'],
   [' ', ' ', ' ', ' ', '/', '/', '/', ' ', 'R', 'e', 'm', 'o', 'v', 'e', 's', ' ', 'a', 'l', 'l', ' ', 'v', 'a', 'l', 'u', 'e', 's', ' ', 'i', 'n', ' ', 'a', 'n', 'o', 't', 'h', 'e', 'r', ' ', 's', 'e', 't', ' ', 'f', 'r', 'o', 'm', ' ', 't', 'h', 'i', 's', ' ', 'o', 'n', 'e', '.'],
   [' ', ' ', ' ', ' ', '#', '[', 'i', 'n', 'l', 'i', 'n', 'e', '(', 'a', 'l', 'w', 'a', 'y', 's', ')', ']'],
   [' ', ' ', ' ', ' ', 'p', 'u', 'b', ' ', 'f', 'n', ' ', 'r', 'e', 'm', 'o', 'v', 'e', '_', 'a', 'l', 'l', '(', '&', 'm', 'u', 't', ' ', 's', 'e', 'l', 'f', ',', ' ', 'o', 't', 'h', 'e', 'r', ':', ' ', 'S', 'e', 'l', 'f', ')', ' ', '{'],
   [' ', ' ', ' ', ' ', ' ', ' ', ' ', ' ', 's', 'e', 'l', 'f', '.', '_', '_', 'p', 'r', 'i', 'v', '_', 'r', 'e', 'p', 'r', ' ', '=', ' ', 's', 'e', 'l', 'f', '.', '_', '_', 'p', 'r', 'i', 'v', '_', 'r', 'e', 'p', 'r', '.', 'a', 'n', 'd', '_', 'n', 'o', 't', '(', 'o', 't', 'h', 'e', 'r', '.', '_', '_', 'p', 'r', 'i', 'v', '_', 'r', 'e', 'p', 'r', ')', ';'],
   [' ', ' ', ' ', ' ', '}'],
   ['}'],
   [],
   ['#', '[', 'd', 'o', 'c', '(', 'h', 'i', 'd', 'd', 'e', 'n', ')', ']'],
   ['i', 'm', 'p', 'l', '<', 'T', ':', ' ', 'E', 'n', 'u', 'm', 'S', 'e', 't', 'T', 'y', 'p', 'e', '>', ' ', 'E', 'n', 'u', 'm', 'S', 'e', 't', '<', 'T', '>', ' ', '{'],
   [' ', ' ', ' ', ' ', '/', '/', '/', ' ', 'C', 'r', 'e', 'a', 't', 'e', 's', ' ', 'a', ' ', 'n', 'e', 'w', ' ', 'e', 'n', 'u', 'm', 's', 'e', 't', ' ', 'h', 'e', 'l', 'p', 'e', 'r', '.'],
   [' ', ' ', ' ', ' ', '#', '[', 'd', 'e', 'p', 'r', 'e', 'c', 'a', 't', 'e', 'd', '(', 'n', 'o', 't', 'e', ' ', '=', ' ', '"', 'T', 'h', 'i', 's', ' ', 'm', 'e', 't', 'h', 'o', 'd', ' ', 'i', 's', ' ', 'a', 'n', ' ', 'i', 'n', 't', 'e', 'r', 'n', 'a', 'l', ' ', 'i', 'm', 'p', 'l', 'e', 'm', 'e', 'n', 't', 'a', 't', 'i', 'o', 'n', ' ', 'd', 'e', 't', 'a', 'i', 'l', ' ', 'g', 'e', 'n', 'e', 'r', 'a', 't', 'e', 'd', ' ', 'b', 'y', ' ', 't', 'h', 'e', ' ', '\\'],
   [' ', ' ', ' ', ' ', ' ', ' ', ' ', ' ', ' ', ' ', ' ', ' ', ' ', ' ', ' ', ' ', ' ', ' ', ' ', ' ', ' ', ' ', ' ', ' ', ' ', '`', 'e', 'n', 'u', 'm', 's', 'e', 't', '`', ' ', 'c', 'r', 'a', 't', 'e', '\'', 's', ' ', 'p', 'r', 'o', 'c', 'e', 'd', 'u', 'r', 'a', 'l', ' ', 'm', 'a', 'c', 'r', 'o', '.', ' ', 'I', 't', ' ', 's', 'h', 'o', 'u', 'l', 'd', ' ', 'n', 'o', 't', ' ', 'b', 'e', ' ', 'u', 's', 'e', 'd', ' ', 'd', 'i', 'r', 'e', 'c', 't', 'l', 'y', '.', '"', ')', ']'],
   [' ', ' ', ' ', ' ', '#', '[', 'd', 'o', 'c', '(', 'h', 'i', 'd', 'd', 'e', 'n', ')', ']'],
   [' ', ' ', ' ', ' ', '#', '[', 'a', 'l', 'l', 'o', 'w', '(', 'n', 'o', 'n', '_', 's', 'n', 'a', 'k', 'e', '_', 'c', 'a', 's', 'e', ')', ']'],
   [' ', ' ', ' ', ' ', 'p', 'u', 'b', ' ', 'c', 'o', 'n', 's', 't', ' ', 'f', 'n', ' ', '_', '_', 'i', 'm', 'p', 'l', '_', 'e', 'n', 'u', 'm', 's', 'e', 't', '_', 'i', 'n', 't', 'e', 'r', 'n', 'a', 'l', '_', '_', 'c', 'o', 'n', 's', 't', '_', 'h', 'e', 'l', 'p', 'e', 'r', '(', '&', 's', 'e', 'l', 'f', ')', ' ', '-', '>', ' ', 'T', ':', ':', 'C', 'o', 'n', 's', 't', 'H', 'e', 'l', 'p', 'e', 'r', ' ', '{'],
   [' ', ' ', ' ', ' ', ' ', ' ', ' ', ' ', 'T', ':', ':', 'C', 'O', 'N', 'S', 'T', '_', 'H', 'E', 'L', 'P', 'E', 'R', '_', 'I', 'N', 'S', 'T', 'A', 'N', 'C', 'E'],
   [' ', ' ', ' ', ' ', '}'],
   [],
   [' ', ' ', ' ', ' ', '/', '/', '/', ' ', 'C', 'r', 'e', 'a', 't', 'e', 's', ' ', 'a', ' ', 'n', 'e', 'w', ' ', 'e', 'n', 'u', 'm', 's', 'e', 't', ' ', 'w', 'i', 't', 'h', ' ', 'o', 'n', 'l', 'y', ' ', 't', 'h', 'i', 's', ' ', 'v', 'a', 'r', 'i', 'a', 'n', 't', '.'],
   [' ', ' ', ' ', ' ', '#', '[', 'd', 'e', 'p', 'r', 'e', 'c', 'a', 't', 'e', 'd', '(', 'n', 'o', 't', 'e', ' ', '=', ' ', '"', 'T', 'h', 'i', 's', ' ', 'm', 'e', 't', 'h', 'o', 'd', ' ', 'i', 's', ' ', 'a', 'n', ' ', 'i', 'n', 't', 'e', 'r', 'n', 'a', 'l', ' ', 'i', 'm', 'p', 'l', 'e', 'm', 'e', 'n', 't', 'a', 't', 'i', 'o', 'n', ' ', 'd', 'e', 't', 'a', 'i', 'l', ' ', 'g', 'e', 'n', 'e', 'r', 'a', 't', 'e', 'd', ' ', 'b', 'y', ' ', 't', 'h', 'e', ' ', '\\'],
   [' ', ' ', ' ', ' ', ' ', ' ', ' ', ' ', ' ', ' ', ' ', ' ', ' ', ' ', ' ', ' ', ' ', ' ', ' ', ' ', ' ', ' ', ' ', ' ', ' ', '`', 'e', 'n', 'u', 'm', 's', 'e', 't', '`', ' ', 'c', 'r', 'a', 't', 'e', '\'', 's', ' ', 'p', 'r', 'o', 'c', 'e', 'd', 'u', 'r', 'a', 'l', ' ', 'm', 'a', 'c', 'r', 'o', '.', ' ', 'I', 't', ' ', 's', 'h', 'o', 'u', 'l', 'd', ' ', 'n', 'o', 't', ' ', 'b', 'e', ' ', 'u', 's', 'e', 'd', ' ', 'd', 'i', 'r', 'e', 'c', 't', 'l', 'y', '.', '"', ')', ']'],
   [' ', ' ', ' ', ' ', '#', '[', 'd', 'o', 'c', '(', 'h', 'i', 'd', 'd', 'e', 'n', ')', ']'],
   [' ', ' ', ' ', ' ', '#', '[', 'a', 'l', 'l', 'o', 'w', '(', 'n', 'o', 'n', '_', 's', 'n', 'a', 'k', 'e', '_', 'c', 'a', 's', 'e', ')', ']'],
   [' ', ' ', ' ', ' ', 'p', 'u', 'b', ' ', 'c', 'o', 'n', 's', 't', ' ', 'f', 'n', ' ', '_', '_', 'i', 'm', 'p', 'l', '_', 'e', 'n', 'u', 'm', 's', 'e', 't', '_', 'i', 'n', 't', 'e', 'r', 'n', 'a', 'l', '_', '_', 'c', 'o', 'n', 's', 't', '_', 'o', 'n', 'l', 'y', '(', 's', 'e', 'l', 'f', ')', ' ', '-', '>', ' ', 'S', 'e', 'l', 'f', ' ', '{'],
   [' ', ' ', ' ', ' ', ' ', ' ', ' ', ' ', 's', 'e', 'l', 'f'],
   [' ', ' ', ' ', ' ', '}'],
   ['}'],
   [],
   ['i', 'm', 'p', 'l', '<', 'T', ':', ' ', 'E', 'n', 'u', 'm', 'S', 'e', 't', 'T', 'y', 'p', 'e', '>', ' ', 'D', 'e', 'f', 'a', 'u', 'l', 't', ' ', 'f', 'o', 'r', ' ', 'E', 'n', 'u', 'm', 'S', 'e', 't', '<', 'T', '>', ' ', '{'],
   [' ', ' ', ' ', ' ', '/', '/', '/', ' ', 'R', 'e', 't', 'u', 'r', 'n', 's', ' ', 'a', 'n', ' ', 'e', 'm', 'p', 't', 'y', ' ', 's', 'e', 't', '.'],
   [' ', ' ', ' ', ' ', 'f', 'n', ' ', 'd', 'e', 'f', 'a', 'u', 'l', 't', '(', ')', ' ', '-', '>', ' ', 'S', 'e', 'l', 'f', ' ', '{'],
   [' ', ' ', ' ', ' ', ' ', ' ', ' ', ' ', 'S', 'e', 'l', 'f', ':', ':', 'n', 'e', 'w', '(', ')'],
   [' ', ' ', ' ', ' ', '}'],
   ['}'],
   [],
   ['i', 'm', 'p', 'l', '<', 'T', ':', ' ', 'E', 'n', 'u', 'm', 'S', 'e', 't', 'T', 'y', 'p', 'e', ',', ' ', 'O', ':', ' ', 'I', 'n', 't', 'o', '<', 'E', 'n', 'u', 'm', 'S', 'e', 't', '<', 'T', '>', '>', '>', ' ', 'S', 'u', 'b', '<', 'O', '>', ' ', 'f', 'o', 'r', ' ', 'E', 'n', 'u', 'm', 'S', 'e', 't', '<', 'T', '>', ' ', '{'],
   [' ', ' ', ' ', ' ', 't', 'y', 'p', 'e', ' ', 'O', 'u', 't', 'p', 'u', 't', ' ', '=', ' ', 'S', 'e', 'l', 'f', ';'],
   [' ', ' ', ' ', ' ', '#', '[', 'i', 'n', 'l', 'i', 'n', 'e', '(', 'a', 'l', 'w', 'a', 'y', 's', ')', ']'],
   [' ', ' ', ' ', ' ', 'f', 'n', ' ', 's', 'u', 'b', '(', 's', 'e', 'l', 'f', ',', ' ', 'o', 't', 'h', 'e', 'r', ':', ' ', 'O', ')', ' ', '-', '>', ' ', 'S', 'e', 'l', 'f', ':', ':', 'O', 'u', 't', 'p', 'u', 't', ' ', '{'],
   [' ', ' ', ' ', ' ', ' ', ' ', ' ', ' ', 's', 'e', 'l', 'f', '.', 'd', 'i', 'f', 'f', 'e', 'r', 'e', 'n', 'c', 'e', '(', 'o', 't', 'h', 'e', 'r', '.', 'i', 'n', 't', 'o', '(', ')', ')'],
   [' ', ' ', ' ', ' ', '}'],
   ['}'],
   ['i', 'm', 'p', 'l', '<', 'T', ':', ' ', 'E', 'n', 'u', 'm', 'S', 'e', 't', 'T', 'y', 'p', 'e', ',', ' ', 'O', ':', ' ', 'I', 'n', 't', 'o', '<', 'E', 'n', 'u', 'm', 'S', 'e', 't', '<', 'T', '>', '>', '>', ' ', 'B', 'i', 't', 'A', 'n', 'd', '<', 'O', '>', ' ', 'f', 'o', 'r', ' ', 'E', 'n', 'u', 'm', 'S', 'e', 't', '<', 'T', '>', ' ', '{'],
   [' ', ' ', ' ', ' ', 't', 'y', 'p', 'e', ' ', 'O', 'u', 't', 'p', 'u', 't', ' ', '=', ' ', 'S', 'e', 'l', 'f', ';'],
   [' ', ' ', ' ', ' ', '#', '[', 'i', 'n', 'l', 'i', 'n', 'e', '(', 'a', 'l', 'w', 'a', 'y', 's', ')', ']'],
   [' ', ' ', ' ', ' ', 'f', 'n', ' ', 'b', 'i', 't', 'a', 'n', 'd', '(', 's', 'e', 'l', 'f', ',', ' ', 'o', 't', 'h', 'e', 'r', ':', ' ', 'O', ')', ' ', '-', '>', ' ', 'S', 'e', 'l', 'f', ':', ':', 'O', 'u', 't', 'p', 'u', 't', ' ', '{'],
   [' ', ' ', ' ', ' ', ' ', ' ', ' ', ' ', 's', 'e', 'l', 'f', '.', 'i', 'n', 't', 'e', 'r', 's', 'e', 'c', 't', 'i', 'o', 'n', '(', 'o', 't', 'h', 'e', 'r', '.', 'i', 'n', 't', 'o', '(', ')', ')'],
   [' ', ' ', ' ', ' ', '}'],
   ['}'],
   ['i', 'm', 'p', 'l', '<', 'T', ':', ' ', 'E', 'n', 'u', 'm', 'S', 'e', 't', 'T', 'y', 'p', 'e', ',', ' ', 'O', ':', ' ', 'I', 'n', 't', 'o', '<', 'E', 'n', 'u', 'm', 'S', 'e', 't', '<', 'T', '>', '>', '>', ' ', 'B', 'i', 't', 'O', 'r', '<', 'O', '>', ' ', 'f', 'o', 'r', ' ', 'E', 'n', 'u', 'm', 'S', 'e', 't', '<', 'T', '>', ' ', '{'],
   [' ', ' ', ' ', ' ', 't', 'y', 'p', 'e', ' ', 'O', 'u', 't', 'p', 'u', 't', ' ', '=', ' ', 'S', 'e', 'l', 'f', ';'],
   [' ', ' ', ' ', ' ', '#', '[', 'i', 'n', 'l', 'i', 'n', 'e', '(', 'a', 'l', 'w', 'a', 'y', 's', ')', ']'],
   [' ', ' ', ' ', ' ', 'f', 'n', ' ', 'b', 'i', 't', 'o', 'r', '(', 's', 'e', 'l', 'f', ',', ' ', 'o', 't', 'h', 'e', 'r', ':', ' ', 'O', ')', ' ', '-', '>', ' ', 'S', 'e', 'l', 'f', ':', ':', 'O', 'u', 't', 'p', 'u', 't', ' ', '{'],
   [' ', ' ', ' ', ' ', ' ', ' ', ' ', ' ', 's', 'e', 'l', 'f', '.', 'u', 'n', 'i', 'o', 'n', '(', 'o', 't', 'h', 'e', 'r', '.', 'i', 'n', 't', 'o', '(', ')', ')'],
   [' ', ' ', ' ', ' ', '}'],
   ['}'],
   ['i', 'm', 'p', 'l', '<', 'T', ':', ' ', 'E', 'n', 'u', 'm', 'S', 'e', 't', 'T', 'y', 'p', 'e', ',', ' ', 'O', ':', ' ', 'I', 'n', 't', 'o', '<', 'E', 'n', 'u', 'm', 'S', 'e', 't', '<', 'T', '>', '>', '>', ' ', 'B', 'i', 't', 'X', 'o', 'r', '<', 'O', '>', ' ', 'f', 'o', 'r', ' ', 'E', 'n', 'u', 'm', 'S', 'e', 't', '<', 'T', '>', ' ', '{'],
   [' ', ' ', ' ', ' ', 't', 'y', 'p', 'e', ' ', 'O', 'u', 't', 'p', 'u', 't', ' ', '=', ' ', 'S', 'e', 'l', 'f', ';'],
   [' ', ' ', ' ', ' ', '#', '[', 'i', 'n', 'l', 'i', 'n', 'e', '(', 'a', 'l', 'w', 'a', 'y', 's', ')', ']'],
   [' ', ' ', ' ', ' ', 'f', 'n', ' ', 'b', 'i', 't', 'x', 'o', 'r', '(', 's', 'e', 'l', 'f', ',', ' ', 'o', 't', 'h', 'e', 'r', ':', ' ', 'O', ')', ' ', '-', '>', ' ', 'S', 'e', 'l', 'f', ':', ':', 'O', 'u', 't', 'p', 'u', 't', ' ', '{'],
   [' ', ' ', ' ', ' ', ' ', ' ', ' ', ' ', 's', 'e', 'l', 'f', '.', 's', 'y', 'm', 'm', 'e', 't', 'r', 'i', 'c', 'a', 'l', '_', 'd', 'i', 'f', 'f', 'e', 'r', 'e', 'n', 'c', 'e', '(', 'o', 't', 'h', 'e', 'r', '.', 'i', 'n', 't', 'o', '(', ')', ')'],
   [' ', ' ', ' ', ' ', '}'],
   ['}'],
   [],
   ['i', 'm', 'p', 'l', '<', 'T', ':', ' ', 'E', 'n', 'u', 'm', 'S', 'e', 't', 'T', 'y', 'p', 'e', ',', ' ', 'O', ':', ' ', 'I', 'n', 't', 'o', '<', 'E', 'n', 'u', 'm', 'S', 'e', 't', '<', 'T', '>', '>', '>', ' ', 'S', 'u', 'b', 'A', 's', 's', 'i', 'g', 'n', '<', 'O', '>', ' ', 'f', 'o', 'r', ' ', 'E', 'n', 'u', 'm', 'S', 'e', 't', '<', 'T', '>', ' ', '{'],
   [' ', ' ', ' ', ' ', '#', '[', 'i', 'n', 'l', 'i', 'n', 'e', '(', 'a', 'l', 'w', 'a', 'y', 's', ')', ']'],
   [' ', ' ', ' ', ' ', 'f', 'n', ' ', 's', 'u', 'b', '_', 'a', 's', 's', 'i', 'g', 'n', '(', '&', 'm', 'u', 't', ' ', 's', 'e', 'l', 'f', ',', ' ', 'r', 'h', 's', ':', ' ', 'O', ')', ' ', '{'],
   [' ', ' ', ' ', ' ', ' ', ' ', ' ', ' ', '*', 's', 'e', 'l', 'f', ' ', '=', ' ', '*', 's', 'e', 'l', 'f', ' ', '-', ' ', 'r', 'h', 's', ';'],
   [' ', ' ', ' ', ' ', '}'],
   ['}'],
   ['i', 'm', 'p', 'l', '<', 'T', ':', ' ', 'E', 'n', 'u', 'm', 'S', 'e', 't', 'T', 'y', 'p', 'e', ',', ' ', 'O', ':', ' ', 'I', 'n', 't', 'o', '<', 'E', 'n', 'u', 'm', 'S', 'e', 't', '<', 'T', '>', '>', '>', ' ', 'B', 'i', 't', 'A', 'n', 'd', 'A', 's', 's', 'i', 'g', 'n', '<', 'O', '>', ' ', 'f', 'o', 'r', ' ', 'E', 'n', 'u', 'm', 'S', 'e', 't', '<', 'T', '>', ' ', '{'],
   [' ', ' ', ' ', ' ', '#', '[', 'i', 'n', 'l', 'i', 'n', 'e', '(', 'a', 'l', 'w', 'a', 'y', 's', ')', ']'],
   [' ', ' ', ' ', ' ', 'f', 'n', ' ', 'b', 'i', 't', 'a', 'n', 'd', '_', 'a', 's', 's', 'i', 'g', 'n', '(', '&', 'm', 'u', 't', ' ', 's', 'e', 'l', 'f', ',', ' ', 'r', 'h', 's', ':', ' ', 'O', ')', ' ', '{'],
   [' ', ' ', ' ', ' ', ' ', ' ', ' ', ' ', '*', 's', 'e', 'l', 'f', ' ', '=', ' ', '*', 's', 'e', 'l', 'f', ' ', '&', ' ', 'r', 'h', 's', ';'],
   [' ', ' ', ' ', ' ', '}'],
   ['}'],
   ['i', 'm', 'p', 'l', '<', 'T', ':', ' ', 'E', 'n', 'u', 'm', 'S', 'e', 't', 'T', 'y', 'p', 'e', ',', ' ', 'O', ':', ' ', 'I', 'n', 't', 'o', '<', 'E', 'n', 'u', 'm', 'S', 'e', 't', '<', 'T', '>', '>', '>', ' ', 'B', 'i', 't', 'O', 'r', 'A', 's', 's', 'i', 'g', 'n', '<', 'O', '>', ' ', 'f', 'o', 'r', ' ', 'E', 'n', 'u', 'm', 'S', 'e', 't', '<', 'T', '>', ' ', '{'],
   [' ', ' ', ' ', ' ', '#', '[', 'i', 'n', 'l', 'i', 'n', 'e', '(', 'a', 'l', 'w', 'a', 'y', 's', ')', ']'],
   [' ', ' ', ' ', ' ', 'f', 'n', ' ', 'b', 'i', 't', 'o', 'r', '_', 'a', 's', 's', 'i', 'g', 'n', '(', '&', 'm', 'u', 't', ' ', 's', 'e', 'l', 'f', ',', ' ', 'r', 'h', 's', ':', ' ', 'O', ')', ' ', '{'],
   [' ', ' ', ' ', ' ', ' ', ' ', ' ', ' ', '*', 's', 'e', 'l', 'f', ' ', '=', ' ', '*', 's', 'e', 'l', 'f', ' ', '|', ' ', 'r', 'h', 's', ';'],
   [' ', ' ', ' ', ' ', '}'],
   ['}'],
   ['i', 'm', 'p', 'l', '<', 'T', ':', ' ', 'E', 'n', 'u', 'm', 'S', 'e', 't', 'T', 'y', 'p', 'e', ',', ' ', 'O', ':', ' ', 'I', 'n', 't', 'o', '<', 'E', 'n', 'u', 'm', 'S', 'e', 't', '<', 'T', '>', '>', '>', ' ', 'B', 'i', 't', 'X', 'o', 'r', 'A', 's', 's', 'i', 'g', 'n', '<', 'O', '>', ' ', 'f', 'o', 'r', ' ', 'E', 'n', 'u', 'm', 'S', 'e', 't', '<', 'T', '>', ' ', '{'],
   [' ', ' ', ' ', ' ', '#', '[', 'i', 'n', 'l', 'i', 'n', 'e', '(', 'a', 'l', 'w', 'a', 'y', 's', ')', ']'],
   [' ', ' ', ' ', ' ', 'f', 'n', ' ', 'b', 'i', 't', 'x', 'o', 'r', '_', 'a', 's', 's', 'i', 'g', 'n', '(', '&', 'm', 'u', 't', ' ', 's', 'e', 'l', 'f', ',', ' ', 'r', 'h', 's', ':', ' ', 'O', ')', ' ', '{'],
   [' ', ' ', ' ', ' ', ' ', ' ', ' ', ' ', '*', 's', 'e', 'l', 'f', ' ', '=', ' ', '*', 's', 'e', 'l', 'f', ' ', '^', ' ', 'r', 'h', 's', ';'],
   [' ', ' ', ' ', ' ', '}'],
   ['}'],
   [],
   ['i', 'm', 'p', 'l', '<', 'T', ':', ' ', 'E', 'n', 'u', 'm', 'S', 'e', 't', 'T', 'y', 'p', 'e', '>', ' ', 'N', 'o', 't', ' ', 'f', 'o', 'r', ' ', 'E', 'n', 'u', 'm', 'S', 'e', 't', '<', 'T', '>', ' ', '{'],
   [' ', ' ', ' ', ' ', 't', 'y', 'p', 'e', ' ', 'O', 'u', 't', 'p', 'u', 't', ' ', '=', ' ', 'S', 'e', 'l', 'f', ';'],
   [' ', ' ', ' ', ' ', '#', '[', 'i', 'n', 'l', 'i', 'n', 'e', '(', 'a', 'l', 'w', 'a', 'y', 's', ')', ']'],
   [' ', ' ', ' ', ' ', 'f', 'n', ' ', 'n', 'o', 't', '(', 's', 'e', 'l', 'f', ')', ' ', '-', '>', ' ', 'S', 'e', 'l', 'f', ':', ':', 'O', 'u', 't', 'p', 'u', 't', ' ', '{'],
   [' ', ' ', ' ', ' ', ' ', ' ', ' ', ' ', 's', 'e', 'l', 'f', '.', 'c', 'o', 'm', 'p', 'l', 'e', 'm', 'e', 'n', 't', '(', ')'],
   [' ', ' ', ' ', ' ', '}'],
   ['}'],
   [],
   ['i', 'm', 'p', 'l', '<', 'T', ':', ' ', 'E', 'n', 'u', 'm', 'S', 'e', 't', 'T', 'y', 'p', 'e', '>', ' ', 'F', 'r', 'o', 'm', '<', 'T', '>', ' ', 'f', 'o', 'r', ' ', 'E', 'n', 'u', 'm', 'S', 'e', 't', '<', 'T', '>', ' ', '{'],
   [' ', ' ', ' ', ' ', 'f', 'n', ' ', 'f', 'r', 'o', 'm', '(', 't', ':', ' ', 'T', ')', ' ', '-', '>', ' ', 'S', 'e', 'l', 'f', ' ', '{'],
   [' ', ' ', ' ', ' ', ' ', ' ', ' ', ' ', 'E', 'n', 'u', 'm', 'S', 'e', 't', ':', ':', 'o', 'n', 'l', 'y', '(', 't', ')'],
   [' ', ' ', ' ', ' ', '}'],
   ['}'],
   [],
   ['i', 'm', 'p', 'l', '<', 'T', ':', ' ', 'E', 'n', 'u', 'm', 'S', 'e', 't', 'T', 'y', 'p', 'e', '>', ' ', 'P', 'a', 'r', 't', 'i', 'a', 'l', 'E', 'q', '<', 'T', '>', ' ', 'f', 'o', 'r', ' ', 'E', 'n', 'u', 'm', 'S', 'e', 't', '<', 'T', '>', ' ', '{'],
   [' ', ' ', ' ', ' ', 'f', 'n', ' ', 'e', 'q', '(', '&', 's', 'e', 'l', 'f', ',', ' ', 'o', 't', 'h', 'e', 'r', ':', ' ', '&', 'T', ')', ' ', '-', '>', ' ', 'b', 'o', 'o', 'l', ' ', '{'],
   [' ', ' ', ' ', ' ', ' ', ' ', ' ', ' ', 's', 'e', 'l', 'f', '.', '_', '_', 'p', 'r', 'i', 'v', '_', 'r', 'e', 'p', 'r', ' ', '=', '=', ' ', 'E', 'n', 'u', 'm', 'S', 'e', 't', ':', ':', 'o', 'n', 'l', 'y', '(', '*', 'o', 't', 'h', 'e', 'r', ')', '.', '_', '_', 'p', 'r', 'i', 'v', '_', 'r', 'e', 'p', 'r'],
   [' ', ' ', ' ', ' ', '}'],
   ['}'],
   [],
   ['i', 'm', 'p', 'l', '<', 'T', ':', ' ', 'E', 'n', 'u', 'm', 'S', 'e', 't', 'T', 'y', 'p', 'e', ' ', '+', ' ', 'D', 'e', 'b', 'u', 'g', '>', ' ', 'D', 'e', 'b', 'u', 'g', ' ', 'f', 'o', 'r', ' ', 'E', 'n', 'u', 'm', 'S', 'e', 't', '<', 'T', '>', ' ', '{'],
   [' ', ' ', ' ', ' ', 'f', 'n', ' ', 'f', 'm', 't', '(', '&', 's', 'e', 'l', 'f', ',', ' ', 'f', ':', ' ', '&', 'm', 'u', 't', ' ', 'F', 'o', 'r', 'm', 'a', 't', 't', 'e', 'r', '<', '\'', '_', '>', ')', ' ', '-', '>', ' ', 'c', 'o', 'r', 'e', ':', ':', 'f', 'm', 't', ':', ':', 'R', 'e', 's', 'u', 'l', 't', ' ', '{'],
   [' ', ' ', ' ', ' ', ' ', ' ', ' ', ' ', 'l', 'e', 't', ' ', 'm', 'u', 't', ' ', 'i', 's', '_', 'f', 'i', 'r', 's', 't', ' ', '=', ' ', 't', 'r', 'u', 'e', ';'],
   [' ', ' ', ' ', ' ', ' ', ' ', ' ', ' ', '/', '/', ' ', 'N', 'o', 't', 'e', ':', ' ', 'W', 'e', ' ', 'd', 'o', 'n', '\'', 't', ' ', 'u', 's', 'e', ' ', '`', '.', 'd', 'e', 'b', 'u', 'g', '_', 's', 't', 'r', 'u', 'c', 't', '`', ' ', 't', 'o', ' ', 'a', 'v', 'o', 'i', 'd', ' ', 's', 'p', 'l', 'i', 't', 't', 'i', 'n', 'g', ' ', 'l', 'i', 'n', 'e', 's', ' ', 'w', 'h', 'e', 'n', ' ', 'u', 's', 'i', 'n', 'g', ' ', '`', '{', ':', 'x', '}', '`'],
   [' ', ' ', ' ', ' ', ' ', ' ', ' ', ' ', 'f', '.', 'w', 'r', 'i', 't', 'e', '_', 's', 't', 'r', '(', '"', 'E', 'n', 'u', 'm', 'S', 'e', 't', '(', '"', ')', '?', ';'],
   [' ', ' ', ' ', ' ', ' ', ' ', ' ', ' ', 'f', 'o', 'r', ' ', 'v', ' ', 'i', 'n', ' ', 's', 'e', 'l', 'f', '.', 'i', 't', 'e', 'r', '(', ')', ' ', '{'],
   [' ', ' ', ' ', ' ', ' ', ' ', ' ', ' ', ' ', ' ', ' ', ' ', 'i', 'f', ' ', '!', 'i', 's', '_', 'f', 'i', 'r', 's', 't', ' ', '{'],
   [' ', ' ', ' ', ' ', ' ', ' ', ' ', ' ', ' ', ' ', ' ', ' ', ' ', ' ', ' ', ' ', 'f', '.', 'w', 'r', 'i', 't', 'e', '_', 's', 't', 'r', '(', '"', ' ', '|', ' ', '"', ')', '?', ';'],
   [' ', ' ', ' ', ' ', ' ', ' ', ' ', ' ', ' ', ' ', ' ', ' ', '}'],
   [' ', ' ', ' ', ' ', ' ', ' ', ' ', ' ', ' ', ' ', ' ', ' ', 'i', 's', '_', 'f', 'i', 'r', 's', 't', ' ', '=', ' ', 'f', 'a', 'l', 's', 'e', ';'],
   [' ', ' ', ' ', ' ', ' ', ' ', ' ', ' ', ' ', ' ', ' ', ' ', 'v', '.', 'f', 'm', 't', '(', 'f', ')', '?', ';'],
   [' ', ' ', ' ', ' ', ' ', ' ', ' ', ' ', '}'],
   [' ', ' ', ' ', ' ', ' ', ' ', ' ', ' ', 'f', '.', 'w', 'r', 'i', 't', 'e', '_', 's', 't', 'r', '(', '"', ')', '"', ')', '?', ';'],
   [' ', ' ', ' ', ' ', ' ', ' ', ' ', ' ', 'O', 'k', '(', '(', ')', ')'],
   [' ', ' ', ' ', ' ', '}'],
   ['}'],
   ['i', 'm', 'p', 'l', '<', 'T', ':', ' ', 'E', 'n', 'u', 'm', 'S', 'e', 't', 'T', 'y', 'p', 'e', ' ', '+', ' ', 'D', 'i', 's', 'p', 'l', 'a', 'y', '>', ' ', 'D', 'i', 's', 'p', 'l', 'a', 'y', ' ', 'f', 'o', 'r', ' ', 'E', 'n', 'u', 'm', 'S', 'e', 't', '<', 'T', '>', ' ', '{'],
   [' ', ' ', ' ', ' ', 'f', 'n', ' ', 'f', 'm', 't', '(', '&', 's', 'e', 'l', 'f', ',', ' ', 'f', ':', ' ', '&', 'm', 'u', 't', ' ', 'F', 'o', 'r', 'm', 'a', 't', 't', 'e', 'r', '<', '\'', '_', '>', ')', ' ', '-', '>', ' ', 'c', 'o', 'r', 'e', ':', ':', 'f', 'm', 't', ':', ':', 'R', 'e', 's', 'u', 'l', 't', ' ', '{'],
   [' ', ' ', ' ', ' ', ' ', ' ', ' ', ' ', 'l', 'e', 't', ' ', 'm', 'u', 't', ' ', 'i', 's', '_', 'f', 'i', 'r', 's', 't', ' ', '=', ' ', 't', 'r', 'u', 'e', ';'],
   [' ', ' ', ' ', ' ', ' ', ' ', ' ', ' ', 'f', 'o', 'r', ' ', 'v', ' ', 'i', 'n', ' ', 's', 'e', 'l', 'f', '.', 'i', 't', 'e', 'r', '(', ')', ' ', '{'],
   [' ', ' ', ' ', ' ', ' ', ' ', ' ', ' ', ' ', ' ', ' ', ' ', 'i', 'f', ' ', '!', 'i', 's', '_', 'f', 'i', 'r', 's', 't', ' ', '{'],
   [' ', ' ', ' ', ' ', ' ', ' ', ' ', ' ', ' ', ' ', ' ', ' ', ' ', ' ', ' ', ' ', 'f', '.', 'w', 'r', 'i', 't', 'e', '_', 's', 't', 'r', '(', '"', ' ', '|', ' ', '"', ')', '?', ';'],
   [' ', ' ', ' ', ' ', ' ', ' ', ' ', ' ', ' ', ' ', ' ', ' ', '}'],
   [' ', ' ', ' ', ' ', ' ', ' ', ' ', ' ', ' ', ' ', ' ', ' ', 'i', 's', '_', 'f', 'i', 'r', 's', 't', ' ', '=', ' ', 'f', 'a', 'l', 's', 'e', ';'],
   [' ', ' ', ' ', ' ', ' ', ' ', ' ', ' ', ' ', ' ', ' ', ' ', 'v', '.', 'f', 'm', 't', '(', 'f', ')', '?', ';'],
   [' ', ' ', ' ', ' ', ' ', ' ', ' ', ' ', '}'],
   [' ', ' ', ' ', ' ', ' ', ' ', ' ', ' ', 'O', 'k', '(', '(', ')', ')'],
   [' ', ' ', ' ', ' ', '}'],
   ['}'],
   [],
   ['#', '[', 'a', 'l', 'l', 'o', 'w', '(', 'c', 'l', 'i', 'p', 'p', 'y', ':', ':', 'd', 'e', 'r', 'i', 'v', 'e', 'd', '_', 'h', 'a', 's', 'h', '_', 'w', 'i', 't', 'h', '_', 'm', 'a', 'n', 'u', 'a', 'l', '_', 'e', 'q', ')', ']', ' ', '/', '/', ' ', 'T', 'h', 'i', 's', ' ', 'i', 'm', 'p', 'l', ' ', 'e', 'x', 'i', 's', 't', 's', ' ', 't', 'o', ' ', 'c', 'h', 'a', 'n', 'g', 'e', ' ', 't', 'r', 'a', 'i', 't', ' ', 'b', 'o', 'u', 'n', 'd', 's', ' ', 'o', 'n', 'l', 'y', '.'],
   ['i', 'm', 'p', 'l', '<', 'T', ':', ' ', 'E', 'n', 'u', 'm', 'S', 'e', 't', 'T', 'y', 'p', 'e', '>', ' ', 'H', 'a', 's', 'h', ' ', 'f', 'o', 'r', ' ', 'E', 'n', 'u', 'm', 'S', 'e', 't', '<', 'T', '>', ' ', '{'],
   [' ', ' ', ' ', ' ', 'f', 'n', ' ', 'h', 'a', 's', 'h', '<', 'H', ':', ' ', 'H', 'a', 's', 'h', 'e', 'r', '>', '(', '&', 's', 'e', 'l', 'f', ',', ' ', 's', 't', 'a', 't', 'e', ':', ' ', '&', 'm', 'u', 't', ' ', 'H', ')', ' ', '{'],
   [' ', ' ', ' ', ' ', ' ', ' ', ' ', ' ', 's', 'e', 'l', 'f', '.', '_', '_', 'p', 'r', 'i', 'v', '_', 'r', 'e', 'p', 'r', '.', 'h', 'a', 's', 'h', '(', 's', 't', 'a', 't', 'e', ')'],
   [' ', ' ', ' ', ' ', '}'],
   ['}'],
   ['#', '[', 'a', 'l', 'l', 'o', 'w', '(', 'c', 'l', 'i', 'p', 'p', 'y', ':', ':', 'n', 'o', 'n', '_', 'c', 'a', 'n', 'o', 'n', 'i', 'c', 'a', 'l', '_', 'p', 'a', 'r', 't', 'i', 'a', 'l', '_', 'o', 'r', 'd', '_', 'i', 'm', 'p', 'l', ')', ']'],
   ['i', 'm', 'p', 'l', '<', 'T', ':', ' ', 'E', 'n', 'u', 'm', 'S', 'e', 't', 'T', 'y', 'p', 'e', '>', ' ', 'P', 'a', 'r', 't', 'i', 'a', 'l', 'O', 'r', 'd', ' ', 'f', 'o', 'r', ' ', 'E', 'n', 'u', 'm', 'S', 'e', 't', '<', 'T', '>', ' ', '{'],
   [' ', ' ', ' ', ' ', 'f', 'n', ' ', 'p', 'a', 'r', 't', 'i', 'a', 'l', '_', 'c', 'm', 'p', '(', '&', 's', 'e', 'l', 'f', ',', ' ', 'o', 't', 'h', 'e', 'r', ':', ' ', '&', 'S', 'e', 'l', 'f', ')', ' ', '-', '>', ' ', 'O', 'p', 't', 'i', 'o', 'n', '<', 'O', 'r', 'd', 'e', 'r', 'i', 'n', 'g', '>', ' ', '{'],
   [' ', ' ', ' ', ' ', ' ', ' ', ' ', ' ', 's', 'e', 'l', 'f', '.', '_', '_', 'p', 'r', 'i', 'v', '_', 'r', 'e', 'p', 'r', '.', 'p', 'a', 'r', 't', 'i', 'a', 'l', '_', 'c', 'm', 'p', '(', '&', 'o', 't', 'h', 'e', 'r', '.', '_', '_', 'p', 'r', 'i', 'v', '_', 'r', 'e', 'p', 'r', ')'],
   [' ', ' ', ' ', ' ', '}'],
   ['}'],
   ['i', 'm', 'p', 'l', '<', 'T', ':', ' ', 'E', 'n', 'u', 'm', 'S', 'e', 't', 'T', 'y', 'p', 'e', '>', ' ', 'O', 'r', 'd', ' ', 'f', 'o', 'r', ' ', 'E', 'n', 'u', 'm', 'S', 'e', 't', '<', 'T', '>', ' ', '{'],
   [' ', ' ', ' ', ' ', 'f', 'n', ' ', 'c', 'm', 'p', '(', '&', 's', 'e', 'l', 'f', ',', ' ', 'o', 't', 'h', 'e', 'r', ':', ' ', '&', 'S', 'e', 'l', 'f', ')', ' ', '-', '>', ' ', 'O', 'r', 'd', 'e', 'r', 'i', 'n', 'g', ' ', '{'],
   [' ', ' ', ' ', ' ', ' ', ' ', ' ', ' ', 's', 'e', 'l', 'f', '.', '_', '_', 'p', 'r', 'i', 'v', '_', 'r', 'e', 'p', 'r', '.', 'c', 'm', 'p', '(', '&', 'o', 't', 'h', 'e', 'r', '.', '_', '_', 'p', 'r', 'i', 'v', '_', 'r', 'e', 'p', 'r', ')'],
   [' ', ' ', ' ', ' ', '}'],
   ['}'],
   [],
   ['#', '[', 'c', 'f', 'g', '(', 'f', 'e', 'a', 't', 'u', 'r', 'e', ' ', '=', ' ', '"', 's', 'e', 'r', 'd', 'e', '"', ')', ']'],
   ['i', 'm', 'p', 'l', '<', 'T', ':', ' ', 'E', 'n', 'u', 'm', 'S', 'e', 't', 'T', 'y', 'p', 'e', '>', ' ', 'S', 'e', 'r', 'i', 'a', 'l', 'i', 'z', 'e', ' ', 'f', 'o', 'r', ' ', 'E', 'n', 'u', 'm', 'S', 'e', 't', '<', 'T', '>', ' ', '{'],
   [' ', ' ', ' ', ' ', 'f', 'n', ' ', 's', 'e', 'r', 'i', 'a', 'l', 'i', 'z', 'e', '<', 'S', ':', ' ', 's', 'e', 'r', 'd', 'e', ':', ':', 'S', 'e', 'r', 'i', 'a', 'l', 'i', 'z', 'e', 'r', '>', '(', '&', 's', 'e', 'l', 'f', ',', ' ', 's', 'e', 'r', 'i', 'a', 'l', 'i', 'z', 'e', 'r', ':', ' ', 'S', ')', ' ', '-', '>', ' ', 'R', 'e', 's', 'u', 'l', 't', '<', 'S', ':', ':', 'O', 'k', ',', ' ', 'S', ':', ':', 'E', 'r', 'r', 'o', 'r', '>', ' ', '{'],
   [' ', ' ', ' ', ' ', ' ', ' ', ' ', ' ', 'T', ':', ':', 's', 'e', 'r', 'i', 'a', 'l', 'i', 'z', 'e', '(', '*', 's', 'e', 'l', 'f', ',', ' ', 's', 'e', 'r', 'i', 'a', 'l', 'i', 'z', 'e', 'r', ')'],
   [' ', ' ', ' ', ' ', '}'],
   ['}'],
   [],
   ['#', '[', 'c', 'f', 'g', '(', 'f', 'e', 'a', 't', 'u', 'r', 'e', ' ', '=', ' ', '"', 's', 'e', 'r', 'd', 'e', '"', ')', ']'],
   ['i', 'm', 'p', 'l', '<', '\'', 'd', 'e', ',', ' ', 'T', ':', ' ', 'E', 'n', 'u', 'm', 'S', 'e', 't', 'T', 'y', 'p', 'e', '>', ' ', 'D', 'e', 's', 'e', 'r', 'i', 'a', 'l', 'i', 'z', 'e', '<', '\'', 'd', 'e', '>', ' ', 'f', 'o', 'r', ' ', 'E', 'n', 'u', 'm', 'S', 'e', 't', '<', 'T', '>', ' ', '{'],
   [' ', ' ', ' ', ' ', 'f', 'n', ' ', 'd', 'e', 's', 'e', 'r', 'i', 'a', 'l', 'i', 'z', 'e', '<', 'D', ':', ' ', 's', 'e', 'r', 'd', 'e', ':', ':', 'D', 'e', 's', 'e', 'r', 'i', 'a', 'l', 'i', 'z', 'e', 'r', '<', '\'', 'd', 'e', '>', '>', '(', 'd', 'e', 's', 'e', 'r', 'i', 'a', 'l', 'i', 'z', 'e', 'r', ':', ' ', 'D', ')', ' ', '-', '>', ' ', 'R', 'e', 's', 'u', 'l', 't', '<', 'S', 'e', 'l', 'f', ',', ' ', 'D', ':', ':', 'E', 'r', 'r', 'o', 'r', '>', ' ', '{'],
   [' ', ' ', ' ', ' ', ' ', ' ', ' ', ' ', 'T', ':', ':', 'd', 'e', 's', 'e', 'r', 'i', 'a', 'l', 'i', 'z', 'e', '(', 'd', 'e', 's', 'e', 'r', 'i', 'a', 'l', 'i', 'z', 'e', 'r', ')'],
   [' ', ' ', ' ', ' ', '}'],
   ['}'],
   ['/', '/', 'e', 'n', 'd', 'r', 'e', 'g', 'i', 'o', 'n'],
   [],
   ['/', '/', 'r', 'e', 'g', 'i', 'o', 'n', ' ', 'D', 'e', 'p', 'r', 'e', 'c', 'a', 't', 'e', 'd', ' ', 'f', 'u', 'n', 'c', 't', 'i', 'o', 'n', 's'],
   ['/', '/', '/', ' ', 'T', 'h', 'i', 's', ' ', 'i', 'm', 'p', 'l', ' ', 'c', 'o', 'n', 't', 'a', 'i', 'n', 's', ' ', 'a', 'l', 'l', ' ', 'o', 'u', 't', 'd', 'a', 't', 'e', 'd', ' ', 'o', 'r', ' ', 'd', 'e', 'p', 'r', 'e', 'c', 'a', 't', 'e', 'd', ' ', 'f', 'u', 'n', 'c', 't', 'i', 'o', 'n', 's', '.'],
   ['i', 'm', 'p', 'l', '<', 'T', ':', ' ', 'E', 'n', 'u', 'm', 'S', 'e', 't', 'T', 'y', 'p', 'e', '>', ' ', 'E', 'n', 'u', 'm', 'S', 'e', 't', '<', 'T', '>', ' ', '{'],
   [' ', ' ', ' ', ' ', '/', '/', '/', ' ', 'A', 'n', ' ', 'e', 'm', 'p', 't', 'y', ' ', '`', 'E', 'n', 'u', 'm', 'S', 'e', 't', '`', '.'],
   [' ', ' ', ' ', ' ', '/', '/', '/'],
   [' ', ' ', ' ', ' ', '/', '/', '/', ' ', 'T', 'h', 'i', 's', ' ', 'i', 's', ' ', 'd', 'e', 'p', 'r', 'e', 'c', 'a', 't', 'e', 'd', ' ', 'b', 'e', 'c', 'a', 'u', 's', 'e', ' ', '[', '`', 'E', 'n', 'u', 'm', 'S', 'e', 't', ':', ':', 'e', 'm', 'p', 't', 'y', '`', ']', ' ', 'i', 's', ' ', 'n', 'o', 'w', ' ', '`', 'c', 'o', 'n', 's', 't', '`', '.'],
   [' ', ' ', ' ', ' ', '#', '[', 'd', 'e', 'p', 'r', 'e', 'c', 'a', 't', 'e', 'd', ' ', '=', ' ', '"', 'U', 's', 'e', ' ', '`', 'E', 'n', 'u', 'm', 'S', 'e', 't', ':', ':', 'e', 'm', 'p', 't', 'y', '(', ')', '`', ' ', 'i', 'n', 's', 't', 'e', 'a', 'd', '.', '"', ']'],
   [' ', ' ', ' ', ' ', 'p', 'u', 'b', ' ', 'c', 'o', 'n', 's', 't', ' ', 'E', 'M', 'P', 'T', 'Y', ':', ' ', 'S', 'e', 'l', 'f', ' ', '=', ' ', 'S', 'e', 'l', 'f', ':', ':', 'E', 'M', 'P', 'T', 'Y', '_', 'R', 'E', 'P', 'R', ';'],
   [],
   [' ', ' ', ' ', ' ', '/', '/', '/', ' ', 'A', 'n', ' ', '`', 'E', 'n', 'u', 'm', 'S', 'e', 't', '`', ' ', 'c', 'o', 'n', 't', 'a', 'i', 'n', 'i', 'n', 'g', ' ', 'a', 'l', 'l', ' ', 'v', 'a', 'l', 'i', 'd', ' ', 'v', 'a', 'r', 'i', 'a', 'n', 't', 's', ' ', 'o', 'f', ' ', 't', 'h', 'e', ' ', 'e', 'n', 'u', 'm', '.'],
   [' ', ' ', ' ', ' ', '/', '/', '/'],
   [' ', ' ', ' ', ' ', '/', '/', '/', ' ', 'T', 'h', 'i', 's', ' ', 'i', 's', ' ', 'd', 'e', 'p', 'r', 'e', 'c', 'a', 't', 'e', 'd', ' ', 'b', 'e', 'c', 'a', 'u', 's', 'e', ' ', '[', '`', 'E', 'n', 'u', 'm', 'S', 'e', 't', ':', ':', 'a', 'l', 'l', '`', ']', ' ', 'i', 's', ' ', 'n', 'o', 'w', ' ', '`', 'c', 'o', 'n', 's', 't', '`', '.'],
   [' ', ' ', ' ', ' ', '#', '[', 'd', 'e', 'p', 'r', 'e', 'c', 'a', 't', 'e', 'd', ' ', '=', ' ', '"', 'U', 's', 'e', ' ', '`', 'E', 'n', 'u', 'm', 'S', 'e', 't', ':', ':', 'a', 'l', 'l', '(', ')', '`', ' ', 'i', 'n', 's', 't', 'e', 'a', 'd', '.', '"', ']'],
   [' ', ' ', ' ', ' ', 'p', 'u', 'b', ' ', 'c', 'o', 'n', 's', 't', ' ', 'A', 'L', 'L', ':', ' ', 'S', 'e', 'l', 'f', ' ', '=', ' ', 'S', 'e', 'l', 'f', ':', ':', 'A', 'L', 'L', '_', 'R', 'E', 'P', 'R', ';'],
   ['}'],
   ['/', '/', 'e', 'n', 'd', 'r', 'e', 'g', 'i', 'o', 'n'],
   [],
   ['/', '/', 'r', 'e', 'g', 'i', 'o', 'n', ' ', 'E', 'n', 'u', 'm', 'S', 'e', 't', ' ', 'c', 'o', 'n', 'v', 'e', 'r', 's', 'i', 'o', 'n', 's'],
   ['i', 'm', 'p', 'l', '<', 'T', ':', ' ', 'E', 'n', 'u', 'm', 'S', 'e', 't', 'T', 'y', 'p', 'e', ' ', '+', ' ', 'E', 'n', 'u', 'm', 'S', 'e', 't', 'T', 'y', 'p', 'e', 'W', 'i', 't', 'h', 'R', 'e', 'p', 'r', '>', ' ', 'E', 'n', 'u', 'm', 'S', 'e', 't', '<', 'T', '>', ' ', '{'],
   [' ', ' ', ' ', ' ', '/', '/', '/', ' ', 'R', 'e', 't', 'u', 'r', 'n', 's', ' ', 'a', ' ', '`', 'T', ':', ':', 'R', 'e', 'p', 'r', '`', ' ', 'r', 'e', 'p', 'r', 'e', 's', 'e', 'n', 't', 'i', 'n', 'g', ' ', 't', 'h', 'e', ' ', 'e', 'l', 'e', 'm', 'e', 'n', 't', 's', ' ', 'o', 'f', ' ', 't', 'h', 'i', 's', ' ', 's', 'e', 't', '.'],
   [' ', ' ', ' ', ' ', '/', '/', '/'],
   [' ', ' ', ' ', ' ', '/', '/', '/', ' ', 'U', 'n', 'l', 'i', 'k', 'e', ' ', 't', 'h', 'e', ' ', 'o', 't', 'h', 'e', 'r', ' ', '`', 'a', 's', '_', '*', '`', ' ', 'm', 'e', 't', 'h', 'o', 'd', 's', ',', ' ', 't', 'h', 'i', 's', ' ', 'm', 'e', 't', 'h', 'o', 'd', ' ', 'i', 's', ' ', 'z', 'e', 'r', 'o', '-', 'c', 'o', 's', 't', ' ', 'a', 'n', 'd', ' ', 'g', 'u', 'a', 'r', 'a', 'n', 't', 'e', 'e', 'd', ' ', 'n', 'o', 't', ' ', 't', 'o', ' ', 'f', 'a', 'i', 'l', ','],
   [' ', ' ', ' ', ' ', '/', '/', '/', ' ', 'p', 'a', 'n', 'i', 'c', ' ', 'o', 'r', ' ', 't', 'r', 'u', 'n', 'c', 'a', 't', 'e', ' ', 'a', 'n', 'y', ' ', 'b', 'i', 't', 's', '.'],
   [' ', ' ', ' ', ' ', '/', '/', '/'],
   [' ', ' ', ' ', ' ', '/', '/', '/', ' ', 'I', 'n', ' ', 'o', 'r', 'd', 'e', 'r', ' ', 't', 'o', ' ', 'u', 's', 'e', ' ', 't', 'h', 'i', 's', ' ', 'm', 'e', 't', 'h', 'o', 'd', ',', ' ', 't', 'h', 'e', ' ', 'd', 'e', 'f', 'i', 'n', 'i', 't', 'i', 'o', 'n', ' ', 'o', 'f', ' ', '`', 'T', '`', ' ', 'm', 'u', 's', 't', ' ', 'h', 'a', 'v', 'e', ' ', 't', 'h', 'e', ' ', '`', '#', '[', 'e', 'n', 'u', 'm', 's', 'e', 't', '(', 'r', 'e', 'p', 'r', ' ', '=', ' ', '"', '…', '"', ')', ']', '`'],
   [' ', ' ', ' ', ' ', '/', '/', '/', ' ', 'a', 'n', 'n', 'o', 't', 'a', 't', 'i', 'o', 'n', '.'],
   [' ', ' ', ' ', ' ', '#', '[', 'i', 'n', 'l', 'i', 'n', 'e', '(', 'a', 'l', 'w', 'a', 'y', 's', ')', ']'],
   [' ', ' ', ' ', ' ', 'p', 'u', 'b', ' ', 'c', 'o', 'n', 's', 't', ' ', 'f', 'n', ' ', 'a', 's', '_', 'r', 'e', 'p', 'r', '(', '&', 's', 'e', 'l', 'f', ')', ' ', '-', '>', ' ', '<', 'T', ' ', 'a', 's', ' ', 'E', 'n', 'u', 'm', 'S', 'e', 't', 'T', 'y', 'p', 'e', 'W', 'i', 't', 'h', 'R', 'e', 'p', 'r', '>', ':', ':', 'R', 'e', 'p', 'r', ' ', '{'],
   [' ', ' ', ' ', ' ', ' ', ' ', ' ', ' ', 's', 'e', 'l', 'f', '.', '_', '_', 'p', 'r', 'i', 'v', '_', 'r', 'e', 'p', 'r'],
   [' ', ' ', ' ', ' ', '}'],
   [],
   [' ', ' ', ' ', ' ', '/', '/', '/', ' ', 'C', 'o', 'n', 's', 't', 'r', 'u', 'c', 't', 's', ' ', 'a', ' ', 'b', 'i', 't', 's', 'e', 't', ' ', 'f', 'r', 'o', 'm', ' ', 'a', ' ', '`', 'T', ':', ':', 'R', 'e', 'p', 'r', '`', ' ', 'w', 'i', 't', 'h', 'o', 'u', 't', ' ', 'c', 'h', 'e', 'c', 'k', 'i', 'n', 'g', ' ', 'f', 'o', 'r', ' ', 'i', 'n', 'v', 'a', 'l', 'i', 'd', ' ', 'b', 'i', 't', 's', '.'],
   [' ', ' ', ' ', ' ', '/', '/', '/'],
   [' ', ' ', ' ', ' ', '/', '/', '/', ' ', 'U', 'n', 'l', 'i', 'k', 'e', ' ', 't', 'h', 'e', ' ', 'o', 't', 'h', 'e', 'r', ' ', '`', 'f', 'r', 'o', 'm', '_', '*', '`', ' ', 'm', 'e', 't', 'h', 'o', 'd', 's', ',', ' ', 't', 'h', 'i', 's', ' ', 'm', 'e', 't', 'h', 'o', 'd', ' ', 'i', 's', ' ', 'z', 'e', 'r', 'o', '-', 'c', 'o', 's', 't', ' ', 'a', 'n', 'd', ' ', 'g', 'u', 'a', 'r', 'a', 'n', 't', 'e', 'e', 'd', ' ', 'n', 'o', 't', ' ', 't', 'o', ' ', 'f', 'a', 'i', 'l', ','],
   [' ', ' ', ' ', ' ', '/', '/', '/', ' ', 'p', 'a', 'n', 'i', 'c', ' ', 'o', 'r', ' ', 't', 'r', 'u', 'n', 'c', 'a', 't', 'e', ' ', 'a', 'n', 'y', ' ', 'b', 'i', 't', 's', ',', ' ', 'p', 'r', 'o', 'v', 'i', 'd', 'e', 'd', ' ', 't', 'h', 'e', ' ', 'c', 'o', 'n', 'd', 'i', 't', 'i', 'o', 'n', 's', ' ', 'u', 'n', 'd', 'e', 'r', ' ', '“', 'S', 'a', 'f', 'e', 't', 'y', '”', ' ', 'a', 'r', 'e', ' ', 'u', 'p', 'h', 'e', 'l', 'd', '.'],
   [' ', ' ', ' ', ' ', '/', '/', '/'],
   [' ', ' ', ' ', ' ', '/', '/', '/', ' ', 'I', 'n', ' ', 'o', 'r', 'd', 'e', 'r', ' ', 't', 'o', ' ', 'u', 's', 'e', ' ', 't', 'h', 'i', 's', ' ', 'm', 'e', 't', 'h', 'o', 'd', ',', ' ', 't', 'h', 'e', ' ', 'd', 'e', 'f', 'i', 'n', 'i', 't', 'i', 'o', 'n', ' ', 'o', 'f', ' ', '`', 'T', '`', ' ', 'm', 'u', 's', 't', ' ', 'h', 'a', 'v', 'e', ' ', 't', 'h', 'e', ' ', '`', '#', '[', 'e', 'n', 'u', 'm', 's', 'e', 't', '(', 'r', 'e', 'p', 'r', ' ', '=', ' ', '"', '…', '"', ')', ']', '`'],
   [' ', ' ', ' ', ' ', '/', '/', '/', ' ', 'a', 'n', 'n', 'o', 't', 'a', 't', 'i', 'o', 'n', '.'],
   [' ', ' ', ' ', ' ', '/', '/', '/'],
   [' ', ' ', ' ', ' ', '/', '/', '/', ' ', '#', ' ', 'S', 'a', 'f', 'e', 't', 'y'],
   [' ', ' ', ' ', ' ', '/', '/', '/'],
   [' ', ' ', ' ', ' ', '/', '/', '/', ' ', 'A', 'l', 'l', ' ', 'b', 'i', 't', 's', ' ', 'i', 'n', ' ', 't', 'h', 'e', ' ', 'p', 'r', 'o', 'v', 'i', 'd', 'e', 'd', ' ', 'p', 'a', 'r', 'a', 'm', 'e', 't', 'e', 'r', ' ', '`', 'b', 'i', 't', 's', '`', ' ', 't', 'h', 'a', 't', ' ', 'd', 'o', 'n', '\'', 't', ' ', 'c', 'o', 'r', 'r', 'e', 's', 'p', 'o', 'n', 'd', ' ', 't', 'o', ' ', 'a', 'n', ' ', 'e', 'n', 'u', 'm', ' ', 'v', 'a', 'r', 'i', 'a', 'n', 't', ' ', 'o', 'f'],
   [' ', ' ', ' ', ' ', '/', '/', '/', ' ', '`', 'T', '`', ' ', 'm', 'u', 's', 't', ' ', 'b', 'e', ' ', 's', 'e', 't', ' ', 't', 'o', ' ', '`', '0', '`', '.', ' ', 'B', 'e', 'h', 'a', 'v', 'i', 'o', 'r', ' ', 'i', 's', ' ', '*', '*', 'u', 'n', 'd', 'e', 'f', 'i', 'n', 'e', 'd', '*', '*', ' ', 'i', 'f', ' ', 'a', 'n', 'y', ' ', 'o', 'f', ' ', 't', 'h', 'e', 's', 'e', ' ', 'b', 'i', 't', 's', ' ', 'a', 'r', 'e', ' ', 's', 'e', 't', ' ', 't', 'o', ' ', '`', '1', '`', '.'],
   [' ', ' ', ' ', ' ', '#', '[', 'i', 'n', 'l', 'i', 'n', 'e', '(', 'a', 'l', 'w', 'a', 'y', 's', ')', ']'],
   [' ', ' ', ' ', ' ', 'p', 'u', 'b', ' ', 'u', 'n', 's', 'a', 'f', 'e', ' ', 'f', 'n', ' ', 'f', 'r', 'o', 'm', '_', 'r', 'e', 'p', 'r', '_', 'u', 'n', 'c', 'h', 'e', 'c', 'k', 'e', 'd', '(', 'b', 'i', 't', 's', ':', ' ', '<', 'T', ' ', 'a', 's', ' ', 'E', 'n', 'u', 'm', 'S', 'e', 't', 'T', 'y', 'p', 'e', 'W', 'i', 't', 'h', 'R', 'e', 'p', 'r', '>', ':', ':', 'R', 'e', 'p', 'r', ')', ' ', '-', '>', ' ', 'S', 'e', 'l', 'f', ' ', '{'],
   [' ', ' ', ' ', ' ', ' ', ' ', ' ', ' ', 'S', 'e', 'l', 'f', ' ', '{', ' ', '_', '_', 'p', 'r', 'i', 'v', '_', 'r', 'e', 'p', 'r', ':', ' ', 'b', 'i', 't', 's', ' ', '}'],
   [' ', ' ', ' ', ' ', '}'],
   [],
   [' ', ' ', ' ', ' ', '/', '/', '/', ' ', 'C', 'o', 'n', 's', 't', 'r', 'u', 'c', 't', 's', ' ', 'a', ' ', 'b', 'i', 't', 's', 'e', 't', ' ', 'f', 'r', 'o', 'm', ' ', 'a', ' ', '`', 'T', ':', ':', 'R', 'e', 'p', 'r', '`', '.'],
   [' ', ' ', ' ', ' ', '/', '/', '/'],
   [' ', ' ', ' ', ' ', '/', '/', '/', ' ', 'I', 'f', ' ', 'a', ' ', 'b', 'i', 't', ' ', 't', 'h', 'a', 't', ' ', 'd', 'o', 'e', 's', 'n', '\'', 't', ' ', 'c', 'o', 'r', 'r', 'e', 's', 'p', 'o', 'n', 'd', ' ', 't', 'o', ' ', 'a', 'n', ' ', 'e', 'n', 'u', 'm', ' ', 'v', 'a', 'r', 'i', 'a', 'n', 't', ' ', 'i', 's', ' ', 's', 'e', 't', ',', ' ', 't', 'h', 'i', 's'],
   [' ', ' ', ' ', ' ', '/', '/', '/', ' ', 'm', 'e', 't', 'h', 'o', 'd', ' ', 'w', 'i', 'l', 'l', ' ', 'p', 'a', 'n', 'i', 'c', '.'],
   [' ', ' ', ' ', ' ', '/', '/', '/'],
   [' ', ' ', ' ', ' ', '/', '/', '/', ' ', 'I', 'n', ' ', 'o', 'r', 'd', 'e', 'r', ' ', 't', 'o', ' ', 'u', 's', 'e', ' ', 't', 'h', 'i', 's', ' ', 'm', 'e', 't', 'h', 'o', 'd', ',', ' ', 't', 'h', 'e', ' ', 'd', 'e', 'f', 'i', 'n', 'i', 't', 'i', 'o', 'n', ' ', 'o', 'f', ' ', '`', 'T', '`', ' ', 'm', 'u', 's', 't', ' ', 'h', 'a', 'v', 'e', ' ', 't', 'h', 'e', ' ', '`', '#', '[', 'e', 'n', 'u', 'm', 's', 'e', 't', '(', 'r', 'e', 'p', 'r', ' ', '=', ' ', '"', '…', '"', ')', ']', '`'],
   [' ', ' ', ' ', ' ', '/', '/', '/', ' ', 'a', 'n', 'n', 'o', 't', 'a', 't', 'i', 'o', 'n', '.'],
   [' ', ' ', ' ', ' ', '#', '[', 'i', 'n', 'l', 'i', 'n', 'e', '(', 'a', 'l', 'w', 'a', 'y', 's', ')', ']'],
   [' ', ' ', ' ', ' ', 'p', 'u', 'b', ' ', 'f', 'n', ' ', 'f', 'r', 'o', 'm', '_', 'r', 'e', 'p', 'r', '(', 'b', 'i', 't', 's', ':', ' ', '<', 'T', ' ', 'a', 's', ' ', 'E', 'n', 'u', 'm', 'S', 'e', 't', 'T', 'y', 'p', 'e', 'W', 'i', 't', 'h', 'R', 'e', 'p', 'r', '>', ':', ':', 'R', 'e', 'p', 'r', ')', ' ', '-', '>', ' ', 'S', 'e', 'l', 'f', ' ', '{'],
   [' ', ' ', ' ', ' ', ' ', ' ', ' ', ' ', 'S', 'e', 'l', 'f', ':', ':', 't', 'r', 'y', '_', 'f', 'r', 'o', 'm', '_', 'r', 'e', 'p', 'r', '(', 'b', 'i', 't', 's', ')', '.', 'e', 'x', 'p', 'e', 'c', 't', '(', '"', 'B', 'i', 't', 's', 'e', 't', ' ', 'c', 'o', 'n', 't', 'a', 'i', 'n', 's', ' ', 'i', 'n', 'v', 'a', 'l', 'i', 'd', ' ', 'v', 'a', 'r', 'i', 'a', 'n', 't', 's', '.', '"', ')'],
   [' ', ' ', ' ', ' ', '}'],
   [],
   [' ', ' ', ' ', ' ', '/', '/', '/', ' ', 'A', 't', 't', 'e', 'm', 'p', 't', 's', ' ', 't', 'o', ' ', 'c', 'o', 'n', 's', 't', 'r', 'u', 'c', 't', 's', ' ', 'a', ' ', 'b', 'i', 't', 's', 'e', 't', ' ', 'f', 'r', 'o', 'm', ' ', 'a', ' ', '`', 'T', ':', ':', 'R', 'e', 'p', 'r', '`', '.'],
   [' ', ' ', ' ', ' ', '/', '/', '/'],
   [' ', ' ', ' ', ' ', '/', '/', '/', ' ', 'I', 'f', ' ', 'a', ' ', 'b', 'i', 't', ' ', 't', 'h', 'a', 't', ' ', 'd', 'o', 'e', 's', 'n', '\'', 't', ' ', 'c', 'o', 'r', 'r', 'e', 's', 'p', 'o', 'n', 'd', ' ', 't', 'o', ' ', 'a', 'n', ' ', 'e', 'n', 'u', 'm', ' ', 'v', 'a', 'r', 'i', 'a', 'n', 't', ' ', 'i', 's', ' ', 's', 'e', 't', ',', ' ', 't', 'h', 'i', 's'],
   [' ', ' ', ' ', ' ', '/', '/', '/', ' ', 'm', 'e', 't', 'h', 'o', 'd', ' ', 'w', 'i', 'l', 'l', ' ', 'r', 'e', 't', 'u', 'r', 'n', ' ', '`', 'N', 'o', 'n', 'e', '`', '.'],
   [' ', ' ', ' ', ' ', '/', '/', '/'],
   [' ', ' ', ' ', ' ', '/', '/', '/', ' ', 'I', 'n', ' ', 'o', 'r', 'd', 'e', 'r', ' ', 't', 'o', ' ', 'u', 's', 'e', ' ', 't', 'h', 'i', 's', ' ', 'm', 'e', 't', 'h', 'o', 'd', ',', ' ', 't', 'h', 'e', ' ', 'd', 'e', 'f', 'i', 'n', 'i', 't', 'i', 'o', 'n', ' ', 'o', 'f', ' ', '`', 'T', '`', ' ', 'm', 'u', 's', 't', ' ', 'h', 'a', 'v', 'e', ' ', 't', 'h', 'e', ' ', '`', '#', '[', 'e', 'n', 'u', 'm', 's', 'e', 't', '(', 'r', 'e', 'p', 'r', ' ', '=', ' ', '"', '…', '"', ')', ']', '`'],
   [' ', ' ', ' ', ' ', '/', '/', '/', ' ', 'a', 'n', 'n', 'o', 't', 'a', 't', 'i', 'o', 'n', '.'],
   [' ', ' ', ' ', ' ', '#', '[', 'i', 'n', 'l', 'i', 'n', 'e', '(', 'a', 'l', 'w', 'a', 'y', 's', ')', ']'],
   [' ', ' ', ' ', ' ', 'p', 'u', 'b', ' ', 'f', 'n', ' ', 't', 'r', 'y', '_', 'f', 'r', 'o', 'm', '_', 'r', 'e', 'p', 'r', '(', 'b', 'i', 't', 's', ':', ' ', '<', 'T', ' ', 'a', 's', ' ', 'E', 'n', 'u', 'm', 'S', 'e', 't', 'T', 'y', 'p', 'e', 'W', 'i', 't', 'h', 'R', 'e', 'p', 'r', '>', ':', ':', 'R', 'e', 'p', 'r', ')', ' ', '-', '>', ' ', 'O', 'p', 't', 'i', 'o', 'n', '<', 'S', 'e', 'l', 'f', '>', ' ', '{'],
   [' ', ' ', ' ', ' ', ' ', ' ', ' ', ' ', 'l', 'e', 't', ' ', 'm', 'a', 's', 'k', ' ', '=', ' ', 'S', 'e', 'l', 'f', ':', ':', 'a', 'l', 'l', '(', ')', '.', '_', '_', 'p', 'r', 'i', 'v', '_', 'r', 'e', 'p', 'r', ';'],
   [' ', ' ', ' ', ' ', ' ', ' ', ' ', ' ', 'i', 'f', ' ', 'b', 'i', 't', 's', '.', 'a', 'n', 'd', '_', 'n', 'o', 't', '(', 'm', 'a', 's', 'k', ')', '.', 'i', 's', '_', 'e', 'm', 'p', 't', 'y', '(', ')', ' ', '{'],
   [' ', ' ', ' ', ' ', ' ', ' ', ' ', ' ', ' ', ' ', ' ', ' ', 'S', 'o', 'm', 'e', '(', 'E', 'n', 'u', 'm', 'S', 'e', 't', ' ', '{', ' ', '_', '_', 'p', 'r', 'i', 'v', '_', 'r', 'e', 'p', 'r', ':', ' ', 'b', 'i', 't', 's', ' ', '}', ')'],
   [' ', ' ', ' ', ' ', ' ', ' ', ' ', ' ', '}', ' ', 'e', 'l', 's', 'e', ' ', '{'],
   [' ', ' ', ' ', ' ', ' ', ' ', ' ', ' ', ' ', ' ', ' ', ' ', 'N', 'o', 'n', 'e'],
   [' ', ' ', ' ', ' ', ' ', ' ', ' ', ' ', '}'],
   [' ', ' ', ' ', ' ', '}'],
   [],
   [' ', ' ', ' ', ' ', '/', '/', '/', ' ', 'C', 'o', 'n', 's', 't', 'r', 'u', 'c', 't', 's', ' ', 'a', ' ', 'b', 'i', 't', 's', 'e', 't', ' ', 'f', 'r', 'o', 'm', ' ', 'a', ' ', '`', 'T', ':', ':', 'R', 'e', 'p', 'r', '`', ',', ' ', 'i', 'g', 'n', 'o', 'r', 'i', 'n', 'g', ' ', 'i', 'n', 'v', 'a', 'l', 'i', 'd', ' ', 'v', 'a', 'r', 'i', 'a', 'n', 't', 's', '.'],
   [' ', ' ', ' ', ' ', '/', '/', '/'],
   [' ', ' ', ' ', ' ', '/', '/', '/', ' ', 'I', 'n', ' ', 'o', 'r', 'd', 'e', 'r', ' ', 't', 'o', ' ', 'u', 's', 'e', ' ', 't', 'h', 'i', 's', ' ', 'm', 'e', 't', 'h', 'o', 'd', ',', ' ', 't', 'h', 'e', ' ', 'd', 'e', 'f', 'i', 'n', 'i', 't', 'i', 'o', 'n', ' ', 'o', 'f', ' ', '`', 'T', '`', ' ', 'm', 'u', 's', 't', ' ', 'h', 'a', 'v', 'e', ' ', 't', 'h', 'e', ' ', '`', '#', '[', 'e', 'n', 'u', 'm', 's', 'e', 't', '(', 'r', 'e', 'p', 'r', ' ', '=', ' ', '"', '…', '"', ')', ']', '`'],
   [' ', ' ', ' ', ' ', '/', '/', '/', ' ', 'a', 'n', 'n', 'o', 't', 'a', 't', 'i', 'o', 'n', '.'],
   [' ', ' ', ' ', ' ', '#', '[', 'i', 'n', 'l', 'i', 'n', 'e', '(', 'a', 'l', 'w', 'a', 'y', 's', ')', ']'],
   [' ', ' ', ' ', ' ', 'p', 'u', 'b', ' ', 'f', 'n', ' ', 'f', 'r', 'o', 'm', '_', 'r', 'e', 'p', 'r', '_', 't', 'r', 'u', 'n', 'c', 'a', 't', 'e', 'd', '(', 'b', 'i', 't', 's', ':', ' ', '<', 'T', ' ', 'a', 's', ' ', 'E', 'n', 'u', 'm', 'S', 'e', 't', 'T', 'y', 'p', 'e', 'W', 'i', 't', 'h', 'R', 'e', 'p', 'r', '>', ':', ':', 'R', 'e', 'p', 'r', ')', ' ', '-', '>', ' ', 'S', 'e', 'l', 'f', ' ', '{'],
   [' ', ' ', ' ', ' ', ' ', ' ', ' ', ' ', 'l', 'e', 't', ' ', 'm', 'a', 's', 'k', ' ', '=', ' ', 'S', 'e', 'l', 'f', ':', ':', 'a', 'l', 'l', '(', ')', '.', 'a', 's', '_', 'r', 'e', 'p', 'r', '(', ')', ';'],
   [' ', ' ', ' ', ' ', ' ', ' ', ' ', ' ', 'l', 'e', 't', ' ', 'b', 'i', 't', 's', ' ', '=', ' ', 'b', 'i', 't', 's', ' ', '&', ' ', 'm', 'a', 's', 'k', ';'],
   [' ', ' ', ' ', ' ', ' ', ' ', ' ', ' ', 'E', 'n', 'u', 'm', 'S', 'e', 't', ' ', '{', ' ', '_', '_', 'p', 'r', 'i', 'v', '_', 'r', 'e', 'p', 'r', ':', ' ', 'b', 'i', 't', 's', ' ', '}'],
   [' ', ' ', ' ', ' ', '}'],
   ['}'],
   [],
   ['/', '/', '/', ' ', 'H', 'e', 'l', 'p', 'e', 'r', ' ', 'm', 'a', 'c', 'r', 'o', ' ', 'f', 'o', 'r', ' ', 'g', 'e', 'n', 'e', 'r', 'a', 't', 'i', 'n', 'g', ' ', 'c', 'o', 'n', 'v', 'e', 'r', 's', 'i', 'o', 'n', ' ', 'f', 'u', 'n', 'c', 't', 'i', 'o', 'n', 's', '.'],
   ['m', 'a', 'c', 'r', 'o', '_', 'r', 'u', 'l', 'e', 's', '!', ' ', 'c', 'o', 'n', 'v', 'e', 'r', 's', 'i', 'o', 'n', '_', 'i', 'm', 'p', 'l', 's', ' ', '{'],
   [' ', ' ', ' ', ' ', '('],
   [' ', ' ', ' ', ' ', ' ', ' ', ' ', ' ', '$', '(', 'f', 'o', 'r', '_', 'n', 'u', 'm', '!', '('],
   [' ', ' ', ' ', ' ', ' ', ' ', ' ', ' ', ' ', ' ', ' ', ' ', '$', 'u', 'n', 'd', 'e', 'r', 'l', 'y', 'i', 'n', 'g', ':', 't', 'y', ',', ' ', '$', 'u', 'n', 'd', 'e', 'r', 'l', 'y', 'i', 'n', 'g', '_', 's', 't', 'r', ':', 'e', 'x', 'p', 'r', ','],
   [' ', ' ', ' ', ' ', ' ', ' ', ' ', ' ', ' ', ' ', ' ', ' ', '$', 'f', 'r', 'o', 'm', '_', 'f', 'n', ':', 'i', 'd', 'e', 'n', 't', ' ', '$', 't', 'o', '_', 'f', 'n', ':', 'i', 'd', 'e', 'n', 't', ' ', '$', 'f', 'r', 'o', 'm', '_', 'f', 'n', '_', 'o', 'p', 't', ':', 'i', 'd', 'e', 'n', 't', ' ', '$', 't', 'o', '_', 'f', 'n', '_', 'o', 'p', 't', ':', 'i', 'd', 'e', 'n', 't', ','],
   [' ', ' ', ' ', ' ', ' ', ' ', ' ', ' ', ' ', ' ', ' ', ' ', '$', 'f', 'r', 'o', 'm', ':', 'i', 'd', 'e', 'n', 't', ' ', '$', 't', 'r', 'y', '_', 'f', 'r', 'o', 'm', ':', 'i', 'd', 'e', 'n', 't', ' ', '$', 'f', 'r', 'o', 'm', '_', 't', 'r', 'u', 'n', 'c', 'a', 't', 'e', 'd', ':', 'i', 'd', 'e', 'n', 't', ' ', '$', 'f', 'r', 'o', 'm', '_', 'u', 'n', 'c', 'h', 'e', 'c', 'k', 'e', 'd', ':', 'i', 'd', 'e', 'n', 't', ','],
   [' ', ' ', ' ', ' ', ' ', ' ', ' ', ' ', ' ', ' ', ' ', ' ', '$', 't', 'o', ':', 'i', 'd', 'e', 'n', 't', ' ', '$', 't', 'r', 'y', '_', 't', 'o', ':', 'i', 'd', 'e', 'n', 't', ' ', '$', 't', 'o', '_', 't', 'r', 'u', 'n', 'c', 'a', 't', 'e', 'd', ':', 'i', 'd', 'e', 'n', 't'],
   [' ', ' ', ' ', ' ', ' ', ' ', ' ', ' ', ')', ';', ')', '*'],
   [' ', ' ', ' ', ' ', ')', ' ', '=', '>', ' ', '{'],
   [' ', ' ', ' ', ' ', ' ', ' ', ' ', ' ', 'i', 'm', 'p', 'l', '<', 'T', ':', ' ', 'E', 'n', 'u', 'm', 'S', 'e', 't', 'T', 'y', 'p', 'e', '>', ' ', 'E', 'n', 'u', 'm', 'S', 'e', 't', '<', 'T', '>', ' ', '{', '$', '('],
   [' ', ' ', ' ', ' ', ' ', ' ', ' ', ' ', ' ', ' ', ' ', ' ', '#', '[', 'd', 'o', 'c', ' ', '=', ' ', '"', 'R', 'e', 't', 'u', 'r', 'n', 's', ' ', 'a', ' ', '`', '"', ']'],
   [' ', ' ', ' ', ' ', ' ', ' ', ' ', ' ', ' ', ' ', ' ', ' ', '#', '[', 'd', 'o', 'c', ' ', '=', ' ', '$', 'u', 'n', 'd', 'e', 'r', 'l', 'y', 'i', 'n', 'g', '_', 's', 't', 'r', ']'],
   [' ', ' ', ' ', ' ', ' ', ' ', ' ', ' ', ' ', ' ', ' ', ' ', '#', '[', 'd', 'o', 'c', ' ', '=', ' ', '"', '`', ' ', 'r', 'e', 'p', 'r', 'e', 's', 'e', 'n', 't', 'i', 'n', 'g', ' ', 't', 'h', 'e', ' ', 'e', 'l', 'e', 'm', 'e', 'n', 't', 's', ' ', 'o', 'f', ' ', 't', 'h', 'i', 's', ' ', 's', 'e', 't', '.', '\\', 'n', '\\', 'n', 'I', 'f', ' ', 't', 'h', 'e', ' ', 'u', 'n', 'd', 'e', 'r', 'l', 'y', 'i', 'n', 'g', ' ', 'b', 'i', 't', 's', 'e', 't', ' ', 'w', 'i', 'l', 'l', ' ', '\\'],
   [' ', ' ', ' ', ' ', ' ', ' ', ' ', ' ', ' ', ' ', ' ', ' ', ' ', ' ', ' ', ' ', ' ', ' ', ' ', ' ', ' ', 'n', 'o', 't', ' ', 'f', 'i', 't', ' ', 'i', 'n', ' ', 'a', ' ', '`', '"', ']'],
   [' ', ' ', ' ', ' ', ' ', ' ', ' ', ' ', ' ', ' ', ' ', ' ', '#', '[', 'd', 'o', 'c', ' ', '=', ' ', '$', 'u', 'n', 'd', 'e', 'r', 'l', 'y', 'i', 'n', 'g', '_', 's', 't', 'r', ']'],
   [' ', ' ', ' ', ' ', ' ', ' ', ' ', ' ', ' ', ' ', ' ', ' ', '#', '[', 'd', 'o', 'c', ' ', '=', ' ', '"', '`', ',', ' ', 't', 'h', 'i', 's', ' ', 'm', 'e', 't', 'h', 'o', 'd', ' ', 'w', 'i', 'l', 'l', ' ', 'p', 'a', 'n', 'i', 'c', '.', '"', ']'],
   [' ', ' ', ' ', ' ', ' ', ' ', ' ', ' ', ' ', ' ', ' ', ' ', '#', '[', 'i', 'n', 'l', 'i', 'n', 'e', '(', 'a', 'l', 'w', 'a', 'y', 's', ')', ']'],
   [' ', ' ', ' ', ' ', ' ', ' ', ' ', ' ', ' ', ' ', ' ', ' ', 'p', 'u', 'b', ' ', 'f', 'n', ' ', '$', 't', 'o', '(', '&', 's', 'e', 'l', 'f', ')', ' ', '-', '>', ' ', '$', 'u', 'n', 'd', 'e', 'r', 'l', 'y', 'i', 'n', 'g', ' ', '{'],
   [' ', ' ', ' ', ' ', ' ', ' ', ' ', ' ', ' ', ' ', ' ', ' ', ' ', ' ', ' ', ' ', 's', 'e', 'l', 'f', '.', '$', 't', 'r', 'y', '_', 't', 'o', '(', ')', '.', 'e', 'x', 'p', 'e', 'c', 't', '(', '"', 'B', 'i', 't', 's', 'e', 't', ' ', 'w', 'i', 'l', 'l', ' ', 'n', 'o', 't', ' ', 'f', 'i', 't', ' ', 'i', 'n', 't', 'o', ' ', 't', 'h', 'i', 's', ' ', 't', 'y', 'p', 'e', '.', '"', ')'],
   [' ', ' ', ' ', ' ', ' ', ' ', ' ', ' ', ' ', ' ', ' ', ' ', '}'],
   [],
   [' ', ' ', ' ', ' ', ' ', ' ', ' ', ' ', ' ', ' ', ' ', ' ', '#', '[', 'd', 'o', 'c', ' ', '=', ' ', '"', 'T', 'r', 'i', 'e', 's', ' ', 't', 'o', ' ', 'r', 'e', 't', 'u', 'r', 'n', ' ', 'a', ' ', '`', '"', ']'],
   [' ', ' ', ' ', ' ', ' ', ' ', ' ', ' ', ' ', ' ', ' ', ' ', '#', '[', 'd', 'o', 'c', ' ', '=', ' ', '$', 'u', 'n', 'd', 'e', 'r', 'l', 'y', 'i', 'n', 'g', '_', 's', 't', 'r', ']'],
   [' ', ' ', ' ', ' ', ' ', ' ', ' ', ' ', ' ', ' ', ' ', ' ', '#', '[', 'd', 'o', 'c', ' ', '=', ' ', '"', '`', ' ', 'r', 'e', 'p', 'r', 'e', 's', 'e', 'n', 't', 'i', 'n', 'g', ' ', 't', 'h', 'e', ' ', 'e', 'l', 'e', 'm', 'e', 'n', 't', 's', ' ', 'o', 'f', ' ', 't', 'h', 'i', 's', ' ', 's', 'e', 't', '.', '\\', 'n', '\\', 'n', 'I', 'f', ' ', 't', 'h', 'e', ' ', 'u', 'n', 'd', 'e', 'r', 'l', 'y', 'i', 'n', 'g', ' ', 'b', 'i', 't', 's', 'e', 't', ' ', 'w', 'i', 'l', 'l', ' ', '\\'],
   [' ', ' ', ' ', ' ', ' ', ' ', ' ', ' ', ' ', ' ', ' ', ' ', ' ', ' ', ' ', ' ', ' ', ' ', ' ', ' ', ' ', 'n', 'o', 't', ' ', 'f', 'i', 't', ' ', 'i', 'n', ' ', 'a', ' ', '`', '"', ']'],
   [' ', ' ', ' ', ' ', ' ', ' ', ' ', ' ', ' ', ' ', ' ', ' ', '#', '[', 'd', 'o', 'c', ' ', '=', ' ', '$', 'u', 'n', 'd', 'e', 'r', 'l', 'y', 'i', 'n', 'g', '_', 's', 't', 'r', ']'],
   [' ', ' ', ' ', ' ', ' ', ' ', ' ', ' ', ' ', ' ', ' ', ' ', '#', '[', 'd', 'o', 'c', ' ', '=', ' ', '"', '`', ',', ' ', 't', 'h', 'i', 's', ' ', 'm', 'e', 't', 'h', 'o', 'd', ' ', 'w', 'i', 'l', 'l', ' ', 'p', 'a', 'n', 'i', 'c', '.', '"', ']'],
   [' ', ' ', ' ', ' ', ' ', ' ', ' ', ' ', ' ', ' ', ' ', ' ', '#', '[', 'i', 'n', 'l', 'i', 'n', 'e', '(', 'a', 'l', 'w', 'a', 'y', 's', ')', ']'],
   [' ', ' ', ' ', ' ', ' ', ' ', ' ', ' ', ' ', ' ', ' ', ' ', 'p', 'u', 'b', ' ', 'f', 'n', ' ', '$', 't', 'r', 'y', '_', 't', 'o', '(', '&', 's', 'e', 'l', 'f', ')', ' ', '-', '>', ' ', 'O', 'p', 't', 'i', 'o', 'n', '<', '$', 'u', 'n', 'd', 'e', 'r', 'l', 'y', 'i', 'n', 'g', '>', ' ', '{'],
   [' ', ' ', ' ', ' ', ' ', ' ', ' ', ' ', ' ', ' ', ' ', ' ', ' ', ' ', ' ', ' ', 'E', 'n', 'u', 'm', 'S', 'e', 't', 'T', 'y', 'p', 'e', 'R', 'e', 'p', 'r', ':', ':', '$', 't', 'o', '_', 'f', 'n', '_', 'o', 'p', 't', '(', '&', 's', 'e', 'l', 'f', '.', '_', '_', 'p', 'r', 'i', 'v', '_', 'r', 'e', 'p', 'r', ')'],
   [' ', ' ', ' ', ' ', ' ', ' ', ' ', ' ', ' ', ' ', ' ', ' ', '}'],
   [],
   [' ', ' ', ' ', ' ', ' ', ' ', ' ', ' ', ' ', ' ', ' ', ' ', '#', '[', 'd', 'o', 'c', ' ', '=', ' ', '"', 'R', 'e', 't', 'u', 'r', 'n', 's', ' ', 'a', ' ', 't', 'r', 'u', 'n', 'c', 'a', 't', 'e', 'd', ' ', '`', '"', ']'],
   [' ', ' ', ' ', ' ', ' ', ' ', ' ', ' ', ' ', ' ', ' ', ' ', '#', '[', 'd', 'o', 'c', ' ', '=', ' ', '$', 'u', 'n', 'd', 'e', 'r', 'l', 'y', 'i', 'n', 'g', '_', 's', 't', 'r', ']'],
   [' ', ' ', ' ', ' ', ' ', ' ', ' ', ' ', ' ', ' ', ' ', ' ', '#', '[', 'd', 'o', 'c', ' ', '=', ' ', '"', '`', ' ', 'r', 'e', 'p', 'r', 'e', 's', 'e', 'n', 't', 'i', 'n', 'g', ' ', 't', 'h', 'e', ' ', 'e', 'l', 'e', 'm', 'e', 'n', 't', 's', ' ', 'o', 'f', ' ', 't', 'h', 'i', 's', ' ', 's', 'e', 't', '.', '\\', 'n', '\\', 'n', 'I', 'f', ' ', 't', 'h', 'e', ' ', 'u', 'n', 'd', 'e', 'r', 'l', 'y', 'i', 'n', 'g', ' ', 'b', 'i', 't', 's', 'e', 't', ' ', 'w', 'i', 'l', 'l', ' ', '\\'],
   [' ', ' ', ' ', ' ', ' ', ' ', ' ', ' ', ' ', ' ', ' ', ' ', ' ', ' ', ' ', ' ', ' ', ' ', ' ', ' ', ' ', 'n', 'o', 't', ' ', 'f', 'i', 't', ' ', 'i', 'n', ' ', 'a', ' ', '`', '"', ']'],
   [' ', ' ', ' ', ' ', ' ', ' ', ' ', ' ', ' ', ' ', ' ', ' ', '#', '[', 'd', 'o', 'c', ' ', '=', ' ', '$', 'u', 'n', 'd', 'e', 'r', 'l', 'y', 'i', 'n', 'g', '_', 's', 't', 'r', ']'],
   [' ', ' ', ' ', ' ', ' ', ' ', ' ', ' ', ' ', ' ', ' ', ' ', '#', '[', 'd', 'o', 'c', ' ', '=', ' ', '"', '`', ',', ' ', 't', 'h', 'i', 's', ' ', 'm', 'e', 't', 'h', 'o', 'd', ' ', 'w', 'i', 'l', 'l', ' ', 't', 'r', 'u', 'n', 'c', 'a', 't', 'e', ' ', 'a', 'n', 'y', ' ', 'b', 'i', 't', 's', ' ', 't', 'h', 'a', 't', ' ', 'd', 'o', 'n', '\'', 't', ' ', 'f', 'i', 't', '.', '"', ']'],
   [' ', ' ', ' ', ' ', ' ', ' ', ' ', ' ', ' ', ' ', ' ', ' ', '#', '[', 'i', 'n', 'l', 'i', 'n', 'e', '(', 'a', 'l', 'w', 'a', 'y', 's', ')', ']'],
   [' ', ' ', ' ', ' ', ' ', ' ', ' ', ' ', ' ', ' ', ' ', ' ', 'p', 'u', 'b', ' ', 'f', 'n', ' ', '$', 't', 'o', '_', 't', 'r', 'u', 'n', 'c', 'a', 't', 'e', 'd', '(', '&', 's', 'e', 'l', 'f', ')', ' ', '-', '>', ' ', '$', 'u', 'n', 'd', 'e', 'r', 'l', 'y', 'i', 'n', 'g', ' ', '{'],
   [' ', ' ', ' ', ' ', ' ', ' ', ' ', ' ', ' ', ' ', ' ', ' ', ' ', ' ', ' ', ' ', 'E', 'n', 'u', 'm', 'S', 'e', 't', 'T', 'y', 'p', 'e', 'R', 'e', 'p', 'r', ':', ':', '$', 't', 'o', '_', 'f', 'n', '(', '&', 's', 'e', 'l', 'f', '.', '_', '_', 'p', 'r', 'i', 'v', '_', 'r', 'e', 'p', 'r', ')'],
   [' ', ' ', ' ', ' ', ' ', ' ', ' ', ' ', ' ', ' ', ' ', ' ', '}'],
   [],
   [' ', ' ', ' ', ' ', ' ', ' ', ' ', ' ', ' ', ' ', ' ', ' ', '#', '[', 'd', 'o', 'c', ' ', '=', ' ', '"', 'C', 'o', 'n', 's', 't', 'r', 'u', 'c', 't', 's', ' ', 'a', ' ', 'b', 'i', 't', 's', 'e', 't', ' ', 'f', 'r', 'o', 'm', ' ', 'a', ' ', '`', '"', ']'],
   [' ', ' ', ' ', ' ', ' ', ' ', ' ', ' ', ' ', ' ', ' ', ' ', '#', '[', 'd', 'o', 'c', ' ', '=', ' ', '$', 'u', 'n', 'd', 'e', 'r', 'l', 'y', 'i', 'n', 'g', '_', 's', 't', 'r', ']'],
   [' ', ' ', ' ', ' ', ' ', ' ', ' ', ' ', ' ', ' ', ' ', ' ', '#', '[', 'd', 'o', 'c', ' ', '=', ' ', '"', '`', '.', '\\', 'n', '\\', 'n', 'I', 'f', ' ', 'a', ' ', 'b', 'i', 't', ' ', 't', 'h', 'a', 't', ' ', 'd', 'o', 'e', 's', 'n', '\'', 't', ' ', 'c', 'o', 'r', 'r', 'e', 's', 'p', 'o', 'n', 'd', ' ', 't', 'o', ' ', 'a', 'n', ' ', 'e', 'n', 'u', 'm', ' ', 'v', 'a', 'r', 'i', 'a', 'n', 't', ' ', 'i', 's', ' ', 's', 'e', 't', ',', ' ', 't', 'h', 'i', 's', ' ', '\\'],
   [' ', ' ', ' ', ' ', ' ', ' ', ' ', ' ', ' ', ' ', ' ', ' ', ' ', ' ', ' ', ' ', ' ', ' ', ' ', ' ', ' ', 'm', 'e', 't', 'h', 'o', 'd', ' ', 'w', 'i', 'l', 'l', ' ', 'p', 'a', 'n', 'i', 'c', '.', '"', ']'],
   [' ', ' ', ' ', ' ', ' ', ' ', ' ', ' ', ' ', ' ', ' ', ' ', '#', '[', 'i', 'n', 'l', 'i', 'n', 'e', '(', 'a', 'l', 'w', 'a', 'y', 's', ')', ']'],
   [' ', ' ', ' ', ' ', ' ', ' ', ' ', ' ', ' ', ' ', ' ', ' ', 'p', 'u', 'b', ' ', 'f', 'n', ' ', '$', 'f', 'r', 'o', 'm', '(', 'b', 'i', 't', 's', ':', ' ', '$', 'u', 'n', 'd', 'e', 'r', 'l', 'y', 'i', 'n', 'g', ')', ' ', '-', '>', ' ', 'S', 'e', 'l', 'f', ' ', '{'],
   [' ', ' ', ' ', ' ', ' ', ' ', ' ', ' ', ' ', ' ', ' ', ' ', ' ', ' ', ' ', ' ', 'S', 'e', 'l', 'f', ':', ':', '$', 't', 'r', 'y', '_', 'f', 'r', 'o', 'm', '(', 'b', 'i', 't', 's', ')', '.', 'e', 'x', 'p', 'e', 'c', 't', '(', '"', 'B', 'i', 't', 's', 'e', 't', ' ', 'c', 'o', 'n', 't', 'a', 'i', 'n', 's', ' ', 'i', 'n', 'v', 'a', 'l', 'i', 'd', ' ', 'v', 'a', 'r', 'i', 'a', 'n', 't', 's', '.', '"', ')'],
   [' ', ' ', ' ', ' ', ' ', ' ', ' ', ' ', ' ', ' ', ' ', ' ', '}'],
   [],
   [' ', ' ', ' ', ' ', ' ', ' ', ' ', ' ', ' ', ' ', ' ', ' ', '#', '[', 'd', 'o', 'c', ' ', '=', ' ', '"', 'A', 't', 't', 'e', 'm', 'p', 't', 's', ' ', 't', 'o', ' ', 'c', 'o', 'n', 's', 't', 'r', 'u', 'c', 't', 's', ' ', 'a', ' ', 'b', 'i', 't', 's', 'e', 't', ' ', 'f', 'r', 'o', 'm', ' ', 'a', ' ', '`', '"', ']'],
   [' ', ' ', ' ', ' ', ' ', ' ', ' ', ' ', ' ', ' ', ' ', ' ', '#', '[', 'd', 'o', 'c', ' ', '=', ' ', '$', 'u', 'n', 'd', 'e', 'r', 'l', 'y', 'i', 'n', 'g', '_', 's', 't', 'r', ']'],
   [' ', ' ', ' ', ' ', ' ', ' ', ' ', ' ', ' ', ' ', ' ', ' ', '#', '[', 'd', 'o', 'c', ' ', '=', ' ', '"', '`', '.', '\\', 'n', '\\', 'n', 'I', 'f', ' ', 'a', ' ', 'b', 'i', 't', ' ', 't', 'h', 'a', 't', ' ', 'd', 'o', 'e', 's', 'n', '\'', 't', ' ', 'c', 'o', 'r', 'r', 'e', 's', 'p', 'o', 'n', 'd', ' ', 't', 'o', ' ', 'a', 'n', ' ', 'e', 'n', 'u', 'm', ' ', 'v', 'a', 'r', 'i', 'a', 'n', 't', ' ', 'i', 's', ' ', 's', 'e', 't', ',', ' ', 't', 'h', 'i', 's', ' ', '\\'],
   [' ', ' ', ' ', ' ', ' ', ' ', ' ', ' ', ' ', ' ', ' ', ' ', ' ', ' ', ' ', ' ', ' ', ' ', ' ', ' ', ' ', 'm', 'e', 't', 'h', 'o', 'd', ' ', 'w', 'i', 'l', 'l', ' ', 'r', 'e', 't', 'u', 'r', 'n', ' ', '`', 'N', 'o', 'n', 'e', '`', '.', '"', ']'],
   [' ', ' ', ' ', ' ', ' ', ' ', ' ', ' ', ' ', ' ', ' ', ' ', '#', '[', 'i', 'n', 'l', 'i', 'n', 'e', '(', 'a', 'l', 'w', 'a', 'y', 's', ')', ']'],
   [' ', ' ', ' ', ' ', ' ', ' ', ' ', ' ', ' ', ' ', ' ', ' ', 'p', 'u', 'b', ' ', 'f', 'n', ' ', '$', 't', 'r', 'y', '_', 'f', 'r', 'o', 'm', '(', 'b', 'i', 't', 's', ':', ' ', '$', 'u', 'n', 'd', 'e', 'r', 'l', 'y', 'i', 'n', 'g', ')', ' ', '-', '>', ' ', 'O', 'p', 't', 'i', 'o', 'n', '<', 'S', 'e', 'l', 'f', '>', ' ', '{'],
   [' ', ' ', ' ', ' ', ' ', ' ', ' ', ' ', ' ', ' ', ' ', ' ', ' ', ' ', ' ', ' ', 'l', 'e', 't', ' ', 'b', 'i', 't', 's', ' ', '=', ' ', 'T', ':', ':', 'R', 'e', 'p', 'r', ':', ':', '$', 'f', 'r', 'o', 'm', '_', 'f', 'n', '_', 'o', 'p', 't', '(', 'b', 'i', 't', 's', ')', ';'],
   [' ', ' ', ' ', ' ', ' ', ' ', ' ', ' ', ' ', ' ', ' ', ' ', ' ', ' ', ' ', ' ', 'l', 'e', 't', ' ', 'm', 'a', 's', 'k', ' ', '=', ' ', 'T', ':', ':', 'A', 'L', 'L', '_', 'B', 'I', 'T', 'S', ';'],
   [' ', ' ', ' ', ' ', ' ', ' ', ' ', ' ', ' ', ' ', ' ', ' ', ' ', ' ', ' ', ' ', 'b', 'i', 't', 's', '.', 'a', 'n', 'd', '_', 't', 'h', 'e', 'n', '(', '|', 'b', 'i', 't', 's', '|', ' ', 'i', 'f', ' ', 'b', 'i', 't', 's', '.', 'a', 'n', 'd', '_', 'n', 'o', 't', '(', 'm', 'a', 's', 'k', ')', '.', 'i', 's', '_', 'e', 'm', 'p', 't', 'y', '(', ')', ' ', '{'],
   [' ', ' ', ' ', ' ', ' ', ' ', ' ', ' ', ' ', ' ', ' ', ' ', ' ', ' ', ' ', ' ', ' ', ' ', ' ', ' ', 'S', 'o', 'm', 'e', '(', 'E', 'n', 'u', 'm', 'S', 'e', 't', ' ', '{', ' ', '_', '_', 'p', 'r', 'i', 'v', '_', 'r', 'e', 'p', 'r', ':', ' ', 'b', 'i', 't', 's', ' ', '}', ')'],
   [' ', ' ', ' ', ' ', ' ', ' ', ' ', ' ', ' ', ' ', ' ', ' ', ' ', ' ', ' ', ' ', '}', ' ', 'e', 'l', 's', 'e', ' ', '{'],
   [' ', ' ', ' ', ' ', ' ', ' ', ' ', ' ', ' ', ' ', ' ', ' ', ' ', ' ', ' ', ' ', ' ', ' ', ' ', ' ', 'N', 'o', 'n', 'e'],
   [' ', ' ', ' ', ' ', ' ', ' ', ' ', ' ', ' ', ' ', ' ', ' ', ' ', ' ', ' ', ' ', '}', ')'],
   [' ', ' ', ' ', ' ', ' ', ' ', ' ', ' ', ' ', ' ', ' ', ' ', '}'],
   [],
   [' ', ' ', ' ', ' ', ' ', ' ', ' ', ' ', ' ', ' ', ' ', ' ', '#', '[', 'd', 'o', 'c', ' ', '=', ' ', '"', 'C', 'o', 'n', 's', 't', 'r', 'u', 'c', 't', 's', ' ', 'a', ' ', 'b', 'i', 't', 's', 'e', 't', ' ', 'f', 'r', 'o', 'm', ' ', 'a', ' ', '`', '"', ']'],
   [' ', ' ', ' ', ' ', ' ', ' ', ' ', ' ', ' ', ' ', ' ', ' ', '#', '[', 'd', 'o', 'c', ' ', '=', ' ', '$', 'u', 'n', 'd', 'e', 'r', 'l', 'y', 'i', 'n', 'g', '_', 's', 't', 'r', ']'],
   [' ', ' ', ' ', ' ', ' ', ' ', ' ', ' ', ' ', ' ', ' ', ' ', '#', '[', 'd', 'o', 'c', ' ', '=', ' ', '"', '`', ',', ' ', 'i', 'g', 'n', 'o', 'r', 'i', 'n', 'g', ' ', 'b', 'i', 't', 's', ' ', 't', 'h', 'a', 't', ' ', 'd', 'o', ' ', 'n', 'o', 't', ' ', 'c', 'o', 'r', 'r', 'e', 's', 'p', 'o', 'n', 'd', ' ', 't', 'o', ' ', 'a', ' ', 'v', 'a', 'r', 'i', 'a', 'n', 't', '.', '"', ']'],
   [' ', ' ', ' ', ' ', ' ', ' ', ' ', ' ', ' ', ' ', ' ', ' ', '#', '[', 'i', 'n', 'l', 'i', 'n', 'e', '(', 'a', 'l', 'w', 'a', 'y', 's', ')', ']'],
   [' ', ' ', ' ', ' ', ' ', ' ', ' ', ' ', ' ', ' ', ' ', ' ', 'p', 'u', 'b', ' ', 'f', 'n', ' ', '$', 'f', 'r', 'o', 'm', '_', 't', 'r', 'u', 'n', 'c', 'a', 't', 'e', 'd', '(', 'b', 'i', 't', 's', ':', ' ', '$', 'u', 'n', 'd', 'e', 'r', 'l', 'y', 'i', 'n', 'g', ')', ' ', '-', '>', ' ', 'S', 'e', 'l', 'f', ' ', '{'],
   [' ', ' ', ' ', ' ', ' ', ' ', ' ', ' ', ' ', ' ', ' ', ' ', ' ', ' ', ' ', ' ', 'l', 'e', 't', ' ', 'm', 'a', 's', 'k', ' ', '=', ' ', 'S', 'e', 'l', 'f', ':', ':', 'a', 'l', 'l', '(', ')', '.', '$', 't', 'o', '_', 't', 'r', 'u', 'n', 'c', 'a', 't', 'e', 'd', '(', ')', ';'],
   [' ', ' ', ' ', ' ', ' ', ' ', ' ', ' ', ' ', ' ', ' ', ' ', ' ', ' ', ' ', ' ', 'l', 'e', 't', ' ', 'b', 'i', 't', 's', ' ', '=', ' ', '<', 'T', ':', ':', 'R', 'e', 'p', 'r', ' ', 'a', 's', ' ', 'E', 'n', 'u', 'm', 'S', 'e', 't', 'T', 'y', 'p', 'e', 'R', 'e', 'p', 'r', '>', ':', ':', '$', 'f', 'r', 'o', 'm', '_', 'f', 'n', '(', 'b', 'i', 't', 's', ' ', '&', ' ', 'm', 'a', 's', 'k', ')', ';'],
   [' ', ' ', ' ', ' ', ' ', ' ', ' ', ' ', ' ', ' ', ' ', ' ', ' ', ' ', ' ', ' ', 'E', 'n', 'u', 'm', 'S', 'e', 't', ' ', '{', ' ', '_', '_', 'p', 'r', 'i', 'v', '_', 'r', 'e', 'p', 'r', ':', ' ', 'b', 'i', 't', 's', ' ', '}'],
   [' ', ' ', ' ', ' ', ' ', ' ', ' ', ' ', ' ', ' ', ' ', ' ', '}'],
   [],
   [' ', ' ', ' ', ' ', ' ', ' ', ' ', ' ', ' ', ' ', ' ', ' ', '#', '[', 'd', 'o', 'c', ' ', '=', ' ', '"', 'C', 'o', 'n', 's', 't', 'r', 'u', 'c', 't', 's', ' ', 'a', ' ', 'b', 'i', 't', 's', 'e', 't', ' ', 'f', 'r', 'o', 'm', ' ', 'a', ' ', '`', '"', ']'],
   [' ', ' ', ' ', ' ', ' ', ' ', ' ', ' ', ' ', ' ', ' ', ' ', '#', '[', 'd', 'o', 'c', ' ', '=', ' ', '$', 'u', 'n', 'd', 'e', 'r', 'l', 'y', 'i', 'n', 'g', '_', 's', 't', 'r', ']'],
   [' ', ' ', ' ', ' ', ' ', ' ', ' ', ' ', ' ', ' ', ' ', ' ', '#', '[', 'd', 'o', 'c', ' ', '=', ' ', '"', '`', ',', ' ', 'w', 'i', 't', 'h', 'o', 'u', 't', ' ', 'c', 'h', 'e', 'c', 'k', 'i', 'n', 'g', ' ', 'f', 'o', 'r', ' ', 'i', 'n', 'v', 'a', 'l', 'i', 'd', ' ', 'b', 'i', 't', 's', '.', '"', ']'],
   [' ', ' ', ' ', ' ', ' ', ' ', ' ', ' ', ' ', ' ', ' ', ' ', '/', '/', '/'],
   [' ', ' ', ' ', ' ', ' ', ' ', ' ', ' ', ' ', ' ', ' ', ' ', '/', '/', '/', ' ', '#', ' ', 'S', 'a', 'f', 'e', 't', 'y'],
   [' ', ' ', ' ', ' ', ' ', ' ', ' ', ' ', ' ', ' ', ' ', ' ', '/', '/', '/'],
   [' ', ' ', ' ', ' ', ' ', ' ', ' ', ' ', ' ', ' ', ' ', ' ', '/', '/', '/', ' ', 'A', 'l', 'l', ' ', 'b', 'i', 't', 's', ' ', 'i', 'n', ' ', 't', 'h', 'e', ' ', 'p', 'r', 'o', 'v', 'i', 'd', 'e', 'd', ' ', 'p', 'a', 'r', 'a', 'm', 'e', 't', 'e', 'r', ' ', '`', 'b', 'i', 't', 's', '`', ' ', 't', 'h', 'a', 't', ' ', 'd', 'o', 'n', '\'', 't', ' ', 'c', 'o', 'r', 'r', 'e', 's', 'p', 'o', 'n', 'd', ' ', 't', 'o', ' ', 'a', 'n', ' ', 'e', 'n', 'u', 'm', ' ', 'v', 'a', 'r', 'i', 'a', 'n', 't'],
   [' ', ' ', ' ', ' ', ' ', ' ', ' ', ' ', ' ', ' ', ' ', ' ', '/', '/', '/', ' ', 'o', 'f', ' ', '`', 'T', '`', ' ', 'm', 'u', 's', 't', ' ', 'b', 'e', ' ', 's', 'e', 't', ' ', 't', 'o', ' ', '`', '0', '`', '.', ' ', 'B', 'e', 'h', 'a', 'v', 'i', 'o', 'r', ' ', 'i', 's', ' ', '*', '*', 'u', 'n', 'd', 'e', 'f', 'i', 'n', 'e', 'd', '*', '*', ' ', 'i', 'f', ' ', 'a', 'n', 'y', ' ', 'o', 'f', ' ', 't', 'h', 'e', 's', 'e', ' ', 'b', 'i', 't', 's', ' ', 'a', 'r', 'e', ' ', 's', 'e', 't'],
   [' ', ' ', ' ', ' ', ' ', ' ', ' ', ' ', ' ', ' ', ' ', ' ', '/', '/', '/', ' ', 't', 'o', ' ', '`', '1', '`', '.'],
   [' ', ' ', ' ', ' ', ' ', ' ', ' ', ' ', ' ', ' ', ' ', ' ', '#', '[', 'i', 'n', 'l', 'i', 'n', 'e', '(', 'a', 'l', 'w', 'a', 'y', 's', ')', ']'],
   [' ', ' ', ' ', ' ', ' ', ' ', ' ', ' ', ' ', ' ', ' ', ' ', 'p', 'u', 'b', ' ', 'u', 'n', 's', 'a', 'f', 'e', ' ', 'f', 'n', ' ', '$', 'f', 'r', 'o', 'm', '_', 'u', 'n', 'c', 'h', 'e', 'c', 'k', 'e', 'd', '(', 'b', 'i', 't', 's', ':', ' ', '$', 'u', 'n', 'd', 'e', 'r', 'l', 'y', 'i', 'n', 'g', ')', ' ', '-', '>', ' ', 'S', 'e', 'l', 'f', ' ', '{'],
   [' ', ' ', ' ', ' ', ' ', ' ', ' ', ' ', ' ', ' ', ' ', ' ', ' ', ' ', ' ', ' ', 'E', 'n', 'u', 'm', 'S', 'e', 't', ' ', '{', ' ', '_', '_', 'p', 'r', 'i', 'v', '_', 'r', 'e', 'p', 'r', ':', ' ', '<', 'T', ':', ':', 'R', 'e', 'p', 'r', ' ', 'a', 's', ' ', 'E', 'n', 'u', 'm', 'S', 'e', 't', 'T', 'y', 'p', 'e', 'R', 'e', 'p', 'r', '>', ':', ':', '$', 'f', 'r', 'o', 'm', '_', 'f', 'n', '(', 'b', 'i', 't', 's', ')', ' ', '}'],
   [' ', ' ', ' ', ' ', ' ', ' ', ' ', ' ', ' ', ' ', ' ', ' ', '}'],
   [' ', ' ', ' ', ' ', ' ', ' ', ' ', ' ', ')', '*', '}'],
   [' ', ' ', ' ', ' ', '}'],
   ['}'],
   ['c', 'o', 'n', 'v', 'e', 'r', 's', 'i', 'o', 'n', '_', 'i', 'm', 'p', 'l', 's', '!', ' ', '{'],
   [' ', ' ', ' ', ' ', 'f', 'o', 'r', '_', 'n', 'u', 'm', '!', '(', 'u', '8', ',', ' ', '"', 'u', '8', '"', ','],
   [' ', ' ', ' ', ' ', ' ', ' ', ' ', ' ', ' ', ' ', ' ', ' ', ' ', 'f', 'r', 'o', 'm', '_', 'u', '8', ' ', 't', 'o', '_', 'u', '8', ' ', 'f', 'r', 'o', 'm', '_', 'u', '8', '_', 'o', 'p', 't', ' ', 't', 'o', '_', 'u', '8', '_', 'o', 'p', 't', ','],
   [' ', ' ', ' ', ' ', ' ', ' ', ' ', ' ', ' ', ' ', ' ', ' ', ' ', 'f', 'r', 'o', 'm', '_', 'u', '8', ' ', 't', 'r', 'y', '_', 'f', 'r', 'o', 'm', '_', 'u', '8', ' ', 'f', 'r', 'o', 'm', '_', 'u', '8', '_', 't', 'r', 'u', 'n', 'c', 'a', 't', 'e', 'd', ' ', 'f', 'r', 'o', 'm', '_', 'u', '8', '_', 'u', 'n', 'c', 'h', 'e', 'c', 'k', 'e', 'd', ','],
   [' ', ' ', ' ', ' ', ' ', ' ', ' ', ' ', ' ', ' ', ' ', ' ', ' ', 'a', 's', '_', 'u', '8', ' ', 't', 'r', 'y', '_', 'a', 's', '_', 'u', '8', ' ', 'a', 's', '_', 'u', '8', '_', 't', 'r', 'u', 'n', 'c', 'a', 't', 'e', 'd', ')', ';'],
   [' ', ' ', ' ', ' ', 'f', 'o', 'r', '_', 'n', 'u', 'm', '!', '(', 'u', '1', '6', ',', ' ', '"', 'u', '1', '6', '"', ','],
   [' ', ' ', ' ', ' ', ' ', ' ', ' ', ' ', ' ', ' ', ' ', ' ', ' ', 'f', 'r', 'o', 'm', '_', 'u', '1', '6', ' ', 't', 'o', '_', 'u', '1', '6', ' ', 'f', 'r', 'o', 'm', '_', 'u', '1', '6', '_', 'o', 'p', 't', ' ', 't', 'o', '_', 'u', '1', '6', '_', 'o', 'p', 't', ','],
   [' ', ' ', ' ', ' ', ' ', ' ', ' ', ' ', ' ', ' ', ' ', ' ', ' ', 'f', 'r', 'o', 'm', '_', 'u', '1', '6', ' ', 't', 'r', 'y', '_', 'f', 'r', 'o', 'm', '_', 'u', '1', '6', ' ', 'f', 'r', 'o', 'm', '_', 'u', '1', '6', '_', 't', 'r', 'u', 'n', 'c', 'a', 't', 'e', 'd', ' ', 'f', 'r', 'o', 'm', '_', 'u', '1', '6', '_', 'u', 'n', 'c', 'h', 'e', 'c', 'k', 'e', 'd', ','],
   [' ', ' ', ' ', ' ', ' ', ' ', ' ', ' ', ' ', ' ', ' ', ' ', ' ', 'a', 's', '_', 'u', '1', '6', ' ', 't', 'r', 'y', '_', 'a', 's', '_', 'u', '1', '6', ' ', 'a', 's', '_', 'u', '1', '6', '_', 't', 'r', 'u', 'n', 'c', 'a', 't', 'e', 'd', ')', ';'],
   [' ', ' ', ' ', ' ', 'f', 'o', 'r', '_', 'n', 'u', 'm', '!', '(', 'u', '3', '2', ',', ' ', '"', 'u', '3', '2', '"', ','],
   [' ', ' ', ' ', ' ', ' ', ' ', ' ', ' ', ' ', ' ', ' ', ' ', ' ', 'f', 'r', 'o', 'm', '_', 'u', '3', '2', ' ', 't', 'o', '_', 'u', '3', '2', ' ', 'f', 'r', 'o', 'm', '_', 'u', '3', '2', '_', 'o', 'p', 't', ' ', 't', 'o', '_', 'u', '3', '2', '_', 'o', 'p', 't', ','],
   [' ', ' ', ' ', ' ', ' ', ' ', ' ', ' ', ' ', ' ', ' ', ' ', ' ', 'f', 'r', 'o', 'm', '_', 'u', '3', '2', ' ', 't', 'r', 'y', '_', 'f', 'r', 'o', 'm', '_', 'u', '3', '2', ' ', 'f', 'r', 'o', 'm', '_', 'u', '3', '2', '_', 't', 'r', 'u', 'n', 'c', 'a', 't', 'e', 'd', ' ', 'f', 'r', 'o', 'm', '_', 'u', '3', '2', '_', 'u', 'n', 'c', 'h', 'e', 'c', 'k', 'e', 'd', ','],
   [' ', ' ', ' ', ' ', ' ', ' ', ' ', ' ', ' ', ' ', ' ', ' ', ' ', 'a', 's', '_', 'u', '3', '2', ' ', 't', 'r', 'y', '_', 'a', 's', '_', 'u', '3', '2', ' ', 'a', 's', '_', 'u', '3', '2', '_', 't', 'r', 'u', 'n', 'c', 'a', 't', 'e', 'd', ')', ';'],
   [' ', ' ', ' ', ' ', 'f', 'o', 'r', '_', 'n', 'u', 'm', '!', '(', 'u', '6', '4', ',', ' ', '"', 'u', '6', '4', '"', ','],
   [' ', ' ', ' ', ' ', ' ', ' ', ' ', ' ', ' ', ' ', ' ', ' ', ' ', 'f', 'r', 'o', 'm', '_', 'u', '6', '4', ' ', 't', 'o', '_', 'u', '6', '4', ' ', 'f', 'r', 'o', 'm', '_', 'u', '6', '4', '_', 'o', 'p', 't', ' ', 't', 'o', '_', 'u', '6', '4', '_', 'o', 'p', 't', ','],
   [' ', ' ', ' ', ' ', ' ', ' ', ' ', ' ', ' ', ' ', ' ', ' ', ' ', 'f', 'r', 'o', 'm', '_', 'u', '6', '4', ' ', 't', 'r', 'y', '_', 'f', 'r', 'o', 'm', '_', 'u', '6', '4', ' ', 'f', 'r', 'o', 'm', '_', 'u', '6', '4', '_', 't', 'r', 'u', 'n', 'c', 'a', 't', 'e', 'd', ' ', 'f', 'r', 'o', 'm', '_', 'u', '6', '4', '_', 'u', 'n', 'c', 'h', 'e', 'c', 'k', 'e', 'd', ','],
   [' ', ' ', ' ', ' ', ' ', ' ', ' ', ' ', ' ', ' ', ' ', ' ', ' ', 'a', 's', '_', 'u', '6', '4', ' ', 't', 'r', 'y', '_', 'a', 's', '_', 'u', '6', '4', ' ', 'a', 's', '_', 'u', '6', '4', '_', 't', 'r', 'u', 'n', 'c', 'a', 't', 'e', 'd', ')', ';'],
   [' ', ' ', ' ', ' ', 'f', 'o', 'r', '_', 'n', 'u', 'm', '!', '(', 'u', '1', '2', '8', ',', ' ', '"', 'u', '1', '2', '8', '"', ','],
   [' ', ' ', ' ', ' ', ' ', ' ', ' ', ' ', ' ', ' ', ' ', ' ', ' ', 'f', 'r', 'o', 'm', '_', 'u', '1', '2', '8', ' ', 't', 'o', '_', 'u', '1', '2', '8', ' ', 'f', 'r', 'o', 'm', '_', 'u', '1', '2', '8', '_', 'o', 'p', 't', ' ', 't', 'o', '_', 'u', '1', '2', '8', '_', 'o', 'p', 't', ','],
   [' ', ' ', ' ', ' ', ' ', ' ', ' ', ' ', ' ', ' ', ' ', ' ', ' ', 'f', 'r', 'o', 'm', '_', 'u', '1', '2', '8', ' ', 't', 'r', 'y', '_', 'f', 'r', 'o', 'm', '_', 'u', '1', '2', '8', ' ', 'f', 'r', 'o', 'm', '_', 'u', '1', '2', '8', '_', 't', 'r', 'u', 'n', 'c', 'a', 't', 'e', 'd', ' ', 'f', 'r', 'o', 'm', '_', 'u', '1', '2', '8', '_', 'u', 'n', 'c', 'h', 'e', 'c', 'k', 'e', 'd', ','],
   [' ', ' ', ' ', ' ', ' ', ' ', ' ', ' ', ' ', ' ', ' ', ' ', ' ', 'a', 's', '_', 'u', '1', '2', '8', ' ', 't', 'r', 'y', '_', 'a', 's', '_', 'u', '1', '2', '8', ' ', 'a', 's', '_', 'u', '1', '2', '8', '_', 't', 'r', 'u', 'n', 'c', 'a', 't', 'e', 'd', ')', ';'],
   [' ', ' ', ' ', ' ', 'f', 'o', 'r', '_', 'n', 'u', 'm', '!', '(', 'u', 's', 'i', 'z', 'e', ',', ' ', '"', 'u', 's', 'i', 'z', 'e', '"', ','],
   [' ', ' ', ' ', ' ', ' ', ' ', ' ', ' ', ' ', ' ', ' ', ' ', ' ', 'f', 'r', 'o', 'm', '_', 'u', 's', 'i', 'z', 'e', ' ', 't', 'o', '_', 'u', 's', 'i', 'z', 'e', ' ', 'f', 'r', 'o', 'm', '_', 'u', 's', 'i', 'z', 'e', '_', 'o', 'p', 't', ' ', 't', 'o', '_', 'u', 's', 'i', 'z', 'e', '_', 'o', 'p', 't', ','],
   [' ', ' ', ' ', ' ', ' ', ' ', ' ', ' ', ' ', ' ', ' ', ' ', ' ', 'f', 'r', 'o', 'm', '_', 'u', 's', 'i', 'z', 'e', ' ', 't', 'r', 'y', '_', 'f', 'r', 'o', 'm', '_', 'u', 's', 'i', 'z', 'e', ' ', 'f', 'r', 'o', 'm', '_', 'u', 's', 'i', 'z', 'e', '_', 't', 'r', 'u', 'n', 'c', 'a', 't', 'e', 'd', ' ', 'f', 'r', 'o', 'm', '_', 'u', 's', 'i', 'z', 'e', '_', 'u', 'n', 'c', 'h', 'e', 'c', 'k', 'e', 'd', ','],
   [' ', ' ', ' ', ' ', ' ', ' ', ' ', ' ', ' ', ' ', ' ', ' ', ' ', 'a', 's', '_', 'u', 's', 'i', 'z', 'e', ' ', 't', 'r', 'y', '_', 'a', 's', '_', 'u', 's', 'i', 'z', 'e', ' ', 'a', 's', '_', 'u', 's', 'i', 'z', 'e', '_', 't', 'r', 'u', 'n', 'c', 'a', 't', 'e', 'd', ')', ';'],
   ['}'],
   [],
   ['i', 'm', 'p', 'l', '<', 'T', ':', ' ', 'E', 'n', 'u', 'm', 'S', 'e', 't', 'T', 'y', 'p', 'e', '>', ' ', 'E', 'n', 'u', 'm', 'S', 'e', 't', '<', 'T', '>', ' ', '{'],
   [' ', ' ', ' ', ' ', '/', '/', '/', ' ', 'R', 'e', 't', 'u', 'r', 'n', 's', ' ', 'a', 'n', ' ', '`', '[', 'u', '6', '4', ';', ' ', 'O', ']', '`', ' ', 'r', 'e', 'p', 'r', 'e', 's', 'e', 'n', 't', 'i', 'n', 'g', ' ', 't', 'h', 'e', ' ', 'e', 'l', 'e', 'm', 'e', 'n', 't', 's', ' ', 'o', 'f', ' ', 't', 'h', 'i', 's', ' ', 's', 'e', 't', '.'],
   [' ', ' ', ' ', ' ', '/', '/', '/'],
   [' ', ' ', ' ', ' ', '/', '/', '/', ' ', 'I', 'f', ' ', 't', 'h', 'e', ' ', 'u', 'n', 'd', 'e', 'r', 'l', 'y', 'i', 'n', 'g', ' ', 'b', 'i', 't', 's', 'e', 't', ' ', 'w', 'i', 'l', 'l', ' ', 'n', 'o', 't', ' ', 'f', 'i', 't', ' ', 'i', 'n', ' ', 'a', ' ', '`', '[', 'u', '6', '4', ';', ' ', 'O', ']', '`', ',', ' ', 't', 'h', 'i', 's', ' ', 'm', 'e', 't', 'h', 'o', 'd', ' ', 'w', 'i', 'l', 'l', ' ', 'p', 'a', 'n', 'i', 'c', '.'],
   [' ', ' ', ' ', ' ', 'p', 'u', 'b', ' ', 'f', 'n', ' ', 'a', 's', '_', 'a', 'r', 'r', 'a', 'y', '<', 'c', 'o', 'n', 's', 't', ' ', 'O', ':', ' ', 'u', 's', 'i', 'z', 'e', '>', '(', '&', 's', 'e', 'l', 'f', ')', ' ', '-', '>', ' ', '[', 'u', '6', '4', ';', ' ', 'O', ']', ' ', '{'],
   [' ', ' ', ' ', ' ', ' ', ' ', ' ', ' ', 's', 'e', 'l', 'f', '.', 't', 'r', 'y', '_', 'a', 's', '_', 'a', 'r', 'r', 'a', 'y', '(', ')'],
   [' ', ' ', ' ', ' ', ' ', ' ', ' ', ' ', ' ', ' ', ' ', ' ', '.', 'e', 'x', 'p', 'e', 'c', 't', '(', '"', 'B', 'i', 't', 's', 'e', 't', ' ', 'w', 'i', 'l', 'l', ' ', 'n', 'o', 't', ' ', 'f', 'i', 't', ' ', 'i', 'n', 't', 'o', ' ', 't', 'h', 'i', 's', ' ', 't', 'y', 'p', 'e', '.', '"', ')'],
   [' ', ' ', ' ', ' ', '}'],
   [],
   [' ', ' ', ' ', ' ', '/', '/', '/', ' ', 'R', 'e', 't', 'u', 'r', 'n', 's', ' ', 'a', 'n', ' ', '`', '[', 'u', '6', '4', ';', ' ', 'O', ']', '`', ' ', 'r', 'e', 'p', 'r', 'e', 's', 'e', 'n', 't', 'i', 'n', 'g', ' ', 't', 'h', 'e', ' ', 'e', 'l', 'e', 'm', 'e', 'n', 't', 's', ' ', 'o', 'f', ' ', 't', 'h', 'i', 's', ' ', 's', 'e', 't', '.'],
   [' ', ' ', ' ', ' ', '/', '/', '/'],
   [' ', ' ', ' ', ' ', '/', '/', '/', ' ', 'I', 'f', ' ', 't', 'h', 'e', ' ', 'u', 'n', 'd', 'e', 'r', 'l', 'y', 'i', 'n', 'g', ' ', 'b', 'i', 't', 's', 'e', 't', ' ', 'w', 'i', 'l', 'l', ' ', 'n', 'o', 't', ' ', 'f', 'i', 't', ' ', 'i', 'n', ' ', 'a', ' ', '`', '[', 'u', '6', '4', ';', ' ', 'O', ']', '`', ',', ' ', 't', 'h', 'i', 's', ' ', 'm', 'e', 't', 'h', 'o', 'd', ' ', 'w', 'i', 'l', 'l', ' ', 'i', 'n', 's', 't', 'e', 'a', 'd', ' ', 'r', 'e', 't', 'u', 'r', 'n'],
   [' ', ' ', ' ', ' ', '/', '/', '/', ' ', '`', 'N', 'o', 'n', 'e', '`', '.'],
   [' ', ' ', ' ', ' ', 'p', 'u', 'b', ' ', 'f', 'n', ' ', 't', 'r', 'y', '_', 'a', 's', '_', 'a', 'r', 'r', 'a', 'y', '<', 'c', 'o', 'n', 's', 't', ' ', 'O', ':', ' ', 'u', 's', 'i', 'z', 'e', '>', '(', '&', 's', 'e', 'l', 'f', ')', ' ', '-', '>', ' ', 'O', 'p', 't', 'i', 'o', 'n', '<', '[', 'u', '6', '4', ';', ' ', 'O', ']', '>', ' ', '{'],
   [' ', ' ', ' ', ' ', ' ', ' ', ' ', ' ', 's', 'e', 'l', 'f', '.', '_', '_', 'p', 'r', 'i', 'v', '_', 'r', 'e', 'p', 'r', '.', 't', 'o', '_', 'u', '6', '4', '_', 'a', 'r', 'r', 'a', 'y', '_', 'o', 'p', 't', '(', ')'],
   [' ', ' ', ' ', ' ', '}'],
   [],
   [' ', ' ', ' ', ' ', '/', '/', '/', ' ', 'R', 'e', 't', 'u', 'r', 'n', 's', ' ', 'a', 'n', ' ', '`', '[', 'u', '6', '4', ';', ' ', 'O', ']', '`', ' ', 'r', 'e', 'p', 'r', 'e', 's', 'e', 'n', 't', 'i', 'n', 'g', ' ', 't', 'h', 'e', ' ', 'e', 'l', 'e', 'm', 'e', 'n', 't', 's', ' ', 'o', 'f', ' ', 't', 'h', 'i', 's', ' ', 's', 'e', 't', '.'],
   [' ', ' ', ' ', ' ', '/', '/', '/'],
   [' ', ' ', ' ', ' ', '/', '/', '/', ' ', 'I', 'f', ' ', 't', 'h', 'e', ' ', 'u', 'n', 'd', 'e', 'r', 'l', 'y', 'i', 'n', 'g', ' ', 'b', 'i', 't', 's', 'e', 't', ' ', 'w', 'i', 'l', 'l', ' ', 'n', 'o', 't', ' ', 'f', 'i', 't', ' ', 'i', 'n', ' ', 'a', ' ', '`', '[', 'u', '6', '4', ';', ' ', 'O', ']', '`', ',', ' ', 't', 'h', 'i', 's', ' ', 'm', 'e', 't', 'h', 'o', 'd', ' ', 'w', 'i', 'l', 'l', ' ', 't', 'r', 'u', 'n', 'c', 'a', 't', 'e', ' ', 'a', 'n', 'y', ' ', 'b', 'i', 't', 's'],
   [' ', ' ', ' ', ' ', '/', '/', '/', ' ', 't', 'h', 'a', 't', ' ', 'd', 'o', 'n', '\'', 't', ' ', 'f', 'i', 't', '.'],
   [' ', ' ', ' ', ' ', 'p', 'u', 'b', ' ', 'f', 'n', ' ', 'a', 's', '_', 'a', 'r', 'r', 'a', 'y', '_', 't', 'r', 'u', 'n', 'c', 'a', 't', 'e', 'd', '<', 'c', 'o', 'n', 's', 't', ' ', 'O', ':', ' ', 'u', 's', 'i', 'z', 'e', '>', '(', '&', 's', 'e', 'l', 'f', ')', ' ', '-', '>', ' ', '[', 'u', '6', '4', ';', ' ', 'O', ']', ' ', '{'],
   [' ', ' ', ' ', ' ', ' ', ' ', ' ', ' ', 's', 'e', 'l', 'f', '.', '_', '_', 'p', 'r', 'i', 'v', '_', 'r', 'e', 'p', 'r', '.', 't', 'o', '_', 'u', '6', '4', '_', 'a', 'r', 'r', 'a', 'y', '(', ')'],
   [' ', ' ', ' ', ' ', '}'],
   [],
   [' ', ' ', ' ', ' ', '/', '/', '/', ' ', 'A', 't', 't', 'e', 'm', 'p', 't', 's', ' ', 't', 'o', ' ', 'c', 'o', 'n', 's', 't', 'r', 'u', 'c', 't', 's', ' ', 'a', ' ', 'b', 'i', 't', 's', 'e', 't', ' ', 'f', 'r', 'o', 'm', ' ', 'a', ' ', '`', '[', 'u', '6', '4', ';', ' ', 'O', ']', '`', '.'],
   [' ', ' ', ' ', ' ', '/', '/', '/'],
   [' ', ' ', ' ', ' ', '/', '/', '/', ' ', 'I', 'f', ' ', 'a', ' ', 'b', 'i', 't', ' ', 't', 'h', 'a', 't', ' ', 'd', 'o', 'e', 's', 'n', '\'', 't', ' ', 'c', 'o', 'r', 'r', 'e', 's', 'p', 'o', 'n', 'd', ' ', 't', 'o', ' ', 'a', 'n', ' ', 'e', 'n', 'u', 'm', ' ', 'v', 'a', 'r', 'i', 'a', 'n', 't', ' ', 'i', 's', ' ', 's', 'e', 't', ',', ' ', 't', 'h', 'i', 's', ' ', 'm', 'e', 't', 'h', 'o', 'd', ' ', 'w', 'i', 'l', 'l', ' ', 'p', 'a', 'n', 'i', 'c', '.'],
   [' ', ' ', ' ', ' ', 'p', 'u', 'b', ' ', 'f', 'n', ' ', 'f', 'r', 'o', 'm', '_', 'a', 'r', 'r', 'a', 'y', '<', 'c', 'o', 'n', 's', 't', ' ', 'O', ':', ' ', 'u', 's', 'i', 'z', 'e', '>', '(', 'v', ':', ' ', '[', 'u', '6', '4', ';', ' ', 'O', ']', ')', ' ', '-', '>', ' ', 'S', 'e', 'l', 'f', ' ', '{'],
   [' ', ' ', ' ', ' ', ' ', ' ', ' ', ' ', 'S', 'e', 'l', 'f', ':', ':', 't', 'r', 'y', '_', 'f', 'r', 'o', 'm', '_', 'a', 'r', 'r', 'a', 'y', '(', 'v', ')', '.', 'e', 'x', 'p', 'e', 'c', 't', '(', '"', 'B', 'i', 't', 's', 'e', 't', ' ', 'c', 'o', 'n', 't', 'a', 'i', 'n', 's', ' ', 'i', 'n', 'v', 'a', 'l', 'i', 'd', ' ', 'v', 'a', 'r', 'i', 'a', 'n', 't', 's', '.', '"', ')'],
   [' ', ' ', ' ', ' ', '}'],
   [],
   [' ', ' ', ' ', ' ', '/', '/', '/', ' ', 'A', 't', 't', 'e', 'm', 'p', 't', 's', ' ', 't', 'o', ' ', 'c', 'o', 'n', 's', 't', 'r', 'u', 'c', 't', 's', ' ', 'a', ' ', 'b', 'i', 't', 's', 'e', 't', ' ', 'f', 'r', 'o', 'm', ' ', 'a', ' ', '`', '[', 'u', '6', '4', ';', ' ', 'O', ']', '`', '.'],
   [' ', ' ', ' ', ' ', '/', '/', '/'],
   [' ', ' ', ' ', ' ', '/', '/', '/', ' ', 'I', 'f', ' ', 'a', ' ', 'b', 'i', 't', ' ', 't', 'h', 'a', 't', ' ', 'd', 'o', 'e', 's', 'n', '\'', 't', ' ', 'c', 'o', 'r', 'r', 'e', 's', 'p', 'o', 'n', 'd', ' ', 't', 'o', ' ', 'a', 'n', ' ', 'e', 'n', 'u', 'm', ' ', 'v', 'a', 'r', 'i', 'a', 'n', 't', ' ', 'i', 's', ' ', 's', 'e', 't', ',', ' ', 't', 'h', 'i', 's', ' ', 'm', 'e', 't', 'h', 'o', 'd', ' ', 'w', 'i', 'l', 'l', ' ', 'r', 'e', 't', 'u', 'r', 'n', ' ', '`', 'N', 'o', 'n', 'e', '`', '.'],
   [' ', ' ', ' ', ' ', 'p', 'u', 'b', ' ', 'f', 'n', ' ', 't', 'r', 'y', '_', 'f', 'r', 'o', 'm', '_', 'a', 'r', 'r', 'a', 'y', '<', 'c', 'o', 'n', 's', 't', ' ', 'O', ':', ' ', 'u', 's', 'i', 'z', 'e', '>', '(', 'b', 'i', 't', 's', ':', ' ', '[', 'u', '6', '4', ';', ' ', 'O', ']', ')', ' ', '-', '>', ' ', 'O', 'p', 't', 'i', 'o', 'n', '<', 'S', 'e', 'l', 'f', '>', ' ', '{'],
   [' ', ' ', ' ', ' ', ' ', ' ', ' ', ' ', 'l', 'e', 't', ' ', 'b', 'i', 't', 's', ' ', '=', ' ', 'T', ':', ':', 'R', 'e', 'p', 'r', ':', ':', 'f', 'r', 'o', 'm', '_', 'u', '6', '4', '_', 'a', 'r', 'r', 'a', 'y', '_', 'o', 'p', 't', ':', ':', '<', 'O', '>', '(', 'b', 'i', 't', 's', ')', ';'],
   [' ', ' ', ' ', ' ', ' ', ' ', ' ', ' ', 'l', 'e', 't', ' ', 'm', 'a', 's', 'k', ' ', '=', ' ', 'T', ':', ':', 'A', 'L', 'L', '_', 'B', 'I', 'T', 'S', ';'],
   [' ', ' ', ' ', ' ', ' ', ' ', ' ', ' ', 'b', 'i', 't', 's', '.', 'a', 'n', 'd', '_', 't', 'h', 'e', 'n', '(', '|', 'b', 'i', 't', 's', '|', ' ', '{'],
   [' ', ' ', ' ', ' ', ' ', ' ', ' ', ' ', ' ', ' ', ' ', ' ', 'i', 'f', ' ', 'b', 'i', 't', 's', '.', 'a', 'n', 'd', '_', 'n', 'o', 't', '(', 'm', 'a', 's', 'k', ')', '.', 'i', 's', '_', 'e', 'm', 'p', 't', 'y', '(', ')', ' ', '{'],
   [' ', ' ', ' ', ' ', ' ', ' ', ' ', ' ', ' ', ' ', ' ', ' ', ' ', ' ', ' ', ' ', 'S', 'o', 'm', 'e', '(', 'E', 'n', 'u', 'm', 'S', 'e', 't', ' ', '{', ' ', '_', '_', 'p', 'r', 'i', 'v', '_', 'r', 'e', 'p', 'r', ':', ' ', 'b', 'i', 't', 's', ' ', '}', ')'],
   [' ', ' ', ' ', ' ', ' ', ' ', ' ', ' ', ' ', ' ', ' ', ' ', '}', ' ', 'e', 'l', 's', 'e', ' ', '{'],
   [' ', ' ', ' ', ' ', ' ', ' ', ' ', ' ', ' ', ' ', ' ', ' ', ' ', ' ', ' ', ' ', 'N', 'o', 'n', 'e'],
   [' ', ' ', ' ', ' ', ' ', ' ', ' ', ' ', ' ', ' ', ' ', ' ', '}'],
   [' ', ' ', ' ', ' ', ' ', ' ', ' ', ' ', '}', ')'],
   [' ', ' ', ' ', ' ', '}'],
   [],
   [' ', ' ', ' ', ' ', '/', '/', '/', ' ', 'C', 'o', 'n', 's', 't', 'r', 'u', 'c', 't', 's', ' ', 'a', ' ', 'b', 'i', 't', 's', 'e', 't', ' ', 'f', 'r', 'o', 'm', ' ', 'a', ' ', '`', '[', 'u', '6', '4', ';', ' ', 'O', ']', '`', ',', ' ', 'i', 'g', 'n', 'o', 'r', 'i', 'n', 'g', ' ', 'b', 'i', 't', 's', ' ', 't', 'h', 'a', 't', ' ', 'd', 'o', ' ', 'n', 'o', 't', ' ', 'c', 'o', 'r', 'r', 'e', 's', 'p', 'o', 'n', 'd', ' ', 't', 'o', ' ', 'a', ' ', 'v', 'a', 'r', 'i', 'a', 'n', 't', '.'],
   [' ', ' ', ' ', ' ', 'p', 'u', 'b', ' ', 'f', 'n', ' ', 'f', 'r', 'o', 'm', '_', 'a', 'r', 'r', 'a', 'y', '_', 't', 'r', 'u', 'n', 'c', 'a', 't', 'e', 'd', '<', 'c', 'o', 'n', 's', 't', ' ', 'O', ':', ' ', 'u', 's', 'i', 'z', 'e', '>', '(', 'b', 'i', 't', 's', ':', ' ', '[', 'u', '6', '4', ';', ' ', 'O', ']', ')', ' ', '-', '>', ' ', 'S', 'e', 'l', 'f', ' ', '{'],
   [' ', ' ', ' ', ' ', ' ', ' ', ' ', ' ', 'l', 'e', 't', ' ', 'b', 'i', 't', 's', ' ', '=', ' ', 'T', ':', ':', 'R', 'e', 'p', 'r', ':', ':', 'f', 'r', 'o', 'm', '_', 'u', '6', '4', '_', 'a', 'r', 'r', 'a', 'y', '(', 'b', 'i', 't', 's', ')', ' ', '&', ' ', 'T', ':', ':', 'A', 'L', 'L', '_', 'B', 'I', 'T', 'S', ';'],
   [' ', ' ', ' ', ' ', ' ', ' ', ' ', ' ', 'E', 'n', 'u', 'm', 'S', 'e', 't', ' ', '{', ' ', '_', '_', 'p', 'r', 'i', 'v', '_', 'r', 'e', 'p', 'r', ':', ' ', 'b', 'i', 't', 's', ' ', '}'],
   [' ', ' ', ' ', ' ', '}'],
   [],
   [' ', ' ', ' ', ' ', '/', '/', '/', ' ', 'C', 'o', 'n', 's', 't', 'r', 'u', 'c', 't', 's', ' ', 'a', ' ', 'b', 'i', 't', 's', 'e', 't', ' ', 'f', 'r', 'o', 'm', ' ', 'a', ' ', '`', '[', 'u', '6', '4', ';', ' ', 'O', ']', '`', ',', ' ', 'w', 'i', 't', 'h', 'o', 'u', 't', ' ', 'c', 'h', 'e', 'c', 'k', 'i', 'n', 'g', ' ', 'f', 'o', 'r', ' ', 'i', 'n', 'v', 'a', 'l', 'i', 'd', ' ', 'b', 'i', 't', 's', '.'],
   [' ', ' ', ' ', ' ', '/', '/', '/'],
   [' ', ' ', ' ', ' ', '/', '/', '/', ' ', '#', ' ', 'S', 'a', 'f', 'e', 't', 'y'],
   [' ', ' ', ' ', ' ', '/', '/', '/'],
   [' ', ' ', ' ', ' ', '/', '/', '/', ' ', 'A', 'l', 'l', ' ', 'b', 'i', 't', 's', ' ', 'i', 'n', ' ', 't', 'h', 'e', ' ', 'p', 'r', 'o', 'v', 'i', 'd', 'e', 'd', ' ', 'p', 'a', 'r', 'a', 'm', 'e', 't', 'e', 'r', ' ', '`', 'b', 'i', 't', 's', '`', ' ', 't', 'h', 'a', 't', ' ', 'd', 'o', 'n', '\'', 't', ' ', 'c', 'o', 'r', 'r', 'e', 's', 'p', 'o', 'n', 'd', ' ', 't', 'o', ' ', 'a', 'n', ' ', 'e', 'n', 'u', 'm', ' ', 'v', 'a', 'r', 'i', 'a', 'n', 't'],
   [' ', ' ', ' ', ' ', '/', '/', '/', ' ', 'o', 'f', ' ', '`', 'T', '`', ' ', 'm', 'u', 's', 't', ' ', 'b', 'e', ' ', 's', 'e', 't', ' ', 't', 'o', ' ', '`', '0', '`', '.', ' ', 'B', 'e', 'h', 'a', 'v', 'i', 'o', 'r', ' ', 'i', 's', ' ', '*', '*', 'u', 'n', 'd', 'e', 'f', 'i', 'n', 'e', 'd', '*', '*', ' ', 'i', 'f', ' ', 'a', 'n', 'y', ' ', 'o', 'f', ' ', 't', 'h', 'e', 's', 'e', ' ', 'b', 'i', 't', 's', ' ', 'a', 'r', 'e', ' ', 's', 'e', 't'],
   [' ', ' ', ' ', ' ', '/', '/', '/', ' ', 't', 'o', ' ', '`', '1', '`', '.'],
   [' ', ' ', ' ', ' ', '#', '[', 'i', 'n', 'l', 'i', 'n', 'e', '(', 'a', 'l', 'w', 'a', 'y', 's', ')', ']'],
   [' ', ' ', ' ', ' ', 'p', 'u', 'b', ' ', 'u', 'n', 's', 'a', 'f', 'e', ' ', 'f', 'n', ' ', 'f', 'r', 'o', 'm', '_', 'a', 'r', 'r', 'a', 'y', '_', 'u', 'n', 'c', 'h', 'e', 'c', 'k', 'e', 'd', '<', 'c', 'o', 'n', 's', 't', ' ', 'O', ':', ' ', 'u', 's', 'i', 'z', 'e', '>', '(', 'b', 'i', 't', 's', ':', ' ', '[', 'u', '6', '4', ';', ' ', 'O', ']', ')', ' ', '-', '>', ' ', 'S', 'e', 'l', 'f', ' ', '{'],
   [' ', ' ', ' ', ' ', ' ', ' ', ' ', ' ', 'E', 'n', 'u', 'm', 'S', 'e', 't', ' ', '{', ' ', '_', '_', 'p', 'r', 'i', 'v', '_', 'r', 'e', 'p', 'r', ':', ' ', 'T', ':', ':', 'R', 'e', 'p', 'r', ':', ':', 'f', 'r', 'o', 'm', '_', 'u', '6', '4', '_', 'a', 'r', 'r', 'a', 'y', '(', 'b', 'i', 't', 's', ')', ' ', '}'],
   [' ', ' ', ' ', ' ', '}'],
   [],
   [' ', ' ', ' ', ' ', '/', '/', '/', ' ', 'R', 'e', 't', 'u', 'r', 'n', 's', ' ', 'a', ' ', '`', 'V', 'e', 'c', '<', 'u', '6', '4', '>', '`', ' ', 'r', 'e', 'p', 'r', 'e', 's', 'e', 'n', 't', 'i', 'n', 'g', ' ', 't', 'h', 'e', ' ', 'e', 'l', 'e', 'm', 'e', 'n', 't', 's', ' ', 'o', 'f', ' ', 't', 'h', 'i', 's', ' ', 's', 'e', 't', '.'],
   [' ', ' ', ' ', ' ', '#', '[', 'c', 'f', 'g', '(', 'f', 'e', 'a', 't', 'u', 'r', 'e', ' ', '=', ' ', '"', 'a', 'l', 'l', 'o', 'c', '"', ')', ']'],
   [' ', ' ', ' ', ' ', '#', '[', 'c', 'f', 'g', '_', 'a', 't', 't', 'r', '(', 'd', 'o', 'c', 's', 'r', 's', ',', ' ', 'd', 'o', 'c', '(', 'c', 'f', 'g', '(', 'f', 'e', 'a', 't', 'u', 'r', 'e', ' ', '=', ' ', '"', 'a', 'l', 'l', 'o', 'c', '"', ')', ')', ')', ']'],
   [' ', ' ', ' ', ' ', 'p', 'u', 'b', ' ', 'f', 'n', ' ', 't', 'o', '_', 'v', 'e', 'c', '(', '&', 's', 'e', 'l', 'f', ')', ' ', '-', '>', ' ', 'a', 'l', 'l', 'o', 'c', ':', ':', 'v', 'e', 'c', ':', ':', 'V', 'e', 'c', '<', 'u', '6', '4', '>', ' ', '{'],
   [' ', ' ', ' ', ' ', ' ', ' ', ' ', ' ', 'l', 'e', 't', ' ', 'm', 'u', 't', ' ', 'v', 'e', 'c', ' ', '=', ' ', 'a', 'l', 'l', 'o', 'c', ':', ':', 'v', 'e', 'c', '!', '[', '0', ';', ' ', 'T', ':', ':', 'R', 'e', 'p', 'r', ':', ':', 'P', 'R', 'E', 'F', 'E', 'R', 'R', 'E', 'D', '_', 'A', 'R', 'R', 'A', 'Y', '_', 'L', 'E', 'N', ']', ';'],
   [' ', ' ', ' ', ' ', ' ', ' ', ' ', ' ', 's', 'e', 'l', 'f', '.', '_', '_', 'p', 'r', 'i', 'v', '_', 'r', 'e', 'p', 'r', '.', 't', 'o', '_', 'u', '6', '4', '_', 's', 'l', 'i', 'c', 'e', '(', '&', 'm', 'u', 't', ' ', 'v', 'e', 'c', ')', ';'],
   [' ', ' ', ' ', ' ', ' ', ' ', ' ', ' ', 'v', 'e', 'c'],
   [' ', ' ', ' ', ' ', '}'],
   [],
   [' ', ' ', ' ', ' ', '/', '/', '/', ' ', 'C', 'o', 'p', 'i', 'e', 's', ' ', 't', 'h', 'e', ' ', 'e', 'l', 'e', 'm', 'e', 'n', 't', 's', ' ', 'o', 'f', ' ', 't', 'h', 'i', 's', ' ', 's', 'e', 't', ' ', 'i', 'n', 't', 'o', ' ', 'a', ' ', '`', '&', 'm', 'u', 't', ' ', '[', 'u', '6', '4', ']', '`', '.'],
   [' ', ' ', ' ', ' ', '/', '/', '/'],
   [' ', ' ', ' ', ' ', '/', '/', '/', ' ', 'I', 'f', ' ', 't', 'h', 'e', ' ', 'u', 'n', 'd', 'e', 'r', 'l', 'y', 'i', 'n', 'g', ' ', 'b', 'i', 't', 's', 'e', 't', ' ', 'w', 'i', 'l', 'l', ' ', 'n', 'o', 't', ' ', 'f', 'i', 't', ' ', 'i', 'n', ' ', 't', 'h', 'e', ' ', 'p', 'r', 'o', 'v', 'i', 'd', 'e', 'd', ' ', 's', 'l', 'i', 'c', 'e', ',', ' ', 't', 'h', 'i', 's', ' ', 'm', 'e', 't', 'h', 'o', 'd', ' ', 'w', 'i', 'l', 'l', ' ', 'p', 'a', 'n', 'i', 'c', '.'],
   [' ', ' ', ' ', ' ', 'p', 'u', 'b', ' ', 'f', 'n', ' ', 'c', 'o', 'p', 'y', '_', 'i', 'n', 't', 'o', '_', 's', 'l', 'i', 'c', 'e', '(', '&', 's', 'e', 'l', 'f', ',', ' ', 'd', 'a', 't', 'a', ':', ' ', '&', 'm', 'u', 't', ' ', '[', 'u', '6', '4', ']', ')', ' ', '{'],
   [' ', ' ', ' ', ' ', ' ', ' ', ' ', ' ', 's', 'e', 'l', 'f', '.', 't', 'r', 'y', '_', 'c', 'o', 'p', 'y', '_', 'i', 'n', 't', 'o', '_', 's', 'l', 'i', 'c', 'e', '(', 'd', 'a', 't', 'a', ')'],
   [' ', ' ', ' ', ' ', ' ', ' ', ' ', ' ', ' ', ' ', ' ', ' ', '.', 'e', 'x', 'p', 'e', 'c', 't', '(', '"', 'B', 'i', 't', 's', 'e', 't', ' ', 'w', 'i', 'l', 'l', ' ', 'n', 'o', 't', ' ', 'f', 'i', 't', ' ', 'i', 'n', 't', 'o', ' ', 's', 'l', 'i', 'c', 'e', '.', '"', ')'],
   [' ', ' ', ' ', ' ', '}'],
   [],
   [' ', ' ', ' ', ' ', '/', '/', '/', ' ', 'C', 'o', 'p', 'i', 'e', 's', ' ', 't', 'h', 'e', ' ', 'e', 'l', 'e', 'm', 'e', 'n', 't', 's', ' ', 'o', 'f', ' ', 't', 'h', 'i', 's', ' ', 's', 'e', 't', ' ', 'i', 'n', 't', 'o', ' ', 'a', ' ', '`', '&', 'm', 'u', 't', ' ', '[', 'u', '6', '4', ']', '`', '.'],
   [' ', ' ', ' ', ' ', '/', '/', '/'],
   [' ', ' ', ' ', ' ', '/', '/', '/', ' ', 'I', 'f', ' ', 't', 'h', 'e', ' ', 'u', 'n', 'd', 'e', 'r', 'l', 'y', 'i', 'n', 'g', ' ', 'b', 'i', 't', 's', 'e', 't', ' ', 'w', 'i', 'l', 'l', ' ', 'n', 'o', 't', ' ', 'f', 'i', 't', ' ', 'i', 'n', ' ', 't', 'h', 'e', ' ', 'p', 'r', 'o', 'v', 'i', 'd', 'e', 'd', ' ', 's', 'l', 'i', 'c', 'e', ',', ' ', 't', 'h', 'i', 's', ' ', 'm', 'e', 't', 'h', 'o', 'd', ' ', 'w', 'i', 'l', 'l', ' ', 'r', 'e', 't', 'u', 'r', 'n'],
   [' ', ' ', ' ', ' ', '/', '/', '/', ' ', '`', 'N', 'o', 'n', 'e', '`', '.', ' ', 'O', 't', 'h', 'e', 'r', 'w', 'i', 's', 'e', ',', ' ', 'i', 't', ' ', 'w', 'i', 'l', 'l', ' ', 'r', 'e', 't', 'u', 'r', 'n', ' ', '`', 'S', 'o', 'm', 'e', '(', '(', ')', ')', '`', '.'],
   [' ', ' ', ' ', ' ', '#', '[', 'm', 'u', 's', 't', '_', 'u', 's', 'e', ']'],
   [' ', ' ', ' ', ' ', 'p', 'u', 'b', ' ', 'f', 'n', ' ', 't', 'r', 'y', '_', 'c', 'o', 'p', 'y', '_', 'i', 'n', 't', 'o', '_', 's', 'l', 'i', 'c', 'e', '(', '&', 's', 'e', 'l', 'f', ',', ' ', 'd', 'a', 't', 'a', ':', ' ', '&', 'm', 'u', 't', ' ', '[', 'u', '6', '4', ']', ')', ' ', '-', '>', ' ', 'O', 'p', 't', 'i', 'o', 'n', '<', '(', ')', '>', ' ', '{'],
   [' ', ' ', ' ', ' ', ' ', ' ', ' ', ' ', 's', 'e', 'l', 'f', '.', '_', '_', 'p', 'r', 'i', 'v', '_', 'r', 'e', 'p', 'r', '.', 't', 'o', '_', 'u', '6', '4', '_', 's', 'l', 'i', 'c', 'e', '_', 'o', 'p', 't', '(', 'd', 'a', 't', 'a', ')'],
   [' ', ' ', ' ', ' ', '}'],
   [],
   [' ', ' ', ' ', ' ', '/', '/', '/', ' ', 'C', 'o', 'p', 'i', 'e', 's', ' ', 't', 'h', 'e', ' ', 'e', 'l', 'e', 'm', 'e', 'n', 't', 's', ' ', 'o', 'f', ' ', 't', 'h', 'i', 's', ' ', 's', 'e', 't', ' ', 'i', 'n', 't', 'o', ' ', 'a', ' ', '`', '&', 'm', 'u', 't', ' ', '[', 'u', '6', '4', ']', '`', '.'],
   [' ', ' ', ' ', ' ', '/', '/', '/'],
   [' ', ' ', ' ', ' ', '/', '/', '/', ' ', 'I', 'f', ' ', 't', 'h', 'e', ' ', 'u', 'n', 'd', 'e', 'r', 'l', 'y', 'i', 'n', 'g', ' ', 'b', 'i', 't', 's', 'e', 't', ' ', 'w', 'i', 'l', 'l', ' ', 'n', 'o', 't', ' ', 'f', 'i', 't', ' ', 'i', 'n', ' ', 't', 'h', 'e', ' ', 'p', 'r', 'o', 'v', 'i', 'd', 'e', 'd', ' ', 's', 'l', 'i', 'c', 'e', ',', ' ', 't', 'h', 'i', 's', ' ', 'm', 'e', 't', 'h', 'o', 'd', ' ', 'w', 'i', 'l', 'l', ' ', 't', 'r', 'u', 'n', 'c', 'a', 't', 'e', ' ', 'a', 'n', 'y'],
   [' ', ' ', ' ', ' ', '/', '/', '/', ' ', 'b', 'i', 't', 's', ' ', 't', 'h', 'a', 't', ' ', 'd', 'o', 'n', '\'', 't', ' ', 'f', 'i', 't', '.'],
   [' ', ' ', ' ', ' ', 'p', 'u', 'b', ' ', 'f', 'n', ' ', 'c', 'o', 'p', 'y', '_', 'i', 'n', 't', 'o', '_', 's', 'l', 'i', 'c', 'e', '_', 't', 'r', 'u', 'n', 'c', 'a', 't', 'e', 'd', '(', '&', 's', 'e', 'l', 'f', ',', ' ', 'd', 'a', 't', 'a', ':', ' ', '&', 'm', 'u', 't', ' ', '[', 'u', '6', '4', ']', ')', ' ', '{'],
   [' ', ' ', ' ', ' ', ' ', ' ', ' ', ' ', 's', 'e', 'l', 'f', '.', '_', '_', 'p', 'r', 'i', 'v', '_', 'r', 'e', 'p', 'r', '.', 't', 'o', '_', 'u', '6', '4', '_', 's', 'l', 'i', 'c', 'e', '(', 'd', 'a', 't', 'a', ')'],
   [' ', ' ', ' ', ' ', '}'],
   [],
   [' ', ' ', ' ', ' ', '/', '/', '/', ' ', 'A', 't', 't', 'e', 'm', 'p', 't', 's', ' ', 't', 'o', ' ', 'c', 'o', 'n', 's', 't', 'r', 'u', 'c', 't', 's', ' ', 'a', ' ', 'b', 'i', 't', 's', 'e', 't', ' ', 'f', 'r', 'o', 'm', ' ', 'a', ' ', '`', '&', '[', 'u', '6', '4', ']', '`', '.'],
   [' ', ' ', ' ', ' ', '/', '/', '/'],
   [' ', ' ', ' ', ' ', '/', '/', '/', ' ', 'I', 'f', ' ', 'a', ' ', 'b', 'i', 't', ' ', 't', 'h', 'a', 't', ' ', 'd', 'o', 'e', 's', 'n', '\'', 't', ' ', 'c', 'o', 'r', 'r', 'e', 's', 'p', 'o', 'n', 'd', ' ', 't', 'o', ' ', 'a', 'n', ' ', 'e', 'n', 'u', 'm', ' ', 'v', 'a', 'r', 'i', 'a', 'n', 't', ' ', 'i', 's', ' ', 's', 'e', 't', ',', ' ', 't', 'h', 'i', 's', ' ', 'm', 'e', 't', 'h', 'o', 'd', ' ', 'w', 'i', 'l', 'l', ' ', 'p', 'a', 'n', 'i', 'c', '.'],
   [' ', ' ', ' ', ' ', 'p', 'u', 'b', ' ', 'f', 'n', ' ', 'f', 'r', 'o', 'm', '_', 's', 'l', 'i', 'c', 'e', '(', 'v', ':', ' ', '&', '[', 'u', '6', '4', ']', ')', ' ', '-', '>', ' ', 'S', 'e', 'l', 'f', ' ', '{'],
   [' ', ' ', ' ', ' ', ' ', ' ', ' ', ' ', 'S', 'e', 'l', 'f', ':', ':', 't', 'r', 'y', '_', 'f', 'r', 'o', 'm', '_', 's', 'l', 'i', 'c', 'e', '(', 'v', ')', '.', 'e', 'x', 'p', 'e', 'c', 't', '(', '"', 'B', 'i', 't', 's', 'e', 't', ' ', 'c', 'o', 'n', 't', 'a', 'i', 'n', 's', ' ', 'i', 'n', 'v', 'a', 'l', 'i', 'd', ' ', 'v', 'a', 'r', 'i', 'a', 'n', 't', 's', '.', '"', ')'],
   [' ', ' ', ' ', ' ', '}'],
   [],
   [' ', ' ', ' ', ' ', '/', '/', '/', ' ', 'A', 't', 't', 'e', 'm', 'p', 't', 's', ' ', 't', 'o', ' ', 'c', 'o', 'n', 's', 't', 'r', 'u', 'c', 't', 's', ' ', 'a', ' ', 'b', 'i', 't', 's', 'e', 't', ' ', 'f', 'r', 'o', 'm', ' ', 'a', ' ', '`', '&', '[', 'u', '6', '4', ']', '`', '.'],
   [' ', ' ', ' ', ' ', '/', '/', '/'],
   [' ', ' ', ' ', ' ', '/', '/', '/', ' ', 'I', 'f', ' ', 'a', ' ', 'b', 'i', 't', ' ', 't', 'h', 'a', 't', ' ', 'd', 'o', 'e', 's', 'n', '\'', 't', ' ', 'c', 'o', 'r', 'r', 'e', 's', 'p', 'o', 'n', 'd', ' ', 't', 'o', ' ', 'a', 'n', ' ', 'e', 'n', 'u', 'm', ' ', 'v', 'a', 'r', 'i', 'a', 'n', 't', ' ', 'i', 's', ' ', 's', 'e', 't', ',', ' ', 't', 'h', 'i', 's', ' ', 'm', 'e', 't', 'h', 'o', 'd', ' ', 'w', 'i', 'l', 'l', ' ', 'r', 'e', 't', 'u', 'r', 'n', ' ', '`', 'N', 'o', 'n', 'e', '`', '.'],
   [' ', ' ', ' ', ' ', 'p', 'u', 'b', ' ', 'f', 'n', ' ', 't', 'r', 'y', '_', 'f', 'r', 'o', 'm', '_', 's', 'l', 'i', 'c', 'e', '(', 'b', 'i', 't', 's', ':', ' ', '&', '[', 'u', '6', '4', ']', ')', ' ', '-', '>', ' ', 'O', 'p', 't', 'i', 'o', 'n', '<', 'S', 'e', 'l', 'f', '>', ' ', '{'],
   [' ', ' ', ' ', ' ', ' ', ' ', ' ', ' ', 'l', 'e', 't', ' ', 'b', 'i', 't', 's', ' ', '=', ' ', 'T', ':', ':', 'R', 'e', 'p', 'r', ':', ':', 'f', 'r', 'o', 'm', '_', 'u', '6', '4', '_', 's', 'l', 'i', 'c', 'e', '_', 'o', 'p', 't', '(', 'b', 'i', 't', 's', ')', ';'],
   [' ', ' ', ' ', ' ', ' ', ' ', ' ', ' ', 'l', 'e', 't', ' ', 'm', 'a', 's', 'k', ' ', '=', ' ', 'T', ':', ':', 'A', 'L', 'L', '_', 'B', 'I', 'T', 'S', ';'],
   [' ', ' ', ' ', ' ', ' ', ' ', ' ', ' ', 'b', 'i', 't', 's', '.', 'a', 'n', 'd', '_', 't', 'h', 'e', 'n', '(', '|', 'b', 'i', 't', 's', '|', ' ', '{'],
   [' ', ' ', ' ', ' ', ' ', ' ', ' ', ' ', ' ', ' ', ' ', ' ', 'i', 'f', ' ', 'b', 'i', 't', 's', '.', 'a', 'n', 'd', '_', 'n', 'o', 't', '(', 'm', 'a', 's', 'k', ')', '.', 'i', 's', '_', 'e', 'm', 'p', 't', 'y', '(', ')', ' ', '{'],
   [' ', ' ', ' ', ' ', ' ', ' ', ' ', ' ', ' ', ' ', ' ', ' ', ' ', ' ', ' ', ' ', 'S', 'o', 'm', 'e', '(', 'E', 'n', 'u', 'm', 'S', 'e', 't', ' ', '{', ' ', '_', '_', 'p', 'r', 'i', 'v', '_', 'r', 'e', 'p', 'r', ':', ' ', 'b', 'i', 't', 's', ' ', '}', ')'],
   [' ', ' ', ' ', ' ', ' ', ' ', ' ', ' ', ' ', ' ', ' ', ' ', '}', ' ', 'e', 'l', 's', 'e', ' ', '{'],
   [' ', ' ', ' ', ' ', ' ', ' ', ' ', ' ', ' ', ' ', ' ', ' ', ' ', ' ', ' ', ' ', 'N', 'o', 'n', 'e'],
   [' ', ' ', ' ', ' ', ' ', ' ', ' ', ' ', ' ', ' ', ' ', ' ', '}'],
   [' ', ' ', ' ', ' ', ' ', ' ', ' ', ' ', '}', ')'],
   [' ', ' ', ' ', ' ', '}'],
   [],
   [' ', ' ', ' ', ' ', '/', '/', '/', ' ', 'C', 'o', 'n', 's', 't', 'r', 'u', 'c', 't', 's', ' ', 'a', ' ', 'b', 'i', 't', 's', 'e', 't', ' ', 'f', 'r', 'o', 'm', ' ', 'a', ' ', '`', '&', '[', 'u', '6', '4', ']', '`', ',', ' ', 'i', 'g', 'n', 'o', 'r', 'i', 'n', 'g', ' ', 'b', 'i', 't', 's', ' ', 't', 'h', 'a', 't', ' ', 'd', 'o', ' ', 'n', 'o', 't', ' ', 'c', 'o', 'r', 'r', 'e', 's', 'p', 'o', 'n', 'd', ' ', 't', 'o', ' ', 'a', ' ', 'v', 'a', 'r', 'i', 'a', 'n', 't', '.'],
   [' ', ' ', ' ', ' ', 'p', 'u', 'b', ' ', 'f', 'n', ' ', 'f', 'r', 'o', 'm', '_', 's', 'l', 'i', 'c', 'e', '_', 't', 'r', 'u', 'n', 'c', 'a', 't', 'e', 'd', '(', 'b', 'i', 't', 's', ':', ' ', '&', '[', 'u', '6', '4', ']', ')', ' ', '-', '>', ' ', 'S', 'e', 'l', 'f', ' ', '{'],
   [' ', ' ', ' ', ' ', ' ', ' ', ' ', ' ', 'l', 'e', 't', ' ', 'b', 'i', 't', 's', ' ', '=', ' ', 'T', ':', ':', 'R', 'e', 'p', 'r', ':', ':', 'f', 'r', 'o', 'm', '_', 'u', '6', '4', '_', 's', 'l', 'i', 'c', 'e', '(', 'b', 'i', 't', 's', ')', ' ', '&', ' ', 'T', ':', ':', 'A', 'L', 'L', '_', 'B', 'I', 'T', 'S', ';'],
   [' ', ' ', ' ', ' ', ' ', ' ', ' ', ' ', 'E', 'n', 'u', 'm', 'S', 'e', 't', ' ', '{', ' ', '_', '_', 'p', 'r', 'i', 'v', '_', 'r', 'e', 'p', 'r', ':', ' ', 'b', 'i', 't', 's', ' ', '}'],
   [' ', ' ', ' ', ' ', '}'],
   [],
   [' ', ' ', ' ', ' ', '/', '/', '/', ' ', 'C', 'o', 'n', 's', 't', 'r', 'u', 'c', 't', 's', ' ', 'a', ' ', 'b', 'i', 't', 's', 'e', 't', ' ', 'f', 'r', 'o', 'm', ' ', 'a', ' ', '`', '&', '[', 'u', '6', '4', ']', '`', ',', ' ', 'w', 'i', 't', 'h', 'o', 'u', 't', ' ', 'c', 'h', 'e', 'c', 'k', 'i', 'n', 'g', ' ', 'f', 'o', 'r', ' ', 'i', 'n', 'v', 'a', 'l', 'i', 'd', ' ', 'b', 'i', 't', 's', '.'],
   [' ', ' ', ' ', ' ', '/', '/', '/'],
   [' ', ' ', ' ', ' ', '/', '/', '/', ' ', '#', ' ', 'S', 'a', 'f', 'e', 't', 'y'],
   [' ', ' ', ' ', ' ', '/', '/', '/'],
   [' ', ' ', ' ', ' ', '/', '/', '/', ' ', 'A', 'l', 'l', ' ', 'b', 'i', 't', 's', ' ', 'i', 'n', ' ', 't', 'h', 'e', ' ', 'p', 'r', 'o', 'v', 'i', 'd', 'e', 'd', ' ', 'p', 'a', 'r', 'a', 'm', 'e', 't', 'e', 'r', ' ', '`', 'b', 'i', 't', 's', '`', ' ', 't', 'h', 'a', 't', ' ', 'd', 'o', 'n', '\'', 't', ' ', 'c', 'o', 'r', 'r', 'e', 's', 'p', 'o', 'n', 'd', ' ', 't', 'o', ' ', 'a', 'n', ' ', 'e', 'n', 'u', 'm', ' ', 'v', 'a', 'r', 'i', 'a', 'n', 't'],
   [' ', ' ', ' ', ' ', '/', '/', '/', ' ', 'o', 'f', ' ', '`', 'T', '`', ' ', 'm', 'u', 's', 't', ' ', 'b', 'e', ' ', 's', 'e', 't', ' ', 't', 'o', ' ', '`', '0', '`', '.', ' ', 'B', 'e', 'h', 'a', 'v', 'i', 'o', 'r', ' ', 'i', 's', ' ', '*', '*', 'u', 'n', 'd', 'e', 'f', 'i', 'n', 'e', 'd', '*', '*', ' ', 'i', 'f', ' ', 'a', 'n', 'y', ' ', 'o', 'f', ' ', 't', 'h', 'e', 's', 'e', ' ', 'b', 'i', 't', 's', ' ', 'a', 'r', 'e', ' ', 's', 'e', 't'],
   [' ', ' ', ' ', ' ', '/', '/', '/', ' ', 't', 'o', ' ', '`', '1', '`', '.'],
   [' ', ' ', ' ', ' ', '#', '[', 'i', 'n', 'l', 'i', 'n', 'e', '(', 'a', 'l', 'w', 'a', 'y', 's', ')', ']'],
   [' ', ' ', ' ', ' ', 'p', 'u', 'b', ' ', 'u', 'n', 's', 'a', 'f', 'e', ' ', 'f', 'n', ' ', 'f', 'r', 'o', 'm', '_', 's', 'l', 'i', 'c', 'e', '_', 'u', 'n', 'c', 'h', 'e', 'c', 'k', 'e', 'd', '(', 'b', 'i', 't', 's', ':', ' ', '&', '[', 'u', '6', '4', ']', ')', ' ', '-', '>', ' ', 'S', 'e', 'l', 'f', ' ', '{'],
   [' ', ' ', ' ', ' ', ' ', ' ', ' ', ' ', 'E', 'n', 'u', 'm', 'S', 'e', 't', ' ', '{', ' ', '_', '_', 'p', 'r', 'i', 'v', '_', 'r', 'e', 'p', 'r', ':', ' ', 'T', ':', ':', 'R', 'e', 'p', 'r', ':', ':', 'f', 'r', 'o', 'm', '_', 'u', '6', '4', '_', 's', 'l', 'i', 'c', 'e', '(', 'b', 'i', 't', 's', ')', ' ', '}'],
   [' ', ' ', ' ', ' ', '}'],
   ['}'],
   ['/', '/', 'e', 'n', 'd', 'r', 'e', 'g', 'i', 'o', 'n'],
   [],
   ['/', '/', 'r', 'e', 'g', 'i', 'o', 'n', ' ', 'E', 'n', 'u', 'm', 'S', 'e', 't', ' ', 'i', 't', 'e', 'r'],
   ['/', '/', '/', ' ', 'T', 'h', 'e', ' ', 'i', 't', 'e', 'r', 'a', 't', 'o', 'r', ' ', 'u', 's', 'e', 'd', ' ', 'b', 'y', ' ', '[', '`', 'E', 'n', 'u', 'm', 'S', 'e', 't', '`', ']', 's', '.'],
   ['#', '[', 'd', 'e', 'r', 'i', 'v', 'e', '(', 'C', 'l', 'o', 'n', 'e', ',', ' ', 'D', 'e', 'b', 'u', 'g', ')', ']'],
   ['p', 'u', 'b', ' ', 's', 't', 'r', 'u', 'c', 't', ' ', 'E', 'n', 'u', 'm', 'S', 'e', 't', 'I', 't', 'e', 'r', '<', 'T', ':', ' ', 'E', 'n', 'u', 'm', 'S', 'e', 't', 'T', 'y', 'p', 'e', '>', ' ', '{'],
   [' ', ' ', ' ', ' ', 'i', 't', 'e', 'r', ':', ' ', '<', 'T', ':', ':', 'R', 'e', 'p', 'r', ' ', 'a', 's', ' ', 'E', 'n', 'u', 'm', 'S', 'e', 't', 'T', 'y', 'p', 'e', 'R', 'e', 'p', 'r', '>', ':', ':', 'I', 't', 'e', 'r', ','],
   ['}'],
   ['i', 'm', 'p', 'l', '<', 'T', ':', ' ', 'E', 'n', 'u', 'm', 'S', 'e', 't', 'T', 'y', 'p', 'e', '>', ' ', 'E', 'n', 'u', 'm', 'S', 'e', 't', 'I', 't', 'e', 'r', '<', 'T', '>', ' ', '{'],
   [' ', ' ', ' ', ' ', 'f', 'n', ' ', 'n', 'e', 'w', '(', 's', 'e', 't', ':', ' ', 'E', 'n', 'u', 'm', 'S', 'e', 't', '<', 'T', '>', ')', ' ', '-', '>', ' ', 'E', 'n', 'u', 'm', 'S', 'e', 't', 'I', 't', 'e', 'r', '<', 'T', '>', ' ', '{'],
   [' ', ' ', ' ', ' ', ' ', ' ', ' ', ' ', 'E', 'n', 'u', 'm', 'S', 'e', 't', 'I', 't', 'e', 'r', ' ', '{', ' ', 'i', 't', 'e', 'r', ':', ' ', 's', 'e', 't', '.', '_', '_', 'p', 'r', 'i', 'v', '_', 'r', 'e', 'p', 'r', '.', 'i', 't', 'e', 'r', '(', ')', ' ', '}'],
   [' ', ' ', ' ', ' ', '}'],
   ['}'],
   [],
   ['i', 'm', 'p', 'l', '<', 'T', ':', ' ', 'E', 'n', 'u', 'm', 'S', 'e', 't', 'T', 'y', 'p', 'e', '>', ' ', 'E', 'n', 'u', 'm', 'S', 'e', 't', '<', 'T', '>', ' ', '{'],
   [' ', ' ', ' ', ' ', '/', '/', '/', ' ', 'I', 't', 'e', 'r', 'a', 't', 'e', 's', ' ', 't', 'h', 'e', ' ', 'c', 'o', 'n', 't', 'e', 'n', 't', 's', ' ', 'o', 'f', ' ', 't', 'h', 'e', ' ', 's', 'e', 't', ' ', 'i', 'n', ' ', 'o', 'r', 'd', 'e', 'r', ' ', 'f', 'r', 'o', 'm', ' ', 't', 'h', 'e', ' ', 'l', 'e', 'a', 's', 't', ' ', 's', 'i', 'g', 'n', 'i', 'f', 'i', 'c', 'a', 'n', 't', ' ', 'b', 'i', 't', ' ', 't', 'o', ' ', 't', 'h', 'e', ' ', 'm', 'o', 's', 't'],
   [' ', ' ', ' ', ' ', '/', '/', '/', ' ', 's', 'i', 'g', 'n', 'i', 'f', 'i', 'c', 'a', 'n', 't', ' ', 'b', 'i', 't', '.'],
   [' ', ' ', ' ', ' ', '/', '/', '/'],
   [' ', ' ', ' ', ' ', '/', '/', '/', ' ', 'N', 'o', 't', 'e', ' ', 't', 'h', 'a', 't', ' ', 'i', 't', 'e', 'r', 'a', 't', 'o', 'r', ' ', 'i', 'n', 'v', 'a', 'l', 'i', 'd', 'a', 't', 'i', 'o', 'n', ' ', 'i', 's', ' ', 'i', 'm', 'p', 'o', 's', 's', 'i', 'b', 'l', 'e', ' ', 'a', 's', ' ', 't', 'h', 'e', ' ', 'i', 't', 'e', 'r', 'a', 't', 'o', 'r', ' ', 'c', 'o', 'n', 't', 'a', 'i', 'n', 's', ' ', 'a', ' ', 'c', 'o', 'p', 'y', ' ', 'o', 'f', ' ', 't', 'h', 'i', 's', ' ', 't', 'y', 'p', 'e', ','],
   [' ', ' ', ' ', ' ', '/', '/', '/', ' ', 'r', 'a', 't', 'h', 'e', 'r', ' ', 't', 'h', 'a', 'n', ' ', 'h', 'o', 'l', 'd', 'i', 'n', 'g', ' ', 'a', ' ', 'r', 'e', 'f', 'e', 'r', 'e', 'n', 'c', 'e', ' ', 't', 'o', ' ', 'i', 't', '.'],
   [' ', ' ', ' ', ' ', 'p', 'u', 'b', ' ', 'f', 'n', ' ', 'i', 't', 'e', 'r', '(', '&', 's', 'e', 'l', 'f', ')', ' ', '-', '>', ' ', 'E', 'n', 'u', 'm', 'S', 'e', 't', 'I', 't', 'e', 'r', '<', 'T', '>', ' ', '{'],
   [' ', ' ', ' ', ' ', ' ', ' ', ' ', ' ', 'E', 'n', 'u', 'm', 'S', 'e', 't', 'I', 't', 'e', 'r', ':', ':', 'n', 'e', 'w', '(', '*', 's', 'e', 'l', 'f', ')'],
   [' ', ' ', ' ', ' ', '}'],
   ['}'],
   [],
   ['i', 'm', 'p', 'l', '<', 'T', ':', ' ', 'E', 'n', 'u', 'm', 'S', 'e', 't', 'T', 'y', 'p', 'e', '>', ' ', 'I', 't', 'e', 'r', 'a', 't', 'o', 'r', ' ', 'f', 'o', 'r', ' ', 'E', 'n', 'u', 'm', 'S', 'e', 't', 'I', 't', 'e', 'r', '<', 'T', '>', ' ', '{'],
   [' ', ' ', ' ', ' ', 't', 'y', 'p', 'e', ' ', 'I', 't', 'e', 'm', ' ', '=', ' ', 'T', ';'],
   [],
   [' ', ' ', ' ', ' ', 'f', 'n', ' ', 'n', 'e', 'x', 't', '(', '&', 'm', 'u', 't', ' ', 's', 'e', 'l', 'f', ')', ' ', '-', '>', ' ', 'O', 'p', 't', 'i', 'o', 'n', '<', 'S', 'e', 'l', 'f', ':', ':', 'I', 't', 'e', 'm', '>', ' ', '{'],
   [' ', ' ', ' ', ' ', ' ', ' ', ' ', ' ', 's', 'e', 'l', 'f', '.', 'i', 't', 'e', 'r', '.', 'n', 'e', 'x', 't', '(', ')', '.', 'm', 'a', 'p', '(', '|', 'x', '|', ' ', 'u', 'n', 's', 'a', 'f', 'e', ' ', '{', ' ', 'T', ':', ':', 'e', 'n', 'u', 'm', '_', 'f', 'r', 'o', 'm', '_', 'u', '3', '2', '(', 'x', ')', ' ', '}', ')'],
   [' ', ' ', ' ', ' ', '}'],
   [' ', ' ', ' ', ' ', 'f', 'n', ' ', 's', 'i', 'z', 'e', '_', 'h', 'i', 'n', 't', '(', '&', 's', 'e', 'l', 'f', ')', ' ', '-', '>', ' ', '(', 'u', 's', 'i', 'z', 'e', ',', ' ', 'O', 'p', 't', 'i', 'o', 'n', '<', 'u', 's', 'i', 'z', 'e', '>', ')', ' ', '{'],
   [' ', ' ', ' ', ' ', ' ', ' ', ' ', ' ', 's', 'e', 'l', 'f', '.', 'i', 't', 'e', 'r', '.', 's', 'i', 'z', 'e', '_', 'h', 'i', 'n', 't', '(', ')'],
   [' ', ' ', ' ', ' ', '}'],
   ['}'],
   [],
   ['i', 'm', 'p', 'l', '<', 'T', ':', ' ', 'E', 'n', 'u', 'm', 'S', 'e', 't', 'T', 'y', 'p', 'e', '>', ' ', 'D', 'o', 'u', 'b', 'l', 'e', 'E', 'n', 'd', 'e', 'd', 'I', 't', 'e', 'r', 'a', 't', 'o', 'r', ' ', 'f', 'o', 'r', ' ', 'E', 'n', 'u', 'm', 'S', 'e', 't', 'I', 't', 'e', 'r', '<', 'T', '>', ' ', '{'],
   [' ', ' ', ' ', ' ', 'f', 'n', ' ', 'n', 'e', 'x', 't', '_', 'b', 'a', 'c', 'k', '(', '&', 'm', 'u', 't', ' ', 's', 'e', 'l', 'f', ')', ' ', '-', '>', ' ', 'O', 'p', 't', 'i', 'o', 'n', '<', 'S', 'e', 'l', 'f', ':', ':', 'I', 't', 'e', 'm', '>', ' ', '{'],
   [' ', ' ', ' ', ' ', ' ', ' ', ' ', ' ', 's', 'e', 'l', 'f', '.', 'i', 't', 'e', 'r'],
   [' ', ' ', ' ', ' ', ' ', ' ', ' ', ' ', ' ', ' ', ' ', ' ', '.', 'n', 'e', 'x', 't', '_', 'b', 'a', 'c', 'k', '(', ')'],
   [' ', ' ', ' ', ' ', ' ', ' ', ' ', ' ', ' ', ' ', ' ', ' ', '.', 'm', 'a', 'p', '(', '|', 'x', '|', ' ', 'u', 'n', 's', 'a', 'f', 'e', ' ', '{', ' ', 'T', ':', ':', 'e', 'n', 'u', 'm', '_', 'f', 'r', 'o', 'm', '_', 'u', '3', '2', '(', 'x', ')', ' ', '}', ')'],
   [' ', ' ', ' ', ' ', '}'],
   ['}'],
   [],
   ['i', 'm', 'p', 'l', '<', 'T', ':', ' ', 'E', 'n', 'u', 'm', 'S', 'e', 't', 'T', 'y', 'p', 'e', '>', ' ', 'E', 'x', 'a', 'c', 't', 'S', 'i', 'z', 'e', 'I', 't', 'e', 'r', 'a', 't', 'o', 'r', ' ', 'f', 'o', 'r', ' ', 'E', 'n', 'u', 'm', 'S', 'e', 't', 'I', 't', 'e', 'r', '<', 'T', '>', ' ', '{', '}'],
   [],
   ['i', 'm', 'p', 'l', '<', 'T', ':', ' ', 'E', 'n', 'u', 'm', 'S', 'e', 't', 'T', 'y', 'p', 'e', '>', ' ', 'E', 'x', 't', 'e', 'n', 'd', '<', 'T', '>', ' ', 'f', 'o', 'r', ' ', 'E', 'n', 'u', 'm', 'S', 'e', 't', '<', 'T', '>', ' ', '{'],
   [' ', ' ', ' ', ' ', 'f', 'n', ' ', 'e', 'x', 't', 'e', 'n', 'd', '<', 'I', ':', ' ', 'I', 'n', 't', 'o', 'I', 't', 'e', 'r', 'a', 't', 'o', 'r', '<', 'I', 't', 'e', 'm', ' ', '=', ' ', 'T', '>', '>', '(', '&', 'm', 'u', 't', ' ', 's', 'e', 'l', 'f', ',', ' ', 'i', 't', 'e', 'r', ':', ' ', 'I', ')', ' ', '{'],
   [' ', ' ', ' ', ' ', ' ', ' ', ' ', ' ', 'i', 't', 'e', 'r', '.', 'i', 'n', 't', 'o', '_', 'i', 't', 'e', 'r', '(', ')', '.', 'f', 'o', 'r', '_', 'e', 'a', 'c', 'h', '(', '|', 'v', '|', ' ', '{'],
   [' ', ' ', ' ', ' ', ' ', ' ', ' ', ' ', ' ', ' ', ' ', ' ', 's', 'e', 'l', 'f', '.', 'i', 'n', 's', 'e', 'r', 't', '(', 'v', ')', ';'],
   [' ', ' ', ' ', ' ', ' ', ' ', ' ', ' ', '}', ')', ';'],
   [' ', ' ', ' ', ' ', '}'],
   ['}'],
   [],
   ['i', 'm', 'p', 'l', '<', 'T', ':', ' ', 'E', 'n', 'u', 'm', 'S', 'e', 't', 'T', 'y', 'p', 'e', '>', ' ', 'F', 'r', 'o', 'm', 'I', 't', 'e', 'r', 'a', 't', 'o', 'r', '<', 'T', '>', ' ', 'f', 'o', 'r', ' ', 'E', 'n', 'u', 'm', 'S', 'e', 't', '<', 'T', '>', ' ', '{'],
   [' ', ' ', ' ', ' ', 'f', 'n', ' ', 'f', 'r', 'o', 'm', '_', 'i', 't', 'e', 'r', '<', 'I', ':', ' ', 'I', 'n', 't', 'o', 'I', 't', 'e', 'r', 'a', 't', 'o', 'r', '<', 'I', 't', 'e', 'm', ' ', '=', ' ', 'T', '>', '>', '(', 'i', 't', 'e', 'r', ':', ' ', 'I', ')', ' ', '-', '>', ' ', 'S', 'e', 'l', 'f', ' ', '{'],
   [' ', ' ', ' ', ' ', ' ', ' ', ' ', ' ', 'l', 'e', 't', ' ', 'm', 'u', 't', ' ', 's', 'e', 't', ' ', '=', ' ', 'E', 'n', 'u', 'm', 'S', 'e', 't', ':', ':', 'd', 'e', 'f', 'a', 'u', 'l', 't', '(', ')', ';'],
   [' ', ' ', ' ', ' ', ' ', ' ', ' ', ' ', 's', 'e', 't', '.', 'e', 'x', 't', 'e', 'n', 'd', '(', 'i', 't', 'e', 'r', ')', ';'],
   [' ', ' ', ' ', ' ', ' ', ' ', ' ', ' ', 's', 'e', 't'],
   [' ', ' ', ' ', ' ', '}'],
   ['}'],
   [],
   ['i', 'm', 'p', 'l', '<', 'T', ':', ' ', 'E', 'n', 'u', 'm', 'S', 'e', 't', 'T', 'y', 'p', 'e', '>', ' ', 'E', 'x', 't', 'e', 'n', 'd', '<', 'E', 'n', 'u', 'm', 'S', 'e', 't', '<', 'T', '>', '>', ' ', 'f', 'o', 'r', ' ', 'E', 'n', 'u', 'm', 'S', 'e', 't', '<', 'T', '>', ' ', '{'],
   [' ', ' ', ' ', ' ', 'f', 'n', ' ', 'e', 'x', 't', 'e', 'n', 'd', '<', 'I', ':', ' ', 'I', 'n', 't', 'o', 'I', 't', 'e', 'r', 'a', 't', 'o', 'r', '<', 'I', 't', 'e', 'm', ' ', '=', ' ', 'E', 'n', 'u', 'm', 'S', 'e', 't', '<', 'T', '>', '>', '>', '(', '&', 'm', 'u', 't', ' ', 's', 'e', 'l', 'f', ',', ' ', 'i', 't', 'e', 'r', ':', ' ', 'I', ')', ' ', '{'],
   [' ', ' ', ' ', ' ', ' ', ' ', ' ', ' ', 'i', 't', 'e', 'r', '.', 'i', 'n', 't', 'o', '_', 'i', 't', 'e', 'r', '(', ')', '.', 'f', 'o', 'r', '_', 'e', 'a', 'c', 'h', '(', '|', 'v', '|', ' ', '{'],
   [' ', ' ', ' ', ' ', ' ', ' ', ' ', ' ', ' ', ' ', ' ', ' ', 's', 'e', 'l', 'f', '.', 'i', 'n', 's', 'e', 'r', 't', '_', 'a', 'l', 'l', '(', 'v', ')', ';'],
   [' ', ' ', ' ', ' ', ' ', ' ', ' ', ' ', '}', ')', ';'],
   [' ', ' ', ' ', ' ', '}'],
   ['}'],
   [],
   ['i', 'm', 'p', 'l', '<', 'T', ':', ' ', 'E', 'n', 'u', 'm', 'S', 'e', 't', 'T', 'y', 'p', 'e', '>', ' ', 'F', 'r', 'o', 'm', 'I', 't', 'e', 'r', 'a', 't', 'o', 'r', '<', 'E', 'n', 'u', 'm', 'S', 'e', 't', '<', 'T', '>', '>', ' ', 'f', 'o', 'r', ' ', 'E', 'n', 'u', 'm', 'S', 'e', 't', '<', 'T', '>', ' ', '{'],
   [' ', ' ', ' ', ' ', 'f', 'n', ' ', 'f', 'r', 'o', 'm', '_', 'i', 't', 'e', 'r', '<', 'I', ':', ' ', 'I', 'n', 't', 'o', 'I', 't', 'e', 'r', 'a', 't', 'o', 'r', '<', 'I', 't', 'e', 'm', ' ', '=', ' ', 'E', 'n', 'u', 'm', 'S', 'e', 't', '<', 'T', '>', '>', '>', '(', 'i', 't', 'e', 'r', ':', ' ', 'I', ')', ' ', '-', '>', ' ', 'S', 'e', 'l', 'f', ' ', '{'],
   [' ', ' ', ' ', ' ', ' ', ' ', ' ', ' ', 'l', 'e', 't', ' ', 'm', 'u', 't', ' ', 's', 'e', 't', ' ', '=', ' ', 'E', 'n', 'u', 'm', 'S', 'e', 't', ':', ':', 'd', 'e', 'f', 'a', 'u', 'l', 't', '(', ')', ';'],
   [' ', ' ', ' ', ' ', ' ', ' ', ' ', ' ', 's', 'e', 't', '.', 'e', 'x', 't', 'e', 'n', 'd', '(', 'i', 't', 'e', 'r', ')', ';'],
   [' ', ' ', ' ', ' ', ' ', ' ', ' ', ' ', 's', 'e', 't'],
   [' ', ' ', ' ', ' ', '}'],
   ['}'],
   [],
   ['i', 'm', 'p', 'l', '<', 'T', ':', ' ', 'E', 'n', 'u', 'm', 'S', 'e', 't', 'T', 'y', 'p', 'e', '>', ' ', 'I', 'n', 't', 'o', 'I', 't', 'e', 'r', 'a', 't', 'o', 'r', ' ', 'f', 'o', 'r', ' ', 'E', 'n', 'u', 'm', 'S', 'e', 't', '<', 'T', '>', ' ', '{'],
   [' ', ' ', ' ', ' ', 't', 'y', 'p', 'e', ' ', 'I', 't', 'e', 'm', ' ', '=', ' ', 'T', ';'],
   [' ', ' ', ' ', ' ', 't', 'y', 'p', 'e', ' ', 'I', 'n', 't', 'o', 'I', 't', 'e', 'r', ' ', '=', ' ', 'E', 'n', 'u', 'm', 'S', 'e', 't', 'I', 't', 'e', 'r', '<', 'T', '>', ';'],
   [],
   [' ', ' ', ' ', ' ', 'f', 'n', ' ', 'i', 'n', 't', 'o', '_', 'i', 't', 'e', 'r', '(', 's', 'e', 'l', 'f', ')', ' ', '-', '>', ' ', 'S', 'e', 'l', 'f', ':', ':', 'I', 'n', 't', 'o', 'I', 't', 'e', 'r', ' ', '{'],
   [' ', ' ', ' ', ' ', ' ', ' ', ' ', ' ', 's', 'e', 'l', 'f', '.', 'i', 't', 'e', 'r', '(', ')'],
   [' ', ' ', ' ', ' ', '}'],
   ['}'],
   ['i', 'm', 'p', 'l', '<', 'T', ':', ' ', 'E', 'n', 'u', 'm', 'S', 'e', 't', 'T', 'y', 'p', 'e', '>', ' ', 'S', 'u', 'm', ' ', 'f', 'o', 'r', ' ', 'E', 'n', 'u', 'm', 'S', 'e', 't', '<', 'T', '>', ' ', '{'],
   [' ', ' ', ' ', ' ', 'f', 'n', ' ', 's', 'u', 'm', '<', 'I', ':', ' ', 'I', 't', 'e', 'r', 'a', 't', 'o', 'r', '<', 'I', 't', 'e', 'm', ' ', '=', ' ', 'S', 'e', 'l', 'f', '>', '>', '(', 'i', 't', 'e', 'r', ':', ' ', 'I', ')', ' ', '-', '>', ' ', 'S', 'e', 'l', 'f', ' ', '{'],
   [' ', ' ', ' ', ' ', ' ', ' ', ' ', ' ', 'i', 't', 'e', 'r', '.', 'f', 'o', 'l', 'd', '(', 'E', 'n', 'u', 'm', 'S', 'e', 't', ':', ':', 'e', 'm', 'p', 't', 'y', '(', ')', ',', ' ', '|', 'a', ',', ' ', 'v', '|', ' ', 'a', ' ', '|', ' ', 'v', ')'],
   [' ', ' ', ' ', ' ', '}'],
   ['}'],
   ['i', 'm', 'p', 'l', '<', '\'', 'a', ',', ' ', 'T', ':', ' ', 'E', 'n', 'u', 'm', 'S', 'e', 't', 'T', 'y', 'p', 'e', '>', ' ', 'S', 'u', 'm', '<', '&', '\'', 'a', ' ', 'E', 'n', 'u', 'm', 'S', 'e', 't', '<', 'T', '>', '>', ' ', 'f', 'o', 'r', ' ', 'E', 'n', 'u', 'm', 'S', 'e', 't', '<', 'T', '>', ' ', '{'],
   [' ', ' ', ' ', ' ', 'f', 'n', ' ', 's', 'u', 'm', '<', 'I', ':', ' ', 'I', 't', 'e', 'r', 'a', 't', 'o', 'r', '<', 'I', 't', 'e', 'm', ' ', '=', ' ', '&', '\'', 'a', ' ', 'S', 'e', 'l', 'f', '>', '>', '(', 'i', 't', 'e', 'r', ':', ' ', 'I', ')', ' ', '-', '>', ' ', 'S', 'e', 'l', 'f', ' ', '{'],
   [' ', ' ', ' ', ' ', ' ', ' ', ' ', ' ', 'i', 't', 'e', 'r', '.', 'f', 'o', 'l', 'd', '(', 'E', 'n', 'u', 'm', 'S', 'e', 't', ':', ':', 'e', 'm', 'p', 't', 'y', '(', ')', ',', ' ', '|', 'a', ',', ' ', 'v', '|', ' ', 'a', ' ', '|', ' ', '*', 'v', ')'],
   [' ', ' ', ' ', ' ', '}'],
   ['}'],
   ['i', 'm', 'p', 'l', '<', 'T', ':', ' ', 'E', 'n', 'u', 'm', 'S', 'e', 't', 'T', 'y', 'p', 'e', '>', ' ', 'S', 'u', 'm', '<', 'T', '>', ' ', 'f', 'o', 'r', ' ', 'E', 'n', 'u', 'm', 'S', 'e', 't', '<', 'T', '>', ' ', '{'],
   [' ', ' ', ' ', ' ', 'f', 'n', ' ', 's', 'u', 'm', '<', 'I', ':', ' ', 'I', 't', 'e', 'r', 'a', 't', 'o', 'r', '<', 'I', 't', 'e', 'm', ' ', '=', ' ', 'T', '>', '>', '(', 'i', 't', 'e', 'r', ':', ' ', 'I', ')', ' ', '-', '>', ' ', 'S', 'e', 'l', 'f', ' ', '{'],
   [' ', ' ', ' ', ' ', ' ', ' ', ' ', ' ', 'i', 't', 'e', 'r', '.', 'f', 'o', 'l', 'd', '(', 'E', 'n', 'u', 'm', 'S', 'e', 't', ':', ':', 'e', 'm', 'p', 't', 'y', '(', ')', ',', ' ', '|', 'a', ',', ' ', 'v', '|', ' ', 'a', ' ', '|', ' ', 'v', ')'],
   [' ', ' ', ' ', ' ', '}'],
   ['}'],
   ['i', 'm', 'p', 'l', '<', '\'', 'a', ',', ' ', 'T', ':', ' ', 'E', 'n', 'u', 'm', 'S', 'e', 't', 'T', 'y', 'p', 'e', '>', ' ', 'S', 'u', 'm', '<', '&', '\'', 'a', ' ', 'T', '>', ' ', 'f', 'o', 'r', ' ', 'E', 'n', 'u', 'm', 'S', 'e', 't', '<', 'T', '>', ' ', '{'],
   [' ', ' ', ' ', ' ', 'f', 'n', ' ', 's', 'u', 'm', '<', 'I', ':', ' ', 'I', 't', 'e', 'r', 'a', 't', 'o', 'r', '<', 'I', 't', 'e', 'm', ' ', '=', ' ', '&', '\'', 'a', ' ', 'T', '>', '>', '(', 'i', 't', 'e', 'r', ':', ' ', 'I', ')', ' ', '-', '>', ' ', 'S', 'e', 'l', 'f', ' ', '{'],
   [' ', ' ', ' ', ' ', ' ', ' ', ' ', ' ', 'i', 't', 'e', 'r', '.', 'f', 'o', 'l', 'd', '(', 'E', 'n', 'u', 'm', 'S', 'e', 't', ':', ':', 'e', 'm', 'p', 't', 'y', '(', ')', ',', ' ', '|', 'a', ',', ' ', 'v', '|', ' ', 'a', ' ', '|', ' ', '*', 'v', ')'],
   [' ', ' ', ' ', ' ', '}'],
   ['}'],
   ['/', '/', 'e', 'n', 'd', 'r', 'e', 'g', 'i', 'o', 'n']]

theorem text_eq : text = chars.map String.ofList := by rfl

end Enumset.Src.SetRs
