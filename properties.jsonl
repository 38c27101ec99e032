{"id": "C01", "title": "History refinement", "statement": "Every finite history of safe API calls over any number of EnumSet and EnumSetIter variables returns exactly the values the same history returns on mathematical sets of variants (and sorted lists for iterators). The only panics are the documented ones of the checked conversions, and there is never undefined behaviour.", "quantifier": "every enum the derive accepts, every storage representation, every finite sequence of calls, every argument", "why_tests_cant": "the number of histories is unbounded and depends on all earlier state; tests sample a handful of short ones", "anchors": ["enumset/src/set.rs: EnumSet::*", "enumset/src/set.rs: EnumSetIter::*"]}
{"id": "C02", "title": "No stray bits", "statement": "Any EnumSet obtained through the safe API (constructors, mutation, operators, checked/truncating conversions from arbitrary integers, arrays and slices, collection, deserialization) has set bits only at positions that are discriminants of variants.", "quantifier": "every enum the derive accepts, every way of composing safe constructors, every raw input value", "why_tests_cant": "raw inputs range over 2^128 integers and unbounded slices and sets may be combined without limit", "anchors": ["enumset/src/set.rs: from_*_truncated / try_from_* / complement", "enumset_derive/src/lib.rs: all_variants, deserialize"]}
{"id": "C03", "title": "insert, remove and contains", "statement": "insert(v) makes contains(v) true, leaves membership of every other variant unchanged and returns true iff v was absent; remove(v) makes contains(v) false, leaves every other variant unchanged and returns true iff v was present.", "quantifier": "every enum, every set, every pair of variants", "why_tests_cant": "needs all sets (2^n) and all variant pairs incl. word boundaries of array representations", "anchors": ["enumset/src/set.rs: insert, remove, contains", "enumset/src/repr/array.rs: add_bit, remove_bit, has_bit, split_bit", "enumset/src/repr/primitive.rs: add_bit, remove_bit, has_bit"]}
{"id": "C04", "title": "Set operations are pointwise", "statement": "union, intersection, difference, symmetrical_difference and complement contain exactly the variants given by or, and, and-not, xor and not of membership in the arguments; the operators |, &, -, ^, ! and their assigning forms, and insert_all/remove_all/clear, agree with them.", "quantifier": "every enum, every pair of sets, every variant", "why_tests_cant": "2^(2n) argument pairs", "anchors": ["enumset/src/set.rs: union, intersection, difference, symmetrical_difference, complement, BitOr, BitAnd, Sub, BitXor, Not, *Assign, insert_all, remove_all, clear"]}
{"id": "C05", "title": "Boolean algebra", "statement": "Under ==, EnumSet with |, &, !, empty() and all() is a Boolean algebra (commutative, associative, idempotent, absorbing, distributive, De Morgan, involutive complement, complements), a - b == a & !b and a ^ b == (a - b) | (b - a).", "quantifier": "every enum and all triples of sets", "why_tests_cant": "2^(3n) triples", "anchors": ["enumset/src/set.rs: BitOr, BitAnd, BitXor, Sub, Not, PartialEq"]}
{"id": "C06", "title": "Subset, superset, disjoint", "statement": "is_subset/is_superset/is_disjoint return true exactly when the corresponding relation holds between the membership predicates.", "quantifier": "every enum, every pair of sets", "why_tests_cant": "all pairs of sets", "anchors": ["enumset/src/set.rs: is_subset, is_superset, is_disjoint"]}
{"id": "C07", "title": "Cardinality", "statement": "len() is the number of variants v with contains(v); is_empty() iff len()==0 iff nothing is contained; len(all()) == variant_count(); len never exceeds variant_count(); |a|+|b| = |a or b|+|a and b|.", "quantifier": "every enum, every set", "why_tests_cant": "popcount over arbitrarily many words", "anchors": ["enumset/src/set.rs: len, is_empty, all, variant_count", "enumset/src/repr/array.rs: count_ones, is_empty", "enumset/src/repr/primitive.rs: count_ones"]}
{"id": "C08", "title": "Extensional equality and hashing", "statement": "a == b exactly when a and b contain the same variants; sets that are equal feed identical data to the hasher and sets that are unequal feed different data; set == variant exactly when the set contains that variant only, symmetrically in both directions.", "quantifier": "every enum, every pair of sets", "why_tests_cant": "all pairs; depends on no stray bit ever being set", "anchors": ["enumset/src/set.rs: PartialEq, Hash, PartialEq<T>", "enumset_derive/src/lib.rs: PartialEq<EnumSet> for the enum"]}
{"id": "C09", "title": "Total order", "statement": "cmp is a total order on sets (reflexive, antisymmetric, transitive, total), agrees with ==, partial_cmp is Some(cmp), and a subset of b implies a <= b.", "quantifier": "every enum, all triples of sets", "why_tests_cant": "all triples of sets", "anchors": ["enumset/src/set.rs: PartialOrd, Ord", "enumset/src/repr/array.rs: derive(Ord)"]}
{"id": "C10", "title": "Order is the numeric order of the bit representation", "statement": "For integer representations a < b iff the largest variant (by discriminant) on which they differ is in b. For array representations the order compares the u64 words lexicographically starting from the least significant word, so it is NOT the order of the 'single large integer' of the documentation.", "quantifier": "every enum, all pairs of sets", "why_tests_cant": "all pairs of sets; sign of the discrepancy only visible for sets spanning words", "anchors": ["enumset/src/set.rs: Ord", "enumset/src/repr/array.rs: derive(Ord) for ArrayRepr"]}
{"id": "C11", "title": "Iteration order and completeness", "statement": "Running iter() to the end yields exactly the contained variants, each once, in strictly increasing order of discriminant.", "quantifier": "every enum, every set", "why_tests_cant": "all sets, unbounded number of words", "anchors": ["enumset/src/set.rs: iter, EnumSetIter::next", "enumset/src/repr/array.rs: ArrayIter::next", "enumset/src/repr/primitive.rs: PrimitiveIter::next"]}
{"id": "C12", "title": "Arbitrary interleaving of next and next_back", "statement": "For every sequence of next()/next_back() calls, next yields the smallest and next_back the largest not-yet-yielded variant; nothing is yielded twice or skipped; when both ends meet both return None.", "quantifier": "every enum, every set, every finite schedule of next/next_back calls", "why_tests_cant": "2^k schedules of length k for every k and every set", "anchors": ["enumset/src/repr/array.rs: ArrayIter::next, next_back", "enumset/src/repr/primitive.rs: PrimitiveIter::next, next_back", "enumset/src/set.rs: EnumSetIter"]}
{"id": "C13", "title": "Exact size and fused iterator", "statement": "After every sequence of next/next_back calls size_hint() is (k, Some(k)) with k the exact number of items still to come, starting from len(); after a None every later call is None and size_hint stays (0, Some(0)).", "quantifier": "every enum, every set, every finite schedule of iterator calls", "why_tests_cant": "every intermediate iterator state", "anchors": ["enumset/src/set.rs: EnumSetIter::size_hint, ExactSizeIterator", "enumset/src/repr/array.rs: ArrayIter::size_hint", "enumset/src/repr/primitive.rs: PrimitiveIter::size_hint"]}
{"id": "C14", "title": "Reverse iteration", "statement": "Iterating from the back yields the reverse of iterating from the front; count(), last(), nth(k), min/max by discriminant agree with the ascending list.", "quantifier": "every enum, every set", "why_tests_cant": "all sets", "anchors": ["enumset/src/set.rs: DoubleEndedIterator for EnumSetIter"]}
{"id": "C15", "title": "Memory safety of enum reconstruction", "statement": "The unsafe bit-to-enum conversion is only ever reached, through the safe API, with the discriminant of an existing variant: unreachable_unchecked and the transmute branches are never executed and the returned variant is the one with that discriminant. Outside it, on the position of a bit of the storage that is no discriminant, the conversion is undefined behaviour for every size the enum may have.", "quantifier": "every enum, every safely obtained set, every iterator schedule", "why_tests_cant": "absence of UB over all inputs cannot be observed by running samples", "anchors": ["enumset_derive/src/lib.rs: enum_from_u32", "enumset/src/set.rs: EnumSetIter::next, next_back"]}
{"id": "C16", "title": "Collecting", "statement": "Collecting variants (FromIterator, Extend, Sum) gives the set containing exactly the variants produced (plus the original for extend), independent of order and multiplicity; collecting a set's own iterator gives the set back.", "quantifier": "every enum, every finite sequence of variants, every set", "why_tests_cant": "unbounded sequences", "anchors": ["enumset/src/set.rs: Extend<T>, FromIterator<T>, Sum<T>, Sum<&T>"]}
{"id": "C17", "title": "Collecting sets", "statement": "Collecting or summing sets gives their union (plus the original for extend), independent of order and multiplicity.", "quantifier": "every enum, every finite sequence of sets", "why_tests_cant": "unbounded sequences", "anchors": ["enumset/src/set.rs: Extend<EnumSet<T>>, FromIterator<EnumSet<T>>, Sum, Sum<&EnumSet<T>>"]}
{"id": "C18", "title": "Integer export", "statement": "as_uN_truncated has bit i set iff i < N and some contained variant has discriminant i; try_as_uN is Some of that value iff every contained variant has discriminant < N and None otherwise; as_uN returns it or panics with the documented message in exactly the other case. N ranges over u8, u16, u32, u64, u128, usize.", "quantifier": "every enum and representation, every set, every integer type", "why_tests_cant": "every combination of representation x width x set", "anchors": ["enumset/src/set.rs: conversion_impls! as_*, try_as_*, as_*_truncated", "enumset/src/repr/primitive.rs: to_*, to_*_opt", "enumset/src/repr/array.rs: to_*, to_*_opt"]}
{"id": "C19", "title": "Integer import", "statement": "try_from_uN(x) is Some(s) with s containing exactly the variants whose bit is set in x if every set bit of x is a discriminant, and None otherwise; from_uN returns it or panics in exactly the other case; from_uN_truncated(x) contains exactly the variants whose bit is set in x.", "quantifier": "every enum and representation, every integer value, every integer type", "why_tests_cant": "2^128 input values", "anchors": ["enumset/src/set.rs: conversion_impls! from_*, try_from_*, from_*_truncated", "enumset/src/repr/primitive.rs: from_*, from_*_opt", "enumset/src/repr/array.rs: from_*, from_*_opt"]}
{"id": "C20", "title": "Integer round trip", "statement": "try_as_uN(s) = Some(x) implies try_from_uN(x) = Some(s), and try_from_uN(x) = Some(s) implies try_as_uN(s) = Some(x); from_uN_truncated(as_uN_truncated(s)) is s restricted to discriminants < N.", "quantifier": "every enum and representation, every set, every integer value and type", "why_tests_cant": "all values", "anchors": ["enumset/src/set.rs: conversion_impls!"]}
{"id": "C21", "title": "Array export", "statement": "as_array_truncated::<O> has bit j of word k set iff a contained variant has discriminant 64k+j (k<O); try_as_array::<O> is Some of that iff every contained variant has discriminant < 64*O, else None; as_array returns it or panics. to_vec gives the same words, with the set always fitting.", "quantifier": "every enum and representation, every set, every array length O including 0", "why_tests_cant": "unbounded O and all sets", "anchors": ["enumset/src/set.rs: as_array, try_as_array, as_array_truncated, to_vec", "enumset/src/repr/primitive.rs: to_u64_array, to_u64_array_opt", "enumset/src/repr/array.rs: to_u64_array, to_u64_array_opt"]}
{"id": "C22", "title": "Array import", "statement": "try_from_array/try_from_slice is Some(s) with exactly the variants whose bit is set iff every set bit of the words is a discriminant, else None; from_array/from_slice return it or panic; from_array_truncated/from_slice_truncated keep exactly the variants whose bit is set.", "quantifier": "every enum and representation, every word sequence of every length including 0", "why_tests_cant": "unbounded lengths and word values", "anchors": ["enumset/src/set.rs: from_array, try_from_array, from_array_truncated, from_slice, try_from_slice, from_slice_truncated", "enumset/src/repr/primitive.rs: from_u64_array*, from_u64_slice*", "enumset/src/repr/array.rs: from_u64_array*, from_u64_slice*"]}
{"id": "C23", "title": "Copying into slices", "statement": "copy_into_slice_truncated overwrites the whole slice with the words of the set, zero filling the tail; try_copy_into_slice does the same and returns Some(()) iff the set fits, otherwise returns None and leaves the slice untouched; copy_into_slice panics in exactly that case, also leaving it untouched.", "quantifier": "every enum and representation, every set, every slice length and prior contents", "why_tests_cant": "unbounded slice lengths and contents", "anchors": ["enumset/src/set.rs: copy_into_slice, try_copy_into_slice, copy_into_slice_truncated", "enumset/src/repr/primitive.rs: to_u64_slice, to_u64_slice_opt", "enumset/src/repr/array.rs: to_u64_slice, to_u64_slice_opt"]}
{"id": "C24", "title": "Array and slice round trip", "statement": "Whenever export to an array, slice or Vec succeeds, importing the result gives back the same set; importing words successfully and exporting to the same length gives back the same words.", "quantifier": "every enum and representation, every set, every length", "why_tests_cant": "unbounded", "anchors": ["enumset/src/set.rs: as_array .. from_slice_unchecked"]}
{"id": "C25", "title": "repr conversions", "statement": "For enums with an explicit integer repr, as_repr is the bitmask of the discriminants and never fails; try_from_repr(x) is Some iff every set bit of x is a discriminant; from_repr panics in exactly the other case; from_repr_truncated drops exactly the other bits; as_repr and try_from_repr are mutually inverse.", "quantifier": "every enum with #[enumset(repr = u8..u128)], every set, every integer of the repr type", "why_tests_cant": "2^128 values", "anchors": ["enumset/src/set.rs: as_repr, from_repr, try_from_repr, from_repr_truncated, from_repr_unchecked", "enumset/src/traits.rs: EnumSetTypeWithRepr"]}
{"id": "C26", "title": "Unchecked constructors", "statement": "from_uN_unchecked / from_array_unchecked / from_slice_unchecked / from_repr_unchecked agree with the checked constructors whenever their stated safety condition holds.", "quantifier": "every enum, every raw value meeting the documented safety condition", "why_tests_cant": "all raw values", "anchors": ["enumset/src/set.rs: from_*_unchecked"]}
{"id": "C27", "title": "Bit layout", "statement": "A variant with discriminant n is stored in bit n: every integer export has mask 1<<n for it and every array export has it at bit n%64 of word n/64, whatever representation was chosen.", "quantifier": "every enum, every representation, every variant", "why_tests_cant": "every discriminant up to 0xFFFFFFBF", "anchors": ["enumset/src/set.rs: doc 'Numeric representation', 'Array representation'", "enumset/src/repr/array.rs: split_bit", "enumset/src/repr/primitive.rs: add_bit"]}
{"id": "C28", "title": "Representation independence", "statement": "Choosing a different #[enumset(repr)] for the same enum changes no result of any history of safe API calls (other than cmp and hashing, which expose the layout).", "quantifier": "every enum accepted under two representations, every finite history", "why_tests_cant": "pairs of representations x unbounded histories", "anchors": ["enumset_derive/src/lib.rs: internal_repr", "enumset/src/set.rs: EnumSet::*"]}
{"id": "C29", "title": "Discriminants agree with rustc", "statement": "The discriminant the derive macro records for each variant (explicit literal, or previous plus one, starting at zero) is the one the compiler assigns, so `variant as u32` and the generated tables agree.", "quantifier": "every enum definition the derive accepts", "why_tests_cant": "unbounded variant lists mixing implicit and explicit discriminants", "anchors": ["enumset_derive/src/lib.rs: push_variant"]}
{"id": "C30", "title": "What the derive accepts", "statement": "The derive accepts an enum exactly when it has no type parameters, allowed #[repr] attributes, known repr/serialize_repr strings, only unit variants with distinct names, integer-literal or absent discriminants, pairwise distinct discriminants at most 0xFFFFFFBF, and an explicit repr/serialize_repr wide enough for the largest discriminant; otherwise it reports an error and never panics.", "quantifier": "every derive input (the option crate_name aside, for which see C63)", "why_tests_cant": "unbounded inputs", "anchors": ["enumset_derive/src/lib.rs: derive_enum_set_type_0, push_variant, push_repr, push_serialize_repr, validate"]}
{"id": "C31", "title": "Representation choice and mask", "statement": "The chosen representation has room for every discriminant; without an explicit repr it is the smallest of u8,u16,u32,u64 that fits or else the shortest u64 array; the generated mask all() has exactly the bits of the discriminants; no width computation overflows u32, for all discriminants up to the limit.", "quantifier": "every enum definition the derive accepts", "why_tests_cant": "discriminants up to 2^32-65", "anchors": ["enumset_derive/src/lib.rs: internal_repr, validate, variant_map, all_variants", "enumset/src/repr/array.rs: WIDTH"]}
{"id": "C32", "title": "bit_width and variant_count", "statement": "bit_width() is one more than the largest discriminant and variant_count() the number of variants; they coincide exactly when the discriminants are 0..n-1. (For an enum with no variants bit_width() is 1 although variant_count() is 0, against the documentation.)", "quantifier": "every enum definition the derive accepts", "why_tests_cant": "unbounded", "anchors": ["enumset/src/set.rs: bit_width, variant_count", "enumset_derive/src/lib.rs: bit_width, variant_count"]}
{"id": "C33", "title": "Variant identity", "statement": "The conversions between a variant and its bit position are mutually inverse on the variants and the derived == on variants is identity.", "quantifier": "every enum, all pairs of variants", "why_tests_cant": "unbounded", "anchors": ["enumset_derive/src/lib.rs: enum_into_u32, enum_from_u32, eq_impl"]}
{"id": "C34", "title": "Const macros", "statement": "enum_set!, enum_set_union!, enum_set_intersection!, enum_set_difference!, enum_set_symmetric_difference! and enum_set_complement! applied to any number of variants and constants give the value of the corresponding runtime operators folded left to right.", "quantifier": "every enum and representation, any number and mix of variant/set operands", "why_tests_cant": "unbounded operand lists; const code path is separate generated code", "anchors": ["enumset/src/macros.rs: enum_set, enum_set_union, enum_set_intersection, enum_set_complement, enum_set_difference, enum_set_symmetric_difference", "enumset_derive/src/lib.rs: __impl_enumset_internal__const_only, const_union, const_intersection, const_symmetric_difference, const_complement"]}
{"id": "C35", "title": "Operators on variants", "statement": "For variants a, b and sets s: a|x, a&x, a-x, a^x, !a equal the set operators applied to the singleton {a}; a == s iff s == a iff s is {a}; only(a) contains exactly a.", "quantifier": "every enum with ops, all variants and sets", "why_tests_cant": "all pairs", "anchors": ["enumset_derive/src/lib.rs: ops", "enumset/src/set.rs: only, From<T>, PartialEq<T>"]}
{"id": "C36", "title": "Integer serialization", "statement": "With an integer serialize_repr, deserializing what was serialized gives the set back and the serialized integer is the bitmask; without serialize_deny_unknown unknown bits are dropped and all known bits kept; with it deserialization fails iff an unknown bit is set. This must hold for every enum the derive accepts with that option.", "quantifier": "every enum, set and integer value", "why_tests_cant": "2^128 integer values x enums", "anchors": ["enumset_derive/src/lib.rs: serde_ops U8..U128"]}
{"id": "C37", "title": "List and map serialization", "statement": "With serialize_repr list/map, serialization emits exactly the contained variants in increasing discriminant order (mapped to true) with the exact length announced; deserialization gives exactly the listed variants (mapped to true), independent of order and repetition; round trip is the identity; an error in any element is propagated.", "quantifier": "every enum, every set, every element sequence", "why_tests_cant": "unbounded sequences", "anchors": ["enumset_derive/src/lib.rs: serde_ops List, Map"]}
{"id": "C38", "title": "Array serialization round trip", "statement": "With serialize_repr array (or more than 128 bits) the serialized words are a prefix of the array form that omits only zero words, and deserializing gives the set back; shorter or zero-padded inputs of any length denote the same set.", "quantifier": "every enum, every set, any amount of zero padding", "why_tests_cant": "unbounded word counts", "anchors": ["enumset_derive/src/lib.rs: serde_ops Array"]}
{"id": "C39", "title": "Array deserialization ignores unknown bits", "statement": "By default, deserializing an array with unknown bits ignores and removes those bits.", "quantifier": "every enum with array serialization without serialize_deny_unknown, every word sequence", "why_tests_cant": "unbounded word sequences", "anchors": ["enumset_derive/src/lib.rs: serde_ops Array convert_array", "enumset/src/set.rs: doc 'Serialization'"]}
{"id": "C40", "title": "serialize_deny_unknown is usable and enforced", "statement": "For every enum the derive accepts with serialize_deny_unknown, the generated deserializer is well typed and fails exactly when an unknown bit is set.", "quantifier": "every enum the derive accepts with serialize_deny_unknown", "why_tests_cant": "ranges over all enum definitions and inputs", "anchors": ["enumset_derive/src/lib.rs: check_unknown, check_extra, convert_array"]}
{"id": "C41", "title": "Formatting", "statement": "Debug writes EnumSet( followed by the contained variants' own formatting in increasing discriminant order separated by ' | ' and a closing ), Display the same without the wrapper; if a write fails, formatting stops there and reports the failure.", "quantifier": "every enum, every set, every element formatter, every sink failure point", "why_tests_cant": "every failure point of the sink and every set", "anchors": ["enumset/src/set.rs: Debug, Display"]}
{"id": "C42", "title": "No overflow, no index panic", "statement": "No operation other than the documented panicking conversions can panic: no shift, addition, multiplication or index in the crate goes out of range, for every discriminant the derive admits (so debug and release builds behave the same).", "quantifier": "every enum and representation, every operation and argument", "why_tests_cant": "boundary values up to 2^32", "anchors": ["enumset/src/repr/array.rs: *", "enumset/src/repr/primitive.rs: *", "enumset/src/set.rs: *"]}
{"id": "C43", "title": "Empty, all, default", "statement": "new(), empty(), default() and clear() give the set with no variants, all() gives the set with every variant, and these are the bounds of the subset order.", "quantifier": "every enum, every set", "why_tests_cant": "every enum", "anchors": ["enumset/src/set.rs: new, empty, all, default, clear, EMPTY, ALL"]}
{"id": "C44", "title": "Target word size", "statement": "On targets with 32- or 64-bit usize every admitted discriminant addresses its own bit. On a target with 16-bit usize, array representations alias discriminants that differ by a multiple of 65536.", "quantifier": "every enum, every target usize width, every variant", "why_tests_cant": "needs targets and discriminants no test suite runs", "anchors": ["enumset/src/repr/array.rs: split_bit"]}
{"id": "C45", "title": "Iterators are snapshots", "statement": "Mutating a set after iter() was called does not change what the iterator yields, and clones of iterators advance independently.", "quantifier": "every history interleaving set mutation and iterator calls", "why_tests_cant": "unbounded interleavings", "anchors": ["enumset/src/set.rs: iter, EnumSetIter (Clone)"]}
{"id": "C46", "title": "Serialization is canonical", "statement": "Two sets serialize to the same data iff they are equal, for every serialization representation.", "quantifier": "every enum, every pair of sets, every serialize_repr", "why_tests_cant": "all pairs", "anchors": ["enumset_derive/src/lib.rs: serde_ops", "enumset/src/set.rs: Serialize"]}
{"id": "C47", "title": "Macro syntax", "statement": "enum_set! accepts any number of operands separated by |, with any number of trailing |, and expands to the union of exactly those operands; with no operand it is the empty set; the comma macros accept one optional trailing comma.", "quantifier": "every operand list and number of trailing separators", "why_tests_cant": "unbounded token lists", "anchors": ["enumset/src/macros.rs: macro_rules arms"]}
{"id": "C48", "title": "Serializer failures", "statement": "Serialization makes the calls described by the format in order on any serializer, stops at the first call that fails and returns that serializer's error; when no call fails the serializer receives exactly the data of the format.", "quantifier": "every enum, set, format and every serializer (any state, any failure point)", "why_tests_cant": "a test serializer fails at a few fixed points only", "anchors": ["enumset_derive/src/lib.rs: serde_ops", "enumset/src/traits.rs: serialize"]}
{"id": "C49", "title": "Arbitrary deserializers", "statement": "List, map and array deserialization read any sequence access: the result depends only on the values yielded up to the point where reading stops, an error is returned as is, and a never-ending list or map never yields a result.", "quantifier": "every sequence access (may fail, may continue after None, may never end)", "why_tests_cant": "unbounded, adversarial inputs", "anchors": ["enumset_derive/src/lib.rs: serde_ops (visit_seq, visit_map)"]}
{"id": "C50", "title": "Exact array form", "statement": "The array form of a set consists of the words up to that of its largest member plus at most one zero word; a reader uses only as many words as its storage has.", "quantifier": "every enum with array serialization, every set, every input", "why_tests_cant": "all lengths", "anchors": ["enumset_derive/src/lib.rs: SerdeRepr::Array"]}
{"id": "C51", "title": "Newer versions read old data", "statement": "After variants are added to an enum (other discriminants unchanged), data serialized by the old version deserializes to the same variants, for every serialization format, also if the integer or array becomes wider.", "quantifier": "every pair of enum versions, every set, every format", "why_tests_cant": "all pairs of enums", "anchors": ["enumset_derive/src/lib.rs: serde_ops"]}
{"id": "C52", "title": "Older versions read new data", "statement": "An old version of an enum reading data of a newer one drops the variants it does not know (integers), or reports an error (integers with serialize_deny_unknown, lists, maps) exactly if there is such a variant; arrays panic exactly if such a variant is within the words of the storage.", "quantifier": "every pair of enum versions, every set, every format", "why_tests_cant": "all pairs of enums", "anchors": ["enumset_derive/src/lib.rs: serde_ops", "enumset/src/lib.rs: from_array"]}
{"id": "C53", "title": "Serialized data does not depend on the storage", "statement": "Two enums with the same variants and serialization format but different repr attributes serialize the same set to the same data (arrays: up to trailing zero words).", "quantifier": "every pair of enums with equal variants, every set", "why_tests_cant": "all storages", "anchors": ["enumset_derive/src/lib.rs: serde_ops, internal_repr"]}
{"id": "C54", "title": "Derive diagnostics", "statement": "When the derive macro rejects an input, the message and the place it points to describe a problem the input really has, and it is the first one in a fixed order (generics, item kind, #[repr] attributes, enumset attributes, variants in source order, representations too small for the largest discriminant, pointing at the variant that has it). An input without such a problem is accepted. Deprecation warnings appear exactly for the deprecated attributes used.", "quantifier": "every derive input (any number of variants, any discriminant expressions, any attributes), also with several problems at once", "why_tests_cant": "the trybuild tests cover a dozen inputs with a single problem in a single variant; the space of inputs with several interacting problems is infinite", "anchors": ["enumset_derive/src/lib.rs: push_variant, push_repr, push_serialize_repr, validate, derive_enum_set_type_0"]}
{"id": "C55", "title": "Agreement with the compiler", "statement": "For every enum that rustc itself accepts (distinct variant names, distinct discriminants within the range of the discriminant type, at most one integer representation), the derive macro accepts it exactly if it respects the documented limitations. Conversely, an enum without #[repr] that the macro accepts is one rustc accepts (64-bit targets, or discriminants below 2^15). An enum accepted by rustc on a narrow usize is accepted on every wider one, and unless a wide #[repr] is given every accepted enum fits every target.", "quantifier": "every enum declaration, every target", "why_tests_cant": "all declarations and pointer widths; the tests run on one 64-bit host", "anchors": ["enumset_derive/src/lib.rs: derive_enum_set_type_0, push_variant", "enumset/src/lib.rs: documentation of EnumSetType"]}
{"id": "C56", "title": "Collecting from any iterator", "statement": "extend, collect and sum over an arbitrary caller-supplied iterator, also one with state, one that panics, or one that never ends, call next exactly until the first None, take exactly the produced elements, never call next again, and pass on a panic with the iterator left in the state at the panic. With an endless iterator they do not return.", "quantifier": "every iterator (state type, transition function), every initial set, every enum", "why_tests_cant": "user iterators are arbitrary code", "anchors": ["enumset/src/set.rs: Extend, FromIterator, Sum impls"]}
{"id": "C57", "title": "Exported integers and words compute like sets", "statement": "The integer (word array) of a union, intersection, difference, symmetric difference, complement, insertion or removal is the corresponding bitwise operation on the integers (words); membership, equality, subset, disjointness, emptiness and size can be read off integers wide enough; and importing truncated integers commutes with the operations.", "quantifier": "every enum, every pair of sets, every integer type, every number of words, also when bits are truncated", "why_tests_cant": "all pairs of sets and integers", "anchors": ["enumset/src/set.rs: as_*_truncated, from_*_truncated, as_array_truncated", "enumset/src/repr/primitive.rs", "enumset/src/repr/array.rs"]}
{"id": "C58", "title": "Effect of the options", "statement": "no_ops, no_super_impls, serialize_deny_unknown and an integer repr each switch exactly their own part of the generated code; serialization options change only serialization; the rest of the generated code depends only on the discriminants and on repr: not on the names of the variants, on whether discriminants are written out or implied, or on #[repr] of the enum. The switches have no influence on acceptance and on error messages, while serialize_repr is checked even if nothing is serialized.", "quantifier": "every pair of accepted enums with the same discriminants", "why_tests_cant": "all combinations of options on all enums", "anchors": ["enumset_derive/src/lib.rs: EnumSetInfo::new, enum_set_type_impl, derive_enum_set_type_0"]}
{"id": "C59", "title": "Leading and trailing zeros", "statement": "trailing_zeros of the storage is the smallest discriminant in the set and leading_zeros the number of bits above the largest; both equal the number of bits for the empty set.", "quantifier": "every enum, every set, every storage", "why_tests_cant": "all sets and word counts; the functions are not reachable from the public API and untested", "anchors": ["enumset/src/repr/mod.rs", "enumset/src/repr/array.rs: leading_zeros, trailing_zeros", "enumset/src/repr/primitive.rs"]}
{"id": "C60", "title": "A set is a number", "statement": "A set is faithfully the number that is the sum of 2^d over the discriminants d of its elements: all exports (integers, arrays, vectors, serialized integers) are that number, reduced modulo the width when truncating and refused exactly when it does not fit when checked; imports accept exactly the numbers of sets; different sets have different numbers; integer storage orders sets by number; and union, intersection, difference and complement satisfy the expected sums.", "quantifier": "every enum, every set, every integer type, every number of words", "why_tests_cant": "all enums, sets and widths", "anchors": ["enumset/src/lib.rs: documentation", "enumset/src/set.rs: conversion functions"]}
{"id": "C61", "title": "Storage contract", "statement": "Every value of every storage type, including values with bits of no variant, behaves as the set of its one bits: every method of EnumSetTypeRepr (set operations, bit access, counting, comparison, zero counts, conversions to and from every integer width and array length) computes the operation on positions, and its double-ended iterator yields every position once, in ascending order from the front and descending from the back under any interleaving.", "quantifier": "every storage type (integers of every width and word arrays of every length), every storage value, every argument, every interleaving", "why_tests_cant": "values with stray bits are not reachable from safe code and the storage types are private; all values, array lengths and interleavings", "anchors": ["enumset/src/repr/mod.rs:9-90", "enumset/src/repr/primitive.rs", "enumset/src/repr/array.rs"]}
{"id": "C62", "title": "Sets with stray bits", "statement": "A set made by misusing an unchecked constructor, with bits of no variant, is described by its bits: equality, hashing, len, subset tests and exports see all of them; union, intersection, difference, symmetric difference, insert and remove work bit by bit and keep stray bits; complement, truncating imports and the intersection with all() drop them; checked imports refuse them. Iteration under any interleaving yields the variants as long as no stray bit is taken; taking one is undefined unless the enum has a single variant, which is then yielded. Sets without stray bits are exactly those safe code can build.", "quantifier": "every enum, every storage value, every interleaving of next, next_back and size_hint", "why_tests_cant": "such sets are outside of the safe API and reaching a stray bit is undefined behaviour, so that tests cannot show anything about it; all storage values", "anchors": ["enumset/src/set.rs:480-800", "enumset_derive/src/lib.rs:648-708"]}
{"id": "C63", "title": "crate_name, features and panics of the macro", "statement": "The macro expands exactly if the enum is acceptable and the crate name, if one is given by crate_name or (feature proc-macro-crate, no crate_name) found in the manifest, is an identifier; the generated items then refer to the crate by that name, or by enumset, and are otherwise independent of it; serde functions are generated exactly if the feature serde is on. The macro panics exactly if it is used on an enum without type parameters and crate_name is not an identifier (then no other error of the enum is reported), or the enum is acceptable and the name found is not one.", "quantifier": "every derive input, every combination of features, every result of proc_macro_crate, every notion of identifier", "why_tests_cant": "Tests compile one feature combination and a handful of enums; which errors are hidden by the panic depends on all combinations of problems.", "anchors": ["enumset_derive/src/lib.rs:152-155", "enumset_derive/src/lib.rs:320-350", "enumset_derive/src/lib.rs:427-430", "enumset_derive/src/lib.rs:983-1061"]}
{"id": "C64", "title": "Operators on operands of a type of the caller", "statement": "For an operand of any type with a conversion into the set type, the operators |, &, -, ^ of sets and of variants call the conversion once and give the set operation with the converted set; the assigning operators store that set. If the conversion panics, the operator panics and an assigned set keeps its value. For variants and sets as operands these are the ordinary operators.", "quantifier": "every accepted enum, every set (also with stray bits) and variant, every conversion with any effects, every set it returns and every panic", "why_tests_cant": "The operand type is a type parameter of the impl; tests instantiate it with the enum and the set only.", "anchors": ["enumset/src/set.rs:311-364", "enumset_derive/src/lib.rs:385-412"]}
{"id": "C65", "title": "Interactive programs", "statement": "An interactive program, which chooses each call on sets and iterators from the answers it has got so far and may run forever, ends after the same calls and with the same result as on mathematical sets of variants. If it does not call cmp, partial_cmp and to_vec, its result does not depend on the attributes of the enum (as long as the serialized form, if it uses it, is the same and not words), and never on whether overflow checks are on.", "quantifier": "every accepted enum, every interactive program over the calls of C01 with any state, any number of calls", "why_tests_cant": "A test is one program that ends; here the calls depend on the answers, without bound, and include every generic algorithm over iterators and sets.", "anchors": ["enumset/src/set.rs", "enumset/src/repr/array.rs", "enumset/src/repr/primitive.rs", "enumset_derive/src/lib.rs"]}
{"id": "C66", "title": "The text of primitive.rs", "statement": "Running the text of each function of primitive.rs, as parsed from the repository, in an interpreter for the fragment of Rust it is written in, has the outcome of the corresponding function of the model: the same result, the same new value of a &mut argument, or the same panic, and never gets stuck.", "quantifier": "every function of prim! and of PrimitiveIter, every integer type prim! is invoked for, every argument, every caller, with and without overflow checks, every width of usize", "why_tests_cant": "A test of the model against the code compares finitely many runs; here the text itself is evaluated on all arguments.", "anchors": ["enumset/src/repr/primitive.rs"]}
{"id": "C67", "title": "The text of array.rs", "statement": "Running the text of each function of array.rs, as parsed from the repository, in the interpreter of C66 has the outcome of the corresponding function of the model: the same result, the same new value of a &mut argument, or the same panic, and never gets stuck.", "quantifier": "every function of ArrayRepr and ArrayIter, every length N, every argument, every caller, with and without overflow checks, every width of usize", "why_tests_cant": "A test of the model against the code compares finitely many runs and array lengths; here the text itself is evaluated on all of them, including its loops.", "anchors": ["enumset/src/repr/array.rs"]}
{"id": "C68", "title": "The text of set.rs", "statement": "Running the text of each function of set.rs, as parsed from the repository, in the interpreter of C66 has the outcome of the corresponding function of the model: the same result, the same new value of a &mut argument, or the same panic, and never gets stuck. Functions that iterate run the text of the iterator or any iterator of the caller.", "quantifier": "all 123 functions of set.rs (inherent, operators, conversions, traits, iterators; conversion_impls! expanded for every integer type), every enum the derive macro accepts, every integer or array storage, every argument including operands and iterators whose code is the caller's, every caller, with and without overflow checks, every width of usize", "why_tests_cant": "A test of the model against the code compares finitely many runs for the enums it was written for; here the text itself is evaluated for all enums, storages and arguments.", "anchors": ["enumset/src/set.rs"]}
{"id": "C69", "title": "Programs on the text of set.rs", "statement": "A program that keeps sets in variables and calls functions of set.rs in any order, each call running the text of the function as parsed from the repository, ends without panic and prints what the same program prints on mathematical sets; iteration lists the members by increasing discriminant, and by decreasing discriminant when run from the back.", "quantifier": "every enum the derive macro accepts, integer and array storage, every finite sequence of the commands of SpecSrc (constructors, set operations, operators with values and sets, insertions and removals, tests, counts, iteration from both ends), every assignment of variables, with and without overflow checks", "why_tests_cant": "There are unboundedly many enums and programs; a test runs finitely many.", "anchors": ["enumset/src/set.rs", "enumset/src/repr/primitive.rs", "enumset/src/repr/array.rs"]}
{"id": "C70", "title": "The text of the macro's bookkeeping", "statement": "Running the text of each function of InternalRepr, SerdeRepr and EnumSetInfo in enumset_derive/src/lib.rs, as parsed from the repository, in the interpreter of C66 with the functions of syn, quote and std written out, has the outcome of the corresponding function of the model: the same result, the same new value of self, or the same diagnostic at the same place, and never panics or gets stuck.", "quantifier": "every state of EnumSetInfo within the bounds the macro itself enforces, every variant and option value, with and without overflow checks, every host whose usize has at least 32 bits", "why_tests_cant": "A test runs the macro on finitely many enums; here the text is evaluated for every state.", "anchors": ["enumset_derive/src/lib.rs:20-318"]}
{"id": "C71", "title": "The text of the derive macro", "statement": "Running the text of derive_enum_set_type_0 and enum_set_type_impl on an item returns exactly the diagnostic of the model if the model rejects the item, and otherwise the quote! templates of the text filled in with the values the model computes (representation, mask of all variants, widths, names, discriminants, warnings). It panics exactly if the name by which the code is to refer to the crate enumset (the crate_name attribute, or else what proc_macro_crate finds) is needed and no identifier.", "quantifier": "every item syn can hand to the macro (enum or not, generics or not, any attributes, variants, discriminant expressions), every combination of options, every setting of the features serde, std_deprecation_warning and proc-macro-crate, every answer of proc_macro_crate, with and without overflow checks, every host whose usize has at least 32 bits", "why_tests_cant": "There are infinitely many items; a trybuild test checks a handful.", "anchors": ["enumset_derive/src/lib.rs:320-1061"]}
{"id": "C72", "title": "The code the derive macro writes, run with the crate", "statement": "The text of the derive macro, run on an item it accepts, returns code that, linked with the text of set.rs, repr/primitive.rs and repr/array.rs and with the enum itself, answers every history of calls of EnumSet functions, of the operators and PartialEq/Clone of the enum, and of the const helpers behind enum_set! exactly as mathematical sets of variants do, without panic and without ever reading a number as a value of the enum. It implements exactly the documented traits, with the documented storage type, and enum_from_u32 does what its arms say for every number.", "quantifier": "every item syn can hand to the macro, every history, every host with at least 32-bit usize, every target on which the discriminants fit usize, with and without overflow checks", "why_tests_cant": "It quantifies over all enums, all programs and all targets; the generated code of one enum says nothing about the next.", "anchors": ["enumset_derive/src/lib.rs:320-1061", "enumset/src/set.rs:1-903", "enumset/src/repr/primitive.rs:1-301", "enumset/src/repr/array.rs:1-335"]}
{"id": "C73", "title": "The text of the enum_set! macros, expanded and run", "statement": "Expanding the text of macros.rs with the matching rules of macro_rules! accepts exactly the documented calls (enum_set! with operands separated by | and trailing |s; enum_set_union!, _intersection!, _difference!, _symmetric_difference! with one or more operands separated by commas and an optional trailing comma; enum_set_complement! with one operand), without exceeding the recursion limit; and the expansion, run with the code the derive macro writes and with the crate, is the set of variants the macro is documented to build, whatever variants and sets the operands are, also in the middle of any history of other calls.", "quantifier": "every list of tokens, every number of operands, every item the derive macro accepts, every history of function and macro calls, every host with at least 32-bit usize, every target on which the discriminants fit usize, with and without overflow checks", "why_tests_cant": "Infinitely many token lists, operand counts, enums and histories; a test expands a few calls.", "anchors": ["enumset/src/macros.rs:1-214", "enumset_derive/src/lib.rs:320-1061", "enumset/src/set.rs:1-903"]}
{"id": "C74", "title": "The serde code the derive macro writes, run with the crate", "statement": "The text of the derive macro, built with the feature serde and run on an item it accepts, returns code that, linked with the crate and the enum and run against any serializer and any deserializer (each of whose calls may fail, and whose sequences may end and go on, or never end), answers every history of calls, of serialize and of deserialize as mathematical sets do: serialize makes exactly the calls of the documented form and stops at the first error; deserialize returns the set that the data means, or the error of the deserializer, or the error for unknown bits where serialize_deny_unknown asks for it. Data with unknown bits in the array form makes it panic, a sequence that does not end makes it run forever, and nothing else does. What a set is serialized as means that set.", "quantifier": "every item the derive macro accepts and whose serde code compiles (C40), every serializer and deserializer, every history, every host with at least 32-bit usize, every target on which the discriminants fit usize, with and without overflow checks", "why_tests_cant": "It quantifies over all enums, all (also faulty) serializers and deserializers, all histories and all targets; a test uses serde_json or bincode with a few enums.", "anchors": ["enumset_derive/src/lib.rs:429-647", "enumset_derive/src/lib.rs:700-1061", "enumset/src/set.rs:1-903"]}
{"id": "C75", "title": "Every history of the public API, on the text of the crate", "statement": "The text of the crate, of macros.rs and of the code that the text of the derive macro returns for an item it accepts, run on a history of calls of the public API (constructors, set operations and operators on sets and variants, collecting, extending and summing, the const macros, conversions from and to integers, arrays, slices, vectors and the representation, comparisons, iterators from both ends with the provided methods of Iterator, formatting, hashing, serialization, and deserialization of any data, complete or broken off), answers at every step what mathematical sets with the documented layout answer, including what is written and serialized, what is refused, which calls panic and with which message, and never has undefined behaviour or runs forever.", "quantifier": "every item the derive macro accepts, every history of the listed calls with any arguments and any number of variables, every host with at least 32-bit usize, every target on which the discriminants fit usize, with and without overflow checks, with and without the feature serde", "why_tests_cant": "It quantifies over all enums, all histories and all targets; tests run a few calls on a few enums on one target.", "anchors": ["enumset/src/set.rs:1-903", "enumset/src/macros.rs:1-214", "enumset/src/repr/array.rs:1-335", "enumset/src/repr/primitive.rs:1-301", "enumset_derive/src/lib.rs:455-930"]}
{"id": "C76", "title": "The programs that are run are the text of the files", "statement": "The text of enumset/src/repr/primitive.rs, enumset/src/repr/array.rs, enumset/src/set.rs, enumset/src/macros.rs and enumset_derive/src/lib.rs, read by a lexer and a parser of the fragment of Rust they are written in, is exactly the program that C66 to C68 and C70 to C78 run: all functions, constants, structs, enums, macro invocations, macro arms and quote! templates, the derive macro with every combination of its features.", "quantifier": "all tokens of the five files; for the derive macro, all settings of the features serde, std_deprecation_warning and proc-macro-crate", "why_tests_cant": "It ties the theorems to the text itself; without it they would be about a transcription, and a transcription error in a function no test exercises would go unnoticed.", "anchors": ["enumset/src/repr/primitive.rs:1-301", "enumset/src/repr/array.rs:1-335", "enumset/src/set.rs:1-903", "enumset/src/macros.rs:1-214", "enumset_derive/src/lib.rs:1-1061"]}
{"id": "C77", "title": "Deserialization errors say what was expected", "statement": "When a deserializer has no list, map or array where the generated deserialize asks for one, the error it builds sees exactly the expectation the generated visitor writes: a list of the enum, a map from the enum to bool, or a list of u64. The error reaches the caller of EnumSet::deserialize unchanged, and nothing else happens.", "quantifier": "every item the derive macro accepts and whose serde code compiles with a list, map or array form, every deserializer and every error", "why_tests_cant": "It quantifies over all enums, formats, deserializers and errors; tests never look at the messages.", "anchors": ["enumset_derive/src/lib.rs:476", "enumset_derive/src/lib.rs:493-498", "enumset_derive/src/lib.rs:516", "enumset_derive/src/lib.rs:533-538", "enumset_derive/src/lib.rs:611-616"]}
{"id": "C78", "title": "The derive macro expands to the code or to one clear error", "statement": "The function the compiler calls for #[derive(EnumSetType)] always expands, unless the name by which the code is to refer to the crate enumset is no identifier, when it panics on every item without problems. If syn rejects the tokens it expands to syn's error; if darling rejects the attributes it expands to darling's errors; if the item has a problem it expands to one compile_error! with the message and place of the first problem; otherwise it expands to the generated code.", "quantifier": "every answer of syn, darling and proc_macro_crate, every item, every setting of the features, every compiling machine with at least 32-bit usize", "why_tests_cant": "It quantifies over all items and all errors of the parsers; the trybuild tests cover a handful of items.", "anchors": ["enumset_derive/src/lib.rs:152-155", "enumset_derive/src/lib.rs:323-345", "enumset_derive/src/lib.rs:973-982", "enumset_derive/src/lib.rs:983-1061"]}
