{
 "claims": [
  {
   "property": "C01",
   "status": "proved",
   "theorems": [
    "C01_history",
    "C01_panics"
   ],
   "note": "Histories are lists of commands over numbered set and iterator variables (SpecMachine.lean); C01_history equates the run of the model with the answers on mathematical sets. On targets with 16-bit usize this is for types with Fits T (every bit position representable in usize); automatic for 32- and 64-bit usize and for integer storage (C44_fits, C44_fits_int). "
  },
  {
   "property": "C02",
   "status": "proved",
   "theorems": [
    "C02_no_stray_bits",
    "C02_canonical"
   ],
   "note": "On targets with 16-bit usize this is for types with Fits T (every bit position representable in usize); automatic for 32- and 64-bit usize and for integer storage (C44_fits, C44_fits_int)."
  },
  {
   "property": "C03",
   "status": "proved",
   "theorems": [
    "C03_contains",
    "C03_insert",
    "C03_remove",
    "C03_undo"
   ],
   "note": "On targets with 16-bit usize this is for types with Fits T (every bit position representable in usize); automatic for 32- and 64-bit usize and for integer storage (C44_fits, C44_fits_int)."
  },
  {
   "property": "C04",
   "status": "proved",
   "theorems": [
    "C04_union",
    "C04_intersection",
    "C04_difference",
    "C04_symmetrical_difference",
    "C04_complement",
    "C04_operators",
    "C04_assigning"
   ],
   "note": "On targets with 16-bit usize this is for types with Fits T (every bit position representable in usize); automatic for 32- and 64-bit usize and for integer storage (C44_fits, C44_fits_int)."
  },
  {
   "property": "C05",
   "status": "proved",
   "theorems": [
    "C05_lattice",
    "C05_complement"
   ],
   "note": "On targets with 16-bit usize this is for types with Fits T (every bit position representable in usize); automatic for 32- and 64-bit usize and for integer storage (C44_fits, C44_fits_int)."
  },
  {
   "property": "C06",
   "status": "proved",
   "theorems": [
    "C06_relations"
   ],
   "note": "On targets with 16-bit usize this is for types with Fits T (every bit position representable in usize); automatic for 32- and 64-bit usize and for integer storage (C44_fits, C44_fits_int)."
  },
  {
   "property": "C07",
   "status": "proved",
   "theorems": [
    "C07_len",
    "C07_is_empty",
    "C07_bound",
    "C07_inclusion_exclusion"
   ],
   "note": "On targets with 16-bit usize this is for types with Fits T (every bit position representable in usize); automatic for 32- and 64-bit usize and for integer storage (C44_fits, C44_fits_int)."
  },
  {
   "property": "C08",
   "status": "proved",
   "theorems": [
    "C08_eq_iff",
    "C08_eq_variant"
   ],
   "note": "On targets with 16-bit usize this is for types with Fits T (every bit position representable in usize); automatic for 32- and 64-bit usize and for integer storage (C44_fits, C44_fits_int)."
  },
  {
   "property": "C09",
   "status": "proved",
   "theorems": [
    "C09_total_order",
    "C09_subset"
   ],
   "note": "On targets with 16-bit usize this is for types with Fits T (every bit position representable in usize); automatic for 32- and 64-bit usize and for integer storage (C44_fits, C44_fits_int)."
  },
  {
   "property": "C10",
   "status": "proved",
   "theorems": [
    "C10_integer_order",
    "C10_array_order",
    "C10_array_not_numeric"
   ],
   "note": "The order of array storage is characterised exactly; C10_array_not_numeric is the witness that it is not numeric."
  },
  {
   "property": "C11",
   "status": "proved",
   "theorems": [
    "C11_iter"
   ],
   "note": "On targets with 16-bit usize this is for types with Fits T (every bit position representable in usize); automatic for 32- and 64-bit usize and for integer storage (C44_fits, C44_fits_int)."
  },
  {
   "property": "C12",
   "status": "proved",
   "theorems": [
    "C12_deque",
    "C12_smallest_largest"
   ],
   "note": "On targets with 16-bit usize this is for types with Fits T (every bit position representable in usize); automatic for 32- and 64-bit usize and for integer storage (C44_fits, C44_fits_int)."
  },
  {
   "property": "C13",
   "status": "proved",
   "theorems": [
    "C13_size_hint",
    "C13_fused"
   ],
   "note": "On targets with 16-bit usize this is for types with Fits T (every bit position representable in usize); automatic for 32- and 64-bit usize and for integer storage (C44_fits, C44_fits_int)."
  },
  {
   "property": "C14",
   "status": "proved",
   "theorems": [
    "C14_reverse",
    "C14_provided"
   ],
   "note": "On targets with 16-bit usize this is for types with Fits T (every bit position representable in usize); automatic for 32- and 64-bit usize and for integer storage (C44_fits, C44_fits_int)."
  },
  {
   "property": "C15",
   "status": "proved",
   "theorems": [
    "C15_only_discriminants",
    "C15_no_ub",
    "C15_danger",
    "C15_exact"
   ],
   "note": "On targets with 16-bit usize this is for types with Fits T (every bit position representable in usize); automatic for 32- and 64-bit usize and for integer storage (C44_fits, C44_fits_int)."
  },
  {
   "property": "C16",
   "status": "proved",
   "theorems": [
    "C16_collect",
    "C16_order",
    "C16_own_iter"
   ],
   "note": "On targets with 16-bit usize this is for types with Fits T (every bit position representable in usize); automatic for 32- and 64-bit usize and for integer storage (C44_fits, C44_fits_int)."
  },
  {
   "property": "C17",
   "status": "proved",
   "theorems": [
    "C17_collect_sets",
    "C17_order"
   ],
   "note": "On targets with 16-bit usize this is for types with Fits T (every bit position representable in usize); automatic for 32- and 64-bit usize and for integer storage (C44_fits, C44_fits_int)."
  },
  {
   "property": "C18",
   "status": "proved",
   "theorems": [
    "C18_as_num"
   ],
   "note": "On targets with 16-bit usize this is for types with Fits T (every bit position representable in usize); automatic for 32- and 64-bit usize and for integer storage (C44_fits, C44_fits_int)."
  },
  {
   "property": "C19",
   "status": "proved",
   "theorems": [
    "C19_from_num"
   ],
   "note": "On targets with 16-bit usize this is for types with Fits T (every bit position representable in usize); automatic for 32- and 64-bit usize and for integer storage (C44_fits, C44_fits_int)."
  },
  {
   "property": "C20",
   "status": "proved",
   "theorems": [
    "C20_export_import",
    "C20_import_export",
    "C20_truncated"
   ],
   "note": "On targets with 16-bit usize this is for types with Fits T (every bit position representable in usize); automatic for 32- and 64-bit usize and for integer storage (C44_fits, C44_fits_int)."
  },
  {
   "property": "C21",
   "status": "proved",
   "theorems": [
    "C21_as_array",
    "C21_to_vec"
   ],
   "note": "On targets with 16-bit usize this is for types with Fits T (every bit position representable in usize); automatic for 32- and 64-bit usize and for integer storage (C44_fits, C44_fits_int)."
  },
  {
   "property": "C22",
   "status": "proved",
   "theorems": [
    "C22_from_array",
    "C22_from_slice"
   ],
   "note": "On targets with 16-bit usize this is for types with Fits T (every bit position representable in usize); automatic for 32- and 64-bit usize and for integer storage (C44_fits, C44_fits_int)."
  },
  {
   "property": "C23",
   "status": "proved",
   "theorems": [
    "C23_copy_into_slice"
   ],
   "note": "On targets with 16-bit usize this is for types with Fits T (every bit position representable in usize); automatic for 32- and 64-bit usize and for integer storage (C44_fits, C44_fits_int)."
  },
  {
   "property": "C24",
   "status": "proved",
   "theorems": [
    "C24_export_import",
    "C24_import_export"
   ],
   "note": "On targets with 16-bit usize this is for types with Fits T (every bit position representable in usize); automatic for 32- and 64-bit usize and for integer storage (C44_fits, C44_fits_int)."
  },
  {
   "property": "C25",
   "status": "proved",
   "theorems": [
    "C25_repr",
    "C25_exists"
   ],
   "note": "On targets with 16-bit usize this is for types with Fits T (every bit position representable in usize); automatic for 32- and 64-bit usize and for integer storage (C44_fits, C44_fits_int)."
  },
  {
   "property": "C26",
   "status": "proved",
   "theorems": [
    "C26_unchecked"
   ],
   "note": "On targets with 16-bit usize this is for types with Fits T (every bit position representable in usize); automatic for 32- and 64-bit usize and for integer storage (C44_fits, C44_fits_int)."
  },
  {
   "property": "C27",
   "status": "proved",
   "theorems": [
    "C27_layout"
   ],
   "note": "On targets with 16-bit usize this is for types with Fits T (every bit position representable in usize); automatic for 32- and 64-bit usize and for integer storage (C44_fits, C44_fits_int)."
  },
  {
   "property": "C28",
   "status": "partial",
   "theorems": [
    "C28_history_partial",
    "C28_portable",
    "C28_fails",
    "C28_words_fails"
   ],
   "note": "False as stated: to_vec exposes the number of words of the representation (C28_fails). C28_history_partial: all answers agree up to trailing zero words of to_vec and the direction of cmp on unequal sets; C28_portable: exact equality without these calls. Deserialization from words also depends on the storage (C28_words_fails)."
  },
  {
   "property": "C29",
   "status": "proved",
   "theorems": [
    "C29_recorded",
    "C29_tables"
   ],
   "note": ""
  },
  {
   "property": "C30",
   "status": "proved",
   "theorems": [
    "C30_accepts",
    "C30_rejects"
   ],
   "note": ""
  },
  {
   "property": "C31",
   "status": "proved",
   "theorems": [
    "C31_storage",
    "C31_room",
    "C31_smallest",
    "C31_all"
   ],
   "note": ""
  },
  {
   "property": "C32",
   "status": "proved",
   "theorems": [
    "C32_values",
    "C32_coincide",
    "C32_empty"
   ],
   "note": "On targets with 16-bit usize this is for types with Fits T (every bit position representable in usize); automatic for 32- and 64-bit usize and for integer storage (C44_fits, C44_fits_int)."
  },
  {
   "property": "C33",
   "status": "proved",
   "theorems": [
    "C33_identity"
   ],
   "note": "On targets with 16-bit usize this is for types with Fits T (every bit position representable in usize); automatic for 32- and 64-bit usize and for integer storage (C44_fits, C44_fits_int)."
  },
  {
   "property": "C34",
   "status": "proved",
   "theorems": [
    "C34_list_macros",
    "C34_enum_set",
    "C34_complement"
   ],
   "note": "On targets with 16-bit usize this is for types with Fits T (every bit position representable in usize); automatic for 32- and 64-bit usize and for integer storage (C44_fits, C44_fits_int)."
  },
  {
   "property": "C35",
   "status": "proved",
   "theorems": [
    "C35_operators",
    "C35_members",
    "C35_eq"
   ],
   "note": "On targets with 16-bit usize this is for types with Fits T (every bit position representable in usize); automatic for 32- and 64-bit usize and for integer storage (C44_fits, C44_fits_int)."
  },
  {
   "property": "C36",
   "status": "partial",
   "theorems": [
    "C36_serialize",
    "C36_default",
    "C36_deny_partial",
    "C36_round_trip_partial",
    "C36_fails"
   ],
   "note": "The clauses on serialization and on the default mode are proved in full; the deny clause and the round trip need that the generated code is well typed, which fails for array storage with serialize_deny_unknown (C36_fails; exact condition in C40_compiles)."
  },
  {
   "property": "C37",
   "status": "proved",
   "theorems": [
    "C37_serialize_list",
    "C37_serialize_map",
    "C37_deserialize_list",
    "C37_deserialize_map",
    "C37_order",
    "C37_round_trip"
   ],
   "note": "On targets with 16-bit usize this is for types with Fits T (every bit position representable in usize); automatic for 32- and 64-bit usize and for integer storage (C44_fits, C44_fits_int)."
  },
  {
   "property": "C38",
   "status": "proved",
   "theorems": [
    "C38_serialize",
    "C38_deserialize",
    "C38_round_trip",
    "C38_padding"
   ],
   "note": "On targets with 16-bit usize this is for types with Fits T (every bit position representable in usize); automatic for 32- and 64-bit usize and for integer storage (C44_fits, C44_fits_int)."
  },
  {
   "property": "C39",
   "status": "partial",
   "theorems": [
    "C39_partial",
    "C39_panics",
    "C39_error",
    "C39_fails"
   ],
   "note": "False of the code: the generated deserializer panics on unknown bits in the words it reads (C39_panics, C39_fails). C39_partial: without unknown bits there it gives the set; extra words are ignored."
  },
  {
   "property": "C40",
   "status": "partial",
   "theorems": [
    "C40_compiles",
    "C40_default",
    "C40_fails",
    "C40_enforced_partial"
   ],
   "note": "False of the code: C40_compiles says exactly which accepted enums have a well typed deserializer, C40_fails gives a witness; where it compiles it is enforced (C40_enforced_partial)."
  },
  {
   "property": "C41",
   "status": "proved",
   "theorems": [
    "C41_debug",
    "C41_display",
    "C41_failure",
    "C41_text"
   ],
   "note": "On targets with 16-bit usize this is for types with Fits T (every bit position representable in usize); automatic for 32- and 64-bit usize and for integer storage (C44_fits, C44_fits_int)."
  },
  {
   "property": "C42",
   "status": "partial",
   "theorems": [
    "C42_sets",
    "C42_collections",
    "C42_iterators",
    "C42_conversions",
    "C42_checked",
    "C42_fmt",
    "C42_macros",
    "C42_serialize",
    "C42_deserialize_partial",
    "C42_fails",
    "C42_build_modes_accept",
    "C42_build_modes"
   ],
   "note": "All operations return, and checked conversions panic only as documented, except that array deserialization panics on unknown bits (C42_deserialize_partial, C42_fails)."
  },
  {
   "property": "C43",
   "status": "proved",
   "theorems": [
    "C43_empty_all",
    "C43_bounds"
   ],
   "note": "On targets with 16-bit usize this is for types with Fits T (every bit position representable in usize); automatic for 32- and 64-bit usize and for integer storage (C44_fits, C44_fits_int)."
  },
  {
   "property": "C44",
   "status": "proved",
   "theorems": [
    "C44_fits",
    "C44_fits_int",
    "C44_own_bit",
    "C44_alias",
    "C44_alias_exists",
    "C44_fits_default"
   ],
   "note": "16-bit usize: C44_alias shows the aliasing in general, C44_alias_exists gives an accepted enum."
  },
  {
   "property": "C45",
   "status": "proved",
   "theorems": [
    "C45_snapshot",
    "C45_contents",
    "C45_clone"
   ],
   "note": "On targets with 16-bit usize this is for types with Fits T (every bit position representable in usize); automatic for 32- and 64-bit usize and for integer storage (C44_fits, C44_fits_int)."
  },
  {
   "property": "C46",
   "status": "proved",
   "theorems": [
    "C46_canonical"
   ],
   "note": "On targets with 16-bit usize this is for types with Fits T (every bit position representable in usize); automatic for 32- and 64-bit usize and for integer storage (C44_fits, C44_fits_int)."
  },
  {
   "property": "C47",
   "status": "proved",
   "theorems": [
    "C47_enum_set",
    "C47_list",
    "C47_complement"
   ],
   "note": ""
  },
  {
   "property": "C48",
   "status": "proved",
   "theorems": [
    "C48_serializer"
   ],
   "note": "On targets with 16-bit usize this is for types with Fits T (every bit position representable in usize); automatic for 32- and 64-bit usize and for integer storage (C44_fits, C44_fits_int)."
  },
  {
   "property": "C49",
   "status": "proved",
   "theorems": [
    "C49_list",
    "C49_map",
    "C49_array",
    "C49_array_error",
    "C49_endless"
   ],
   "note": "On targets with 16-bit usize this is for types with Fits T (every bit position representable in usize); automatic for 32- and 64-bit usize and for integer storage (C44_fits, C44_fits_int)."
  },
  {
   "property": "C50",
   "status": "proved",
   "theorems": [
    "C50_length",
    "C50_reads"
   ],
   "note": "On targets with 16-bit usize this is for types with Fits T (every bit position representable in usize); automatic for 32- and 64-bit usize and for integer storage (C44_fits, C44_fits_int)."
  },
  {
   "property": "C51",
   "status": "proved",
   "theorems": [
    "C51_int",
    "C51_array",
    "C51_list_map"
   ],
   "note": "With serialize_deny_unknown the reader's generated code must be well typed (hypothesis hc; exact condition in C40_compiles). On targets with 16-bit usize this is for types with Fits T (every bit position representable in usize); automatic for 32- and 64-bit usize and for integer storage (C44_fits, C44_fits_int). "
  },
  {
   "property": "C52",
   "status": "proved",
   "theorems": [
    "C52_int",
    "C52_array",
    "C52_list_map"
   ],
   "note": "With serialize_deny_unknown the reader's generated code must be well typed (hypothesis hc; exact condition in C40_compiles). On targets with 16-bit usize this is for types with Fits T (every bit position representable in usize); automatic for 32- and 64-bit usize and for integer storage (C44_fits, C44_fits_int). "
  },
  {
   "property": "C53",
   "status": "proved",
   "theorems": [
    "C53_same_data"
   ],
   "note": "On targets with 16-bit usize this is for types with Fits T (every bit position representable in usize); automatic for 32- and 64-bit usize and for integer storage (C44_fits, C44_fits_int)."
  },
  {
   "property": "C54",
   "status": "proved",
   "theorems": [
    "C54_none",
    "C54_first",
    "C54_unique",
    "C54_error",
    "C54_warnings"
   ],
   "note": ""
  },
  {
   "property": "C55",
   "status": "proved",
   "theorems": [
    "C55_complete",
    "C55_sound",
    "C55_wider"
   ],
   "note": "rustc is modelled by its own checks on enum declarations (SpecRustc.lean)."
  },
  {
   "property": "C56",
   "status": "proved",
   "theorems": [
    "C56_extend",
    "C56_collect",
    "C56_sets",
    "C56_endless"
   ],
   "note": "On targets with 16-bit usize this is for types with Fits T (every bit position representable in usize); automatic for 32- and 64-bit usize and for integer storage (C44_fits, C44_fits_int)."
  },
  {
   "property": "C57",
   "status": "proved",
   "theorems": [
    "C57_operations",
    "C57_elements",
    "C57_tests",
    "C57_import",
    "C57_words"
   ],
   "note": "On targets with 16-bit usize this is for types with Fits T (every bit position representable in usize); automatic for 32- and 64-bit usize and for integer storage (C44_fits, C44_fits_int)."
  },
  {
   "property": "C58",
   "status": "proved",
   "theorems": [
    "C58_switches",
    "C58_rest",
    "C58_same",
    "C58_errors",
    "C58_serialize_checked"
   ],
   "note": ""
  },
  {
   "property": "C59",
   "status": "proved",
   "theorems": [
    "C59_zeros"
   ],
   "note": "On targets with 16-bit usize this is for types with Fits T (every bit position representable in usize); automatic for 32- and 64-bit usize and for integer storage (C44_fits, C44_fits_int)."
  },
  {
   "property": "C60",
   "status": "proved",
   "theorems": [
    "C60_num",
    "C60_words",
    "C60_import",
    "C60_order",
    "C60_operations",
    "C60_serialize"
   ],
   "note": "On targets with 16-bit usize this is for types with Fits T (every bit position representable in usize); automatic for 32- and 64-bit usize and for integer storage (C44_fits, C44_fits_int)."
  },
  {
   "property": "C61",
   "status": "proved",
   "theorems": [
    "C61_int",
    "C61_array"
   ],
   "note": ""
  },
  {
   "property": "C62",
   "status": "proved",
   "theorems": [
    "C62_bits",
    "C62_unchecked",
    "C62_operations",
    "C62_tests",
    "C62_exports",
    "C62_iter",
    "C62_iter_stray",
    "C62_iter_single",
    "C62_macros",
    "C62_serialize"
   ],
   "note": "In the model the arms of enum_from_u32 that reinterpret a number as the enum are undefined behaviour, too. On targets with 16-bit usize this is for types with Fits T (every bit position representable in usize); automatic for 32- and 64-bit usize and for integer storage (C44_fits, C44_fits_int)."
  },
  {
   "property": "C63",
   "status": "proved",
   "theorems": [
    "C63_accepts",
    "C63_expansion",
    "C63_errors",
    "C63_panics",
    "C63_outcomes",
    "C63_only_path"
   ],
   "note": "On targets with 16-bit usize this is for types with Fits T (every bit position representable in usize); automatic for 32- and 64-bit usize and for integer storage (C44_fits, C44_fits_int)."
  },
  {
   "property": "C64",
   "status": "proved",
   "theorems": [
    "C64_converted",
    "C64_panic",
    "C64_operand"
   ],
   "note": "On targets with 16-bit usize this is for types with Fits T (every bit position representable in usize); automatic for 32- and 64-bit usize and for integer storage (C44_fits, C44_fits_int)."
  },
  {
   "property": "C65",
   "status": "proved",
   "theorems": [
    "C65_program",
    "C65_portable",
    "C65_build_modes"
   ],
   "note": "On targets with 16-bit usize this is for types with Fits T (every bit position representable in usize); automatic for 32- and 64-bit usize and for integer storage (C44_fits, C44_fits_int)."
  },
  {
   "property": "C66",
   "status": "proved",
   "theorems": [
    "C66_lo",
    "C66_hi",
    "C66_PREFERRED_ARRAY_LEN",
    "C66_WIDTH",
    "C66_EMPTY",
    "C66_is_empty",
    "C66_add_bit",
    "C66_remove_bit",
    "C66_has_bit",
    "C66_count_ones",
    "C66_leading_zeros",
    "C66_trailing_zeros",
    "C66_and_not",
    "C66_iter",
    "C66_from_num",
    "C66_to_num",
    "C66_from_num_opt",
    "C66_to_num_opt",
    "C66_to_u64_array",
    "C66_to_u64_array_inferred",
    "C66_to_u64_array_opt",
    "C66_from_u64_array",
    "C66_from_u64_array_opt",
    "C66_to_u64_slice",
    "C66_to_u64_slice_opt",
    "C66_from_u64_slice",
    "C66_from_u64_slice_opt",
    "C66_next",
    "C66_next_back",
    "C66_size_hint"
   ],
   "note": "P.call k ty f caller consts args runs the text of the function f of type ty (Src/Link.lean) with calls nested at most k deep; the theorems hold for every sufficient k. from_num etc. stand for one function per integer type."
  },
  {
   "property": "C67",
   "status": "proved",
   "theorems": [
    "C67_bitand",
    "C67_bitor",
    "C67_bitxor",
    "C67_not",
    "C67_PREFERRED_ARRAY_LEN",
    "C67_WIDTH",
    "C67_EMPTY",
    "C67_split_bit",
    "C67_is_empty",
    "C67_add_bit",
    "C67_remove_bit",
    "C67_has_bit",
    "C67_count_ones",
    "C67_leading_zeros",
    "C67_trailing_zeros",
    "C67_and_not",
    "C67_from_num",
    "C67_from_num_opt",
    "C67_to_num",
    "C67_to_num_opt",
    "C67_to_u64_array",
    "C67_to_u64_array_inferred",
    "C67_to_u64_array_opt",
    "C67_from_u64_array",
    "C67_from_u64_array_opt",
    "C67_from_u64_slice",
    "C67_from_u64_slice_opt",
    "C67_to_u64_slice",
    "C67_to_u64_slice_opt",
    "C67_new",
    "C67_iter",
    "C67_size_hint",
    "C67_next",
    "C67_next_back"
   ],
   "note": "P.call k ty f caller consts args runs the text of the function f of type ty (Src/Link.lean) with calls nested at most k deep; the theorems hold for every sufficient k. from_num etc. stand for one function per integer type. C67_next and C67_next_back need loop fuel for the words left, C67_WIDTH that the width fits u32."
  },
  {
   "property": "C68",
   "status": "proved",
   "theorems": [
    "C68_EMPTY_REPR",
    "C68_new",
    "C68_empty",
    "C68_EMPTY",
    "C68_default",
    "C68_len",
    "C68_is_empty",
    "C68_clear",
    "C68_union",
    "C68_intersection",
    "C68_difference",
    "C68_symmetrical_difference",
    "C68_insert_all",
    "C68_remove_all",
    "C68_const_only",
    "C68_as_repr",
    "C68_from_repr_unchecked",
    "C68_cmp",
    "C68_partial_cmp",
    "C68_ALL_REPR",
    "C68_all",
    "C68_ALL",
    "C68_bit_width",
    "C68_variant_count",
    "C68_complement",
    "C68_not",
    "C68_contains",
    "C68_insert",
    "C68_remove",
    "C68_only",
    "C68_from",
    "C68_eq_variant",
    "C68_try_from_repr",
    "C68_from_repr",
    "C68_from_repr_truncated",
    "C68_try_as_num",
    "C68_as_num_truncated",
    "C68_as_num",
    "C68_from_num_unchecked",
    "C68_try_from_num",
    "C68_from_num",
    "C68_from_num_truncated",
    "C68_extend_variants",
    "C68_extend_variants_list",
    "C68_from_iter_variants",
    "C68_from_iter_variants_list",
    "C68_extend_sets",
    "C68_extend_sets_list",
    "C68_from_iter_sets",
    "C68_from_iter_sets_list",
    "C68_sum_sets",
    "C68_sum_set_refs",
    "C68_sum_sets_list",
    "C68_sum_set_refs_list",
    "C68_sum_variants",
    "C68_sum_variant_refs",
    "C68_sum_variants_list",
    "C68_sum_variant_refs_list",
    "C68_extend_iter",
    "C68_collect",
    "C68_extend_set",
    "C68_fmt_debug",
    "C68_fmt_display",
    "C68_hash",
    "C68_serialize",
    "C68_deserialize",
    "C68_const_helper",
    "C68_eq",
    "C68_into_set",
    "C68_sub",
    "C68_bitand",
    "C68_bitor",
    "C68_bitxor",
    "C68_sub_assign",
    "C68_bitand_assign",
    "C68_bitor_assign",
    "C68_bitxor_assign",
    "C68_is_disjoint",
    "C68_is_superset",
    "C68_is_subset",
    "C68_into_variant",
    "C68_sub_operand",
    "C68_bitand_operand",
    "C68_bitor_operand",
    "C68_bitxor_operand",
    "C68_sub_assign_operand",
    "C68_bitand_assign_operand",
    "C68_bitor_assign_operand",
    "C68_bitxor_assign_operand",
    "C68_try_as_array",
    "C68_as_array",
    "C68_as_array_truncated",
    "C68_from_array_unchecked",
    "C68_to_vec",
    "C68_try_copy_into_slice",
    "C68_copy_into_slice",
    "C68_copy_into_slice_truncated",
    "C68_from_slice_unchecked",
    "C68_try_from_array",
    "C68_from_array",
    "C68_from_array_truncated",
    "C68_try_from_slice",
    "C68_from_slice",
    "C68_from_slice_truncated",
    "C68_iter_new",
    "C68_iter",
    "C68_into_iter",
    "C68_into_iter_iter",
    "C68_size_hint",
    "C68_next",
    "C68_next_back",
    "C68_storage_prim",
    "C68_storage_array",
    "C68_enum_items",
    "C68_derived"
   ],
   "note": "P.call k ty f caller consts args runs the text of the function f of type ty (Src/Link.lean) with calls nested at most k deep; the theorems hold for every sufficient k. from_num etc. stand for one function per integer type. Storage and EnumItems are what the functions of T::Repr and the items of the derive macro do; proved for every storage (C68_storage_prim, C68_storage_array) and enum (C68_enum_items, C68_derived). Names ending in _variants, _sets etc. tell apart the impls of Extend, FromIterator and Sum."
  },
  {
   "property": "C69",
   "status": "proved",
   "theorems": [
    "C69_history"
   ],
   "note": "Trusted: the parser tools/rs2lean.py and the interpreter of C66. The statement mentions no function of the model; Storage and EnumItems are proved for every derived enum (C68_derived)."
  },
  {
   "property": "C70",
   "status": "proved",
   "theorems": [
    "C70_crate_error",
    "C70_serde_supported_variants",
    "C70_supported_variants",
    "C70_push_repr",
    "C70_push_serialize_repr",
    "C70_serde_repr",
    "C70_internal_repr",
    "C70_validate",
    "C70_new",
    "C70_new_panic",
    "C70_push_variant",
    "C70_variant_map"
   ],
   "note": "macroCall fuel k ty f caller consts args runs the text of a function of the macro (Src/Macro.lean). Trusted: the parser, the interpreter and the functions of syn, quote and std in Src/Macro.lean. C70_validate, C70_internal_repr and C70_variant_map need discriminants below 0xFFFFFFC0, which the macro enforces (deriveInfo_bounds)."
  },
  {
   "property": "C71",
   "status": "proved",
   "theorems": [
    "C71_impl",
    "C71_total",
    "C71_derive",
    "C71_panics",
    "C71_generics",
    "C71_not_enum",
    "C71_run",
    "C71_attr_panics"
   ],
   "note": "SynInput (Src/Syn.lean) says which values stand for an item. Host holds the features and what proc_macro_crate finds; Header holds the name of the enum and its visibility, both arbitrary. What the code in genTok does is not part of C71."
  },
  {
   "property": "C72",
   "status": "proved",
   "theorems": [
    "C72_items",
    "C72_program",
    "C72_expands",
    "C72_history",
    "C72_from",
    "C72_traits",
    "C72_repr"
   ],
   "note": "Expands inp tok: running the text of the macro on the item returns tok. (Gen.mk (toItems tok) E fuel).toProg k links the returned items with the three source files (Src/GenProg.lean). C72_history mentions no function of the model. Trusted as for C71, and EnumDef."
  },
  {
   "property": "C73",
   "status": "proved",
   "theorems": [
    "C73_list",
    "C73_complement",
    "C73_enum_set",
    "C73_accepts",
    "C73_value",
    "C73_program",
    "C73_history",
    "C73_rejects"
   ],
   "note": "expandMacro (Src/MacroRules.lean) is the meaning of macro_rules!; runMac expands the text of macros.rs and runs it in the program of C72. C73_history mentions no function of the model. A path fragment is one token; variables bound by a macro are renamed (hygiene); EnumSet::empty is the one of the crate."
  },
  {
   "property": "C74",
   "status": "proved",
   "theorems": [
    "C74_history",
    "C74_round_trip"
   ],
   "note": "The program of C72 with the serde templates of the macro (Platform.serde), run against an arbitrary SerdeLib (Src/SerdeLib.lean). C74_history mentions no function of the model. deserialize_seq/_map fail or call the visitor once and return what it returns, with other errors or an error in the end if they like; panics of serializers are not covered."
  },
  {
   "property": "C75",
   "status": "proved",
   "theorems": [
    "C75_history"
   ],
   "note": "The histories of C01 (SpecMachine.lean), all commands, run on the parsed text instead of the model; C75_history mentions no function of the model. Serialization is run for items whose serde code compiles, with the feature on. If an iterator of the caller panics in extend, the set keeps the items so far, as the iterator sees in the variable self. What a slice holds after copy_into_slice panicked is not compared."
  },
  {
   "property": "C76",
   "status": "proved",
   "theorems": [
    "C76_primitive",
    "C76_array",
    "C76_set",
    "C76_macros",
    "C76_derive"
   ],
   "note": "The text is in Src/Text/*.lean, line by line (tools/text2lean.py copies it); the lexer and the parser are Src/Lex.lean and Src/Parse.lean. Three tables in Src/Parse.lean add what is not in the text: types rustc infers for some lets, names for functions of the same name, and which of these two calls refer to."
  },
  {
   "property": "C77",
   "status": "proved",
   "theorems": [
    "C77_expecting"
   ],
   "note": "The enum is called T. Src/SerdeLib.lean: deserialize_seq and deserialize_map call expecting of the visitor with a formatter that keeps what is written, and build their error from it (an arbitrary function)."
  },
  {
   "property": "C78",
   "status": "proved",
   "theorems": [
    "C78_syntax",
    "C78_attributes",
    "C78_total",
    "C78_derive",
    "C78_panics",
    "C78_diagnostic",
    "C78_expands"
   ],
   "note": "The enum has any name and visibility (in C78_expands, which leads to the run of the code, it is called T). syn::parse and EnumsetAttrs::from_derive_input answer what the input says (fields of the token stream and of the item); to_compile_error and write_errors are tokens that hold the error. Host holds the features and what proc_macro_crate finds; which strings are identifiers is a parameter."
  }
 ]
}