{
 "claims": [
  {
   "property": "C01",
   "status": "proved",
   "theorems": [
    "Asn1.C01_header_roundtrip"
   ],
   "note": ""
  },
  {
   "property": "C02",
   "status": "proved",
   "theorems": [
    "Asn1.C02_header_minimal"
   ],
   "note": ""
  },
  {
   "property": "C03",
   "status": "partial",
   "theorems": [
    "Asn1.C03_header_grammar_partial",
    "Asn1.C03_x690_headers_accepted",
    "Asn1.C03_deviations"
   ],
   "note": "Exact grammar of accepted headers; every X.690 header within limits is accepted; the converse fails in the code (non-minimal tags, tags kept modulo 2^32), witnessed by C03_deviations."
  },
  {
   "property": "C04",
   "status": "partial",
   "theorems": [
    "Asn1.C04_exact_split_ber_partial",
    "Asn1.C04_exact_split_der",
    "Asn1.C04_marker_partial",
    "Asn1.C04_marker_deviation"
   ],
   "note": "Splitting and spans hold for every input. The two bytes closing an indefinite object are 00 00 for X.690 encodings; the code accepts other end-of-contents forms (C04_marker_deviation)."
  },
  {
   "property": "C05",
   "status": "proved",
   "theorems": [
    "Asn1.C05_extension_stable",
    "Asn1.C05_typed_extension_stable"
   ],
   "note": ""
  },
  {
   "property": "C06",
   "status": "proved",
   "theorems": [
    "Asn1.C06_incomplete_truthful"
   ],
   "note": ""
  },
  {
   "property": "C07",
   "status": "proved",
   "theorems": [
    "Asn1.C07_no_truncation",
    "Asn1.C07_typed_no_truncation"
   ],
   "note": ""
  },
  {
   "property": "C08",
   "status": "proved",
   "theorems": [
    "Asn1.C08_no_panic"
   ],
   "note": ""
  },
  {
   "property": "C09",
   "status": "proved",
   "theorems": [
    "Asn1.C09_nesting_limit"
   ],
   "note": ""
  },
  {
   "property": "C10",
   "status": "proved",
   "theorems": [
    "Asn1.C10_der_definite"
   ],
   "note": ""
  },
  {
   "property": "C11",
   "status": "proved",
   "theorems": [
    "Asn1.C11_der_subset_ber_any",
    "Asn1.C11_der_subset_ber_integer",
    "Asn1.C11_der_subset_ber_simple",
    "Asn1.C11_der_subset_ber_octet",
    "Asn1.C11_der_subset_ber_bit",
    "Asn1.C11_der_subset_ber_oid",
    "Asn1.C11_der_subset_ber_tagged",
    "Asn1.C11_containers",
    "Asn1.C11_der_subset_ber_time",
    "Asn1.C11_der_subset_ber_strings",
    "Asn1.C11_der_subset_ber_real",
    "Asn1.C82_der_subset_ber"
   ],
   "note": "Generic objects, INTEGER, BOOLEAN, NULL, ENUMERATED, OCTET STRING, BIT STRING, OBJECT IDENTIFIER, UTCTime, GeneralizedTime, tagged values of them, character strings, containers of them, REAL; every nesting of them in C82_der_subset_ber."
  },
  {
   "property": "C12",
   "status": "proved",
   "theorems": [
    "Asn1.C12_uint_roundtrip"
   ],
   "note": ""
  },
  {
   "property": "C13",
   "status": "proved",
   "theorems": [
    "Asn1.C13_int_roundtrip"
   ],
   "note": ""
  },
  {
   "property": "C14",
   "status": "proved",
   "theorems": [
    "Asn1.C14_int_encoding_minimal"
   ],
   "note": ""
  },
  {
   "property": "C15",
   "status": "proved",
   "theorems": [
    "Asn1.C15_int_decoding",
    "Asn1.C15_int_decoding_examples"
   ],
   "note": ""
  },
  {
   "property": "C16",
   "status": "proved",
   "theorems": [
    "Asn1.C16_der_canonical"
   ],
   "note": ""
  },
  {
   "property": "C17",
   "status": "proved",
   "theorems": [
    "Asn1.C17_integer_bytes"
   ],
   "note": "The conversions of the bytes to and from BigInt and BigUint are C95."
  },
  {
   "property": "C19",
   "status": "partial",
   "theorems": [
    "Asn1.C19_boolean_partial",
    "Asn1.C19_boolean_roundtrip",
    "Asn1.C19_from_der_panics"
   ],
   "note": "Everything except panic freedom of from_der, which is false: it panics exactly on objects without content (C19_from_der_panics)."
  },
  {
   "property": "C20",
   "status": "proved",
   "theorems": [
    "Asn1.C20_null"
   ],
   "note": ""
  },
  {
   "property": "C21",
   "status": "proved",
   "theorems": [
    "Asn1.C21_enumerated"
   ],
   "note": "from_der does not check minimality: C38_enumerated_deviation."
  },
  {
   "property": "C38",
   "status": "partial",
   "theorems": [
    "Asn1.C38_ber_apis_agree",
    "Asn1.C38_from_der_subset_partial",
    "Asn1.C38_integer_apis_agree",
    "Asn1.C38_bool_apis_agree",
    "Asn1.C38_null_apis_agree",
    "Asn1.C38_octet_apis_agree",
    "Asn1.C38_oid_apis_agree",
    "Asn1.C38_enumerated_deviation",
    "Asn1.C38_bitstring_deviation",
    "Asn1.C38_explicit_apis_agree",
    "Asn1.C38_implicit_apis_partial",
    "Asn1.C38_implicit_deviation",
    "Asn1.C38_containers_ber",
    "Asn1.C38_containers_der",
    "Asn1.C38_universal_same",
    "Asn1.C38_time_apis_agree",
    "Asn1.C38_time_same",
    "Asn1.C38_string_apis_agree",
    "Asn1.C38_string_same",
    "Asn1.C38_real_same"
   ],
   "note": "BER for every type; DER for INTEGER, BOOLEAN, NULL, OCTET STRING, OBJECT IDENTIFIER, times, strings, EXPLICIT tags; false for ENUMERATED, BIT STRING and IMPLICIT tags (deviations)."
  },
  {
   "property": "C22",
   "status": "proved",
   "theorems": [
    "Asn1.C22_octetstring_roundtrip",
    "Asn1.C22_slices"
   ],
   "note": ""
  },
  {
   "property": "C23",
   "status": "proved",
   "theorems": [
    "Asn1.C23_segmented_strings",
    "Asn1.C23_segment_trees",
    "Asn1.C23_deviations"
   ],
   "note": "Exact acceptance and value; every X.690 tree of at most four levels of segments. The empty constructed string 24 00 is refused by the code (C23_deviations)."
  },
  {
   "property": "C24",
   "status": "proved",
   "theorems": [
    "Asn1.C24_bitstring_roundtrip",
    "Asn1.C24_bits_roundtrip",
    "Asn1.C24_bitstring_decoding",
    "Asn1.C24_bitstring_errors"
   ],
   "note": "Slices of the bitvec crate that do not start at a byte boundary are not modelled."
  },
  {
   "property": "C37",
   "status": "proved",
   "theorems": [
    "Asn1.C37_iterators",
    "Asn1.C37_try_collect",
    "Asn1.C37_try_parse_collect",
    "Asn1.C37_typed_iterator",
    "Asn1.C37_typed_collect",
    "Asn1.C37_input_iterator",
    "Asn1.C37_input_iterator_deviation"
   ],
   "note": "Generic iterators and SequenceIterator on bytes; the typed iterator on Input does not look at tags and goes on after an error (C37_input_iterator_deviation)."
  },
  {
   "property": "C39",
   "status": "proved",
   "theorems": [
    "Asn1.C39_any_reencoding"
   ],
   "note": ""
  },
  {
   "property": "C47",
   "status": "proved",
   "theorems": [
    "Asn1.C47_error_conversions",
    "Asn1.C47_conversions_injective",
    "Asn1.C47_nom_kinds",
    "Asn1.C47_assertions"
   ],
   "note": ""
  },
  {
   "property": "C48",
   "status": "partial",
   "theorems": [
    "Asn1.C48_header_equality_partial",
    "Asn1.C48_header_hash",
    "Asn1.C48_deviations"
   ],
   "note": "Reflexive, symmetric, transitive through headers with a raw tag (all parsed headers). Transitivity in general, comparison of lengths and compatibility with Hash are false in the code: C48_deviations."
  },
  {
   "property": "C49",
   "status": "proved",
   "theorems": [
    "Asn1.C49_length_arithmetic"
   ],
   "note": "The sums are those of unbounded numbers; for sums that do not fit usize see C138."
  },
  {
   "property": "C56",
   "status": "proved",
   "theorems": [
    "Asn1.C56_ber_grammar"
   ],
   "note": ""
  },
  {
   "property": "C18",
   "status": "partial",
   "theorems": [
    "Asn1.C18_lengths_partial",
    "Asn1.C18_oid_lengths_partial",
    "Asn1.C18_total_length_deviation",
    "Asn1.C18_utctime_lengths",
    "Asn1.C18_generalizedtime_lengths",
    "Asn1.C18_string_lengths",
    "Asn1.C18_real_lengths",
    "Asn1.C18_total_length_huge"
   ],
   "note": "Content length and returned counts are exact; the total length is exact below 2^24 content bytes and wrong (one too small) from 2^24 to 2^32: C18_total_length_deviation; the content length of UniversalString is exact for ASCII texts only."
  },
  {
   "property": "C50",
   "status": "proved",
   "theorems": [
    "Asn1.C50_failing_writer",
    "Asn1.C50_oid_failing_writer",
    "Asn1.C50_tagged_failing_writer",
    "Asn1.C50_containers_failing_writer",
    "Asn1.C50_time_failing_writer",
    "Asn1.C50_string_failing_writer",
    "Asn1.C50_real_failing_writer",
    "Asn1.C50_built_failing_writer"
   ],
   "note": "Every type of the crate, and every nesting of them (C50_built_failing_writer), for all values."
  },
  {
   "property": "C51",
   "status": "partial",
   "theorems": [
    "Asn1.C51_tag_check_partial",
    "Asn1.C51_class_ignored"
   ],
   "note": "Only the tag number is checked; the claim about the class is false of the code (C51_class_ignored)."
  },
  {
   "property": "C52",
   "status": "partial",
   "theorems": [
    "Asn1.C52_prefix_free_partial",
    "Asn1.C52_oid_prefix_free",
    "Asn1.C52_time_prefix_free",
    "Asn1.C52_string_prefix_free",
    "Asn1.C52_real_prefix_free",
    "Asn1.C52_integer_prefix_free",
    "Asn1.C52_boolean_deviation"
   ],
   "note": "All universal types; values of composed types are C83_prefix_free_partial. False for Boolean, whose values other than 0 are encoded alike in DER (C52_boolean_deviation)."
  },
  {
   "property": "C25",
   "status": "partial",
   "theorems": [
    "Asn1.C25_oid_arcs_partial",
    "Asn1.C25_oid_roundtrip",
    "Asn1.C25_decoding",
    "Asn1.C25_deviations"
   ],
   "note": "Proved for all accepted lists except 0.0 (iterates as 0), 6.16 and above (the first octet wraps) and, for iter(), arcs from 2^63: C25_deviations. C25_decoding: exactly the contents read as X.690 does."
  },
  {
   "property": "C26",
   "status": "proved",
   "theorems": [
    "Asn1.C26_relative_oid",
    "Asn1.C26_relative_roundtrip"
   ],
   "note": "iter_bigint for all arcs; iter() exactly below 2^63. The generic typed decoders lose the relative flag (last clauses of C26_relative_roundtrip)."
  },
  {
   "property": "C27",
   "status": "partial",
   "theorems": [
    "Asn1.C27_starts_with_partial",
    "Asn1.C27_deviations"
   ],
   "note": "All OIDs from at least two arcs that fit the first octet, and relative OIDs; false for the single arc 0 and for wrapped first octets (C27_deviations)."
  },
  {
   "property": "C57",
   "status": "partial",
   "theorems": [
    "Asn1.C57_oid_text_partial",
    "Asn1.C57_hex_text",
    "Asn1.C57_display",
    "Asn1.C57_display_reads_partial",
    "Asn1.C57_from_str",
    "Asn1.C57_reads_back",
    "Asn1.C57_deviations"
   ],
   "note": "Reading back is full (C57_reads_back). The text is that of the arcs except for 0.0 and first arcs that do not fit one octet (C57_deviations)."
  },
  {
   "property": "C58",
   "status": "proved",
   "theorems": [
    "Asn1.C58_oid_macro",
    "Asn1.C58_macro_text"
   ],
   "note": "From the text of the tokens (as TokenStream::to_string prints them) to the text of the array expression; white space is that of ASCII."
  },
  {
   "property": "C59",
   "status": "partial",
   "theorems": [
    "Asn1.C59_int_macro_partial",
    "Asn1.C59_code"
   ],
   "note": "Exact set of values for which it holds; false for 0 and for values whose leading octet is 128 or more."
  },
  {
   "property": "C60",
   "status": "partial",
   "theorems": [
    "Asn1.C60_iterator_len_partial",
    "Asn1.C60_relative_any"
   ],
   "note": "Exact announced length; one too small for absolute OIDs whose third arc is below 128."
  },
  {
   "property": "C61",
   "status": "partial",
   "theorems": [
    "Asn1.C61_typed_no_panic_partial",
    "Asn1.C61_time_no_panic",
    "Asn1.C61_string_no_panic",
    "Asn1.C61_real_panics_partial",
    "Asn1.C61_f64_panics_partial",
    "Asn1.C61_real_encode_panics",
    "Asn1.C61_tagged_no_panic",
    "Asn1.C61_containers_no_panic",
    "Asn1.C61_option_items_loop",
    "Asn1.C19_from_der_panics"
   ],
   "note": "All modelled types; false for REAL, which panics on overflow exactly on the contents of PanicContent (C61_real_panics_partial), for from_der of BOOLEAN (C19_from_der_panics), and Vec<Option<T>> loops for ever (C61_option_items_loop)."
  },
  {
   "property": "C28",
   "status": "partial",
   "theorems": [
    "Asn1.C28_explicit_roundtrip_partial",
    "Asn1.C28_explicit_universal_partial",
    "Asn1.C28_explicit_accepts",
    "Asn1.C28_explicit_other_tag",
    "Asn1.C28_large_deviation",
    "Asn1.C28_indefinite_deviation"
   ],
   "note": "Any class and tag, every value whose encoder announces the right length; C28_large_deviation: the announced length is wrong, and the round trip fails, for contents of 2^24 bytes and more."
  },
  {
   "property": "C29",
   "status": "partial",
   "theorems": [
    "Asn1.C29_implicit_roundtrip_partial",
    "Asn1.C29_implicit_universal_partial",
    "Asn1.C29_implicit_accepts",
    "Asn1.C29_implicit_other_tag",
    "Asn1.C29_nested_deviation",
    "Asn1.C29_nested_same_class",
    "Asn1.C105_lost"
   ],
   "note": "Any class and tag over the universal types; false for an IMPLICIT tag over another tagged type of a different class (C29_nested_deviation)."
  },
  {
   "property": "C35",
   "status": "partial",
   "theorems": [
    "Asn1.C35_parse_optional",
    "Asn1.C35_option_from",
    "Asn1.C35_option_parse_partial",
    "Asn1.C35_indefinite_deviation",
    "Asn1.C35_option_roundtrip",
    "Asn1.C35_option_tag_diverges",
    "Asn1.C35_option_content"
   ],
   "note": "Full for parse_ber_optional, parse_der_optional, from_ber, from_der and Option::parse_der; Option::parse_ber fails on every object of indefinite length (C35_indefinite_deviation)."
  },
  {
   "property": "C36",
   "status": "proved",
   "theorems": [
    "Asn1.C36_opt_tagged_parser",
    "Asn1.C36_constructors",
    "Asn1.C36_opt_tagged_roundtrip"
   ],
   "note": ""
  },
  {
   "property": "C62",
   "status": "proved",
   "theorems": [
    "Asn1.C62_explicit_trailing"
   ],
   "note": ""
  },
  {
   "property": "C63",
   "status": "partial",
   "theorems": [
    "Asn1.C63_tagged_parsers",
    "Asn1.C63_helpers_partial",
    "Asn1.C63_deviations",
    "Asn1.C63_tagged_parser_roundtrip",
    "Asn1.C63_constructed_ignored"
   ],
   "note": "Exact acceptance of each run-time parser; the helpers check the tag number only and the explicit parser accepts a primitive wrapper (C63_deviations)."
  },
  {
   "property": "C64",
   "status": "partial",
   "theorems": [
    "Asn1.C64_incomplete_is_outer_partial",
    "Asn1.C64_checks_settled_partial",
    "Asn1.C64_containers_incomplete",
    "Asn1.C64_time_checks_settled",
    "Asn1.C64_string_checks_settled",
    "Asn1.C64_real_checks_settled",
    "Asn1.C64_explicit_der_deviation",
    "Asn1.C64_struct_ber",
    "Asn1.C64_struct_der_deviation"
   ],
   "note": "from_ber of every type, from_der of every type but EXPLICIT tags and derived structs, which pass on the Incomplete of the inner object (C64_explicit_der_deviation, C64_struct_der_deviation)."
  },
  {
   "property": "C30",
   "status": "partial",
   "theorems": [
    "Asn1.C30_sequence_of_roundtrip_partial",
    "Asn1.C30_sequence_of_universal_partial",
    "Asn1.C30_nested",
    "Asn1.C30_sequence_of_accepts",
    "Asn1.C30_ends_in",
    "Asn1.C30_primitive_deviation",
    "Asn1.C30_class_deviation",
    "Asn1.C30_large_deviation",
    "Asn1.C30_check_constraints",
    "Asn1.C30_push",
    "Asn1.C30_silent_loss_deviation"
   ],
   "note": "Vec and SequenceOf, any element type, items whose content is below 2^24 bytes; above, the round trip fails (C30_large_deviation), and items can be lost without an error (C30_silent_loss_deviation)."
  },
  {
   "property": "C31",
   "status": "partial",
   "theorems": [
    "Asn1.C31_set_of_roundtrip_partial",
    "Asn1.C31_set_roundtrip_partial",
    "Asn1.C31_btreeset_u32",
    "Asn1.C31_set_of_accepts",
    "Asn1.C31_set_accepts",
    "Asn1.C31_der_order_deviation",
    "Asn1.C31_btree_order_deviation"
   ],
   "note": "SetOf, and BTreeSet/HashSet over any implementation of finite sets; items whose content is below 2^24 bytes. The DER order of the elements is neither produced nor checked (deviations)."
  },
  {
   "property": "C32",
   "status": "partial",
   "theorems": [
    "Asn1.C32_indefinite_roundtrip_partial",
    "Asn1.C32_indefinite_universal_partial",
    "Asn1.C32_universal_items",
    "Asn1.C32_nested",
    "Asn1.C32_vec_of_indefinite_deviation",
    "Asn1.C32_depth_deviation"
   ],
   "note": "Any element type, nested wrappers included up to the depth the parser accepts (C32_depth_deviation); a Vec of indefinite lists does not round-trip (C32_vec_of_indefinite_deviation)."
  },
  {
   "property": "C33",
   "status": "partial",
   "theorems": [
    "Asn1.C33_array_roundtrip_partial",
    "Asn1.C33_array_size",
    "Asn1.C33_large_deviation"
   ],
   "note": "Items whose content is below 2^24 bytes; above, the round trip fails (C33_large_deviation)."
  },
  {
   "property": "C34",
   "status": "proved",
   "theorems": [
    "Asn1.C34_tuple_accepts",
    "Asn1.C34_tuple_roundtrip",
    "Asn1.C34_tuple_deviation"
   ],
   "note": "Primitive flags are not checked and trailing bytes of the content are ignored (C34_tuple_deviation)."
  },
  {
   "property": "C65",
   "status": "proved",
   "theorems": [
    "Asn1.C65_only_consumed_bytes",
    "Asn1.C65_time_only_consumed_bytes",
    "Asn1.C65_string_only_consumed_bytes",
    "Asn1.C65_real_only_consumed_bytes"
   ],
   "note": "Universal types, EXPLICIT and IMPLICIT tags, containers, tuples, raw sequences."
  },
  {
   "property": "C66",
   "status": "partial",
   "theorems": [
    "Asn1.C66_raw_roundtrip",
    "Asn1.C66_raw_accepts",
    "Asn1.C66_raw_items",
    "Asn1.C66_from_iter_to_der",
    "Asn1.C66_any_sequence_accepts",
    "Asn1.C66_any_sequence_roundtrip_partial",
    "Asn1.C66_large_deviation"
   ],
   "note": "AnySequence: objects whose content is below 2^24 bytes; above, the round trip fails (C66_large_deviation). AnySet is C98."
  },
  {
   "property": "C67",
   "status": "partial",
   "theorems": [
    "Asn1.C67_from_and_then",
    "Asn1.C67_parse_and_then_partial",
    "Asn1.C67_primitive_deviation"
   ],
   "note": "The parse_*_and_then functions do not check that the object is constructed (C67_primitive_deviation)."
  },
  {
   "property": "C40",
   "status": "proved",
   "theorems": [
    "Asn1.C40_utctime_accepts",
    "Asn1.C40_deviations"
   ],
   "note": "Exact set of accepted objects with their components. C40_deviations: what is accepted or rejected against X.680."
  },
  {
   "property": "C41",
   "status": "proved",
   "theorems": [
    "Asn1.C41_utctime_roundtrip",
    "Asn1.C41_zone_deviation"
   ],
   "note": "Components other than the zone always come back; a zone other than Z is lost (C41_zone_deviation), which is outside the claim."
  },
  {
   "property": "C42",
   "status": "partial",
   "theorems": [
    "Asn1.C42_generalizedtime_roundtrip",
    "Asn1.C42_generalizedtime_exact_partial",
    "Asn1.C42_millis_deviation"
   ],
   "note": "Milliseconds are written without leading zeros: 1 to 99 come back multiplied by 100 or 10, 1000 and more cannot be read (C42_millis_deviation). What comes back is characterized for all in-range times."
  },
  {
   "property": "C43",
   "status": "partial",
   "theorems": [
    "Asn1.C43_generalizedtime_accepts",
    "Asn1.C43_deviations",
    "Asn1.C43_ranges_partial"
   ],
   "note": "Exact set of accepted objects with their components. Missing: the milliseconds of a time without a zone, which can be up to 9999 (C43_deviations)."
  },
  {
   "property": "C68",
   "status": "partial",
   "theorems": [
    "Asn1.C68_canonical_partial",
    "Asn1.C68_deviations"
   ],
   "note": "Whole seconds ending in Z are canonical; missing seconds, offsets and trailing zeros are accepted by DER (C68_deviations)."
  },
  {
   "property": "C69",
   "status": "partial",
   "theorems": [
    "Asn1.C69_order_total",
    "Asn1.C69_chronological_partial",
    "Asn1.C69_order_deviations",
    "Asn1.C69_order_transitive"
   ],
   "note": "Total order; chronological on UTC times with full years that both have or both lack milliseconds; not otherwise (C69_order_deviations)."
  },
  {
   "property": "C70",
   "status": "partial",
   "theorems": [
    "Asn1.C70_to_datetime_partial",
    "Asn1.C70_unix_timestamp",
    "Asn1.C70_adjusted_year",
    "Asn1.C70_timestamp_deviation",
    "Asn1.C70_year_wrap_deviation"
   ],
   "note": "Relative to a model of the time crate. UtcTime::timestamp does not adjust the year (C70_timestamp_deviation). Years built by hand from 2^32 - 9999 are taken for negative ones (C70_year_wrap_deviation)."
  },
  {
   "property": "C44",
   "status": "partial",
   "theorems": [
    "Asn1.C44_strings_accept_partial",
    "Asn1.C44_ascii",
    "Asn1.C44_strings_roundtrip_partial",
    "Asn1.C44_str_accepts",
    "Asn1.C44_str_roundtrip",
    "Asn1.C44_out_of_alphabet",
    "Asn1.C44_deviations"
   ],
   "note": "Exact set of accepted objects, round-trip of every text over the alphabet. The constructors do not test the alphabet (C44_out_of_alphabet); the alphabets differ from X.680 at the places of C44_deviations."
  },
  {
   "property": "C45",
   "status": "partial",
   "theorems": [
    "Asn1.C45_bmpstring_accepts",
    "Asn1.C45_bmpstring_roundtrip_partial",
    "Asn1.C45_empty_deviation",
    "Asn1.C45_deviations",
    "Asn1.C45_test_valid_charset"
   ],
   "note": "Every text but the empty one, which no decoder accepts (C45_empty_deviation)."
  },
  {
   "property": "C46",
   "status": "partial",
   "theorems": [
    "Asn1.C46_universalstring_accepts",
    "Asn1.C46_universalstring_roundtrip_partial",
    "Asn1.C46_empty_deviation",
    "Asn1.C46_length_deviation",
    "Asn1.C46_deviations"
   ],
   "note": "Non-empty ASCII texts; for every text with another character the encoding is wrong and refused (C46_length_deviation), as is the empty text (C46_empty_deviation)."
  },
  {
   "property": "C71",
   "status": "partial",
   "theorems": [
    "Asn1.C71_as_any_str_partial",
    "Asn1.C71_as_any_str_spec",
    "Asn1.C71_deviations"
   ],
   "note": "One direction; the alphabet is not tested, segments are not joined (C71_deviations)."
  },
  {
   "property": "C53",
   "status": "proved",
   "theorems": [
    "Asn1.C53_special_values",
    "Asn1.C53_special_contents",
    "Asn1.C53_f64_special_values"
   ],
   "note": "As Real and as f64 (where minus zero becomes zero)."
  },
  {
   "property": "C72",
   "status": "partial",
   "theorems": [
    "Asn1.C72_real_accepts",
    "Asn1.C72_binary_nearest_partial",
    "Asn1.C72_binary_value_partial",
    "Asn1.C72_sign_deviation",
    "Asn1.C72_deviations"
   ],
   "note": "Exact set of accepted contents with their values; for N below 2^63 and exponents of one to three octets the mantissa is the f64 nearest to it, exact if it has 53 significant bits; from 2^63 the sign is wrong (C72_sign_deviation), the long exponent form is misread (C72_deviations). Relative to Rust's parser of decimal texts (a parameter)."
  },
  {
   "property": "C73",
   "status": "partial",
   "theorems": [
    "Asn1.C73_real_roundtrip_partial",
    "Asn1.C73_real_values",
    "Asn1.C73_other_bases",
    "Asn1.C73_long_exponent_deviation",
    "Asn1.C73_deviations",
    "Asn1.C73_constructors",
    "Asn1.C73_enc_base",
    "Asn1.C73_infinite_mantissa"
   ],
   "note": "Base 2: exact characterization of the round trip for mantissas above f64::EPSILON and integers below 2^64; exponents from 128 to 255 and the like change sign, exponents from 2^24 are lost; encoding bases 8 and 16 change the value (C73_other_bases)."
  },
  {
   "property": "C74",
   "status": "partial",
   "theorems": [
    "Asn1.C74_real_new",
    "Asn1.C74_decimal_form",
    "Asn1.C74_real_roundtrip_partial",
    "Asn1.C74_nr1_value",
    "Asn1.C74_classes"
   ],
   "note": "Termination, normal form and exactness on integers are full; the decimal round trip assumes that Rust's float parser reads back what Display wrote, which is false of most fractions (C122_real_changes); C122 has the numbers for which it holds."
  },
  {
   "property": "C75",
   "status": "partial",
   "theorems": [
    "Asn1.C75_f64_nearest_partial",
    "Asn1.C75_f64_exact_partial",
    "Asn1.C75_small_powers",
    "Asn1.C75_deviations"
   ],
   "note": "For N below 2^63 and powers from 2^-1023 on the f64 read is the nearest one, exact when representable; with smaller powers everything is read as zero (C75_small_powers), and larger N change sign (C72_sign_deviation)."
  },
  {
   "property": "C54",
   "status": "partial",
   "theorems": [
    "Asn1.C54_struct_length",
    "Asn1.C54_struct_length_partial",
    "Asn1.C54_overcount_deviation",
    "Asn1.C54_struct_length_huge"
   ],
   "note": "C54_struct_length gives the announced length exactly; it is one too large for each IMPLICIT field whose content length takes fewer length octets than its plain encoding (C54_overcount_deviation). Fields below 2^24 bytes (C18)."
  },
  {
   "property": "C55",
   "status": "proved",
   "theorems": [
    "Asn1.C55_choice_accepts",
    "Asn1.C55_first_variant",
    "Asn1.C55_tags",
    "Asn1.C55_choice_roundtrip",
    "Asn1.C55_choice_object",
    "Asn1.C55_choice_universal",
    "Asn1.C55_class_deviation"
   ],
   "note": "Tagged and untagged; the class of the object is not looked at (C55_class_deviation)."
  },
  {
   "property": "C76",
   "status": "proved",
   "theorems": [
    "Asn1.C76_field_reads",
    "Asn1.C76_struct_accepts"
   ],
   "note": "What follows the last field inside the object is ignored, and so is the class of the object."
  },
  {
   "property": "C77",
   "status": "partial",
   "theorems": [
    "Asn1.C77_struct_roundtrip_partial",
    "Asn1.C77_struct_universal_partial"
   ],
   "note": "Required and default fields, plain or tagged, without the IMPLICIT fields of C54_overcount_deviation; fields of type Option are C78."
  },
  {
   "property": "C78",
   "status": "partial",
   "theorems": [
    "Asn1.C78_some_deviation",
    "Asn1.C78_all_plain",
    "Asn1.C78_none_bytes",
    "Asn1.C78_none_deviation",
    "Asn1.C78_none_struct_partial"
   ],
   "note": "The property is false: a present field of type Option makes the encoder recurse without end, an absent plain one makes the announced length too large, an absent tagged one is written as an empty object."
  },
  {
   "property": "C79",
   "status": "proved",
   "theorems": [
    "Asn1.C79_discriminants",
    "Asn1.C79_enum_accepts",
    "Asn1.C79_enum_roundtrip"
   ],
   "note": ""
  },
  {
   "property": "C80",
   "status": "proved",
   "theorems": [
    "Asn1.C80_alias_accepts",
    "Asn1.C80_alias_roundtrip",
    "Asn1.C80_alias_universal",
    "Asn1.C80_alias_encoding"
   ],
   "note": "C80_alias_encoding is for values of every size; the round trip of the universal types is for sizes below 2^24 (C18)."
  },
  {
   "property": "C81",
   "status": "partial",
   "theorems": [
    "Asn1.C81_slice_accepts",
    "Asn1.C81_apis_agree_partial",
    "Asn1.C81_slice_roundtrip_partial",
    "Asn1.C81_slice_universal_partial",
    "Asn1.C81_check_accepts",
    "Asn1.C81_check_deviation",
    "Asn1.C81_no_panic"
   ],
   "note": "The accepted bytes are full. from_ber does not require a constructed object, which parse_ber does; plain optional fields of indefinite length differ (C35). check_constraints counts fields that are left out (C81_check_deviation)."
  },
  {
   "property": "C82",
   "status": "proved",
   "theorems": [
    "Asn1.C82_no_panic",
    "Asn1.C82_only_consumed_bytes",
    "Asn1.C82_der_subset_ber"
   ],
   "note": "Types of finite nesting: a struct that refers to itself is not covered. Parsing functions given by the user are not covered."
  },
  {
   "property": "C83",
   "status": "partial",
   "theorems": [
    "Asn1.C83_one_object",
    "Asn1.C83_roundtrip_partial",
    "Asn1.C83_prefix_free_partial"
   ],
   "note": "Values of fewer than 2^24 content bytes in each part (C18). Excluded, because there the property is false: an IMPLICIT tag on a tagged type or a CHOICE (C29), IMPLICIT fields whose announced length is wrong (C54), CHOICE variants hidden by an earlier one (C55), fields of type Option (C78)."
  },
  {
   "property": "C84",
   "status": "partial",
   "theorems": [
    "Asn1.C84_encode_no_panic_partial",
    "Asn1.C84_from_iter_no_panic",
    "Asn1.C84_real_deviation"
   ],
   "note": "False for REAL of base 2 with a mantissa that is not an integer in range (C84_real_deviation, C61_real_encode_panics). Fields of type Option are apart (C78: a present one never returns)."
  },
  {
   "property": "C85",
   "status": "proved",
   "theorems": [
    "Asn1.C85_conversion_own_tag",
    "Asn1.C85_conversion",
    "Asn1.C85_conversion_roundtrip",
    "Asn1.C85_no_panic",
    "Asn1.C85_real_panics",
    "Asn1.C85_tag_deviation",
    "Asn1.C85_tag_cases",
    "Asn1.C85_relative_oid",
    "Asn1.C85_relative_oid_from_ber",
    "Asn1.C85_relative_oid_deviation"
   ],
   "note": "Contents below 2^64 bytes, as machine sizes are. REAL relative to Rust's parser of decimal texts."
  },
  {
   "property": "C86",
   "status": "proved",
   "theorems": [
    "Asn1.C86_as_optional_some",
    "Asn1.C86_as_optional_none",
    "Asn1.C86_nested_deviation"
   ],
   "note": ""
  },
  {
   "property": "C87",
   "status": "proved",
   "theorems": [
    "Asn1.C87_iter_elements",
    "Asn1.C87_mode_deviation",
    "Asn1.C87_parse_content"
   ],
   "note": ""
  },
  {
   "property": "C88",
   "status": "proved",
   "theorems": [
    "Asn1.C88_split_der",
    "Asn1.C88_split_ber",
    "Asn1.C88_depth_deviation"
   ],
   "note": ""
  },
  {
   "property": "C89",
   "status": "proved",
   "theorems": [
    "Asn1.C89_pdv_accepts",
    "Asn1.C89_der_subset",
    "Asn1.C89_pdv_no_panic",
    "Asn1.C89_pdv_only_syntaxes",
    "Asn1.C89_pdv_standard_refused",
    "Asn1.C89_pdv_standard_cases"
   ],
   "note": "What is accepted is not what X.680 defines (C89_pdv_standard_refused)."
  },
  {
   "property": "C90",
   "status": "proved",
   "theorems": [
    "Asn1.C90_generalized_readback",
    "Asn1.C90_generalized_exact",
    "Asn1.C90_generalized_injective",
    "Asn1.C90_utc_readback",
    "Asn1.C90_utc_injective",
    "Asn1.C90_datetime_text",
    "Asn1.C90_display_panic",
    "Asn1.C90_deviations",
    "Asn1.C90_negative_minutes_deviation"
   ],
   "note": "With the deviations named in the statement (C90_deviations)."
  },
  {
   "property": "C91",
   "status": "proved",
   "theorems": [
    "Asn1.C91_new",
    "Asn1.C91_is_set_bytes",
    "Asn1.C91_is_set_bits",
    "Asn1.C91_equal",
    "Asn1.C91_equal_encodings",
    "Asn1.C91_equal_deviation"
   ],
   "note": "Equal values made from bytes may have different encodings (C91_equal_deviation)."
  },
  {
   "property": "C92",
   "status": "proved",
   "theorems": [
    "Asn1.C92_end_of_content",
    "Asn1.C92_end_of_content_bytes",
    "Asn1.C92_deviations"
   ],
   "note": "Exact description of what is accepted."
  },
  {
   "property": "C93",
   "status": "proved",
   "theorems": [
    "Asn1.C93_ber_as_input",
    "Asn1.C93_der_as_input",
    "Asn1.C93_then_content",
    "Asn1.C93_no_panic"
   ],
   "note": "Full."
  },
  {
   "property": "C94",
   "status": "proved",
   "theorems": [
    "Asn1.C94_content_suffix",
    "Asn1.C94_parse",
    "Asn1.C94_others",
    "Asn1.C94_from_der",
    "Asn1.C94_hex_dump"
   ],
   "note": "Each traced call is shown equal to the untraced one; logging itself is not modelled."
  },
  {
   "property": "C95",
   "status": "proved",
   "theorems": [
    "Asn1.C95_bigint",
    "Asn1.C95_der_bijection",
    "Asn1.C95_machine",
    "Asn1.C95_padded",
    "Asn1.C95_from_const_array"
   ],
   "note": "Arithmetic of num-bigint is Lean's; its from_signed_bytes_be is modelled after the published source."
  },
  {
   "property": "C96",
   "status": "partial",
   "theorems": [
    "Asn1.C96_cast_exact",
    "Asn1.C96_cast_nearest",
    "Asn1.C96_cast_overflow",
    "Asn1.C96_f32_reads",
    "Asn1.C96_f32_exact_partial",
    "Asn1.C96_double_rounding",
    "Asn1.C96_f32_special_values",
    "Asn1.C96_f32_roundtrip_partial",
    "Asn1.C122_f32_roundtrip",
    "Asn1.C96_f32_agree"
   ],
   "note": "Exact reading: numbers N below 2^63. Round trip of finite numbers: C122_f32_roundtrip, for libraries that format and read decimals to the nearest f64 and compute powers of ten to 40 bits. Nearest reading of all binary contents is false (C96_double_rounding)."
  },
  {
   "property": "C97",
   "status": "proved",
   "theorems": [
    "Asn1.C97_header",
    "Asn1.C97_content",
    "Asn1.C97_sequence",
    "Asn1.C97_any"
   ],
   "note": ""
  },
  {
   "property": "C98",
   "status": "partial",
   "theorems": [
    "Asn1.C98_any_set_accepts",
    "Asn1.C98_insert",
    "Asn1.C98_remove",
    "Asn1.C98_any_set_roundtrip_partial",
    "Asn1.C98_duplicates_deviation",
    "Asn1.C98_hash_deviation",
    "Asn1.C98_large_deviation",
    "Asn1.C98_size"
   ],
   "note": "Objects whose content is below 2^24 bytes (C98_large_deviation). Uniqueness of the elements, as documented, is false (C98_duplicates_deviation, C98_hash_deviation)."
  },
  {
   "property": "C99",
   "status": "proved",
   "theorems": [
    "Asn1.C99_alias_from_ber",
    "Asn1.C99_alias_from_der",
    "Asn1.C99_alias_check",
    "Asn1.C99_alias_any",
    "Asn1.C99_no_panic",
    "Asn1.C99_der_check_deviation"
   ],
   "note": "from_der of an alias accepts more than that of the inner type (C99_der_check_deviation)."
  },
  {
   "property": "C100",
   "status": "proved",
   "theorems": [
    "Asn1.C100_same_inputs",
    "Asn1.C100_errors_related",
    "Asn1.C100_converted",
    "Asn1.C100_first_error",
    "Asn1.C100_slice_same"
   ],
   "note": ""
  },
  {
   "property": "C101",
   "status": "partial",
   "theorems": [
    "Asn1.C101_header_fields",
    "Asn1.C101_retagged_partial",
    "Asn1.C101_from_tag_and_data",
    "Asn1.C101_new_simple"
   ],
   "note": "The edited object differs from what its own encoding decodes to (stale raw_tag), which is part of C101_retagged_partial; the rest is full."
  },
  {
   "property": "C102",
   "status": "partial",
   "theorems": [
    "Asn1.C102_reference_partial",
    "Asn1.C102_reference_deviation",
    "Asn1.C102_deprecated"
   ],
   "note": "C102_reference_deviation: references to Option; C102_deprecated: to_der_len is the length of the content only."
  },
  {
   "property": "C103",
   "status": "partial",
   "theorems": [
    "Asn1.C103_iteration_partial",
    "Asn1.C103_short_contents",
    "Asn1.C103_iterators_agree",
    "Asn1.C103_cut_deviation",
    "Asn1.C103_text"
   ],
   "note": "Everything but the agreement of the two iterators on a content whose last group is cut short and too long for 64 bits, where iter drops high bits (C103_cut_deviation)."
  },
  {
   "property": "C104",
   "status": "proved",
   "theorems": [
    "Asn1.C104_octet_string",
    "Asn1.C104_strings",
    "Asn1.C104_references",
    "Asn1.C104_contents",
    "Asn1.C104_integer",
    "Asn1.C104_position",
    "Asn1.C104_built_strings"
   ],
   "note": "BMPString and UniversalString always own their text (there is no as_raw_str). A reference is modelled as the range of the input it points to."
  },
  {
   "property": "C105",
   "status": "partial",
   "theorems": [
    "Asn1.C105_reported",
    "Asn1.C105_implicit_partial",
    "Asn1.C105_choice_partial",
    "Asn1.C105_field",
    "Asn1.C105_default_deviation",
    "Asn1.C105_lost",
    "Asn1.C105_choice_lost",
    "Asn1.C105_old_alias"
   ],
   "note": "Proved for every type that declares its form. The code deviates for SetOf, AnySequence, AnySet and explicit TaggedParser, which leave CONSTRUCTED at false: under TaggedImplicit or in a CHOICE without explicit tagging they are written as primitive objects (C105_default_deviation), which no decoder of the same type reads back (C105_lost, C105_choice_lost). Fields of derived structs are right for them too (C105_field)."
  },
  {
   "property": "C106",
   "status": "partial",
   "theorems": [
    "Asn1.C106_decoded_partial",
    "Asn1.C106_same_bytes_partial",
    "Asn1.C106_sets",
    "Asn1.C106_times_deviation",
    "Asn1.C106_deviations",
    "Asn1.C106_equal_partial",
    "Asn1.C106_equality"
   ],
   "note": "For every type given by Spec.TwoWay and every value satisfying its size conditions. HashSet, whose order of members is not fixed: C106_sets (an equal set comes back), and at any place in another type C106_equal_partial. Any: C39_any_reencoding. Not covered: fields of type Option (C78), and the values for which it is false (C106_times_deviation, C106_deviations, C18, C54)."
  },
  {
   "property": "C107",
   "status": "partial",
   "theorems": [
    "Asn1.C107_prefix_partial",
    "Asn1.C107_definite",
    "Asn1.C107_cut_deviation"
   ],
   "note": "Full statement false: C107_cut_deviation. C107_prefix_partial says that this is the only exception, for every type and both rules; C107_definite is without exception."
  },
  {
   "property": "C108",
   "status": "partial",
   "theorems": [
    "Asn1.C108_pieces_partial",
    "Asn1.C108_objects_partial",
    "Asn1.C108_values",
    "Asn1.C108_cut_deviation"
   ],
   "note": "Full statement false: C108_cut_deviation. Holds for every division that does not end a piece within such a tag; C108_values without exception for encoded values with tag numbers below 31."
  },
  {
   "property": "C109",
   "status": "partial",
   "theorems": [
    "Asn1.C109_reads_exactly_partial",
    "Asn1.C109_parse_partial",
    "Asn1.C109_tag_deviation",
    "Asn1.C109_inner_deviation"
   ],
   "note": "Full statement false: C109_tag_deviation, C109_inner_deviation. The parsing functions of types are covered if they do not ask for more bytes after the object is complete."
  },
  {
   "property": "C110",
   "status": "partial",
   "theorems": [
    "Asn1.C110_well_formed_partial",
    "Asn1.C110_walk"
   ],
   "note": "Missing: the values for which the encoders announce wrong lengths (C18, C54, C78), and user-given content (Any, Sequence, Set) that is not well-formed itself."
  },
  {
   "property": "C111",
   "status": "partial",
   "theorems": [
    "Asn1.C111_tag_args",
    "Asn1.C111_field_attributes",
    "Asn1.C111_others_ignored",
    "Asn1.C111_any_order",
    "Asn1.C111_generated",
    "Asn1.C111_round_trip_partial",
    "Asn1.C111_context_specific_deviation"
   ],
   "note": "The parsers of syn (tokens, expressions) are not modelled. Round trip: missing are fields of type Option (C78) or with their own parser, and the values excluded in C83. Deviation: the class CONTEXT-SPECIFIC cannot be written."
  },
  {
   "property": "C112",
   "status": "proved",
   "theorems": [
    "Asn1.C112_accepted",
    "Asn1.C112_impls",
    "Asn1.C112_once",
    "Asn1.C112_default",
    "Asn1.C112_choice_kind",
    "Asn1.C112_variant_tags",
    "Asn1.C112_settings"
   ],
   "note": "For the derive macros Sequence, Set, Alias, Choice, Enumerated. The parsers of syn are not modelled."
  },
  {
   "property": "C113",
   "status": "proved",
   "theorems": [
    "Asn1.C113_error_place",
    "Asn1.C113_header_place",
    "Asn1.C113_unexpected_tag",
    "Asn1.C113_iterator",
    "Asn1.C113_first_bad_item",
    "Asn1.C113_sequence_iterator_deviation"
   ],
   "note": "For `parse_ber`, `parse_der` and the iterators over Any. Outside the statement: SequenceIteratorInput reports an incomplete item at an empty input at position 0 (deviation theorem); user-written parsing functions (`#[asn1(parse)]`) are not covered."
  },
  {
   "property": "C114",
   "status": "proved",
   "theorems": [
    "Asn1.C114_decoded_size",
    "Asn1.C114_octet_string",
    "Asn1.C114_item_count"
   ],
   "note": "Size of the decoded value, not of the allocations made on the way (spare capacity of a Vec, intermediate copies)."
  },
  {
   "property": "C115",
   "status": "proved",
   "theorems": [
    "Asn1.C115_object_work",
    "Asn1.C115_typed_work",
    "Asn1.C115_every_type",
    "Asn1.C115_each_once",
    "Asn1.C115_at_least"
   ],
   "note": "Counts calls of Header::parse_ber and Header::parse_der. Model/Work and Model/WorkTyped have a counting version of each function; each is proved to return what the function it counts for returns (first part of C115_typed_work). C115_every_type: every built type is covered."
  },
  {
   "property": "C116",
   "status": "partial",
   "theorems": [
    "Asn1.C116_restored_partial",
    "Asn1.C116_consumed_partial",
    "Asn1.C116_one_form_partial",
    "Asn1.C116_deviations",
    "Asn1.C116_sets_partial"
   ],
   "note": "BTreeSet and HashSet nested in any way are included, for components that the set yields in the order of the input. REAL is included for the values that decode to themselves (C73). Missing: OPTIONAL fields, whose encoding does not end when present (C78); values whose encoding is wrong (C18, C45, C46, C54, C73). The deviations show that parse_der accepts non-canonical input of every kind named, and encodes it otherwise."
  },
  {
   "property": "C117",
   "status": "proved",
   "theorems": [
    "Asn1.C117_tag_count",
    "Asn1.C117_tag_once",
    "Asn1.C117_complete_once",
    "Asn1.C117_grouping",
    "Asn1.C117_sources",
    "Asn1.C117_deviations"
   ],
   "note": "What a macro sees of the attributes of a type is taken from the comment in check_derive.rs. The deviations are the combinations that do not compile: macros in the same attribute or written with a path, BerSequence with DerSequence, BerAlias with DerAlias, and names of other macros that start with one of the names."
  },
  {
   "property": "C118",
   "status": "partial",
   "theorems": [
    "Asn1.C118_order",
    "Asn1.C118_as_yielded",
    "Asn1.C118_unsigned_partial",
    "Asn1.C118_any_order",
    "Asn1.C118_deviations"
   ],
   "note": "Missing: sets of other element types, which are not written in that order (C118_deviations)."
  },
  {
   "property": "C119",
   "status": "partial",
   "theorems": [
    "Asn1.C119_constructed_refused",
    "Asn1.C119_integer_der",
    "Asn1.C119_primitive_refused_partial",
    "Asn1.C119_implicit",
    "Asn1.C119_containers",
    "Asn1.C119_from_der",
    "Asn1.C119_checks",
    "Asn1.C119_relative_oid",
    "Asn1.C119_deviations"
   ],
   "note": "Missing, because the code does not do it (C119_deviations): tuples, EMBEDDED PDV and from_der of Vec, SequenceOf and SetOf accept a primitive object; BMPString and UniversalString take the octets of a constructed object as text in BER."
  },
  {
   "property": "C120",
   "status": "partial",
   "theorems": [
    "Asn1.C120_error_names_fault_partial",
    "Asn1.C120_conversion",
    "Asn1.C120_one_fault",
    "Asn1.C120_signed",
    "Asn1.C120_padded",
    "Asn1.C120_real"
   ],
   "note": "The faults of each kind are listed in Spec/Fault. Missing, because the code does not do it: in BER a negative number with more octets than the signed type is too large although its value may fit (C120_padded); a comma in a GeneralizedTime in DER is reported as MissingSeconds and an unknown discriminant of a derived enumeration as UnexpectedTag (so in the list of faults). REAL: which of the three errors it is (C120_real), and in full in C123."
  },
  {
   "property": "C121",
   "status": "partial",
   "theorems": [
    "Asn1.C121_error_origin_partial",
    "Asn1.C121_one_origin",
    "Asn1.C121_fault"
   ],
   "note": "Spec/Refusal says for every type what is wrong first and what the error is. Missing, because the code does not do it: an untagged optional field of indefinite length is refused with an error about the end marker inside its content (C35); the truncation of an item in a complete list is reported as the error Incomplete. Truncated inputs (Err::Incomplete) are not errors in this sense (C06, C64). Fields with an own parse function are left out."
  },
  {
   "property": "C122",
   "status": "proved",
   "theorems": [
    "Asn1.C122_f32_roundtrip",
    "Asn1.C122_f64_close",
    "Asn1.C122_integers",
    "Asn1.C122_fractions",
    "Asn1.C122_third_place",
    "Asn1.C122_real_changes",
    "Asn1.C122_underflow",
    "Asn1.C122_honest_library"
   ],
   "note": "Spec/Decimal has the assumptions on Rust's library (Honest), which the statement names; C122_honest_library is an instance. Zero, infinities and NaN: C53, C96."
  },
  {
   "property": "C123",
   "status": "proved",
   "theorems": [
    "Asn1.C123_utc_from_bytes",
    "Asn1.C123_generalized_from_bytes",
    "Asn1.C123_utc",
    "Asn1.C123_generalized",
    "Asn1.C123_bits",
    "Asn1.C123_real"
   ],
   "note": "Spec/Message lists the faults with their messages. REAL contents on which the decoder panics (C61) have no fault: the statement is about errors."
  },
  {
   "property": "C124",
   "status": "partial",
   "theorems": [
    "Asn1.C124_parse_der",
    "Asn1.C124_parse_ber_partial",
    "Asn1.C124_tag_shown",
    "Asn1.C124_from_deviation",
    "Asn1.C124_encode_deviation",
    "Asn1.C124_indefinite",
    "Asn1.C124_explicit_deviation",
    "Asn1.C124_explicit_decoding",
    "Asn1.C124_implicit_deviation",
    "Asn1.C124_parse_der_sets",
    "Asn1.C124_parse_ber_set_partial"
   ],
   "note": "parse_der of a list of Option<T> is exactly that of the list of T; the code deviates everywhere else, and each deviation is a theorem. parse_ber refuses, in addition, elements with the indefinite length. from_ber and from_der accept the same inputs but never return on a content in which an object with another tag follows. Encoding a list with a present value never returns; n absent values give a header that announces 2n octets and no content. Only IndefiniteVec is written as the list of the values present. TaggedExplicit: a present value cannot be encoded, an absent one is refused by all decoders, and an inner object with another tag is read as an absent value. TaggedImplicit: every object is decoded as an absent value, so that a present value is lost without an error."
  },
  {
   "property": "C125",
   "status": "partial",
   "theorems": [
    "Asn1.C125_encoded_alike",
    "Asn1.C125_integer_partial",
    "Asn1.C125_boolean_partial",
    "Asn1.C125_oid_partial",
    "Asn1.C125_any_partial",
    "Asn1.C125_real_partial",
    "Asn1.C125_deviations",
    "Asn1.C125_set_deviation"
   ],
   "note": "Reflexive, symmetric and encoded alike for every nesting of types (not for BitString, C91_equal_deviation, and HashSet, C125_set_deviation, where equal values encode differently; equality of headers is not transitive, C48). Integer and Boolean: exact for values from parse_der. Oid: exact for contents without redundant leading octets. Any: equal exactly if identifier octets, content and the position of the content are the same, so that the same object at two places is not equal. Real: equal exactly if the forms are the same, so that 1*2^1 and 2*2^0 are not equal. C125_deviations lists values that stand for the same thing and are not equal."
  },
  {
   "property": "C126",
   "status": "partial",
   "theorems": [
    "Asn1.C126_error_text",
    "Asn1.C126_flat_text_partial",
    "Asn1.C126_inner_text_partial",
    "Asn1.C126_ber_text_partial",
    "Asn1.C126_place",
    "Asn1.C126_expected",
    "Asn1.C126_class_text",
    "Asn1.C126_serialize_text_partial",
    "Asn1.C126_deviations"
   ],
   "note": "Error, Class and DerConstraint: different values have different texts. InnerError and BerError: the same except that the text of an error of nom is `Parse error` whatever its kind, although the flat error made from it shows the kind (C126_deviations). The texts of nom's ErrorKind, of quoted strings and of I/O errors come from outside the crate and are parameters, assumed to tell values apart."
  },
  {
   "property": "C127",
   "status": "partial",
   "theorems": [
    "Asn1.C127_check_constraints",
    "Asn1.C127_no_panic",
    "Asn1.C127_accepted_by_der_partial",
    "Asn1.C127_explicit_parser",
    "Asn1.C127_boolean_panics",
    "Asn1.C127_deviations",
    "Asn1.C127_from_der_checks_partial",
    "Asn1.C127_from_der_deviations",
    "Asn1.C127_struct_deviations"
   ],
   "note": "Exactly what the check accepts is proved for every type. It returns on every object unless a BOOLEAN occurs, whose check panics on an object without content. That parse_der accepts only what the check accepts is false for BIT STRING and EMBEDDED PDV (C127_deviations) and for structs with optional or tagged fields (C127_struct_deviations). That from_der accepts only what the check accepts is proved for every type where it is true; lists, IMPLICIT tags and structs with tagged fields are deviations (C127_from_der_deviations)."
  },
  {
   "property": "C128",
   "status": "proved",
   "theorems": [
    "Asn1.C128_history",
    "Asn1.C128_equal",
    "Asn1.C128_split",
    "Asn1.C128_position"
   ],
   "note": "Slicing and searching of byte slices are those of Rust and nom, taken as lists."
  },
  {
   "property": "C129",
   "status": "partial",
   "theorems": [
    "Asn1.C129_bits",
    "Asn1.C129_bits_fresh",
    "Asn1.C129_bits_der",
    "Asn1.C129_sequence_history",
    "Asn1.C129_any_sequence_partial",
    "Asn1.C129_components",
    "Asn1.C129_any_set"
   ],
   "note": "Bit strings in full (BitSlice::set is that of the crate bitvec). Sequences: objects whose content is below 2^24 bytes (C66_large_deviation). Sets: objects that are equal only if identical, as the components of one encoding are; equality and hash of other objects do not fit together (C98_hash_deviation)."
  },
  {
   "property": "C130",
   "status": "partial",
   "theorems": [
    "Asn1.C130_objects",
    "Asn1.C130_same_value_partial",
    "Asn1.C130_same_components_partial",
    "Asn1.C130_from_ber_partial",
    "Asn1.C130_der_in_every_form_partial",
    "Asn1.C130_deviations"
   ],
   "note": "Missing: types whose values hold encoded octets, BmpString, UniversalString, and in parse_ber untagged OPTIONAL fields that may be constructed; for them it is false (C130_deviations). from_ber reads such fields in every form (C130_from_ber_partial). Empty objects with the tag number 0 are excluded, since they are taken for end-of-contents octets."
  },
  {
   "property": "C131",
   "status": "proved",
   "theorems": [
    "Asn1.C131_older_reads_newer",
    "Asn1.C131_newer_reads_older",
    "Asn1.C131_indefinite_deviation",
    "Asn1.C131_added_required",
    "Asn1.C131_older_from_bytes",
    "Asn1.C131_newer_from_bytes",
    "Asn1.C131_choice",
    "Asn1.C131_enumerated",
    "Asn1.C131_wider_integer"
   ],
   "note": "Without the condition on lengths it is false in BER (C131_indefinite_deviation)."
  },
  {
   "property": "C132",
   "status": "partial",
   "theorems": [
    "Asn1.C132_roundtrip_newer_partial",
    "Asn1.C132_roundtrip_older_partial"
   ],
   "note": "Missing: the structs with a field whose header is counted wrongly (C54) and those with a present Option field, whose encoding never ends (C78); for them it is false."
  },
  {
   "property": "C133",
   "status": "partial",
   "theorems": [
    "Asn1.C133_declared_order_partial",
    "Asn1.C133_other_order_deviation",
    "Asn1.C133_der_order_deviation"
   ],
   "note": "Missing: the orders that X.690 allows and the code refuses; the claim is false of the code unless the fields are declared in the order of their tags."
  },
  {
   "property": "C134",
   "status": "partial",
   "theorems": [
    "Asn1.C134_required",
    "Asn1.C134_required_accepts",
    "Asn1.C134_width_partial",
    "Asn1.C134_headers",
    "Asn1.C134_any",
    "Asn1.C134_slices",
    "Asn1.C134_64",
    "Asn1.C134_optional_deviation",
    "Asn1.C134_from_ber",
    "Asn1.C134_from_der",
    "Asn1.C134_slices_accept",
    "Asn1.C134_slices_partial",
    "Asn1.C134_slices_64",
    "Asn1.C134_slice_deviation"
   ],
   "note": "Missing: that types with OPTIONAL fields accept the same objects, which is false of the code (C134_optional_deviation, C134_slice_deviation)."
  },
  {
   "property": "C135",
   "status": "partial",
   "theorems": [
    "Asn1.C135_same",
    "Asn1.C135_lengths_partial",
    "Asn1.C135_tagged",
    "Asn1.C135_square",
    "Asn1.C135_doubling_deviation"
   ],
   "note": "Missing: the bound for types with tagged fields of derived structs inside each other, which is false of the code: the calls are exponential in the number of such structs inside each other (C135_tagged is the bound that holds, C135_doubling_deviation shows that it is reached). Types with Option fields are not in the relation."
  },
  {
   "property": "C136",
   "status": "proved",
   "theorems": [
    "Asn1.C136_one_parser",
    "Asn1.C136_depth",
    "Asn1.C136_no_panic",
    "Asn1.C136_only_consumed_bytes",
    "Asn1.C136_der_subset_ber",
    "Asn1.C136_no_limit_deviation",
    "Asn1.C136_mutual",
    "Asn1.C136_mutual_returns"
   ],
   "note": "The parser of such a type is a function p with p = F p, F being the text of the type; that there is one and only one is part of the claim. C136_no_limit_deviation: the limit of 50 levels is on skipping objects and does not apply to the calls of typed parsers, so the calls within each other grow with the input (in the program: the stack). Fields with own parse functions are not in the relation. C136_mutual and C136_mutual_returns: two types that contain each other, the second not containing itself directly."
  },
  {
   "property": "C137",
   "status": "partial",
   "theorems": [
    "Asn1.C137_one_encoder",
    "Asn1.C137_roundtrip_partial",
    "Asn1.C137_choice_roundtrip_partial",
    "Asn1.C137_mutual_encoders",
    "Asn1.C137_mutual_roundtrip_partial",
    "Asn1.C137_any_type_partial"
   ],
   "note": "Missing: the round-trip is shown for all values of two types that contain themselves, a struct and a CHOICE, and of a pair of structs that contain each other; for the values of other such types it follows from C83_roundtrip_partial, whose relation Value has a rule (named) for the solutions of equations t = E t, but the derivation is to be given type by type; C137_any_type_partial says what has to be derived: the step from the smaller values of the type to a value."
  },
  {
   "property": "C138",
   "status": "partial",
   "theorems": [
    "Asn1.C138_fits_partial",
    "Asn1.C138_checked",
    "Asn1.C138_checked_length",
    "Asn1.C138_sum",
    "Asn1.C138_wraps_deviation"
   ],
   "note": "False in builds without overflow checks (release builds): the sum of the lengths wraps around and the header announces it modulo 2^bits, without an error. vec![(); 1 << 31] on a 32-bit machine is written as an empty SEQUENCE followed by 4 GiB of NULLs (C138_wraps_deviation). With overflow checks the encoder panics (C138_checked). The bound of C138_fits_partial leaves 17 bytes and the tag for each header, more than is needed. Universal types are taken as in the rest of the model, with their content length and result converted to usize."
  },
  {
   "property": "C139",
   "status": "partial",
   "theorems": [
    "Asn1.C139_returns",
    "Asn1.C139_panics",
    "Asn1.C139_no_object",
    "Asn1.C139_lines",
    "Asn1.C139_order",
    "Asn1.C139_offsets_partial",
    "Asn1.C139_unsupported",
    "Asn1.C139_bits_deviation",
    "Asn1.C139_relative_oid_deviation",
    "Asn1.C139_depth_deviation",
    "Asn1.C139_together",
    "Asn1.C139_blocks"
   ],
   "note": "False in parts. The program panics on universal types it has no branch for (C139_unsupported: REAL, VisibleString, BMPString and others) and on contents that a method of Any refuses; C139_panics says exactly when. Offsets inside of a BIT STRING are one too small (C139_bits_deviation). A RELATIVE-OID is read with any.oid(), and shown as an absolute one (C139_relative_oid_deviation). The recursion has no limit (C139_depth_deviation), so that the stack can overflow, which the model does not have. Lines are what is said, not the text: colours, indentation and the forms of values are left out, as are arguments, files and PEM."
  },
  {
   "property": "C140",
   "status": "proved",
   "theorems": [
    "Asn1.C140_same_value",
    "Asn1.C140_same_content",
    "Asn1.C140_integer_forms",
    "Asn1.C140_deviations",
    "Asn1.C140_equal_sets"
   ],
   "note": "Twins in Spec/Twins says for each type how two objects with the same value may differ. C140_integer_forms and C140_deviations show that the differences occur. Sameness is that of all fields of the value; for Any these include the header octets. A set has the same members in both, in any order and any number of times (C140_equal_sets for equal HashSets whatever their order). Of types of the user nothing is said but what they satisfy themselves."
  },
  {
   "property": "C141",
   "status": "proved",
   "theorems": [
    "Asn1.C141_language",
    "Asn1.C141_refused",
    "Asn1.C141_unambiguous",
    "Asn1.C141_content",
    "Asn1.C141_segments"
   ],
   "note": "Spec/Language is the table: no parser occurs in it, but in the hypotheses on types and fields of the user, and in Segs (segmented strings), for which C141_segments gives the parser-free form. It says what the code accepts, with its deviations from X.690 (any class for universal types, octets after the last field, RELATIVE-OID tag for OIDs, an OPTIONAL field without a tag refused in the indefinite form, end-of-contents octets in long forms). Any is not in the list: its value holds positions in the input."
  },
  {
   "property": "C142",
   "status": "proved",
   "theorems": [
    "Asn1.C142_language",
    "Asn1.C142_depth",
    "Asn1.C142_solution",
    "Asn1.C142_only_solution",
    "Asn1.C142_least",
    "Asn1.C142_twig"
   ],
   "note": "Spec/SelfLanguage. LangText says how the language of the text depends on that of the type within it; it is met by the constructors of Lang (C141), as shown for a struct and for a CHOICE. The hypothesis p = F m p is met by exactly one parser (C136). C142_least needs a monotone equation, shown for trees. As in the other properties of such types, the depth of the call stack of the compiled code is not modelled."
  },
  {
   "property": "C143",
   "status": "partial",
   "theorems": [
    "Asn1.C143_one_try_from",
    "Asn1.C143_one_from_der",
    "Asn1.C143_depth",
    "Asn1.C143_no_panic",
    "Asn1.C143_consumes",
    "Asn1.C143_apis_partial",
    "Asn1.C143_primitive_deviation",
    "Asn1.C143_twig",
    "Asn1.C143_roundtrip",
    "Asn1.C143_mutual",
    "Asn1.C143_mutual_returns",
    "Asn1.C143_mutual_der",
    "Asn1.C143_mutual_der_returns"
   ],
   "note": "Spec/SelfSlice has the texts. Proved in full but for the comparison of the APIs, which is for one type and in one direction (C143_twig and C142_twig say exactly what each accepts): the other direction is false, since from_ber and from_der of derived structs accept primitive objects at every level (C143_primitive_deviation, as in C81). The texts of from_der call TryFrom<Any> for IMPLICIT tags and aliases, as the code does, so these do not recurse through from_der. The depth of the call stack of the compiled code is not modelled."
  }
 ]
}