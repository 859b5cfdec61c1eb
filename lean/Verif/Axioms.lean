import Lean.Util.CollectAxioms
import Lean.Elab.Command
import Verif.Props.AnyMethods
import Verif.Props.AnySet
import Verif.Props.Arrays
import Verif.Props.AsInput
import Verif.Props.Attributes
import Verif.Props.BigInt
import Verif.Props.BitAccess
import Verif.Props.BitString
import Verif.Props.Builders
import Verif.Props.Built
import Verif.Props.BuiltValue
import Verif.Props.Calendar
import Verif.Props.Canonical
import Verif.Props.CharStrings
import Verif.Props.CharStringsAgree
import Verif.Props.CheckDerive
import Verif.Props.Checks
import Verif.Props.Containers
import Verif.Props.ContainersAgree
import Verif.Props.ContainersSafe
import Verif.Props.CustomError
import Verif.Props.Debug
import Verif.Props.DerTree
import Verif.Props.DeriveAlias
import Verif.Props.DeriveChoice
import Verif.Props.DeriveEnum
import Verif.Props.DeriveOption
import Verif.Props.DeriveRead
import Verif.Props.DeriveSlice
import Verif.Props.DeriveWrite
import Verif.Props.DumpDer
import Verif.Props.DynTagged
import Verif.Props.Edits
import Verif.Props.EmbeddedPdv
import Verif.Props.Encodable
import Verif.Props.EncodeWork
import Verif.Props.Encoding
import Verif.Props.EndOfContent
import Verif.Props.Equality
import Verif.Props.Errors
import Verif.Props.Fault
import Verif.Props.Form
import Verif.Props.Forms
import Verif.Props.Generic
import Verif.Props.Header
import Verif.Props.Incomplete
import Verif.Props.Indefinite
import Verif.Props.Integer
import Verif.Props.Iterator
import Verif.Props.Language
import Verif.Props.Large
import Verif.Props.Macros
import Verif.Props.Message
import Verif.Props.Messages
import Verif.Props.MutualSlice
import Verif.Props.OctetString
import Verif.Props.Oid
import Verif.Props.OidAny
import Verif.Props.OidParse
import Verif.Props.OidText
import Verif.Props.OptionItems
import Verif.Props.Optional
import Verif.Props.Order
import Verif.Props.Panic
import Verif.Props.Place
import Verif.Props.RawSeq
import Verif.Props.Real
import Verif.Props.Real32
import Verif.Props.RealAgree
import Verif.Props.RealApi
import Verif.Props.RealDecimal
import Verif.Props.RealNearest
import Verif.Props.RealRound
import Verif.Props.RealSafe
import Verif.Props.Recursive
import Verif.Props.RecursiveAny
import Verif.Props.RecursiveMutual
import Verif.Props.RecursiveMutualValue
import Verif.Props.RecursiveValue
import Verif.Props.Refusal
import Verif.Props.SelfLanguage
import Verif.Props.SelfSlice
import Verif.Props.SelfSliceLanguage
import Verif.Props.SeqCheck
import Verif.Props.SetOrder
import Verif.Props.Sets
import Verif.Props.Sharing
import Verif.Props.Simple
import Verif.Props.SizedEncoder
import Verif.Props.Stream
import Verif.Props.Tagged
import Verif.Props.TaggedMore
import Verif.Props.Time
import Verif.Props.TimeAgree
import Verif.Props.TimeText
import Verif.Props.ToStatic
import Verif.Props.Twins
import Verif.Props.TwoWay
import Verif.Props.Typed
import Verif.Props.Versions
import Verif.Props.Weight
import Verif.Props.Width
import Verif.Props.WidthSlice
import Verif.Props.Work
import Verif.Props.WorkTyped
/-!
# Axioms of the property theorems

Generated from MANIFEST.json. The build fails here if a property theorem depends on an axiom other
than Lean's three standard ones.
-/
open Lean Elab Command

def Asn1.propertyTheorems : List Name := [
  ``Asn1.C01_header_roundtrip,
  ``Asn1.C02_header_minimal,
  ``Asn1.C03_deviations,
  ``Asn1.C03_header_grammar_partial,
  ``Asn1.C03_x690_headers_accepted,
  ``Asn1.C04_exact_split_ber_partial,
  ``Asn1.C04_exact_split_der,
  ``Asn1.C04_marker_deviation,
  ``Asn1.C04_marker_partial,
  ``Asn1.C05_extension_stable,
  ``Asn1.C05_typed_extension_stable,
  ``Asn1.C06_incomplete_truthful,
  ``Asn1.C07_no_truncation,
  ``Asn1.C07_typed_no_truncation,
  ``Asn1.C08_no_panic,
  ``Asn1.C09_nesting_limit,
  ``Asn1.C100_converted,
  ``Asn1.C100_errors_related,
  ``Asn1.C100_first_error,
  ``Asn1.C100_same_inputs,
  ``Asn1.C100_slice_same,
  ``Asn1.C101_from_tag_and_data,
  ``Asn1.C101_header_fields,
  ``Asn1.C101_new_simple,
  ``Asn1.C101_retagged_partial,
  ``Asn1.C102_deprecated,
  ``Asn1.C102_reference_deviation,
  ``Asn1.C102_reference_partial,
  ``Asn1.C103_cut_deviation,
  ``Asn1.C103_iteration_partial,
  ``Asn1.C103_iterators_agree,
  ``Asn1.C103_short_contents,
  ``Asn1.C103_text,
  ``Asn1.C104_built_strings,
  ``Asn1.C104_contents,
  ``Asn1.C104_integer,
  ``Asn1.C104_octet_string,
  ``Asn1.C104_position,
  ``Asn1.C104_references,
  ``Asn1.C104_strings,
  ``Asn1.C105_choice_lost,
  ``Asn1.C105_choice_partial,
  ``Asn1.C105_default_deviation,
  ``Asn1.C105_field,
  ``Asn1.C105_implicit_partial,
  ``Asn1.C105_lost,
  ``Asn1.C105_old_alias,
  ``Asn1.C105_reported,
  ``Asn1.C106_decoded_partial,
  ``Asn1.C106_deviations,
  ``Asn1.C106_equal_partial,
  ``Asn1.C106_equality,
  ``Asn1.C106_same_bytes_partial,
  ``Asn1.C106_sets,
  ``Asn1.C106_times_deviation,
  ``Asn1.C107_cut_deviation,
  ``Asn1.C107_definite,
  ``Asn1.C107_prefix_partial,
  ``Asn1.C108_cut_deviation,
  ``Asn1.C108_objects_partial,
  ``Asn1.C108_pieces_partial,
  ``Asn1.C108_values,
  ``Asn1.C109_inner_deviation,
  ``Asn1.C109_parse_partial,
  ``Asn1.C109_reads_exactly_partial,
  ``Asn1.C109_tag_deviation,
  ``Asn1.C10_der_definite,
  ``Asn1.C110_walk,
  ``Asn1.C110_well_formed_partial,
  ``Asn1.C111_any_order,
  ``Asn1.C111_context_specific_deviation,
  ``Asn1.C111_field_attributes,
  ``Asn1.C111_generated,
  ``Asn1.C111_others_ignored,
  ``Asn1.C111_round_trip_partial,
  ``Asn1.C111_tag_args,
  ``Asn1.C112_accepted,
  ``Asn1.C112_choice_kind,
  ``Asn1.C112_default,
  ``Asn1.C112_impls,
  ``Asn1.C112_once,
  ``Asn1.C112_settings,
  ``Asn1.C112_variant_tags,
  ``Asn1.C113_error_place,
  ``Asn1.C113_first_bad_item,
  ``Asn1.C113_header_place,
  ``Asn1.C113_iterator,
  ``Asn1.C113_sequence_iterator_deviation,
  ``Asn1.C113_unexpected_tag,
  ``Asn1.C114_decoded_size,
  ``Asn1.C114_item_count,
  ``Asn1.C114_octet_string,
  ``Asn1.C115_at_least,
  ``Asn1.C115_each_once,
  ``Asn1.C115_every_type,
  ``Asn1.C115_object_work,
  ``Asn1.C115_typed_work,
  ``Asn1.C116_consumed_partial,
  ``Asn1.C116_deviations,
  ``Asn1.C116_one_form_partial,
  ``Asn1.C116_restored_partial,
  ``Asn1.C116_sets_partial,
  ``Asn1.C117_complete_once,
  ``Asn1.C117_deviations,
  ``Asn1.C117_grouping,
  ``Asn1.C117_sources,
  ``Asn1.C117_tag_count,
  ``Asn1.C117_tag_once,
  ``Asn1.C118_any_order,
  ``Asn1.C118_as_yielded,
  ``Asn1.C118_deviations,
  ``Asn1.C118_order,
  ``Asn1.C118_unsigned_partial,
  ``Asn1.C119_checks,
  ``Asn1.C119_constructed_refused,
  ``Asn1.C119_containers,
  ``Asn1.C119_deviations,
  ``Asn1.C119_from_der,
  ``Asn1.C119_implicit,
  ``Asn1.C119_integer_der,
  ``Asn1.C119_primitive_refused_partial,
  ``Asn1.C119_relative_oid,
  ``Asn1.C11_containers,
  ``Asn1.C11_der_subset_ber_any,
  ``Asn1.C11_der_subset_ber_bit,
  ``Asn1.C11_der_subset_ber_integer,
  ``Asn1.C11_der_subset_ber_octet,
  ``Asn1.C11_der_subset_ber_oid,
  ``Asn1.C11_der_subset_ber_real,
  ``Asn1.C11_der_subset_ber_simple,
  ``Asn1.C11_der_subset_ber_strings,
  ``Asn1.C11_der_subset_ber_tagged,
  ``Asn1.C11_der_subset_ber_time,
  ``Asn1.C120_conversion,
  ``Asn1.C120_error_names_fault_partial,
  ``Asn1.C120_one_fault,
  ``Asn1.C120_padded,
  ``Asn1.C120_real,
  ``Asn1.C120_signed,
  ``Asn1.C121_error_origin_partial,
  ``Asn1.C121_fault,
  ``Asn1.C121_one_origin,
  ``Asn1.C122_f32_roundtrip,
  ``Asn1.C122_f64_close,
  ``Asn1.C122_fractions,
  ``Asn1.C122_honest_library,
  ``Asn1.C122_integers,
  ``Asn1.C122_real_changes,
  ``Asn1.C122_third_place,
  ``Asn1.C122_underflow,
  ``Asn1.C123_bits,
  ``Asn1.C123_generalized,
  ``Asn1.C123_generalized_from_bytes,
  ``Asn1.C123_real,
  ``Asn1.C123_utc,
  ``Asn1.C123_utc_from_bytes,
  ``Asn1.C124_encode_deviation,
  ``Asn1.C124_explicit_decoding,
  ``Asn1.C124_explicit_deviation,
  ``Asn1.C124_from_deviation,
  ``Asn1.C124_implicit_deviation,
  ``Asn1.C124_indefinite,
  ``Asn1.C124_parse_ber_partial,
  ``Asn1.C124_parse_ber_set_partial,
  ``Asn1.C124_parse_der,
  ``Asn1.C124_parse_der_sets,
  ``Asn1.C124_tag_shown,
  ``Asn1.C125_any_partial,
  ``Asn1.C125_boolean_partial,
  ``Asn1.C125_deviations,
  ``Asn1.C125_encoded_alike,
  ``Asn1.C125_integer_partial,
  ``Asn1.C125_oid_partial,
  ``Asn1.C125_real_partial,
  ``Asn1.C125_set_deviation,
  ``Asn1.C126_ber_text_partial,
  ``Asn1.C126_class_text,
  ``Asn1.C126_deviations,
  ``Asn1.C126_error_text,
  ``Asn1.C126_expected,
  ``Asn1.C126_flat_text_partial,
  ``Asn1.C126_inner_text_partial,
  ``Asn1.C126_place,
  ``Asn1.C126_serialize_text_partial,
  ``Asn1.C127_accepted_by_der_partial,
  ``Asn1.C127_boolean_panics,
  ``Asn1.C127_check_constraints,
  ``Asn1.C127_deviations,
  ``Asn1.C127_explicit_parser,
  ``Asn1.C127_from_der_checks_partial,
  ``Asn1.C127_from_der_deviations,
  ``Asn1.C127_no_panic,
  ``Asn1.C127_struct_deviations,
  ``Asn1.C128_equal,
  ``Asn1.C128_history,
  ``Asn1.C128_position,
  ``Asn1.C128_split,
  ``Asn1.C129_any_sequence_partial,
  ``Asn1.C129_any_set,
  ``Asn1.C129_bits,
  ``Asn1.C129_bits_der,
  ``Asn1.C129_bits_fresh,
  ``Asn1.C129_components,
  ``Asn1.C129_sequence_history,
  ``Asn1.C12_uint_roundtrip,
  ``Asn1.C130_der_in_every_form_partial,
  ``Asn1.C130_deviations,
  ``Asn1.C130_from_ber_partial,
  ``Asn1.C130_objects,
  ``Asn1.C130_same_components_partial,
  ``Asn1.C130_same_value_partial,
  ``Asn1.C131_added_required,
  ``Asn1.C131_choice,
  ``Asn1.C131_enumerated,
  ``Asn1.C131_indefinite_deviation,
  ``Asn1.C131_newer_from_bytes,
  ``Asn1.C131_newer_reads_older,
  ``Asn1.C131_older_from_bytes,
  ``Asn1.C131_older_reads_newer,
  ``Asn1.C131_wider_integer,
  ``Asn1.C132_roundtrip_newer_partial,
  ``Asn1.C132_roundtrip_older_partial,
  ``Asn1.C133_declared_order_partial,
  ``Asn1.C133_der_order_deviation,
  ``Asn1.C133_other_order_deviation,
  ``Asn1.C134_64,
  ``Asn1.C134_any,
  ``Asn1.C134_from_ber,
  ``Asn1.C134_from_der,
  ``Asn1.C134_headers,
  ``Asn1.C134_optional_deviation,
  ``Asn1.C134_required,
  ``Asn1.C134_required_accepts,
  ``Asn1.C134_slice_deviation,
  ``Asn1.C134_slices,
  ``Asn1.C134_slices_64,
  ``Asn1.C134_slices_accept,
  ``Asn1.C134_slices_partial,
  ``Asn1.C134_width_partial,
  ``Asn1.C135_doubling_deviation,
  ``Asn1.C135_lengths_partial,
  ``Asn1.C135_same,
  ``Asn1.C135_square,
  ``Asn1.C135_tagged,
  ``Asn1.C136_depth,
  ``Asn1.C136_der_subset_ber,
  ``Asn1.C136_mutual,
  ``Asn1.C136_mutual_returns,
  ``Asn1.C136_no_limit_deviation,
  ``Asn1.C136_no_panic,
  ``Asn1.C136_one_parser,
  ``Asn1.C136_only_consumed_bytes,
  ``Asn1.C137_any_type_partial,
  ``Asn1.C137_choice_roundtrip_partial,
  ``Asn1.C137_mutual_encoders,
  ``Asn1.C137_mutual_roundtrip_partial,
  ``Asn1.C137_one_encoder,
  ``Asn1.C137_roundtrip_partial,
  ``Asn1.C138_checked,
  ``Asn1.C138_checked_length,
  ``Asn1.C138_fits_partial,
  ``Asn1.C138_sum,
  ``Asn1.C138_wraps_deviation,
  ``Asn1.C139_bits_deviation,
  ``Asn1.C139_blocks,
  ``Asn1.C139_depth_deviation,
  ``Asn1.C139_lines,
  ``Asn1.C139_no_object,
  ``Asn1.C139_offsets_partial,
  ``Asn1.C139_order,
  ``Asn1.C139_panics,
  ``Asn1.C139_relative_oid_deviation,
  ``Asn1.C139_returns,
  ``Asn1.C139_together,
  ``Asn1.C139_unsupported,
  ``Asn1.C13_int_roundtrip,
  ``Asn1.C140_deviations,
  ``Asn1.C140_equal_sets,
  ``Asn1.C140_integer_forms,
  ``Asn1.C140_same_content,
  ``Asn1.C140_same_value,
  ``Asn1.C141_content,
  ``Asn1.C141_language,
  ``Asn1.C141_refused,
  ``Asn1.C141_segments,
  ``Asn1.C141_unambiguous,
  ``Asn1.C142_depth,
  ``Asn1.C142_language,
  ``Asn1.C142_least,
  ``Asn1.C142_only_solution,
  ``Asn1.C142_solution,
  ``Asn1.C142_twig,
  ``Asn1.C143_apis_partial,
  ``Asn1.C143_consumes,
  ``Asn1.C143_depth,
  ``Asn1.C143_mutual,
  ``Asn1.C143_mutual_der,
  ``Asn1.C143_mutual_der_returns,
  ``Asn1.C143_mutual_returns,
  ``Asn1.C143_no_panic,
  ``Asn1.C143_one_from_der,
  ``Asn1.C143_one_try_from,
  ``Asn1.C143_primitive_deviation,
  ``Asn1.C143_roundtrip,
  ``Asn1.C143_twig,
  ``Asn1.C14_int_encoding_minimal,
  ``Asn1.C15_int_decoding,
  ``Asn1.C15_int_decoding_examples,
  ``Asn1.C16_der_canonical,
  ``Asn1.C17_integer_bytes,
  ``Asn1.C18_generalizedtime_lengths,
  ``Asn1.C18_lengths_partial,
  ``Asn1.C18_oid_lengths_partial,
  ``Asn1.C18_real_lengths,
  ``Asn1.C18_string_lengths,
  ``Asn1.C18_total_length_deviation,
  ``Asn1.C18_total_length_huge,
  ``Asn1.C18_utctime_lengths,
  ``Asn1.C19_boolean_partial,
  ``Asn1.C19_boolean_roundtrip,
  ``Asn1.C19_from_der_panics,
  ``Asn1.C20_null,
  ``Asn1.C21_enumerated,
  ``Asn1.C22_octetstring_roundtrip,
  ``Asn1.C22_slices,
  ``Asn1.C23_deviations,
  ``Asn1.C23_segment_trees,
  ``Asn1.C23_segmented_strings,
  ``Asn1.C24_bits_roundtrip,
  ``Asn1.C24_bitstring_decoding,
  ``Asn1.C24_bitstring_errors,
  ``Asn1.C24_bitstring_roundtrip,
  ``Asn1.C25_decoding,
  ``Asn1.C25_deviations,
  ``Asn1.C25_oid_arcs_partial,
  ``Asn1.C25_oid_roundtrip,
  ``Asn1.C26_relative_oid,
  ``Asn1.C26_relative_roundtrip,
  ``Asn1.C27_deviations,
  ``Asn1.C27_starts_with_partial,
  ``Asn1.C28_explicit_accepts,
  ``Asn1.C28_explicit_other_tag,
  ``Asn1.C28_explicit_roundtrip_partial,
  ``Asn1.C28_explicit_universal_partial,
  ``Asn1.C28_indefinite_deviation,
  ``Asn1.C28_large_deviation,
  ``Asn1.C29_implicit_accepts,
  ``Asn1.C29_implicit_other_tag,
  ``Asn1.C29_implicit_roundtrip_partial,
  ``Asn1.C29_implicit_universal_partial,
  ``Asn1.C29_nested_deviation,
  ``Asn1.C29_nested_same_class,
  ``Asn1.C30_check_constraints,
  ``Asn1.C30_class_deviation,
  ``Asn1.C30_ends_in,
  ``Asn1.C30_large_deviation,
  ``Asn1.C30_nested,
  ``Asn1.C30_primitive_deviation,
  ``Asn1.C30_push,
  ``Asn1.C30_sequence_of_accepts,
  ``Asn1.C30_sequence_of_roundtrip_partial,
  ``Asn1.C30_sequence_of_universal_partial,
  ``Asn1.C30_silent_loss_deviation,
  ``Asn1.C31_btree_order_deviation,
  ``Asn1.C31_btreeset_u32,
  ``Asn1.C31_der_order_deviation,
  ``Asn1.C31_set_accepts,
  ``Asn1.C31_set_of_accepts,
  ``Asn1.C31_set_of_roundtrip_partial,
  ``Asn1.C31_set_roundtrip_partial,
  ``Asn1.C32_depth_deviation,
  ``Asn1.C32_indefinite_roundtrip_partial,
  ``Asn1.C32_indefinite_universal_partial,
  ``Asn1.C32_nested,
  ``Asn1.C32_universal_items,
  ``Asn1.C32_vec_of_indefinite_deviation,
  ``Asn1.C33_array_roundtrip_partial,
  ``Asn1.C33_array_size,
  ``Asn1.C33_large_deviation,
  ``Asn1.C34_tuple_accepts,
  ``Asn1.C34_tuple_deviation,
  ``Asn1.C34_tuple_roundtrip,
  ``Asn1.C35_indefinite_deviation,
  ``Asn1.C35_option_content,
  ``Asn1.C35_option_from,
  ``Asn1.C35_option_parse_partial,
  ``Asn1.C35_option_roundtrip,
  ``Asn1.C35_option_tag_diverges,
  ``Asn1.C35_parse_optional,
  ``Asn1.C36_constructors,
  ``Asn1.C36_opt_tagged_parser,
  ``Asn1.C36_opt_tagged_roundtrip,
  ``Asn1.C37_input_iterator,
  ``Asn1.C37_input_iterator_deviation,
  ``Asn1.C37_iterators,
  ``Asn1.C37_try_collect,
  ``Asn1.C37_try_parse_collect,
  ``Asn1.C37_typed_collect,
  ``Asn1.C37_typed_iterator,
  ``Asn1.C38_ber_apis_agree,
  ``Asn1.C38_bitstring_deviation,
  ``Asn1.C38_bool_apis_agree,
  ``Asn1.C38_containers_ber,
  ``Asn1.C38_containers_der,
  ``Asn1.C38_enumerated_deviation,
  ``Asn1.C38_explicit_apis_agree,
  ``Asn1.C38_from_der_subset_partial,
  ``Asn1.C38_implicit_apis_partial,
  ``Asn1.C38_implicit_deviation,
  ``Asn1.C38_integer_apis_agree,
  ``Asn1.C38_null_apis_agree,
  ``Asn1.C38_octet_apis_agree,
  ``Asn1.C38_oid_apis_agree,
  ``Asn1.C38_real_same,
  ``Asn1.C38_string_apis_agree,
  ``Asn1.C38_string_same,
  ``Asn1.C38_time_apis_agree,
  ``Asn1.C38_time_same,
  ``Asn1.C38_universal_same,
  ``Asn1.C39_any_reencoding,
  ``Asn1.C40_deviations,
  ``Asn1.C40_utctime_accepts,
  ``Asn1.C41_utctime_roundtrip,
  ``Asn1.C41_zone_deviation,
  ``Asn1.C42_generalizedtime_exact_partial,
  ``Asn1.C42_generalizedtime_roundtrip,
  ``Asn1.C42_millis_deviation,
  ``Asn1.C43_deviations,
  ``Asn1.C43_generalizedtime_accepts,
  ``Asn1.C43_ranges_partial,
  ``Asn1.C44_ascii,
  ``Asn1.C44_deviations,
  ``Asn1.C44_out_of_alphabet,
  ``Asn1.C44_str_accepts,
  ``Asn1.C44_str_roundtrip,
  ``Asn1.C44_strings_accept_partial,
  ``Asn1.C44_strings_roundtrip_partial,
  ``Asn1.C45_bmpstring_accepts,
  ``Asn1.C45_bmpstring_roundtrip_partial,
  ``Asn1.C45_deviations,
  ``Asn1.C45_empty_deviation,
  ``Asn1.C45_test_valid_charset,
  ``Asn1.C46_deviations,
  ``Asn1.C46_empty_deviation,
  ``Asn1.C46_length_deviation,
  ``Asn1.C46_universalstring_accepts,
  ``Asn1.C46_universalstring_roundtrip_partial,
  ``Asn1.C47_assertions,
  ``Asn1.C47_conversions_injective,
  ``Asn1.C47_error_conversions,
  ``Asn1.C47_nom_kinds,
  ``Asn1.C48_deviations,
  ``Asn1.C48_header_equality_partial,
  ``Asn1.C48_header_hash,
  ``Asn1.C49_length_arithmetic,
  ``Asn1.C50_built_failing_writer,
  ``Asn1.C50_containers_failing_writer,
  ``Asn1.C50_failing_writer,
  ``Asn1.C50_oid_failing_writer,
  ``Asn1.C50_real_failing_writer,
  ``Asn1.C50_string_failing_writer,
  ``Asn1.C50_tagged_failing_writer,
  ``Asn1.C50_time_failing_writer,
  ``Asn1.C51_class_ignored,
  ``Asn1.C51_tag_check_partial,
  ``Asn1.C52_boolean_deviation,
  ``Asn1.C52_integer_prefix_free,
  ``Asn1.C52_oid_prefix_free,
  ``Asn1.C52_prefix_free_partial,
  ``Asn1.C52_real_prefix_free,
  ``Asn1.C52_string_prefix_free,
  ``Asn1.C52_time_prefix_free,
  ``Asn1.C53_f64_special_values,
  ``Asn1.C53_special_contents,
  ``Asn1.C53_special_values,
  ``Asn1.C54_overcount_deviation,
  ``Asn1.C54_struct_length,
  ``Asn1.C54_struct_length_huge,
  ``Asn1.C54_struct_length_partial,
  ``Asn1.C55_choice_accepts,
  ``Asn1.C55_choice_object,
  ``Asn1.C55_choice_roundtrip,
  ``Asn1.C55_choice_universal,
  ``Asn1.C55_class_deviation,
  ``Asn1.C55_first_variant,
  ``Asn1.C55_tags,
  ``Asn1.C56_ber_grammar,
  ``Asn1.C57_deviations,
  ``Asn1.C57_display,
  ``Asn1.C57_display_reads_partial,
  ``Asn1.C57_from_str,
  ``Asn1.C57_hex_text,
  ``Asn1.C57_oid_text_partial,
  ``Asn1.C57_reads_back,
  ``Asn1.C58_macro_text,
  ``Asn1.C58_oid_macro,
  ``Asn1.C59_code,
  ``Asn1.C59_int_macro_partial,
  ``Asn1.C60_iterator_len_partial,
  ``Asn1.C60_relative_any,
  ``Asn1.C61_containers_no_panic,
  ``Asn1.C61_f64_panics_partial,
  ``Asn1.C61_option_items_loop,
  ``Asn1.C61_real_encode_panics,
  ``Asn1.C61_real_panics_partial,
  ``Asn1.C61_string_no_panic,
  ``Asn1.C61_tagged_no_panic,
  ``Asn1.C61_time_no_panic,
  ``Asn1.C61_typed_no_panic_partial,
  ``Asn1.C62_explicit_trailing,
  ``Asn1.C63_constructed_ignored,
  ``Asn1.C63_deviations,
  ``Asn1.C63_helpers_partial,
  ``Asn1.C63_tagged_parser_roundtrip,
  ``Asn1.C63_tagged_parsers,
  ``Asn1.C64_checks_settled_partial,
  ``Asn1.C64_containers_incomplete,
  ``Asn1.C64_explicit_der_deviation,
  ``Asn1.C64_incomplete_is_outer_partial,
  ``Asn1.C64_real_checks_settled,
  ``Asn1.C64_string_checks_settled,
  ``Asn1.C64_struct_ber,
  ``Asn1.C64_struct_der_deviation,
  ``Asn1.C64_time_checks_settled,
  ``Asn1.C65_only_consumed_bytes,
  ``Asn1.C65_real_only_consumed_bytes,
  ``Asn1.C65_string_only_consumed_bytes,
  ``Asn1.C65_time_only_consumed_bytes,
  ``Asn1.C66_any_sequence_accepts,
  ``Asn1.C66_any_sequence_roundtrip_partial,
  ``Asn1.C66_from_iter_to_der,
  ``Asn1.C66_large_deviation,
  ``Asn1.C66_raw_accepts,
  ``Asn1.C66_raw_items,
  ``Asn1.C66_raw_roundtrip,
  ``Asn1.C67_from_and_then,
  ``Asn1.C67_parse_and_then_partial,
  ``Asn1.C67_primitive_deviation,
  ``Asn1.C68_canonical_partial,
  ``Asn1.C68_deviations,
  ``Asn1.C69_chronological_partial,
  ``Asn1.C69_order_deviations,
  ``Asn1.C69_order_total,
  ``Asn1.C69_order_transitive,
  ``Asn1.C70_adjusted_year,
  ``Asn1.C70_timestamp_deviation,
  ``Asn1.C70_to_datetime_partial,
  ``Asn1.C70_unix_timestamp,
  ``Asn1.C70_year_wrap_deviation,
  ``Asn1.C71_as_any_str_partial,
  ``Asn1.C71_as_any_str_spec,
  ``Asn1.C71_deviations,
  ``Asn1.C72_binary_nearest_partial,
  ``Asn1.C72_binary_value_partial,
  ``Asn1.C72_deviations,
  ``Asn1.C72_real_accepts,
  ``Asn1.C72_sign_deviation,
  ``Asn1.C73_constructors,
  ``Asn1.C73_deviations,
  ``Asn1.C73_enc_base,
  ``Asn1.C73_infinite_mantissa,
  ``Asn1.C73_long_exponent_deviation,
  ``Asn1.C73_other_bases,
  ``Asn1.C73_real_roundtrip_partial,
  ``Asn1.C73_real_values,
  ``Asn1.C74_classes,
  ``Asn1.C74_decimal_form,
  ``Asn1.C74_nr1_value,
  ``Asn1.C74_real_new,
  ``Asn1.C74_real_roundtrip_partial,
  ``Asn1.C75_deviations,
  ``Asn1.C75_f64_exact_partial,
  ``Asn1.C75_f64_nearest_partial,
  ``Asn1.C75_small_powers,
  ``Asn1.C76_field_reads,
  ``Asn1.C76_struct_accepts,
  ``Asn1.C77_struct_roundtrip_partial,
  ``Asn1.C77_struct_universal_partial,
  ``Asn1.C78_all_plain,
  ``Asn1.C78_none_bytes,
  ``Asn1.C78_none_deviation,
  ``Asn1.C78_none_struct_partial,
  ``Asn1.C78_some_deviation,
  ``Asn1.C79_discriminants,
  ``Asn1.C79_enum_accepts,
  ``Asn1.C79_enum_roundtrip,
  ``Asn1.C80_alias_accepts,
  ``Asn1.C80_alias_encoding,
  ``Asn1.C80_alias_roundtrip,
  ``Asn1.C80_alias_universal,
  ``Asn1.C81_apis_agree_partial,
  ``Asn1.C81_check_accepts,
  ``Asn1.C81_check_deviation,
  ``Asn1.C81_no_panic,
  ``Asn1.C81_slice_accepts,
  ``Asn1.C81_slice_roundtrip_partial,
  ``Asn1.C81_slice_universal_partial,
  ``Asn1.C82_der_subset_ber,
  ``Asn1.C82_no_panic,
  ``Asn1.C82_only_consumed_bytes,
  ``Asn1.C83_one_object,
  ``Asn1.C83_prefix_free_partial,
  ``Asn1.C83_roundtrip_partial,
  ``Asn1.C84_encode_no_panic_partial,
  ``Asn1.C84_from_iter_no_panic,
  ``Asn1.C84_real_deviation,
  ``Asn1.C85_conversion,
  ``Asn1.C85_conversion_own_tag,
  ``Asn1.C85_conversion_roundtrip,
  ``Asn1.C85_no_panic,
  ``Asn1.C85_real_panics,
  ``Asn1.C85_relative_oid,
  ``Asn1.C85_relative_oid_deviation,
  ``Asn1.C85_relative_oid_from_ber,
  ``Asn1.C85_tag_cases,
  ``Asn1.C85_tag_deviation,
  ``Asn1.C86_as_optional_none,
  ``Asn1.C86_as_optional_some,
  ``Asn1.C86_nested_deviation,
  ``Asn1.C87_iter_elements,
  ``Asn1.C87_mode_deviation,
  ``Asn1.C87_parse_content,
  ``Asn1.C88_depth_deviation,
  ``Asn1.C88_split_ber,
  ``Asn1.C88_split_der,
  ``Asn1.C89_der_subset,
  ``Asn1.C89_pdv_accepts,
  ``Asn1.C89_pdv_no_panic,
  ``Asn1.C89_pdv_only_syntaxes,
  ``Asn1.C89_pdv_standard_cases,
  ``Asn1.C89_pdv_standard_refused,
  ``Asn1.C90_datetime_text,
  ``Asn1.C90_deviations,
  ``Asn1.C90_display_panic,
  ``Asn1.C90_generalized_exact,
  ``Asn1.C90_generalized_injective,
  ``Asn1.C90_generalized_readback,
  ``Asn1.C90_negative_minutes_deviation,
  ``Asn1.C90_utc_injective,
  ``Asn1.C90_utc_readback,
  ``Asn1.C91_equal,
  ``Asn1.C91_equal_deviation,
  ``Asn1.C91_equal_encodings,
  ``Asn1.C91_is_set_bits,
  ``Asn1.C91_is_set_bytes,
  ``Asn1.C91_new,
  ``Asn1.C92_deviations,
  ``Asn1.C92_end_of_content,
  ``Asn1.C92_end_of_content_bytes,
  ``Asn1.C93_ber_as_input,
  ``Asn1.C93_der_as_input,
  ``Asn1.C93_no_panic,
  ``Asn1.C93_then_content,
  ``Asn1.C94_content_suffix,
  ``Asn1.C94_from_der,
  ``Asn1.C94_hex_dump,
  ``Asn1.C94_others,
  ``Asn1.C94_parse,
  ``Asn1.C95_bigint,
  ``Asn1.C95_der_bijection,
  ``Asn1.C95_from_const_array,
  ``Asn1.C95_machine,
  ``Asn1.C95_padded,
  ``Asn1.C96_cast_exact,
  ``Asn1.C96_cast_nearest,
  ``Asn1.C96_cast_overflow,
  ``Asn1.C96_double_rounding,
  ``Asn1.C96_f32_agree,
  ``Asn1.C96_f32_exact_partial,
  ``Asn1.C96_f32_reads,
  ``Asn1.C96_f32_roundtrip_partial,
  ``Asn1.C96_f32_special_values,
  ``Asn1.C97_any,
  ``Asn1.C97_content,
  ``Asn1.C97_header,
  ``Asn1.C97_sequence,
  ``Asn1.C98_any_set_accepts,
  ``Asn1.C98_any_set_roundtrip_partial,
  ``Asn1.C98_duplicates_deviation,
  ``Asn1.C98_hash_deviation,
  ``Asn1.C98_insert,
  ``Asn1.C98_large_deviation,
  ``Asn1.C98_remove,
  ``Asn1.C98_size,
  ``Asn1.C99_alias_any,
  ``Asn1.C99_alias_check,
  ``Asn1.C99_alias_from_ber,
  ``Asn1.C99_alias_from_der,
  ``Asn1.C99_der_check_deviation,
  ``Asn1.C99_no_panic]

run_cmd
  for n in Asn1.propertyTheorems do
    for a in (← collectAxioms n) do
      unless [``propext, ``Classical.choice, ``Quot.sound].contains a do
        throwError "{n} depends on the axiom {a}"
