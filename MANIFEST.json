{
 "claims": [
  {
   "property": "C01",
   "status": "proved",
   "theorems": [
    "Ripcalc.C01_ipv4_bytes"
   ],
   "note": ""
  },
  {
   "property": "C02",
   "status": "proved",
   "theorems": [
    "Ripcalc.C02_ipv6_bytes",
    "Ripcalc.C02_ipv6_chunks"
   ],
   "note": ""
  },
  {
   "property": "C03",
   "status": "proved",
   "theorems": [
    "Ripcalc.C03_order_v4",
    "Ripcalc.C03_order_v6"
   ],
   "note": ""
  },
  {
   "property": "C04",
   "status": "proved",
   "theorems": [
    "Ripcalc.C04_ipv4_arithmetic"
   ],
   "note": ""
  },
  {
   "property": "C05",
   "status": "proved",
   "theorems": [
    "Ripcalc.C05_ipv6_addition"
   ],
   "note": ""
  },
  {
   "property": "C06",
   "status": "partial",
   "theorems": [
    "Ripcalc.C06_counterexample",
    "Ripcalc.C06_ipv6_subtraction_partial",
    "Ripcalc.C06_ipv6_subtraction_error",
    "Ripcalc.C06_ipv6_offsets_partial"
   ],
   "note": "The full claim is false of the code (C06_counterexample): sub_internal borrows wrongly when the top halves differ and the bottom half underflows. Proved: exact wherever the code does not take that path, and the exact wrong result there."
  },
  {
   "property": "C07",
   "status": "partial",
   "theorems": [
    "Ripcalc.C07_counterexample",
    "Ripcalc.C07_ipv6_offsets_return_partial"
   ],
   "note": "The full claim is false of the code (C07_counterexample): offset i32::MIN panics in checked builds and recurses forever in unchecked ones. Proved for every other offset."
  },
  {
   "property": "C08",
   "status": "proved",
   "theorems": [
    "Ripcalc.C08_ipv4_round_trip",
    "Ripcalc.C08_ipv4_shape",
    "Ripcalc.C08_ipv4_injective"
   ],
   "note": ""
  },
  {
   "property": "C09",
   "status": "proved",
   "theorems": [
    "Ripcalc.C09_ipv4_parser",
    "Ripcalc.C09_ipv4_parser_error"
   ],
   "note": ""
  },
  {
   "property": "C10",
   "status": "partial",
   "theorems": [
    "Ripcalc.C10_counterexample",
    "Ripcalc.C10_ipv6_round_trip_partial",
    "Ripcalc.C10_ipv6_round_trip_common"
   ],
   "note": "The full claim is false of the code (C10_counterexample). Proved: exactly which addresses round-trip and that the others give an error."
  },
  {
   "property": "C11",
   "status": "proved",
   "theorems": [
    "Ripcalc.C11_ipv6_parser_total",
    "Ripcalc.C11_ipv6_parser",
    "Ripcalc.C11_chunks_determine"
   ],
   "note": ""
  },
  {
   "property": "C12",
   "status": "proved",
   "theorems": [
    "Ripcalc.C12_ipv6_display",
    "Ripcalc.C12_run_unique",
    "Ripcalc.C12_ipv6_injective"
   ],
   "note": ""
  },
  {
   "property": "C13",
   "status": "partial",
   "theorems": [
    "Ripcalc.C13_intended",
    "Ripcalc.C13_intended_unique",
    "Ripcalc.C13_never",
    "Ripcalc.C13_only_the_bound",
    "Ripcalc.C13_full_string_is_empty",
    "Ripcalc.C13_counterexample"
   ],
   "note": "The claim is false of the code: to_full_string always returns the empty string (C13_counterexample, C13_full_string_is_empty), which is never the text described (C13_never). Proved: there is exactly one such text for each address (C13_intended, C13_intended_unique), and the bound of the loop is the only fault (C13_only_the_bound)."
  },
  {
   "property": "C14",
   "status": "proved",
   "theorems": [
    "Ripcalc.C14_bitwise",
    "Ripcalc.C14_counts",
    "Ripcalc.C14_families",
    "Ripcalc.C14_bitwise_families",
    "Ripcalc.C14_counts_families"
   ],
   "note": ""
  },
  {
   "property": "C15",
   "status": "proved",
   "theorems": [
    "Ripcalc.C15_prefix_mask_prefix"
   ],
   "note": ""
  },
  {
   "property": "C16",
   "status": "proved",
   "theorems": [
    "Ripcalc.C16_prefix_detection",
    "Ripcalc.C16_prefix_detection_none"
   ],
   "note": ""
  },
  {
   "property": "C17",
   "status": "proved",
   "theorems": [
    "Ripcalc.C17_bytes_to_bits",
    "Ripcalc.C17_bits_to_bytes"
   ],
   "note": ""
  },
  {
   "property": "C18",
   "status": "proved",
   "theorems": [
    "Ripcalc.C18_unravel_weave",
    "Ripcalc.C18_unravel_weave_families"
   ],
   "note": ""
  },
  {
   "property": "C19",
   "status": "proved",
   "theorems": [
    "Ripcalc.C19_unravel_bits",
    "Ripcalc.C19_unravel_mask",
    "Ripcalc.C19_unravel_bits_families",
    "Ripcalc.C19_unravel_mask_families"
   ],
   "note": ""
  },
  {
   "property": "C20",
   "status": "proved",
   "theorems": [
    "Ripcalc.C20_new_with_mask_families",
    "Ripcalc.C20_new_with_prefix_families",
    "Ripcalc.C20_new_with_mask",
    "Ripcalc.C20_new_with_prefix"
   ],
   "note": ""
  },
  {
   "property": "C21",
   "status": "proved",
   "theorems": [
    "Ripcalc.C21_mask_strict_families",
    "Ripcalc.C21_prefix_strict_families",
    "Ripcalc.C21_mask_strict",
    "Ripcalc.C21_prefix_strict"
   ],
   "note": ""
  },
  {
   "property": "C22",
   "status": "proved",
   "theorems": [
    "Ripcalc.C22_constructors_agree_families",
    "Ripcalc.C22_constructors_agree"
   ],
   "note": ""
  },
  {
   "property": "C23",
   "status": "proved",
   "theorems": [
    "Ripcalc.C23_contains_families",
    "Ripcalc.C23_same_mask_families",
    "Ripcalc.C23_contains",
    "Ripcalc.C23_same_mask"
   ],
   "note": ""
  },
  {
   "property": "C24",
   "status": "proved",
   "theorems": [
    "Ripcalc.C24_address_count_families",
    "Ripcalc.C24_host_count_families",
    "Ripcalc.C24_address_count",
    "Ripcalc.C24_host_count"
   ],
   "note": ""
  },
  {
   "property": "C25",
   "status": "proved",
   "theorems": [
    "Ripcalc.C25_broadcast_families",
    "Ripcalc.C25_broadcast"
   ],
   "note": ""
  },
  {
   "property": "C26",
   "status": "proved",
   "theorems": [
    "Ripcalc.C26_first_host_families",
    "Ripcalc.C26_host_pair_families",
    "Ripcalc.C26_last_host_families",
    "Ripcalc.C26_first_host",
    "Ripcalc.C26_last_host",
    "Ripcalc.C26_host_pair"
   ],
   "note": ""
  },
  {
   "property": "C27",
   "status": "proved",
   "theorems": [
    "Ripcalc.C27_next_subnet_families",
    "Ripcalc.C27_next_subnet"
   ],
   "note": ""
  },
  {
   "property": "C28",
   "status": "proved",
   "theorems": [
    "Ripcalc.C28_antisymm_families",
    "Ripcalc.C28_superset_families",
    "Ripcalc.C28_superset",
    "Ripcalc.C28_antisymm"
   ],
   "note": ""
  },
  {
   "property": "C29",
   "status": "partial",
   "theorems": [
    "Ripcalc.C29_intersects_cidr_families",
    "Ripcalc.C29_intersects_families_partial",
    "Ripcalc.C29_counterexample",
    "Ripcalc.C29_intersects_partial",
    "Ripcalc.C29_intersects_cidr"
   ],
   "note": "The full claim is false for lopsided masks (C29_counterexample). Proved for CIDR networks; for all networks a common address is always detected and the answer is overlap of the first..last ranges."
  },
  {
   "property": "C30",
   "status": "partial",
   "theorems": [
    "Ripcalc.C30_ipv4",
    "Ripcalc.C30_ipv6_partial",
    "Ripcalc.C30_ipv6_short_prefix",
    "Ripcalc.C30_counterexample"
   ],
   "note": "Partial for IPv6 because of C10; proved for IPv4 and for IPv6 networks whose base (and mask) text round-trips."
  },
  {
   "property": "C31",
   "status": "proved",
   "theorems": [
    "Ripcalc.C31_net_unique_families",
    "Ripcalc.C31_recognition",
    "Ripcalc.C31_regexes",
    "Ripcalc.C31_meaning_ipv4",
    "Ripcalc.C31_meaning_ipv6",
    "Ripcalc.C31_net_unique"
   ],
   "note": ""
  },
  {
   "property": "C32",
   "status": "proved",
   "theorems": [
    "Ripcalc.C32_mask_wildcard_ipv4",
    "Ripcalc.C32_prefix_ipv4",
    "Ripcalc.C32_mask_wildcard_ipv6",
    "Ripcalc.C32_prefix_ipv6"
   ],
   "note": ""
  },
  {
   "property": "C33",
   "status": "proved",
   "theorems": [
    "Ripcalc.C33_parsed_good"
   ],
   "note": ""
  },
  {
   "property": "C34",
   "status": "proved",
   "theorems": [
    "Ripcalc.C34_prefix_syntax",
    "Ripcalc.C34_error",
    "Ripcalc.C34_resize_ipv4",
    "Ripcalc.C34_resize_ipv6",
    "Ripcalc.C34_resize_target"
   ],
   "note": ""
  },
  {
   "property": "C35",
   "status": "proved",
   "theorems": [
    "Ripcalc.C35_same_family",
    "Ripcalc.C35_lists"
   ],
   "note": ""
  },
  {
   "property": "C36",
   "status": "proved",
   "theorems": [
    "Ripcalc.C36_parse_addr",
    "Ripcalc.C36_parse_subnet",
    "Ripcalc.C36_version"
   ],
   "note": ""
  },
  {
   "property": "C37",
   "status": "proved",
   "theorems": [
    "Ripcalc.C37_iterator",
    "Ripcalc.C37_enumerate",
    "Ripcalc.C37_enumerate_families",
    "Ripcalc.C37_iterator_families"
   ],
   "note": ""
  },
  {
   "property": "C38",
   "status": "proved",
   "theorems": [
    "Ripcalc.C38_enumerate",
    "Ripcalc.C38_output_unique",
    "Ripcalc.C38_usage"
   ],
   "note": ""
  },
  {
   "property": "C39",
   "status": "partial",
   "theorems": [
    "Ripcalc.C39_range_partial",
    "Ripcalc.C39_top_panics",
    "Ripcalc.C39_whole_space",
    "Ripcalc.C39_returns_iff",
    "Ripcalc.C39_command_v4",
    "Ripcalc.C39_command_v6",
    "Ripcalc.C39_counterexample",
    "Ripcalc.C39_range_families_partial",
    "Ripcalc.C39_returns_iff_families",
    "Ripcalc.C39_top_panics_families",
    "Ripcalc.C39_whole_space_families"
   ],
   "note": "The full claim is false of the code for ranges ending at the greatest address (counterexamples); proved for every other range."
  },
  {
   "property": "C40",
   "status": "proved",
   "theorems": [
    "Ripcalc.C40_minimal",
    "Ripcalc.C40_minimal_families"
   ],
   "note": ""
  },
  {
   "property": "C41",
   "status": "proved",
   "theorems": [
    "Ripcalc.C41_symmetric",
    "Ripcalc.C41_symmetric_families"
   ],
   "note": ""
  },
  {
   "property": "C42",
   "status": "proved",
   "theorems": [
    "Ripcalc.C42_same_addresses_families",
    "Ripcalc.C42_same_addresses"
   ],
   "note": ""
  },
  {
   "property": "C43",
   "status": "proved",
   "theorems": [
    "Ripcalc.C43_set_function_families",
    "Ripcalc.C43_set_function"
   ],
   "note": ""
  },
  {
   "property": "C44",
   "status": "proved",
   "theorems": [
    "Ripcalc.C44_sorted_families",
    "Ripcalc.C44_sorted"
   ],
   "note": ""
  },
  {
   "property": "C45",
   "status": "partial",
   "theorems": [
    "Ripcalc.C45_nothing_to_merge",
    "Ripcalc.C45_nothing_to_merge_families",
    "Ripcalc.C45_cidr_families_partial",
    "Ripcalc.C45_input_families_partial",
    "Ripcalc.C45_no_inclusion_families_partial",
    "Ripcalc.C45_no_inclusion_partial",
    "Ripcalc.C45_cidr_partial",
    "Ripcalc.C45_input_partial",
    "Ripcalc.C45_counterexample",
    "Ripcalc.C45_nested_partial",
    "Ripcalc.C45_fails_partial",
    "Ripcalc.C45_exact_partial",
    "Ripcalc.C45_fails_families_partial",
    "Ripcalc.C45_exact_families_partial",
    "Ripcalc.C45_nested_families_partial"
   ],
   "note": "The full claim is false for lopsided input (C45_counterexample); proved for CIDR input and for all networks that are nested or disjoint, whatever the masks (C45_nested_partial), for all masks that nothing is left to merge (C45_nothing_to_merge), for all masks a condition under which the claim fails (C45_fails_partial), which is exact if no network arises in two ways (C45_exact_partial); what the result consists of for all masks is C88."
  },
  {
   "property": "C46",
   "status": "proved",
   "theorems": [
    "Ripcalc.C46_chain_minimal_families",
    "Ripcalc.C46_cidr_minimal_families",
    "Ripcalc.C46_chain_minimal",
    "Ripcalc.C46_cidr_minimal"
   ],
   "note": ""
  },
  {
   "property": "C47",
   "status": "partial",
   "theorems": [
    "Ripcalc.C47_fixed_points",
    "Ripcalc.C47_fixed_points_families",
    "Ripcalc.C47_cidr_families_partial",
    "Ripcalc.C47_idempotent_families_partial",
    "Ripcalc.C47_iff_families",
    "Ripcalc.C47_iff",
    "Ripcalc.C47_idempotent_partial",
    "Ripcalc.C47_cidr_partial",
    "Ripcalc.C47_counterexample",
    "Ripcalc.C47_nested_partial",
    "Ripcalc.C47_nested_families_partial"
   ],
   "note": "The full claim is false for lopsided input (C47_counterexample); proved for CIDR input and for all networks that are nested or disjoint, whatever the masks (C47_nested_partial), and for all masks exactly which lists are left unchanged (C47_fixed_points)."
  },
  {
   "property": "C48",
   "status": "proved",
   "theorems": [
    "Ripcalc.C48_subnets_families",
    "Ripcalc.C48_subnets"
   ],
   "note": ""
  },
  {
   "property": "C49",
   "status": "proved",
   "theorems": [
    "Ripcalc.C49_same_families",
    "Ripcalc.C49_supernet_families",
    "Ripcalc.C49_supernet",
    "Ripcalc.C49_same"
   ],
   "note": ""
  },
  {
   "property": "C50",
   "status": "proved",
   "theorems": [
    "Ripcalc.C50_back_families",
    "Ripcalc.C50_count_families",
    "Ripcalc.C50_larger_families",
    "Ripcalc.C50_result_families",
    "Ripcalc.C50_result",
    "Ripcalc.C50_count",
    "Ripcalc.C50_back",
    "Ripcalc.C50_larger"
   ],
   "note": ""
  },
  {
   "property": "C51",
   "status": "proved",
   "theorems": [
    "Ripcalc.C51_host_count_families",
    "Ripcalc.C51_requests_families",
    "Ripcalc.C51_requests",
    "Ripcalc.C51_host_count"
   ],
   "note": ""
  },
  {
   "property": "C52",
   "status": "proved",
   "theorems": [
    "Ripcalc.C52_layout_families",
    "Ripcalc.C52_layout",
    "Ripcalc.C52_exactly",
    "Ripcalc.C52_unique",
    "Ripcalc.C52_exactly_families",
    "Ripcalc.C52_unique_families"
   ],
   "note": ""
  },
  {
   "property": "C53",
   "status": "partial",
   "theorems": [
    "Ripcalc.C53_contained_partial_v4",
    "Ripcalc.C53_contained_partial_v6",
    "Ripcalc.C53_counterexample",
    "Ripcalc.C53_exactly_when",
    "Ripcalc.C53_exactly_when_cidr",
    "Ripcalc.C53_command_exact_v4",
    "Ripcalc.C53_command_exact_v6",
    "Ripcalc.C53_exactly_when_families",
    "Ripcalc.C53_exactly_when_cidr_families"
   ],
   "note": "The full claim is false (C53_counterexample); proved: for every mask exactly when the results are inside the network (C53_exactly_when), for CIDR networks exactly when the report is right (C53_command_exact_v4/_v6)."
  },
  {
   "property": "C54",
   "status": "partial",
   "theorems": [
    "Ripcalc.C54_exact_families",
    "Ripcalc.C54_fits_families_partial",
    "Ripcalc.C54_top_fails_families",
    "Ripcalc.C54_exact",
    "Ripcalc.C54_fits_partial",
    "Ripcalc.C54_top_fails",
    "Ripcalc.C54_counterexample",
    "Ripcalc.C54_refused",
    "Ripcalc.C54_refused_families"
   ],
   "note": "The full claim is false at the end of the address space (C54_counterexample); proved elsewhere."
  },
  {
   "property": "C55",
   "status": "partial",
   "theorems": [
    "Ripcalc.C55_unused_partial_v4",
    "Ripcalc.C55_full_v4",
    "Ripcalc.C55_top_panics_v4",
    "Ripcalc.C55_unused_partial_v6",
    "Ripcalc.C55_full_v6",
    "Ripcalc.C55_top_panics_v6",
    "Ripcalc.C55_counterexample",
    "Ripcalc.C55_counterexample_top",
    "Ripcalc.C55_exactly_when",
    "Ripcalc.C55_command_exact_v4",
    "Ripcalc.C55_command_exact_v6",
    "Ripcalc.C55_exactly_when_families"
   ],
   "note": "The full claim is false when nothing is left or at the end of the address space (C55 counterexamples), and for masks with gaps; proved: for every mask exactly when the listed networks are the unused addresses and exactly when the program panics (C55_exactly_when, C55_command_exact_v4/_v6)."
  },
  {
   "property": "C56",
   "status": "proved",
   "theorems": [
    "Ripcalc.C56_dispatch",
    "Ripcalc.C56_usage",
    "Ripcalc.C56_exit_codes"
   ],
   "note": ""
  },
  {
   "property": "C57",
   "status": "proved",
   "theorems": [
    "Ripcalc.C57_texts",
    "Ripcalc.C57_malformed"
   ],
   "note": ""
  },
  {
   "property": "C58",
   "status": "proved",
   "theorems": [
    "Ripcalc.C58_any",
    "Ripcalc.C58_blocks",
    "Ripcalc.C58_error",
    "Ripcalc.C58_total"
   ],
   "note": ""
  },
  {
   "property": "C59",
   "status": "proved",
   "theorems": [
    "Ripcalc.C59_rows_v4",
    "Ripcalc.C59_rows_v6",
    "Ripcalc.C59_binary_v4",
    "Ripcalc.C59_binary_v6",
    "Ripcalc.C59_any_v4",
    "Ripcalc.C59_any_v6"
   ],
   "note": ""
  },
  {
   "property": "C60",
   "status": "proved",
   "theorems": [
    "Ripcalc.C60_class_label",
    "Ripcalc.C60_any",
    "Ripcalc.C60_printed"
   ],
   "note": ""
  },
  {
   "property": "C61",
   "status": "partial",
   "theorems": [
    "Ripcalc.C61_plain_modes",
    "Ripcalc.C61_uncolored_partial",
    "Ripcalc.C61_counterexample"
   ],
   "note": "The full claim is false (C61_counterexample): every fragment is followed by a line break when colours are disabled. Proved: the characters are the same apart from line breaks (C61_uncolored_partial); exactly which lines are written without colours is C100_piped."
  },
  {
   "property": "C62",
   "status": "proved",
   "theorems": [
    "Ripcalc.C62_block_v4",
    "Ripcalc.C62_block_v6",
    "Ripcalc.C62_any_v4",
    "Ripcalc.C62_any_v6"
   ],
   "note": ""
  },
  {
   "property": "C63",
   "status": "proved",
   "theorems": [
    "Ripcalc.C63_minimize_v4",
    "Ripcalc.C63_minimize_v6",
    "Ripcalc.C63_minimize"
   ],
   "note": ""
  },
  {
   "property": "C64",
   "status": "proved",
   "theorems": [
    "Ripcalc.C64_resize_v4",
    "Ripcalc.C64_any_v4",
    "Ripcalc.C64_resize_v6",
    "Ripcalc.C64_any_v6",
    "Ripcalc.C64_errors",
    "Ripcalc.C64_total"
   ],
   "note": ""
  },
  {
   "property": "C65",
   "status": "proved",
   "theorems": [
    "Ripcalc.C65_split_v4",
    "Ripcalc.C65_any_v4",
    "Ripcalc.C65_split_v6",
    "Ripcalc.C65_any_v6",
    "Ripcalc.C65_errors"
   ],
   "note": ""
  },
  {
   "property": "C66",
   "status": "proved",
   "theorems": [
    "Ripcalc.C66_returns",
    "Ripcalc.C66_derange",
    "Ripcalc.C66_split"
   ],
   "note": ""
  },
  {
   "property": "C67",
   "status": "proved",
   "theorems": [
    "Ripcalc.C67_mask_colors",
    "Ripcalc.C67_override"
   ],
   "note": ""
  },
  {
   "property": "C68",
   "status": "partial",
   "theorems": [
    "Ripcalc.C68_class_colors_sound",
    "Ripcalc.C68_class_colors_partial",
    "Ripcalc.C68_exactly_when",
    "Ripcalc.C68_counterexample"
   ],
   "note": "The full claim is false (C68_counterexample: 64.0.0.0/2 is labelled class A without a highlighted bit). Proved: highlighted bits always define the class of the label; for every mask exactly when the claim holds (C68_exactly_when)."
  },
  {
   "property": "C69",
   "status": "proved",
   "theorems": [
    "Ripcalc.C69_display_v4",
    "Ripcalc.C69_display_v6"
   ],
   "note": ""
  },
  {
   "property": "C70",
   "status": "proved",
   "theorems": [
    "Ripcalc.C70_number_error",
    "Ripcalc.C70_number_total",
    "Ripcalc.C70_digits_overflow",
    "Ripcalc.C70_ipv4_error",
    "Ripcalc.C70_ipv4_total"
   ],
   "note": ""
  },
  {
   "property": "C71",
   "status": "proved",
   "theorems": [
    "Ripcalc.C71_ipv6_error",
    "Ripcalc.C71_ipv6_total"
   ],
   "note": ""
  },
  {
   "property": "C72",
   "status": "proved",
   "theorems": [
    "Ripcalc.C72_netspec_error",
    "Ripcalc.C72_netspec_total",
    "Ripcalc.C72_prefix_overflow"
   ],
   "note": ""
  },
  {
   "property": "C73",
   "status": "proved",
   "theorems": [
    "Ripcalc.C73_addr_error",
    "Ripcalc.C73_subnet_error",
    "Ripcalc.C73_list_error"
   ],
   "note": ""
  },
  {
   "property": "C74",
   "status": "proved",
   "theorems": [
    "Ripcalc.C74_message",
    "Ripcalc.C74_usage",
    "Ripcalc.C74_layout",
    "Ripcalc.C74_stderr"
   ],
   "note": ""
  },
  {
   "property": "C75",
   "status": "proved",
   "theorems": [
    "Ripcalc.C75_quote",
    "Ripcalc.C75_message",
    "Ripcalc.C75_stderr"
   ],
   "note": ""
  },
  {
   "property": "C76",
   "status": "proved",
   "theorems": [
    "Ripcalc.C76_message",
    "Ripcalc.C76_failure",
    "Ripcalc.C76_success"
   ],
   "note": ""
  },
  {
   "property": "C77",
   "status": "proved",
   "theorems": [
    "Ripcalc.C77_printable",
    "Ripcalc.C77_characters"
   ],
   "note": ""
  },
  {
   "property": "C78",
   "status": "proved",
   "theorems": [
    "Ripcalc.C78_terminal",
    "Ripcalc.C78_prefix",
    "Ripcalc.C78_distinct",
    "Ripcalc.C78_palette",
    "Ripcalc.C78_uncolored"
   ],
   "note": ""
  },
  {
   "property": "C79",
   "status": "proved",
   "theorems": [
    "Ripcalc.C79_count",
    "Ripcalc.C79_unique",
    "Ripcalc.C79_counts",
    "Ripcalc.C79_every"
   ],
   "note": ""
  },
  {
   "property": "C80",
   "status": "proved",
   "theorems": [
    "Ripcalc.C80_network_texts",
    "Ripcalc.C80_show",
    "Ripcalc.C80_minimize",
    "Ripcalc.C80_derange",
    "Ripcalc.C80_resize",
    "Ripcalc.C80_split",
    "Ripcalc.C80_enumerate",
    "Ripcalc.C80_rest"
   ],
   "note": ""
  },
  {
   "property": "C81",
   "status": "proved",
   "theorems": [
    "Ripcalc.C81_v4",
    "Ripcalc.C81_v6",
    "Ripcalc.C81_address",
    "Ripcalc.C81_network",
    "Ripcalc.C81_subnet",
    "Ripcalc.C81_count",
    "Ripcalc.C81_show",
    "Ripcalc.C81_minimize",
    "Ripcalc.C81_derange",
    "Ripcalc.C81_resize",
    "Ripcalc.C81_split",
    "Ripcalc.C81_enumerate",
    "Ripcalc.C81_usage",
    "Ripcalc.C81_otherwise"
   ],
   "note": ""
  },
  {
   "property": "C82",
   "status": "partial",
   "theorems": [
    "Ripcalc.C82_reads_partial",
    "Ripcalc.C82_strict_partial",
    "Ripcalc.C82_counterexample",
    "Ripcalc.C82_unambiguous",
    "Ripcalc.C82_network"
   ],
   "note": "The full claim is false of the code (C82_counterexample, and C82_network for upper-case digits in networks). Proved: exactly which texts of RFC 4291 are read (all but those with eight colons) and with what error the others are rejected (C82_reads_partial), and exactly which accepted texts are not of RFC 4291 (C82_strict_partial)."
  },
  {
   "property": "C83",
   "status": "partial",
   "theorems": [
    "Ripcalc.C83_display_partial",
    "Ripcalc.C83_canonical_read",
    "Ripcalc.C83_counterexample"
   ],
   "note": "The full claim is false of the code (C83_counterexample): a single zero group is shortened. Proved: exactly which addresses are displayed as prescribed (C83_display_partial); the prescribed text is unique and is read for every address."
  },
  {
   "property": "C84",
   "status": "proved",
   "theorems": [
    "Ripcalc.C84_addresses_only",
    "Ripcalc.C84_characterised",
    "Ripcalc.C84_nothing_to_merge",
    "Ripcalc.C84_single",
    "Ripcalc.C84_addresses_only_families",
    "Ripcalc.C84_characterised_families",
    "Ripcalc.C84_nothing_to_merge_families",
    "Ripcalc.C84_single_families"
   ],
   "note": ""
  },
  {
   "property": "C85",
   "status": "proved",
   "theorems": [
    "Ripcalc.C85_resize_minimize",
    "Ripcalc.C85_resize_back",
    "Ripcalc.C85_derange_network",
    "Ripcalc.C85_minimize_derange",
    "Ripcalc.C85_derange_minimal",
    "Ripcalc.C85_derange_enumerate",
    "Ripcalc.C85_enumerate_minimize",
    "Ripcalc.C85_split_minimize",
    "Ripcalc.C85_derange_then_minimize_v4",
    "Ripcalc.C85_derange_then_minimize_v6",
    "Ripcalc.C85_minimize_twice_v4",
    "Ripcalc.C85_derange_then_enumerate_v4",
    "Ripcalc.C85_network_then_derange_v4",
    "Ripcalc.C85_resize_minimize_families",
    "Ripcalc.C85_resize_back_families",
    "Ripcalc.C85_derange_network_families",
    "Ripcalc.C85_minimize_derange_families",
    "Ripcalc.C85_derange_minimal_families",
    "Ripcalc.C85_derange_enumerate_families",
    "Ripcalc.C85_enumerate_minimize_families",
    "Ripcalc.C85_split_minimize_families"
   ],
   "note": ""
  },
  {
   "property": "C86",
   "status": "proved",
   "theorems": [
    "Ripcalc.C86_exactly",
    "Ripcalc.C86_middle",
    "Ripcalc.C86_exactly_families",
    "Ripcalc.C86_middle_families",
    "Ripcalc.C86_at_most",
    "Ripcalc.C86_attained",
    "Ripcalc.C86_families"
   ],
   "note": ""
  },
  {
   "property": "C87",
   "status": "proved",
   "theorems": [
    "Ripcalc.C87_order",
    "Ripcalc.C87_shown",
    "Ripcalc.C87_plain"
   ],
   "note": ""
  },
  {
   "property": "C88",
   "status": "proved",
   "theorems": [
    "Ripcalc.C88_steps",
    "Ripcalc.C88_steps_families",
    "Ripcalc.C88_sound",
    "Ripcalc.C88_complete",
    "Ripcalc.C88_exact",
    "Ripcalc.C88_chain",
    "Ripcalc.C88_sound_families",
    "Ripcalc.C88_complete_families",
    "Ripcalc.C88_exact_families",
    "Ripcalc.C88_chain_families",
    "Ripcalc.C88_two_ways"
   ],
   "note": ""
  },
  {
   "property": "C89",
   "status": "proved",
   "theorems": [
    "Ripcalc.C89_text",
    "Ripcalc.C89_not_text",
    "Ripcalc.C89_runs",
    "Ripcalc.C89_status",
    "Ripcalc.C89_panics",
    "Ripcalc.C89_endless",
    "Ripcalc.C89_stdout",
    "Ripcalc.C89_success",
    "Ripcalc.C89_failure"
   ],
   "note": ""
  },
  {
   "property": "C90",
   "status": "proved",
   "theorems": [
    "Ripcalc.C90_grammar",
    "Ripcalc.C90_unambiguous",
    "Ripcalc.C90_patterns",
    "Ripcalc.C90_unrecognized"
   ],
   "note": ""
  },
  {
   "property": "C91",
   "status": "proved",
   "theorems": [
    "Ripcalc.C91_loop",
    "Ripcalc.C91_minimize",
    "Ripcalc.C91_range",
    "Ripcalc.C91_range_at_most",
    "Ripcalc.C91_grow",
    "Ripcalc.C91_enumerate",
    "Ripcalc.C91_enumerate_print",
    "Ripcalc.C91_resize",
    "Ripcalc.C91_minimize_families",
    "Ripcalc.C91_range_families",
    "Ripcalc.C91_range_numbers",
    "Ripcalc.C91_grow_families",
    "Ripcalc.C91_enumerate_families",
    "Ripcalc.C91_enumerate_print_families",
    "Ripcalc.C91_resize_families"
   ],
   "note": ""
  },
  {
   "property": "C92",
   "status": "partial",
   "theorems": [
    "Ripcalc.C92_lines_partial",
    "Ripcalc.C92_plain",
    "Ripcalc.C92_counterexample"
   ],
   "note": "The full claim is false of the code (C92_counterexample): with colours, the colour test and the display whose last network has at most two addresses leave the last line open. Proved: exactly for which arguments the claim holds (C92_lines_partial), and always without colours (C92_plain)."
  },
  {
   "property": "C93",
   "status": "partial",
   "theorems": [
    "Ripcalc.C93_prefix",
    "Ripcalc.C93_reliable",
    "Ripcalc.C93_complete",
    "Ripcalc.C93_noticed_partial",
    "Ripcalc.C93_limited",
    "Ripcalc.C93_stdout",
    "Ripcalc.C93_stderr",
    "Ripcalc.C93_silent",
    "Ripcalc.C93_color_test",
    "Ripcalc.C93_counterexample"
   ],
   "note": "The full claim is false of the code (C93_counterexample, C93_color_test, C93_silent): in the runs of C92 with an open last line, that line stays in the buffer until the last flush, whose error std ignores, so it can be missing with status 0. Proved for all other runs (C93_noticed_partial); for all runs: the prefix (C93_prefix), reliable devices (C93_reliable), that at most the open last line is missing (C93_complete), devices of limited room exactly (C93_limited, C93_stdout, C93_stderr)."
  },
  {
   "property": "C94",
   "status": "proved",
   "theorems": [
    "Ripcalc.C94_columns_v4",
    "Ripcalc.C94_columns_v6",
    "Ripcalc.C94_show",
    "Ripcalc.C94_resize",
    "Ripcalc.C94_split"
   ],
   "note": ""
  },
  {
   "property": "C95",
   "status": "proved",
   "theorems": [
    "Ripcalc.C95_read_back",
    "Ripcalc.C95_read_stdout",
    "Ripcalc.C95_read_bytes",
    "Ripcalc.C95_resize_v4",
    "Ripcalc.C95_resize_v6",
    "Ripcalc.C95_resize_families",
    "Ripcalc.C95_split_v4",
    "Ripcalc.C95_split_v6"
   ],
   "note": ""
  },
  {
   "property": "C96",
   "status": "proved",
   "theorems": [
    "Ripcalc.C96_minimize_v4",
    "Ripcalc.C96_minimize_v6",
    "Ripcalc.C96_minimize_families",
    "Ripcalc.C96_derange_v4",
    "Ripcalc.C96_derange_v6",
    "Ripcalc.C96_derange_families",
    "Ripcalc.C96_enumerate",
    "Ripcalc.C96_listed",
    "Ripcalc.C96_enumerate_one"
   ],
   "note": ""
  },
  {
   "property": "C97",
   "status": "proved",
   "theorems": [
    "Ripcalc.C97_split_networks",
    "Ripcalc.C97_split_exact",
    "Ripcalc.C97_same",
    "Ripcalc.C97_visible",
    "Ripcalc.C97_exact",
    "Ripcalc.C97_split_networks_families",
    "Ripcalc.C97_split_exact_families"
   ],
   "note": ""
  },
  {
   "property": "C98",
   "status": "proved",
   "theorems": [
    "Ripcalc.C98_split_v4",
    "Ripcalc.C98_split_v6",
    "Ripcalc.C98_before",
    "Ripcalc.C98_process"
   ],
   "note": ""
  },
  {
   "property": "C99",
   "status": "proved",
   "theorems": [
    "Ripcalc.C99_unused_v4",
    "Ripcalc.C99_unused_v6"
   ],
   "note": ""
  },
  {
   "property": "C100",
   "status": "proved",
   "theorems": [
    "Ripcalc.C100_program",
    "Ripcalc.C100_total",
    "Ripcalc.C100_determined",
    "Ripcalc.C100_process",
    "Ripcalc.C100_piped",
    "Ripcalc.C100_open"
   ],
   "note": ""
  },
  {
   "property": "C101",
   "status": "proved",
   "theorems": [
    "Ripcalc.C101_prefix",
    "Ripcalc.C101_order",
    "Ripcalc.C101_complete",
    "Ripcalc.C101_noticed",
    "Ripcalc.C101_received",
    "Ripcalc.C101_limited",
    "Ripcalc.C101_apart",
    "Ripcalc.C101_enumerate"
   ],
   "note": ""
  },
  {
   "property": "C102",
   "status": "proved",
   "theorems": [
    "Ripcalc.C102_bytes",
    "Ripcalc.C102_write",
    "Ripcalc.C102_unique"
   ],
   "note": ""
  },
  {
   "property": "C103",
   "status": "proved",
   "theorems": [
    "Ripcalc.C103_smaller",
    "Ripcalc.C103_larger",
    "Ripcalc.C103_between",
    "Ripcalc.C103_minimize",
    "Ripcalc.C103_ranges",
    "Ripcalc.C103_smaller_families",
    "Ripcalc.C103_larger_families",
    "Ripcalc.C103_between_families",
    "Ripcalc.C103_minimize_families",
    "Ripcalc.C103_ranges_families",
    "Ripcalc.C103_minimize_portions_v4",
    "Ripcalc.C103_derange_portions_v4",
    "Ripcalc.C103_minimize_portions_v6",
    "Ripcalc.C103_derange_portions_v6"
   ],
   "note": ""
  },
  {
   "property": "C104",
   "status": "partial",
   "theorems": [
    "Ripcalc.C104_arguments_partial",
    "Ripcalc.C104_arguments_counterexample",
    "Ripcalc.C104_target_partial",
    "Ripcalc.C104_target_counterexample",
    "Ripcalc.C104_mixing_partial",
    "Ripcalc.C104_mixing_counterexample",
    "Ripcalc.C104_synopses_unique"
   ],
   "note": "The full claim is false of the code (C104_arguments_counterexample, C104_target_counterexample, C104_mixing_counterexample). Proved: exactly which numbers of arguments bring the usage text in every mode, and that only derange and enumerate deviate from their synopsis (C104_arguments_partial), with synopses determined by the text (C104_synopses_unique); that what can follow a slash can be a resize target exactly without a minus sign (C104_target_partial); that minimize, derange and resize refuse mixed families while showing and enumerating accept them (C104_mixing_partial)."
  },
  {
   "property": "C105",
   "status": "proved",
   "theorems": [
    "Ripcalc.C105_inside",
    "Ripcalc.C105_chain_within",
    "Ripcalc.C105_chain_greatest",
    "Ripcalc.C105_cidr_within",
    "Ripcalc.C105_cidr_greatest",
    "Ripcalc.C105_cidr_monotone",
    "Ripcalc.C105_range_within",
    "Ripcalc.C105_range_greatest",
    "Ripcalc.C105_range_monotone",
    "Ripcalc.C105_inside_families",
    "Ripcalc.C105_chain_within_families",
    "Ripcalc.C105_chain_greatest_families",
    "Ripcalc.C105_cidr_within_families",
    "Ripcalc.C105_cidr_greatest_families",
    "Ripcalc.C105_cidr_monotone_families",
    "Ripcalc.C105_range_within_families",
    "Ripcalc.C105_range_greatest_families",
    "Ripcalc.C105_range_monotone_families"
   ],
   "note": ""
  },
  {
   "property": "C106",
   "status": "proved",
   "theorems": [
    "Ripcalc.C106_less",
    "Ripcalc.C106_more",
    "Ripcalc.C106_contained",
    "Ripcalc.C106_command_v4",
    "Ripcalc.C106_command_v6",
    "Ripcalc.C106_less_families",
    "Ripcalc.C106_more_families",
    "Ripcalc.C106_contained_families",
    "Ripcalc.C106_gaps"
   ],
   "note": ""
  },
  {
   "property": "C107",
   "status": "proved",
   "theorems": [
    "Ripcalc.C107_room",
    "Ripcalc.C107_exactly",
    "Ripcalc.C107_compact",
    "Ripcalc.C107_command_v4",
    "Ripcalc.C107_command_v6",
    "Ripcalc.C107_room_families",
    "Ripcalc.C107_exactly_families",
    "Ripcalc.C107_compact_families",
    "Ripcalc.C107_gaps"
   ],
   "note": ""
  },
  {
   "property": "C108",
   "status": "proved",
   "theorems": [
    "Ripcalc.C108_minimize",
    "Ripcalc.C108_derange",
    "Ripcalc.C108_enumerate",
    "Ripcalc.C108_resize",
    "Ripcalc.C108_split",
    "Ripcalc.C108_network",
    "Ripcalc.C108_ipv4_in_ipv6",
    "Ripcalc.C108_network_families",
    "Ripcalc.C108_minimize_families",
    "Ripcalc.C108_derange_families",
    "Ripcalc.C108_enumerate_families",
    "Ripcalc.C108_resize_families",
    "Ripcalc.C108_split_families",
    "Ripcalc.C108_end_differs"
   ],
   "note": ""
  },
  {
   "property": "C109",
   "status": "proved",
   "theorems": [
    "Ripcalc.C109_enumerate",
    "Ripcalc.C109_show",
    "Ripcalc.C109_each_enumerated",
    "Ripcalc.C109_order",
    "Ripcalc.C109_words",
    "Ripcalc.C109_each_shown"
   ],
   "note": ""
  },
  {
   "property": "C110",
   "status": "proved",
   "theorems": [
    "Ripcalc.C110_show",
    "Ripcalc.C110_enumerate",
    "Ripcalc.C110_minimize",
    "Ripcalc.C110_derange",
    "Ripcalc.C110_resize",
    "Ripcalc.C110_split",
    "Ripcalc.C110_syntax_ipv4",
    "Ripcalc.C110_syntax_ipv6",
    "Ripcalc.C110_prefix_only",
    "Ripcalc.C110_lopsided",
    "Ripcalc.C110_show_address"
   ],
   "note": ""
  },
  {
   "property": "C111",
   "status": "proved",
   "theorems": [
    "Ripcalc.C111_one_sided",
    "Ripcalc.C111_twice",
    "Ripcalc.C111_worst",
    "Ripcalc.C111_minimize",
    "Ripcalc.C111_one_sided_families",
    "Ripcalc.C111_twice_families",
    "Ripcalc.C111_worst_families",
    "Ripcalc.C111_minimize_families"
   ],
   "note": ""
  },
  {
   "property": "C112",
   "status": "proved",
   "theorems": [
    "Ripcalc.C112_range",
    "Ripcalc.C112_range_families",
    "Ripcalc.C112_word_size",
    "Ripcalc.C112_same_64",
    "Ripcalc.C112_differs",
    "Ripcalc.C112_stdout"
   ],
   "note": ""
  },
  {
   "property": "C113",
   "status": "proved",
   "theorems": [
    "Ripcalc.C113_networks",
    "Ripcalc.C113_addresses",
    "Ripcalc.C113_masks",
    "Ripcalc.C113_counts",
    "Ripcalc.C113_accepted",
    "Ripcalc.C113_foreign"
   ],
   "note": ""
  },
  {
   "property": "C114",
   "status": "proved",
   "theorems": [
    "Ripcalc.C114_shape",
    "Ripcalc.C114_up_and_down",
    "Ripcalc.C114_results",
    "Ripcalc.C114_shape_families",
    "Ripcalc.C114_up_and_down_families",
    "Ripcalc.C114_results_families"
   ],
   "note": ""
  },
  {
   "property": "C115",
   "status": "proved",
   "theorems": [
    "Ripcalc.C115_added",
    "Ripcalc.C115_disappear",
    "Ripcalc.C115_count",
    "Ripcalc.C115_nothing_new",
    "Ripcalc.C115_together",
    "Ripcalc.C115_added_families",
    "Ripcalc.C115_disappear_families",
    "Ripcalc.C115_count_families",
    "Ripcalc.C115_nothing_new_families",
    "Ripcalc.C115_together_families"
   ],
   "note": ""
  },
  {
   "property": "C116",
   "status": "proved",
   "theorems": [
    "Ripcalc.C116_network",
    "Ripcalc.C116_only",
    "Ripcalc.C116_relations",
    "Ripcalc.C116_minimize",
    "Ripcalc.C116_minimize_networks",
    "Ripcalc.C116_resize",
    "Ripcalc.C116_enumerate",
    "Ripcalc.C116_range",
    "Ripcalc.C116_xor",
    "Ripcalc.C116_mirror",
    "Ripcalc.C116_mirror_range",
    "Ripcalc.C116_network_families",
    "Ripcalc.C116_only_families",
    "Ripcalc.C116_relations_families",
    "Ripcalc.C116_minimize_families",
    "Ripcalc.C116_minimize_networks_families",
    "Ripcalc.C116_resize_families",
    "Ripcalc.C116_enumerate_families",
    "Ripcalc.C116_range_families",
    "Ripcalc.C116_xor_families",
    "Ripcalc.C116_mirror_families",
    "Ripcalc.C116_mirror_range_families"
   ],
   "note": ""
  },
  {
   "property": "C117",
   "status": "proved",
   "theorems": [
    "Ripcalc.C117_colors",
    "Ripcalc.C117_plain",
    "Ripcalc.C117_color_test",
    "Ripcalc.C117_usage",
    "Ripcalc.C117_attained"
   ],
   "note": ""
  },
  {
   "property": "C118",
   "status": "proved",
   "theorems": [
    "Ripcalc.C118_sizes",
    "Ripcalc.C118_only",
    "Ripcalc.C118_order",
    "Ripcalc.C118_program",
    "Ripcalc.C118_sizes_families",
    "Ripcalc.C118_only_families",
    "Ripcalc.C118_order_families"
   ],
   "note": ""
  },
  {
   "property": "C119",
   "status": "proved",
   "theorems": [
    "Ripcalc.C119_minimize",
    "Ripcalc.C119_derange",
    "Ripcalc.C119_enumerate",
    "Ripcalc.C119_show",
    "Ripcalc.C119_resize",
    "Ripcalc.C119_split"
   ],
   "note": ""
  },
  {
   "property": "C120",
   "status": "proved",
   "theorems": [
    "Ripcalc.C120_minimize",
    "Ripcalc.C120_fewest",
    "Ripcalc.C120_derange",
    "Ripcalc.C120_converted",
    "Ripcalc.C120_minimize_families",
    "Ripcalc.C120_fewest_families",
    "Ripcalc.C120_derange_families",
    "Ripcalc.C120_converted_families"
   ],
   "note": ""
  },
  {
   "property": "C121",
   "status": "proved",
   "theorems": [
    "Ripcalc.C121_displayed",
    "Ripcalc.C121_parts",
    "Ripcalc.C121_pieces",
    "Ripcalc.C121_parts_families",
    "Ripcalc.C121_pieces_families"
   ],
   "note": ""
  },
  {
   "property": "C122",
   "status": "proved",
   "theorems": [
    "Ripcalc.C122_ipv4",
    "Ripcalc.C122_ipv6",
    "Ripcalc.C122_addresses",
    "Ripcalc.C122_masks",
    "Ripcalc.C122_counts",
    "Ripcalc.C122_show",
    "Ripcalc.C122_lists",
    "Ripcalc.C122_derange",
    "Ripcalc.C122_resize",
    "Ripcalc.C122_split",
    "Ripcalc.C122_lengths"
   ],
   "note": ""
  },
  {
   "property": "C123",
   "status": "proved",
   "theorems": [
    "Ripcalc.C123_order",
    "Ripcalc.C123_before",
    "Ripcalc.C123_cidr_order",
    "Ripcalc.C123_intersects",
    "Ripcalc.C123_between",
    "Ripcalc.C123_block",
    "Ripcalc.C123_above",
    "Ripcalc.C123_common",
    "Ripcalc.C123_resize",
    "Ripcalc.C123_minimize",
    "Ripcalc.C123_order_families",
    "Ripcalc.C123_before_families",
    "Ripcalc.C123_cidr_order_families",
    "Ripcalc.C123_intersects_families",
    "Ripcalc.C123_between_families",
    "Ripcalc.C123_block_families",
    "Ripcalc.C123_above_families",
    "Ripcalc.C123_common_families",
    "Ripcalc.C123_resize_families",
    "Ripcalc.C123_minimize_families"
   ],
   "note": ""
  },
  {
   "property": "C124",
   "status": "proved",
   "theorems": [
    "Ripcalc.C124_equal",
    "Ripcalc.C124_all",
    "Ripcalc.C124_top",
    "Ripcalc.C124_each",
    "Ripcalc.C124_equal_families",
    "Ripcalc.C124_all_families",
    "Ripcalc.C124_top_families",
    "Ripcalc.C124_each_families"
   ],
   "note": ""
  },
  {
   "property": "C125",
   "status": "proved",
   "theorems": [
    "Ripcalc.C125_permutation",
    "Ripcalc.C125_bitwise",
    "Ripcalc.C125_ones",
    "Ripcalc.C125_network",
    "Ripcalc.C125_order",
    "Ripcalc.C125_permutation_families",
    "Ripcalc.C125_bitwise_families",
    "Ripcalc.C125_ones_families",
    "Ripcalc.C125_network_families",
    "Ripcalc.C125_order_families"
   ],
   "note": ""
  }
 ]
}