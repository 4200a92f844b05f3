{
 "claims": [
  {
   "property": "C01",
   "status": "proved",
   "theorems": [
    "Sdp.C01_only_imageattr",
    "Sdp.C01_panics_iff",
    "Sdp.C01_parse_sdp_never_panics",
    "Sdp.C01_bound_needed"
   ],
   "note": "Texts below 2^31 bytes; C01_bound_needed shows that longer texts can overflow the i32 brace counter of imageattr; C01_only_imageattr shows that this is the only way to panic, for texts of any length."
  },
  {
   "property": "C02",
   "status": "proved",
   "theorems": [
    "Sdp.C02_entry_points_never_panic",
    "Sdp.C02_parse_media_vector_panics_iff",
    "Sdp.C02_mutators_never_panic"
   ],
   "note": "parse_media_vector panics exactly on an empty list; the public mutators are covered too."
  },
  {
   "property": "C03",
   "status": "proved",
   "theorems": [
    "Sdp.C03_version_and_timing"
   ],
   "note": ""
  },
  {
   "property": "C04",
   "status": "proved",
   "theorems": [
    "Sdp.C04_connection_coverage"
   ],
   "note": ""
  },
  {
   "property": "C05",
   "status": "proved",
   "theorems": [
    "Sdp.C05_extmap_on_one_level"
   ],
   "note": ""
  },
  {
   "property": "C06",
   "status": "proved",
   "theorems": [
    "Sdp.C06_rtcp_mux_only"
   ],
   "note": ""
  },
  {
   "property": "C07",
   "status": "proved",
   "theorems": [
    "Sdp.C07_rid_formats_declared"
   ],
   "note": ""
  },
  {
   "property": "C08",
   "status": "proved",
   "theorems": [
    "Sdp.C08_simulcast_ids_defined",
    "Sdp.C08_single_simulcast",
    "Sdp.C08_second_simulcast_unchecked"
   ],
   "note": "Holds for the first a=simulcast of a section (and for sections with a single one); C08_second_simulcast_unchecked is a counterexample for further ones."
  },
  {
   "property": "C09",
   "status": "proved",
   "theorems": [
    "Sdp.C09_levels",
    "Sdp.C09_level_predicates"
   ],
   "note": ""
  },
  {
   "property": "C10",
   "status": "proved",
   "theorems": [
    "Sdp.C10_parse_media_vector_iff",
    "Sdp.C10_media_lines"
   ],
   "note": ""
  },
  {
   "property": "C11",
   "status": "proved",
   "theorems": [
    "Sdp.C11_parse_session_vector_iff",
    "Sdp.C11_failure_prefix"
   ],
   "note": ""
  },
  {
   "property": "C12",
   "status": "proved",
   "theorems": [
    "Sdp.C12_parse_sdp_iff",
    "Sdp.C12_first_lines"
   ],
   "note": "C12_parse_sdp_iff characterises success and result of parse_sdp completely in terms of parse_sdp_line."
  },
  {
   "property": "C13",
   "status": "proved",
   "theorems": [
    "Sdp.C13_fail_on_warning",
    "Sdp.C13_first_warning_wins",
    "Sdp.C13_last_error_wins"
   ],
   "note": ""
  },
  {
   "property": "C14",
   "status": "proved",
   "theorems": [
    "Sdp.C14_warnings",
    "Sdp.C14_no_other_failure"
   ],
   "note": ""
  },
  {
   "property": "C15",
   "status": "proved",
   "theorems": [
    "Sdp.C15_error_location",
    "Sdp.C15_short_text"
   ],
   "note": ""
  },
  {
   "property": "C16",
   "status": "proved",
   "theorems": [
    "Sdp.C16_unsupported_lines_do_not_matter",
    "Sdp.C16_remove_unsupported"
   ],
   "note": ""
  },
  {
   "property": "C17",
   "status": "proved",
   "theorems": [
    "Sdp.C17_only_nonblank_lines_matter",
    "Sdp.C17_line_ends_and_blank_lines"
   ],
   "note": ""
  },
  {
   "property": "C18",
   "status": "proved",
   "theorems": [
    "Sdp.C18_line",
    "Sdp.C18_same_value",
    "Sdp.C18_whole_text"
   ],
   "note": ""
  },
  {
   "property": "C19",
   "status": "proved",
   "theorems": [
    "Sdp.C19_dispatch",
    "Sdp.C19_unknown_names",
    "Sdp.C19_known_names"
   ],
   "note": ""
  },
  {
   "property": "C20",
   "status": "proved",
   "theorems": [
    "Sdp.C20_flags_take_no_value",
    "Sdp.C20_flags",
    "Sdp.C20_value_needed",
    "Sdp.C20_blank_value"
   ],
   "note": ""
  },
  {
   "property": "C21",
   "status": "proved",
   "theorems": [
    "Sdp.C21_attribute",
    "Sdp.C21_media_line",
    "Sdp.C21_session"
   ],
   "note": ""
  },
  {
   "property": "C22",
   "status": "proved",
   "theorems": [
    "Sdp.C22_fingerprint_length",
    "Sdp.C22_try_from"
   ],
   "note": ""
  },
  {
   "property": "C23",
   "status": "proved",
   "theorems": [
    "Sdp.C23_print_parse",
    "Sdp.C23_accepts",
    "Sdp.C23_limits",
    "Sdp.C23_errors",
    "Sdp.C23_same_value"
   ],
   "note": ""
  },
  {
   "property": "C24",
   "status": "proved",
   "theorems": [
    "Sdp.C24_parsed_well_formed",
    "Sdp.C24_parsed_round_trip",
    "Sdp.C24_attribute_round_trip",
    "Sdp.C24_attribute_line",
    "Sdp.C24_print_injective"
   ],
   "note": ""
  },
  {
   "property": "C25",
   "status": "proved",
   "theorems": [
    "Sdp.C25_parsed_lines",
    "Sdp.C25_version_line",
    "Sdp.C25_origin_line",
    "Sdp.C25_session_line",
    "Sdp.C25_timing_line",
    "Sdp.C25_connection_line",
    "Sdp.C25_bandwidth_line",
    "Sdp.C25_media_line"
   ],
   "note": ""
  },
  {
   "property": "C26",
   "status": "proved",
   "theorems": [
    "Sdp.C26_session_round_trip",
    "Sdp.C26_with_media",
    "Sdp.C26_print_injective"
   ],
   "note": ""
  },
  {
   "property": "C27",
   "status": "proved",
   "theorems": [
    "Sdp.C27_warnings_not_printed",
    "Sdp.C27_fixed_point",
    "Sdp.C27_reparse"
   ],
   "note": ""
  },
  {
   "property": "C28",
   "status": "proved",
   "theorems": [
    "Sdp.C28_default_fmtp_lost",
    "Sdp.C28_unknown_fmtp_merged",
    "Sdp.C28_msid_semantic_gains",
    "Sdp.C28_masked_fingerprint",
    "Sdp.C28_too_short",
    "Sdp.C28_empty_attribute_line"
   ],
   "note": ""
  },
  {
   "property": "C29",
   "status": "proved",
   "theorems": [
    "Sdp.C29_set_attribute_ok",
    "Sdp.C29_exactly_one",
    "Sdp.C29_set_attribute_fails"
   ],
   "note": ""
  },
  {
   "property": "C30",
   "status": "proved",
   "theorems": [
    "Sdp.C30_step",
    "Sdp.C30_store_refinement",
    "Sdp.C30_getters"
   ],
   "note": ""
  },
  {
   "property": "C31",
   "status": "proved",
   "theorems": [
    "Sdp.C31_remove_codecs"
   ],
   "note": ""
  },
  {
   "property": "C32",
   "status": "proved",
   "theorems": [
    "Sdp.C32_add_codec",
    "Sdp.C32_codecs_match"
   ],
   "note": ""
  },
  {
   "property": "C33",
   "status": "proved",
   "theorems": [
    "Sdp.C33_add_datachannel",
    "Sdp.C33_values"
   ],
   "note": ""
  },
  {
   "property": "C34",
   "status": "proved",
   "theorems": [
    "Sdp.C34_add_media"
   ],
   "note": ""
  },
  {
   "property": "C35",
   "status": "proved",
   "theorems": [
    "Sdp.C35_media_levels",
    "Sdp.C35_session_levels"
   ],
   "note": ""
  },
  {
   "property": "C36",
   "status": "proved",
   "theorems": [
    "Sdp.C36_masks_are_numbered",
    "Sdp.C36_stability"
   ],
   "note": ""
  },
  {
   "property": "C37",
   "status": "proved",
   "theorems": [
    "Sdp.C37_injectivity",
    "Sdp.C37_ports_and_addresses",
    "Sdp.C37_strings"
   ],
   "note": ""
  },
  {
   "property": "C38",
   "status": "proved",
   "theorems": [
    "Sdp.C38_fingerprint_masks",
    "Sdp.C38_collision"
   ],
   "note": ""
  },
  {
   "property": "C39",
   "status": "proved",
   "theorems": [
    "Sdp.C39_only_the_pattern",
    "Sdp.C39_clone_hides_secrets"
   ],
   "note": ""
  },
  {
   "property": "C40",
   "status": "proved",
   "theorems": [
    "Sdp.C40_kind",
    "Sdp.C40_attribute_type",
    "Sdp.C40_attributes"
   ],
   "note": ""
  },
  {
   "property": "C41",
   "status": "proved",
   "theorems": [
    "Sdp.C41_session_clone",
    "Sdp.C41_session_clone_fields",
    "Sdp.C41_media_clone",
    "Sdp.C41_not_masked"
   ],
   "note": ""
  },
  {
   "property": "C42",
   "status": "proved",
   "theorems": [
    "Sdp.C42_equivalence",
    "Sdp.C42_typed_equivalence",
    "Sdp.C42_meaning",
    "Sdp.C42_ascii_case",
    "Sdp.C42_to_address"
   ],
   "note": ""
  },
  {
   "property": "C43",
   "status": "proved",
   "theorems": [
    "Sdp.C43_origin",
    "Sdp.C43_connection",
    "Sdp.C43_rtcp",
    "Sdp.C43_mismatch_rejected",
    "Sdp.C43_match_accepted"
   ],
   "note": ""
  },
  {
   "property": "C44",
   "status": "proved",
   "theorems": [
    "Sdp.C44_unsupported_iff",
    "Sdp.C44_unsupported_error",
    "Sdp.C44_line_error",
    "Sdp.C44_only_attributes_and_media",
    "Sdp.C44_unknown_attribute",
    "Sdp.C44_unknown_media"
   ],
   "note": ""
  },
  {
   "property": "C45",
   "status": "proved",
   "theorems": [
    "Sdp.C45_tones_kept",
    "Sdp.C45_tones_default"
   ],
   "note": ""
  },
  {
   "property": "C46",
   "status": "proved",
   "theorems": [
    "Sdp.C46_rtx",
    "Sdp.C46_rtx_time_alone"
   ],
   "note": ""
  },
  {
   "property": "C47",
   "status": "proved",
   "theorems": [
    "Sdp.C47_ip_round_trip",
    "Sdp.C47_address_round_trip",
    "Sdp.C47_injective"
   ],
   "note": ""
  },
  {
   "property": "C48",
   "status": "proved",
   "theorems": [
    "Sdp.C48_simulcast_order",
    "Sdp.C48_simulcast_sides",
    "Sdp.C48_simulcast_same_direction",
    "Sdp.C48_imageattr_order",
    "Sdp.C48_imageattr_same_direction",
    "Sdp.C48_open_bracket_swallows_direction"
   ],
   "note": ""
  },
  {
   "property": "C49",
   "status": "proved",
   "theorems": [
    "Sdp.C49_accepts",
    "Sdp.C49_values",
    "Sdp.C49_odd",
    "Sdp.C49_cases"
   ],
   "note": ""
  },
  {
   "property": "C50",
   "status": "proved",
   "theorems": [
    "Sdp.C50_type",
    "Sdp.C50_value",
    "Sdp.C50_session_name_raw",
    "Sdp.C50_attribute",
    "Sdp.C50_attribute_line",
    "Sdp.C50_text_kept",
    "Sdp.C50_whole_text"
   ],
   "note": ""
  },
  {
   "property": "C51",
   "status": "proved",
   "theorems": [
    "Sdp.C51_layout",
    "Sdp.C51_no_inner_line_end",
    "Sdp.C51_lines",
    "Sdp.C51_line_count"
   ],
   "note": ""
  },
  {
   "property": "C52",
   "status": "proved",
   "theorems": [
    "Sdp.C52_no_line_feed",
    "Sdp.C52_characters_of_the_text",
    "Sdp.C52_attribute"
   ],
   "note": ""
  },
  {
   "property": "C53",
   "status": "proved",
   "theorems": [
    "Sdp.C53_error_text",
    "Sdp.C53_warning_text",
    "Sdp.C53_failure_text"
   ],
   "note": ""
  },
  {
   "property": "C54",
   "status": "proved",
   "theorems": [
    "Sdp.C54_accepts",
    "Sdp.C54_values",
    "Sdp.C54_red",
    "Sdp.C54_form",
    "Sdp.C54_no_block"
   ],
   "note": ""
  },
  {
   "property": "C55",
   "status": "proved",
   "theorems": [
    "Sdp.C55_parsed_well_formed",
    "Sdp.C55_parse_print_parse",
    "Sdp.C55_with_media",
    "Sdp.C55_normal_form"
   ],
   "note": ""
  },
  {
   "property": "C56",
   "status": "proved",
   "theorems": [
    "Sdp.C56_texts",
    "Sdp.C56_numbers",
    "Sdp.C56_setup",
    "Sdp.C56_framerate",
    "Sdp.C56_ice_options"
   ],
   "note": ""
  },
  {
   "property": "C57",
   "status": "proved",
   "theorems": [
    "Sdp.C57_rtpmap"
   ],
   "note": ""
  },
  {
   "property": "C58",
   "status": "proved",
   "theorems": [
    "Sdp.C58_ssrc",
    "Sdp.C58_ssrc_group"
   ],
   "note": ""
  },
  {
   "property": "C59",
   "status": "proved",
   "theorems": [
    "Sdp.C59_group",
    "Sdp.C59_msid",
    "Sdp.C59_msid_semantic"
   ],
   "note": ""
  },
  {
   "property": "C60",
   "status": "proved",
   "theorems": [
    "Sdp.C60_extmap"
   ],
   "note": ""
  },
  {
   "property": "C61",
   "status": "proved",
   "theorems": [
    "Sdp.C61_fingerprint"
   ],
   "note": ""
  },
  {
   "property": "C62",
   "status": "proved",
   "theorems": [
    "Sdp.C62_rtcp",
    "Sdp.C62_remote_candidates"
   ],
   "note": ""
  },
  {
   "property": "C63",
   "status": "proved",
   "theorems": [
    "Sdp.C63_rtcp_fb"
   ],
   "note": ""
  },
  {
   "property": "C64",
   "status": "proved",
   "theorems": [
    "Sdp.C64_sctpmap",
    "Sdp.C64_dtls_message"
   ],
   "note": ""
  },
  {
   "property": "C65",
   "status": "proved",
   "theorems": [
    "Sdp.C65_simulcast"
   ],
   "note": ""
  },
  {
   "property": "C66",
   "status": "proved",
   "theorems": [
    "Sdp.C66_rid"
   ],
   "note": ""
  },
  {
   "property": "C67",
   "status": "proved",
   "theorems": [
    "Sdp.C67_imageattr"
   ],
   "note": "Texts below 2^31 characters, the bound of C01."
  },
  {
   "property": "C68",
   "status": "proved",
   "theorems": [
    "Sdp.C68_version",
    "Sdp.C68_origin",
    "Sdp.C68_session_name",
    "Sdp.C68_connection",
    "Sdp.C68_bandwidth",
    "Sdp.C68_timing"
   ],
   "note": ""
  },
  {
   "property": "C69",
   "status": "proved",
   "theorems": [
    "Sdp.C69_media"
   ],
   "note": ""
  },
  {
   "property": "C70",
   "status": "proved",
   "theorems": [
    "Sdp.C70_letters",
    "Sdp.C70_attribute"
   ],
   "note": ""
  },
  {
   "property": "C71",
   "status": "proved",
   "theorems": [
    "Sdp.C71_ip",
    "Sdp.C71_address",
    "Sdp.C71_typed"
   ],
   "note": ""
  },
  {
   "property": "C72",
   "status": "proved",
   "theorems": [
    "Sdp.C72_attribute",
    "Sdp.C72_media",
    "Sdp.C72_session",
    "Sdp.C72_infinite",
    "Sdp.C72_attribute_exact",
    "Sdp.C72_media_exact",
    "Sdp.C72_session_exact"
   ],
   "note": ""
  },
  {
   "property": "C73",
   "status": "proved",
   "theorems": [
    "Sdp.C73_fields",
    "Sdp.C73_iff",
    "Sdp.C73_text"
   ],
   "note": ""
  },
  {
   "property": "C74",
   "status": "proved",
   "theorems": [
    "Sdp.C74_has_cause",
    "Sdp.C74_text",
    "Sdp.C74_chain",
    "Sdp.C74_cause",
    "Sdp.C74_texts"
   ],
   "note": ""
  },
  {
   "property": "C75",
   "status": "proved",
   "theorems": [
    "Sdp.C75_exit_code",
    "Sdp.C75_failures",
    "Sdp.C75_comments",
    "Sdp.C75_real_failure"
   ],
   "note": ""
  },
  {
   "property": "C76",
   "status": "proved",
   "theorems": [
    "Sdp.C76_candidate",
    "Sdp.C76_rtpmap",
    "Sdp.C76_ssrc",
    "Sdp.C76_rtcp",
    "Sdp.C76_typed_address",
    "Sdp.C76_ip_string"
   ],
   "note": ""
  },
  {
   "property": "C77",
   "status": "proved",
   "theorems": [
    "Sdp.C77_candidate",
    "Sdp.C77_fmtp",
    "Sdp.C77_attribute",
    "Sdp.C77_line",
    "Sdp.C77_unsupported"
   ],
   "note": ""
  },
  {
   "property": "C78",
   "status": "proved",
   "theorems": [
    "Sdp.C78_sequence_error",
    "Sdp.C78_fault_or_session"
   ],
   "note": ""
  },
  {
   "property": "C79",
   "status": "proved",
   "theorems": [
    "Sdp.C79_sound",
    "Sdp.C79_unique",
    "Sdp.C79_complete",
    "Sdp.C79_accepts"
   ],
   "note": ""
  },
  {
   "property": "C80",
   "status": "proved",
   "theorems": [
    "Sdp.C80_number",
    "Sdp.C80_ip",
    "Sdp.C80_attribute",
    "Sdp.C80_origin",
    "Sdp.C80_connection",
    "Sdp.C80_bandwidth",
    "Sdp.C80_timing",
    "Sdp.C80_media_line",
    "Sdp.C80_session",
    "Sdp.C80_error"
   ],
   "note": ""
  },
  {
   "property": "C81",
   "status": "proved",
   "theorems": [
    "Sdp.C81_reproduced",
    "Sdp.C81_attribute"
   ],
   "note": ""
  },
  {
   "property": "C82",
   "status": "proved",
   "theorems": [
    "Sdp.C82_reads",
    "Sdp.C82_rejects",
    "Sdp.C82_decimals"
   ],
   "note": ""
  },
  {
   "property": "C83",
   "status": "proved",
   "theorems": [
    "Sdp.C83_written",
    "Sdp.C83_reads_back",
    "Sdp.C83_distinct",
    "Sdp.C83_not_negative_nan"
   ],
   "note": ""
  },
  {
   "property": "C84",
   "status": "proved",
   "theorems": [
    "Sdp.C84_order",
    "Sdp.C84_ranges",
    "Sdp.C84_lists"
   ],
   "note": ""
  },
  {
   "property": "C85",
   "status": "proved",
   "theorems": [
    "Sdp.C85_built_session",
    "Sdp.C85_no_formats",
    "Sdp.C85_old_datachannel"
   ],
   "note": ""
  },
  {
   "property": "C86",
   "status": "proved",
   "theorems": [
    "Sdp.C86_masked_attribute",
    "Sdp.C86_anonymize",
    "Sdp.C86_anonymized_session",
    "Sdp.C86_masked_session",
    "Sdp.C86_masked_fingerprint",
    "Sdp.C86_anonymized_iff",
    "Sdp.C86_masked_candidate",
    "Sdp.C86_too_many_ports"
   ],
   "note": ""
  },
  {
   "property": "C87",
   "status": "proved",
   "theorems": [
    "Sdp.C87_session_vector",
    "Sdp.C87_session_vector_resumed",
    "Sdp.C87_media_vector"
   ],
   "note": ""
  },
  {
   "property": "C88",
   "status": "proved",
   "theorems": [
    "Sdp.C88_attribute_iff",
    "Sdp.C88_line_iff",
    "Sdp.C88_session_iff",
    "Sdp.C88_parsed_attribute_iff",
    "Sdp.C88_parsed_session_iff",
    "Sdp.C88_flag"
   ],
   "note": ""
  },
  {
   "property": "C89",
   "status": "proved",
   "theorems": [
    "Sdp.C89_edited_session",
    "Sdp.C89_harmless"
   ],
   "note": ""
  },
  {
   "property": "C90",
   "status": "proved",
   "theorems": [
    "Sdp.C90_attribute",
    "Sdp.C90_one_round",
    "Sdp.C90_reread",
    "Sdp.C90_step",
    "Sdp.C90_settles",
    "Sdp.C90_settled",
    "Sdp.C90_no_bound"
   ],
   "note": ""
  },
  {
   "property": "C91",
   "status": "proved",
   "theorems": [
    "Sdp.C91_accepted_iff",
    "Sdp.C91_sections",
    "Sdp.C91_rearranged",
    "Sdp.C91_left_out"
   ],
   "note": ""
  },
  {
   "property": "C92",
   "status": "proved",
   "theorems": [
    "Sdp.C92_order",
    "Sdp.C92_simulcast_order",
    "Sdp.C92_last_counts"
   ],
   "note": ""
  },
  {
   "property": "C93",
   "status": "proved",
   "theorems": [
    "Sdp.C93_section_attributes",
    "Sdp.C93_section_fields",
    "Sdp.C93_section_formats",
    "Sdp.C93_session",
    "Sdp.C93_made_session",
    "Sdp.C93_made_section",
    "Sdp.C93_getters_session",
    "Sdp.C93_getters_section"
   ],
   "note": ""
  },
  {
   "property": "C94",
   "status": "proved",
   "theorems": [
    "Sdp.C94_session",
    "Sdp.C94_attribute",
    "Sdp.C94_counts"
   ],
   "note": ""
  },
  {
   "property": "C95",
   "status": "proved",
   "theorems": [
    "Sdp.C95_attribute",
    "Sdp.C95_line",
    "Sdp.C95_document"
   ],
   "note": ""
  },
  {
   "property": "C96",
   "status": "proved",
   "theorems": [
    "Sdp.C96_meaning",
    "Sdp.C96_numbers",
    "Sdp.C96_symmetric_transitive",
    "Sdp.C96_reflexive",
    "Sdp.C96_identical",
    "Sdp.C96_read_back",
    "Sdp.C96_parsed_not_reflexive",
    "Sdp.C96_different_texts"
   ],
   "note": ""
  },
  {
   "property": "C97",
   "status": "proved",
   "theorems": [
    "Sdp.C97_add_to_session",
    "Sdp.C97_remove_from_session",
    "Sdp.C97_bandwidth_of_session",
    "Sdp.C97_add_to_section",
    "Sdp.C97_remove_from_section",
    "Sdp.C97_bandwidth_of_section",
    "Sdp.C97_needed"
   ],
   "note": ""
  },
  {
   "property": "C98",
   "status": "proved",
   "theorems": [
    "Sdp.C98_connection_of_session",
    "Sdp.C98_timing_of_session",
    "Sdp.C98_connection_of_section",
    "Sdp.C98_no_timing_in_section",
    "Sdp.C98_no_second_header",
    "Sdp.C98_needed"
   ],
   "note": ""
  },
  {
   "property": "C99",
   "status": "proved",
   "theorems": [
    "Sdp.C99_history",
    "Sdp.C99_state",
    "Sdp.C99_stable",
    "Sdp.C99_faithful",
    "Sdp.C99_hides"
   ],
   "note": ""
  },
  {
   "property": "C100",
   "status": "proved",
   "theorems": [
    "Sdp.C100_only_sense_counts",
    "Sdp.C100_told_apart"
   ],
   "note": ""
  },
  {
   "property": "C101",
   "status": "proved",
   "theorems": [
    "Sdp.C101_cut_before_media",
    "Sdp.C101_cut_in_section",
    "Sdp.C101_cut",
    "Sdp.C101_cuts",
    "Sdp.C101_not_inside"
   ],
   "note": ""
  },
  {
   "property": "C102",
   "status": "proved",
   "theorems": [
    "Sdp.C102_hosts",
    "Sdp.C102_ascii",
    "Sdp.C102_literals",
    "Sdp.C102_sample",
    "Sdp.C102_needed"
   ],
   "note": ""
  },
  {
   "property": "C103",
   "status": "proved",
   "theorems": [
    "Sdp.C103_quoted",
    "Sdp.C103_shortest",
    "Sdp.C103_plain",
    "Sdp.C103_injective",
    "Sdp.C103_group",
    "Sdp.C103_ssrc_group",
    "Sdp.C103_feedback_type",
    "Sdp.C103_feedback_parameter",
    "Sdp.C103_streams"
   ],
   "note": ""
  },
  {
   "property": "C104",
   "status": "proved",
   "theorems": [
    "Sdp.C104_length",
    "Sdp.C104_case",
    "Sdp.C104_white_space",
    "Sdp.C104_short",
    "Sdp.C104_type",
    "Sdp.C104_boundary"
   ],
   "note": ""
  },
  {
   "property": "C105",
   "status": "proved",
   "theorems": [
    "Sdp.C105_again",
    "Sdp.C105_session",
    "Sdp.C105_values",
    "Sdp.C105_same_anonymizer",
    "Sdp.C105_other_order"
   ],
   "note": ""
  },
  {
   "property": "C106",
   "status": "proved",
   "theorems": [
    "Sdp.C106_rtpmap",
    "Sdp.C106_words",
    "Sdp.C106_numbers",
    "Sdp.C106_ice_options",
    "Sdp.C106_setup",
    "Sdp.C106_group",
    "Sdp.C106_ssrc_group",
    "Sdp.C106_msid",
    "Sdp.C106_ssrc",
    "Sdp.C106_extmap",
    "Sdp.C106_fingerprint",
    "Sdp.C106_rtcp",
    "Sdp.C106_remote_candidates",
    "Sdp.C106_rtcp_fb",
    "Sdp.C106_simulcast",
    "Sdp.C106_rid",
    "Sdp.C106_candidate",
    "Sdp.C106_deviations",
    "Sdp.C106_depend",
    "Sdp.C106_remote_candidates_first"
   ],
   "note": ""
  },
  {
   "property": "C107",
   "status": "proved",
   "theorems": [
    "Sdp.C107_version",
    "Sdp.C107_origin",
    "Sdp.C107_session_name",
    "Sdp.C107_connection",
    "Sdp.C107_bandwidth",
    "Sdp.C107_timing",
    "Sdp.C107_media",
    "Sdp.C107_attribute",
    "Sdp.C107_other_attribute",
    "Sdp.C107_deviations",
    "Sdp.C107_unsupported",
    "Sdp.C107_ip6_count"
   ],
   "note": ""
  },
  {
   "property": "C108",
   "status": "proved",
   "theorems": [
    "Sdp.C108_any_order",
    "Sdp.C108_accepts",
    "Sdp.C108_places",
    "Sdp.C108_too_short",
    "Sdp.C108_rfc_example"
   ],
   "note": ""
  },
  {
   "property": "C109",
   "status": "proved",
   "theorems": [
    "Sdp.C109_order",
    "Sdp.C109_parsed",
    "Sdp.C109_description",
    "Sdp.C109_description_order",
    "Sdp.C109_rfc_example"
   ],
   "note": ""
  },
  {
   "property": "C110",
   "status": "proved",
   "theorems": [
    "Sdp.C110_imageattr",
    "Sdp.C110_imageattr_limits",
    "Sdp.C110_imageattr_key",
    "Sdp.C110_identity",
    "Sdp.C110_msid_semantic",
    "Sdp.C110_sctpmap",
    "Sdp.C110_dtls_message",
    "Sdp.C110_fmtp",
    "Sdp.C110_framerate",
    "Sdp.C110_rtx_order",
    "Sdp.C110_space",
    "Sdp.C110_events",
    "Sdp.C110_framerate_limits",
    "Sdp.C110_sctpmap_limits"
   ],
   "note": ""
  },
  {
   "property": "C111",
   "status": "proved",
   "theorems": [
    "Sdp.C111_fmtp",
    "Sdp.C111_fmtp_space",
    "Sdp.C111_words",
    "Sdp.C111_numbers",
    "Sdp.C111_rtpmap",
    "Sdp.C111_ice_options",
    "Sdp.C111_group",
    "Sdp.C111_ssrc_group",
    "Sdp.C111_texts",
    "Sdp.C111_msid_semantic",
    "Sdp.C111_sctpmap",
    "Sdp.C111_ssrc",
    "Sdp.C111_extmap",
    "Sdp.C111_fingerprint",
    "Sdp.C111_rtcp",
    "Sdp.C111_remote_candidates",
    "Sdp.C111_candidate",
    "Sdp.C111_rid",
    "Sdp.C111_framerate",
    "Sdp.C111_framerate_rfc",
    "Sdp.C111_imageattr_rule",
    "Sdp.C111_imageattr",
    "Sdp.C111_decimals",
    "Sdp.C111_ssrc_blank",
    "Sdp.C111_imageattr_whole",
    "Sdp.C111_fmtp_lost"
   ],
   "note": ""
  },
  {
   "property": "C112",
   "status": "proved",
   "theorems": [
    "Sdp.C112_attribute",
    "Sdp.C112_lines",
    "Sdp.C112_description",
    "Sdp.C112_empty_line"
   ],
   "note": ""
  },
  {
   "property": "C113",
   "status": "proved",
   "theorems": [
    "Sdp.C113_rules",
    "Sdp.C113_written",
    "Sdp.C113_ipv4",
    "Sdp.C113_ipv6",
    "Sdp.C113_apart",
    "Sdp.C113_neither",
    "Sdp.C113_connection"
   ],
   "note": ""
  },
  {
   "property": "C114",
   "status": "proved",
   "theorems": [
    "Sdp.C114_attribute",
    "Sdp.C114_read_attribute",
    "Sdp.C114_parts",
    "Sdp.C114_follows",
    "Sdp.C114_lines",
    "Sdp.C114_text",
    "Sdp.C114_built",
    "Sdp.C114_out_of_order"
   ],
   "note": ""
  },
  {
   "property": "C115",
   "status": "proved",
   "theorems": [
    "Sdp.C115_attribute",
    "Sdp.C115_credentials",
    "Sdp.C115_session",
    "Sdp.C115_text"
   ],
   "note": ""
  },
  {
   "property": "C116",
   "status": "proved",
   "theorems": [
    "Sdp.C116_read",
    "Sdp.C116_edited",
    "Sdp.C116_again"
   ],
   "note": ""
  },
  {
   "property": "C117",
   "status": "proved",
   "theorems": [
    "Sdp.C117_calls",
    "Sdp.C117_accepted",
    "Sdp.C117_one",
    "Sdp.C117_built",
    "Sdp.C117_append",
    "Sdp.C117_needed"
   ],
   "note": ""
  },
  {
   "property": "C118",
   "status": "proved",
   "theorems": [
    "Sdp.C118_section_only",
    "Sdp.C118_section",
    "Sdp.C118_session",
    "Sdp.C118_written",
    "Sdp.C118_empty_value"
   ],
   "note": ""
  },
  {
   "property": "C119",
   "status": "proved",
   "theorems": [
    "Sdp.C119_section",
    "Sdp.C119_attribute_types",
    "Sdp.C119_sections",
    "Sdp.C119_session",
    "Sdp.C119_results",
    "Sdp.C119_needed"
   ],
   "note": ""
  },
  {
   "property": "C120",
   "status": "proved",
   "theorems": [
    "Sdp.C120_attribute",
    "Sdp.C120_session_warnings",
    "Sdp.C120_session",
    "Sdp.C120_complete",
    "Sdp.C120_wf",
    "Sdp.C120_wf_session"
   ],
   "note": ""
  },
  {
   "property": "C121",
   "status": "proved",
   "theorems": [
    "Sdp.C121_reveals",
    "Sdp.C121_disguised",
    "Sdp.C121_session",
    "Sdp.C121_recognised",
    "Sdp.C121_one_result"
   ],
   "note": ""
  },
  {
   "property": "C122",
   "status": "proved",
   "theorems": [
    "Sdp.C122_session",
    "Sdp.C122_attribute",
    "Sdp.C122_msidSemantic",
    "Sdp.C122_imageAttr",
    "Sdp.C122_plain",
    "Sdp.C122_ambiguous",
    "Sdp.C122_not_injective",
    "Sdp.C122_simulcast",
    "Sdp.C122_rid",
    "Sdp.C122_fmtp",
    "Sdp.C122_attribute_iff",
    "Sdp.C122_attributes",
    "Sdp.C122_session_values",
    "Sdp.C122_parsed"
   ],
   "note": ""
  },
  {
   "property": "C123",
   "status": "proved",
   "theorems": [
    "Sdp.C123_session",
    "Sdp.C123_section",
    "Sdp.C123_parsed",
    "Sdp.C123_odd"
   ],
   "note": ""
  },
  {
   "property": "C124",
   "status": "proved",
   "theorems": [
    "Sdp.C124_session",
    "Sdp.C124_attribute",
    "Sdp.C124_numbers"
   ],
   "note": ""
  },
  {
   "property": "C125",
   "status": "proved",
   "theorems": [
    "Sdp.C125_depth",
    "Sdp.C125_depth_reached",
    "Sdp.C125_accepted",
    "Sdp.C125_session",
    "Sdp.C125_section",
    "Sdp.C125_address",
    "Sdp.C125_attribute",
    "Sdp.C125_names",
    "Sdp.C125_values",
    "Sdp.C125_ice",
    "Sdp.C125_codec",
    "Sdp.C125_streams",
    "Sdp.C125_transport",
    "Sdp.C125_attribute_names",
    "Sdp.C125_proper"
   ],
   "note": ""
  }
 ]
}