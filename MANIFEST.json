{
 "claims": [
  {
   "property": "C01",
   "status": "proved",
   "theorems": [
    "Midi.C01_get_byte_value",
    "Midi.C01_set_byte",
    "Midi.C01_set_byte_7bit",
    "Midi.C01_get_byte_7bit",
    "Midi.C01_bytes_determine_packet"
   ],
   "note": ""
  },
  {
   "property": "C02",
   "status": "proved",
   "theorems": [
    "Midi.C02_set_group",
    "Midi.C02_set_type",
    "Midi.C02_header_fields"
   ],
   "note": ""
  },
  {
   "property": "C03",
   "status": "proved",
   "theorems": [
    "Midi.C03_size",
    "Midi.C03_eq_iff",
    "Midi.C03_equivalence",
    "Midi.C03_unused_words_ignored",
    "Midi.C03_neq"
   ],
   "note": ""
  },
  {
   "property": "C04",
   "status": "proved",
   "theorems": [
    "Midi.C04_read_back",
    "Midi.C04_sequence_read_back",
    "Midi.C04_text_length"
   ],
   "note": ""
  },
  {
   "property": "C05",
   "status": "proved",
   "theorems": [
    "Midi.C05_scaling_scheme",
    "Midi.C05_shift_back",
    "Midi.C05_strictly_increasing",
    "Midi.C05_fixed_points",
    "Midi.C05_bad_depths"
   ],
   "note": ""
  },
  {
   "property": "C06",
   "status": "proved",
   "theorems": [
    "Midi.C06_7_to_16_is_general",
    "Midi.C06_7_to_32_is_general",
    "Midi.C06_14_to_32_is_general",
    "Midi.C06_14_to_32_out_of_range",
    "Midi.C06_round_trip_7",
    "Midi.C06_round_trip_14",
    "Midi.C06_downsample_values",
    "Midi.C06_downsample_monotone",
    "Midi.C06_pitch_note_numbers",
    "Midi.C06_pitch_7_9_to_7_25"
   ],
   "note": ""
  },
  {
   "property": "C07",
   "status": "proved",
   "theorems": [
    "Midi.C07_controller_add",
    "Midi.C07_pitch_add",
    "Midi.C07_increment_add",
    "Midi.C07_controller_add_monotone",
    "Midi.C07_pitch_add_monotone",
    "Midi.C07_increment_add_laws",
    "Midi.C07_increment_add_monotone",
    "Midi.C07_compound",
    "Midi.C07_add_twice",
    "Midi.C07_clamped_differs"
   ],
   "note": ""
  },
  {
   "property": "C08",
   "status": "proved",
   "theorems": [
    "Midi.C08_bend_exact",
    "Midi.C08_bend_center",
    "Midi.C08_bend_bounded",
    "Midi.C08_bend_full_down",
    "Midi.C08_bend_monotone",
    "Midi.C08_bend_antisymmetric",
    "Midi.C08_swapped",
    "Midi.C08_clamped_not_antisymmetric"
   ],
   "note": ""
  },
  {
   "property": "C09",
   "status": "proved",
   "theorems": [
    "Midi.C09_round_trip",
    "Midi.C09_zero_velocity",
    "Midi.C09_untranslated",
    "Midi.C09_translation"
   ],
   "note": ""
  },
  {
   "property": "C10",
   "status": "proved",
   "theorems": [
    "Midi.C10_layout",
    "Midi.C10_translation",
    "Midi.C10_well_formed",
    "Midi.C10_rejects"
   ],
   "note": ""
  },
  {
   "property": "C11",
   "status": "proved",
   "theorems": [
    "Midi.C11_meaning",
    "Midi.C11_exclusive",
    "Midi.C11_exactly_one"
   ],
   "note": ""
  },
  {
   "property": "C12",
   "status": "proved",
   "theorems": [
    "Midi.C12_view_reads_layout",
    "Midi.C12_make",
    "Midi.C12_factories",
    "Midi.C12_view_rejects"
   ],
   "note": ""
  },
  {
   "property": "C13",
   "status": "proved",
   "theorems": [
    "Midi.C13_of_packet",
    "Midi.C13_sensitivity_predicates",
    "Midi.C13_sensitivity_values",
    "Midi.C13_view_reads_layout",
    "Midi.C13_make",
    "Midi.C13_note_factories",
    "Midi.C13_controller_factories",
    "Midi.C13_program_factories",
    "Midi.C13_predicates",
    "Midi.C13_own_predicate",
    "Midi.C13_accessors"
   ],
   "note": ""
  },
  {
   "property": "C14",
   "status": "proved",
   "theorems": [
    "Midi.Jr.C14_jr_set_timestamp",
    "Midi.Jr.C14_jr_messages",
    "Midi.C14_system",
    "Midi.C14_song_position",
    "Midi.C14_song_position_other",
    "Midi.C14_utility",
    "Midi.C14_view_rejects"
   ],
   "note": ""
  },
  {
   "property": "C15",
   "status": "proved",
   "theorems": [
    "Midi.C15_is_sysex7_packet_iff",
    "Midi.C15_payload",
    "Midi.C15_payload_full",
    "Midi.C15_view",
    "Midi.C15_view_payload"
   ],
   "note": ""
  },
  {
   "property": "C16",
   "status": "proved",
   "theorems": [
    "Midi.C16_is_sysex8_packet_iff",
    "Midi.C16_payload",
    "Midi.C16_payload_full",
    "Midi.C16_set_stream_id",
    "Midi.C16_view",
    "Midi.C16_view_payload"
   ],
   "note": ""
  },
  {
   "property": "C17",
   "status": "proved",
   "theorems": [
    "Midi.C17_as_packets",
    "Midi.C17_any_id",
    "Midi.C17_genuine_never_bad",
    "Midi.C17_send_sysex7",
    "Midi.C17_bad_group",
    "Midi.C17_no_id_not_framed",
    "Midi.C17_mixed_id_not_framed"
   ],
   "note": ""
  },
  {
   "property": "C18",
   "status": "proved",
   "theorems": [
    "Midi.C18_sysex7_round_trip",
    "Midi.C18_send_succeeds",
    "Midi.C18_exactly",
    "Midi.C18_no_id_changed"
   ],
   "note": ""
  },
  {
   "property": "C19",
   "status": "partial",
   "theorems": [
    "Midi.C19_as_packets",
    "Midi.C19_any_id",
    "Midi.C19_send_sysex8_payload",
    "Midi.C19_send_sysex8_framed_partial",
    "Midi.C19_three_byte_id_no_end",
    "Midi.C19_one_byte_id_stray_end",
    "Midi.C19_group_corrupts_type"
   ],
   "note": "The statement as given is false of the code: for messages of certain lengths send_sysex8 leaves out the end packet or sends a stray one (witnesses C19_three_byte_id_no_end, C19_one_byte_id_stray_end; groups above 15 change the packet type, C19_group_corrupts_type). C19_send_sysex8_framed_partial characterises the framed messages exactly (if and only if not BadLength8); the concatenated payload is right for every message (C19_send_sysex8_payload). What is sent for groups above 15 is said exactly by C87_send_sysex8_partial and C87_send_sysex8_type."
  },
  {
   "property": "C20",
   "status": "partial",
   "theorems": [
    "Midi.C20_sysex8_round_trip_partial",
    "Midi.C20_send_succeeds",
    "Midi.C20_received",
    "Midi.C20_round_trip_iff",
    "Midi.C20_three_byte_id_lost",
    "Midi.C20_one_byte_id_truncated",
    "Midi.C20_exactly"
   ],
   "note": "False of the code for the messages send_sysex8 frames wrongly (witnesses C20_three_byte_id_lost, C20_one_byte_id_truncated). C20_received says exactly what arrives of any sequence of messages after any history; C20_round_trip_iff says that all messages arrive if and only if none of them has a bad length."
  },
  {
   "property": "C21",
   "status": "proved",
   "theorems": [
    "Midi.C21_collector_decodes",
    "Midi.C21_never_faults",
    "Midi.C21_groups_ignored",
    "Midi.C21_groups_mixed",
    "Midi.C21_history_never_faults",
    "Midi.C21_only_payload"
   ],
   "note": ""
  },
  {
   "property": "C22",
   "status": "partial",
   "theorems": [
    "Midi.C22_size_limit_partial",
    "Midi.C22_fitting_delivered",
    "Midi.C22_limit_set_late",
    "Midi.C22_id_counts",
    "Midi.C22_size_limit8_partial",
    "Midi.C22_limit8_set_late",
    "Midi.C22_history_exactly",
    "Midi.C22_late_limit_exactly",
    "Midi.C22_history_exactly8",
    "Midi.C22_late_limit_exactly8",
    "Midi.C22_effective_limit",
    "Midi.C22_limited_exactly",
    "Midi.C22_effective_limit8",
    "Midi.C22_limited_exactly8"
   ],
   "note": "False of the code as given: a limit set after larger messages were collected has no effect while the storage is larger (C22_limit_set_late, C22_limit8_set_late). C22_effective_limit and C22_effective_limit8 give the limit that is in effect after any history of calls; C22_limited_exactly and C22_limited_exactly8 say exactly what a collector with a limit delivers for any packet sequence, C22_history_exactly and C22_history_exactly8 for any history of calls. C22_size_limit_partial needs that the storage does not exceed the limit when it is set."
  },
  {
   "property": "C23",
   "status": "partial",
   "theorems": [
    "Midi.C23_dropped_then_exact_partial",
    "Midi.C23_reset_then_exact",
    "Midi.C23_dropped_message_leaks",
    "Midi.C23_dropped_then_exact8_partial",
    "Midi.C23_reset8_then_exact",
    "Midi.C23_dropped_message_leaks8",
    "Midi.C23_dropped_early_then_exact",
    "Midi.C23_dropped_late_leaks",
    "Midi.C23_dropped_early_then_exact8",
    "Midi.C23_dropped_late_leaks8"
   ],
   "note": "False of the code: a message dropped at its last packet leaks into the following message (C23_dropped_message_leaks, C23_dropped_message_leaks8, and in general C23_dropped_late_leaks, C23_dropped_late_leaks8). Messages dropped earlier do not (C23_dropped_early_then_exact, C23_dropped_early_then_exact8), and not after reset (C23_reset_then_exact, C23_reset8_then_exact)."
  },
  {
   "property": "C24",
   "status": "proved",
   "theorems": [
    "Midi.C24_collector_decodes",
    "Midi.C24_only_own_stream",
    "Midi.C24_other_streams_ignored",
    "Midi.C24_never_faults",
    "Midi.C24_history_never_faults"
   ],
   "note": ""
  },
  {
   "property": "C25",
   "status": "proved",
   "theorems": [
    "Midi.C25_parser_output",
    "Midi.C25_bad_group"
   ],
   "note": ""
  },
  {
   "property": "C26",
   "status": "proved",
   "theorems": [
    "Midi.C26_parser_grammar",
    "Midi.C26_parser_bytes"
   ],
   "note": ""
  },
  {
   "property": "C27",
   "status": "proved",
   "theorems": [
    "Midi.C27_realtime_transparent",
    "Midi.C27_realtime_inserted"
   ],
   "note": ""
  },
  {
   "property": "C28",
   "status": "proved",
   "theorems": [
    "Midi.C28_running_status",
    "Midi.C28_messages"
   ],
   "note": ""
  },
  {
   "property": "C29",
   "status": "proved",
   "theorems": [
    "Midi.C29_sysex_packets"
   ],
   "note": ""
  },
  {
   "property": "C30",
   "status": "proved",
   "theorems": [
    "Midi.C30_sysex_callback",
    "Midi.C30_incomplete_id",
    "Midi.C30_aborted"
   ],
   "note": ""
  },
  {
   "property": "C31",
   "status": "proved",
   "theorems": [
    "Midi.C31_chunking",
    "Midi.C31_same_bytes",
    "Midi.C31_reset"
   ],
   "note": ""
  },
  {
   "property": "C32",
   "status": "proved",
   "theorems": [
    "Midi.C32_disabled_silent",
    "Midi.C32_enabled_later",
    "Midi.C32_enabled_later_callback"
   ],
   "note": ""
  },
  {
   "property": "C33",
   "status": "proved",
   "theorems": [
    "Midi.C33_to_byte_stream",
    "Midi.C33_stream_size",
    "Midi.C33_size_differs",
    "Midi.C33_parse_back"
   ],
   "note": ""
  },
  {
   "property": "C34",
   "status": "proved",
   "theorems": [
    "Midi.C34_from_to",
    "Midi.C34_from_other",
    "Midi.C34_to_from",
    "Midi.C34_agrees_with_parser"
   ],
   "note": ""
  },
  {
   "property": "C35",
   "status": "proved",
   "theorems": [
    "Midi.C35_chain_callback",
    "Midi.C35_chain_packets",
    "Midi.C35_six_bytes_differ",
    "Midi.C35_chain_collector"
   ],
   "note": ""
  },
  {
   "property": "C36",
   "status": "proved",
   "theorems": [
    "Midi.C36_both_modes",
    "Midi.C36_same_messages",
    "Midi.C36_truncated_id_differs"
   ],
   "note": ""
  },
  {
   "property": "C37",
   "status": "proved",
   "theorems": [
    "Midi.C37_uint14",
    "Midi.C37_uint28",
    "Midi.C37_uint32",
    "Midi.C37_uint7",
    "Midi.C37_out_of_range"
   ],
   "note": ""
  },
  {
   "property": "C38",
   "status": "proved",
   "theorems": [
    "Midi.C38_identity_request",
    "Midi.C38_identity_reply",
    "Midi.C38_identity_reply_of",
    "Midi.C38_device_identity"
   ],
   "note": ""
  },
  {
   "property": "C39",
   "status": "partial",
   "theorems": [
    "Midi.C39_discovery_reachable",
    "Midi.C39_universal",
    "Midi.C39_universal_view",
    "Midi.C39_identity_reply",
    "Midi.CI.C39_capability_inquiry",
    "Midi.CI.C39_endpoint_information_inquiry",
    "Midi.CI.C39_endpoint_information_reply",
    "Midi.CI.C39_ack",
    "Midi.CI.C39_nak",
    "Midi.CI.C39_invalidate_muid",
    "Midi.CI.C39_profile_inquiry",
    "Midi.CI.C39_profile_inquiry_reply",
    "Midi.CI.C39_profile_id",
    "Midi.CI.C39_profile_destination",
    "Midi.CI.C39_profile_details_inquiry",
    "Midi.CI.C39_profile_details_reply",
    "Midi.CI.C39_profile_specific_data",
    "Midi.CI.C39_property_exchange_capabilities",
    "Midi.CI.C39_property_data",
    "Midi.CI.C39_get_property_data",
    "Midi.CI.C39_set_property_data",
    "Midi.CI.C39_subscription",
    "Midi.CI.C39_notify",
    "Midi.CI.C39_process_inquiry_capabilities_reply",
    "Midi.CI.C39_midi_message_report_inquiry",
    "Midi.CI.C39_midi_message_report_reply",
    "Midi.CI.C39_discovery_inquiry_partial",
    "Midi.CI.C39_discovery_reply_partial",
    "Midi.CI.C39_discovery_validate_reads_outside"
   ],
   "note": "Proved for all views except that validate of the two discovery views reads data[3] of messages with less than four data bytes. C39_discovery_inquiry_partial and C39_discovery_reply_partial assume at least four data bytes; C39_discovery_validate_reads_outside shows that the read is outside of the data exactly if this is not so. C39_discovery_reachable: such a message is delivered by the parser for bytes received in any state, so a peer can cause the read."
  },
  {
   "property": "C40",
   "status": "proved",
   "theorems": [
    "Midi.CI.C40_discovery_inquiry_v1",
    "Midi.CI.C40_discovery_inquiry",
    "Midi.CI.C40_discovery_reply_v1",
    "Midi.CI.C40_discovery_reply",
    "Midi.CI.C40_endpoint_information_inquiry",
    "Midi.CI.C40_endpoint_information_reply",
    "Midi.CI.C40_ack",
    "Midi.CI.C40_nak",
    "Midi.CI.C40_nak_v1",
    "Midi.CI.C40_nak_for",
    "Midi.CI.C40_nak_v1_for",
    "Midi.CI.C40_set_source_muid",
    "Midi.CI.C40_set_destination_muid",
    "Midi.CI.C40_set_device_id",
    "Midi.CI.C40_invalidate_muid",
    "Midi.CI.C40_profile_inquiry",
    "Midi.CI.C40_profile_on",
    "Midi.CI.C40_profile_off",
    "Midi.CI.C40_profile_enabled",
    "Midi.CI.C40_profile_disabled",
    "Midi.CI.C40_profile_added",
    "Midi.CI.C40_profile_removed",
    "Midi.CI.C40_profile_details_inquiry",
    "Midi.CI.C40_profile_details_reply",
    "Midi.CI.C40_property_exchange_capabilities_inquiry",
    "Midi.CI.C40_property_exchange_capabilities_reply",
    "Midi.CI.C40_process_inquiry_capabilities_inquiry",
    "Midi.CI.C40_process_inquiry_capabilities_reply",
    "Midi.CI.C40_midi_message_report_inquiry",
    "Midi.CI.C40_midi_message_report_reply",
    "Midi.CI.C40_midi_message_report_end",
    "Midi.CI.C40_length_wraps"
   ],
   "note": ""
  },
  {
   "property": "C41",
   "status": "proved",
   "theorems": [
    "Midi.CI.C41_profile_inquiry_reply_array",
    "Midi.CI.C41_profile_inquiry_reply"
   ],
   "note": ""
  },
  {
   "property": "C42",
   "status": "proved",
   "theorems": [
    "Midi.CI.C42_property_data",
    "Midi.CI.C42_header_in_second_chunk_rejected",
    "Midi.CI.C42_get_inquiry",
    "Midi.CI.C42_get_inquiry_options",
    "Midi.CI.C42_get_reply_header",
    "Midi.CI.C42_get_reply_status",
    "Midi.CI.C42_get_reply_message",
    "Midi.CI.C42_get_reply_chunk",
    "Midi.CI.C42_set_inquiry",
    "Midi.CI.C42_set_inquiry_options",
    "Midi.CI.C42_set_inquiry_chunk",
    "Midi.CI.C42_set_reply",
    "Midi.CI.C42_set_reply_message",
    "Midi.CI.C42_subscription_inquiry",
    "Midi.CI.C42_subscription_inquiry_chunks",
    "Midi.CI.C42_subscription_inquiry_chunk",
    "Midi.CI.C42_subscription_reply",
    "Midi.CI.C42_subscription_reply_message",
    "Midi.CI.C42_notify",
    "Midi.CI.C42_notify_message"
   ],
   "note": ""
  },
  {
   "property": "C43",
   "status": "partial",
   "theorems": [
    "Midi.CI.C43_profile_specific_data",
    "Midi.CI.C43_profile_specific_data_vector_partial",
    "Midi.CI.C43_vector_is_cut",
    "Midi.CI.C43_vector_round_trip_iff"
   ],
   "note": "Proved for the factory with pointer and size (C43_profile_specific_data). The vector overload sends only size % 65536 bytes (C43_vector_is_cut); C43_vector_round_trip_iff is the exact condition."
  },
  {
   "property": "C44",
   "status": "partial",
   "theorems": [
    "Midi.C44_endpoint_name",
    "Midi.C44_function_block_name",
    "Midi.C44_read_back_partial",
    "Midi.C44_not_ascii_differs",
    "Midi.C44_text_from",
    "Midi.C44_read_back_iff",
    "Midi.C44_product_instance_id",
    "Midi.C44_product_instance_id_iff",
    "Midi.C44_utf8_differs"
   ],
   "note": "The framing and the payload bytes are proved for names of any length and content (C44_endpoint_name, C44_function_block_name, C44_product_instance_id). Names read back through the views if and only if they consist of ASCII characters other than zero (C44_read_back_iff, C44_product_instance_id_iff), so the statement is false for UTF-8 names (witness C44_utf8_differs)."
  },
  {
   "property": "C45",
   "status": "partial",
   "theorems": [
    "Midi.C45_views",
    "Midi.C45_exclusive",
    "Midi.C45_endpoint_discovery",
    "Midi.C45_endpoint_info",
    "Midi.C45_device_identity_bytes",
    "Midi.C45_device_identity",
    "Midi.C45_stream_configuration",
    "Midi.C45_function_block_discovery",
    "Midi.C45_function_block_info_partial",
    "Midi.C45_function_block_info_direction",
    "Midi.C45_function_block_info_exact",
    "Midi.C45_function_block_info_iff",
    "Midi.C45_sixteen_groups",
    "Midi.C45_too_many_blocks"
   ],
   "note": "Proved except for function block info messages: a missing user interface hint reads back as the direction, and 16 groups read back as 0 (C45_sixteen_groups). C45_function_block_info_exact says exactly what reads back, C45_function_block_info_iff when it is what was passed. 128 or more function blocks set an unrelated flag (C45_too_many_blocks)."
  },
  {
   "property": "C46",
   "status": "proved",
   "theorems": [
    "Midi.C46_view",
    "Midi.C46_flex_data",
    "Midi.C46_invalid_address",
    "Midi.C46_text",
    "Midi.C46_text_length",
    "Midi.C46_setup"
   ],
   "note": ""
  },
  {
   "property": "C47",
   "status": "proved",
   "theorems": [
    "Midi.Jr.C47_difference",
    "Midi.Jr.C47_elapsed",
    "Midi.Jr.C47_round",
    "Midi.Jr.C47_clock_now"
   ],
   "note": ""
  },
  {
   "property": "C48",
   "status": "partial",
   "theorems": [
    "Midi.Jr.C48_nonneg",
    "Midi.Jr.C48_offset_derived",
    "Midi.Jr.C48_clock_monotone",
    "Midi.Jr.C48_reset",
    "Midi.Jr.C48_no_fault_partial",
    "Midi.Jr.C48_overflow",
    "Midi.Jr.C48_clock_messages",
    "Midi.Jr.C48_ideal_jitter",
    "Midi.Jr.C48_ideal_no_fault"
   ],
   "note": "Everything but the absence of overflow is proved for all call histories. The jitter estimate can overflow after 366509470 clock messages of a sender with a clock running backwards (C48_overflow). C48_no_fault_partial excludes overflow if the time span plus 2.09712 s for each clock message but the first is at most 2^63 / 12 ns, which for messages at the same time is exact (C48_clock_messages); for an ideal sender C48_ideal_no_fault needs no bound on their number, since the jitter estimate is exactly the spread of transmission times (C48_ideal_jitter)."
  },
  {
   "property": "C49",
   "status": "partial",
   "theorems": [
    "Midi.Jr.C49_exactly",
    "Midi.Jr.C49_disorder_bounded",
    "Midi.Jr.C49_never_early",
    "Midi.Jr.C49_order_between_clocks",
    "Midi.Jr.C49_order_partial",
    "Midi.Jr.C49_spacing_partial",
    "Midi.Jr.C49_order_violated",
    "Midi.Jr.C49_spacing_violated"
   ],
   "note": "Never early is proved (C49_never_early), and order between clock messages (C49_order_between_clocks). Order across clock messages and exact spacing are false of the code (witnesses C49_order_violated, C49_spacing_violated); the partial theorems give conditions under which they hold. For an ideal sender the scheduled times are given exactly by a reference plan (C49_exactly); a message overtakes an earlier one by at most the jitter estimate (C49_disorder_bounded); the distance of two messages after the same clock message is exact if and only if their timestamps agree or the first is scheduled at its ideal time (C49_spacing_partial)."
  },
  {
   "property": "C50",
   "status": "partial",
   "theorems": [
    "Midi.Fp.C50_rounding",
    "Midi.Fp.C50_velocity_defined",
    "Midi.Fp.C50_velocity_monotone",
    "Midi.Fp.C50_velocity_as",
    "Midi.Fp.C50_velocity_round_trip",
    "Midi.Fp.C50_controller_defined",
    "Midi.Fp.C50_controller_monotone",
    "Midi.Fp.C50_controller_as",
    "Midi.Fp.C50_controller_round_trip",
    "Midi.Fp.C50_controller_float_differs",
    "Midi.Fp.C50_nan",
    "Midi.Fp.C50_velocity_accuracy",
    "Midi.Fp.C50_controller_accuracy",
    "Midi.Fp.C50_pitch_bend_accuracy",
    "Midi.Fp.C50_velocity_as_accuracy",
    "Midi.Fp.C50_controller_as_accuracy",
    "Midi.Fp.C50_controller_float_trip",
    "Midi.Fp.C50_pitch_bend_as_accuracy",
    "Midi.Fp.C50_pitch_bend_float_trip",
    "Midi.Fp.C50_pitch_bend_defined",
    "Midi.Fp.C50_pitch_bend_monotone",
    "Midi.Fp.C50_pitch_bend_as_double",
    "Midi.Fp.C50_pitch_bend_as_float",
    "Midi.Fp.C50_pitch_bend_round_trip_partial",
    "Midi.Fp.C50_pitch_bend_differs",
    "Midi.Fp.C50_pitch_7_9",
    "Midi.Fp.C50_pitch_7_9_nearest",
    "Midi.Fp.C50_pitch_7_9_round_trip",
    "Midi.Fp.C50_pitch_7_25",
    "Midi.Fp.C50_pitch_7_25_nearest",
    "Midi.Fp.C50_pitch_7_25_round_trip",
    "Midi.Fp.C50_pitch_7_25_as_float",
    "Midi.Fp.C50_pitch_7_25_float_range",
    "Midi.Fp.C50_pitch_7_25_float_differs",
    "Midi.Fp.C50_pitch_increment_double",
    "Midi.Fp.C50_pitch_increment_float",
    "Midi.Fp.C50_pitch_increment_nan",
    "Midi.Fp.C50_detune",
    "Midi.Fp.C50_detune_float"
   ],
   "note": "Proved for all finite arguments, with NaN and infinities modelled. False in two points: the round trip of pitch_bend through double fails exactly for 0x80000001 to 0x80000200 (C50_pitch_bend_differs), and NaN is converted to an integer, which is undefined behaviour (C50_nan, C50_pitch_increment_nan). Round trips through float are not exact for controller values and pitch bends; they are proved to be at most 128 and 193 of 2^32 steps off (C50_controller_float_trip, C50_pitch_bend_float_trip). The documented range [0..128) of pitch_7_25::as_float is exceeded by exactly the values from 0xFFFFFF80 on (C50_pitch_7_25_float_range)."
  },
  {
   "property": "C51",
   "status": "proved",
   "theorems": [
    "Midi.C51_getters_agree",
    "Midi.C51_ranges",
    "Midi.C51_pitch_bend_defined"
   ],
   "note": ""
  },
  {
   "property": "C52",
   "status": "partial",
   "theorems": [
    "Midi.CI.C52_rjson_string_options_partial",
    "Midi.CI.C52_rjson_int_options_partial",
    "Midi.CI.C52_rjson_string_options_exact",
    "Midi.CI.C52_rjson_int_options_exact",
    "Midi.CI.C52_rjson_string",
    "Midi.CI.C52_rjson_int",
    "Midi.CI.C52_fault_iff_empty_option",
    "Midi.CI.C52_empty_subscribe_id",
    "Midi.CI.C52_not_json"
   ],
   "note": "make_rjson does not escape and takes what looks like a number as one, so the result is not always JSON (C52_not_json), and an empty option reads before its first character (C52_fault_iff_empty_option). C52_rjson_string_options_exact and C52_rjson_int_options_exact give the exact condition under which the object reads back."
  },
  {
   "property": "C53",
   "status": "proved",
   "theorems": [
    "Midi.C53_is_7bit",
    "Midi.C53_is_8bit",
    "Midi.C53_empty",
    "Midi.C53_clear",
    "Midi.C53_equality",
    "Midi.C53_is_valid",
    "Midi.C53_total_data_size",
    "Midi.C53_total_data_size_no_id"
   ],
   "note": ""
  },
  {
   "property": "C54",
   "status": "proved",
   "theorems": [
    "Midi.C54_message_types",
    "Midi.C54_midi1_protocol",
    "Midi.C54_midi1_protocol_has_bytes",
    "Midi.C54_default_constructed"
   ],
   "note": ""
  },
  {
   "property": "C55",
   "status": "proved",
   "theorems": [
    "Midi.CI.C55_endpoint_information_inquiry",
    "Midi.CI.C55_profile_details_inquiry",
    "Midi.CI.C55_process_inquiry_capabilities_reply",
    "Midi.CI.C55_midi_message_report_inquiry",
    "Midi.CI.C55_midi_message_report_reply",
    "Midi.CI.C55_profile_id",
    "Midi.CI.C55_profile_destination",
    "Midi.CI.C55_discovery_inquiry",
    "Midi.CI.C55_discovery_reply",
    "Midi.CI.C55_property_exchange_capabilities",
    "Midi.CI.C55_invalidate_muid",
    "Midi.CI.C55_profile_inquiry",
    "Midi.CI.C55_endpoint_information_reply",
    "Midi.CI.C55_ack",
    "Midi.CI.C55_nak",
    "Midi.CI.C55_profile_details_reply",
    "Midi.CI.C55_profile_specific_data",
    "Midi.CI.C55_profile_inquiry_reply",
    "Midi.CI.C55_property_data",
    "Midi.CI.C55_get_property_data",
    "Midi.CI.C55_set_property_data",
    "Midi.CI.C55_subscription",
    "Midi.CI.C55_notify",
    "Midi.CI.C55_views",
    "Midi.UniversalSysex.C55_identity_request",
    "Midi.UniversalSysex.C55_identity_reply",
    "Midi.UniversalSysex.C55_is_identity_reply"
   ],
   "note": ""
  },
  {
   "property": "C56",
   "status": "proved",
   "theorems": [
    "Midi.C56_reparse",
    "Midi.C56_unchanged"
   ],
   "note": ""
  },
  {
   "property": "C57",
   "status": "proved",
   "theorems": [
    "Midi.C57_stable",
    "Midi.C57_midi2_over_cable",
    "Midi.C57_cable_over_midi2"
   ],
   "note": ""
  },
  {
   "property": "C58",
   "status": "proved",
   "theorems": [
    "Midi.C58_collector",
    "Midi.C58_cable",
    "Midi.C58_invalid_changed"
   ],
   "note": ""
  },
  {
   "property": "C59",
   "status": "proved",
   "theorems": [
    "Midi.C59_profile_id",
    "Midi.C59_profile_destination",
    "Midi.C59_same_message",
    "Midi.C59_destinations"
   ],
   "note": ""
  },
  {
   "property": "C60",
   "status": "proved",
   "theorems": [
    "Midi.C60_exact",
    "Midi.C60_centre",
    "Midi.C60_bounded",
    "Midi.C60_monotone",
    "Midi.C60_full_down",
    "Midi.C60_full_up",
    "Midi.C60_default",
    "Midi.C60_controller"
   ],
   "note": ""
  },
  {
   "property": "C61",
   "status": "partial",
   "theorems": [
    "Midi.C61_flags_restored",
    "Midi.C61_read_flags_restored",
    "Midi.C61_unchanged_iff",
    "Midi.C61_text_exactly",
    "Midi.C61_text_partial",
    "Midi.C61_fill_left_behind",
    "Midi.C61_left_other_packet",
    "Midi.C61_showbase_uppercase",
    "Midi.C61_read_skipws",
    "Midi.C61_noskipws",
    "Midi.C61_read_back_exactly",
    "Midi.C61_read_back_partial",
    "Midi.C61_showbase_other_packet"
   ],
   "note": "False of the code: the fill character is not restored (C61_unchanged_iff, C61_fill_left_behind), std::left, showbase and uppercase change the text (C61_left_other_packet, C61_showbase_uppercase), and packets of several words cannot be read from a stream that does not skip white space (C61_noskipws). Proved: the flags are restored, C61_text_exactly says exactly when the text is the canonical one, C61_text_partial that base, fill character and width do not matter. Which texts are read back as the same packet is given exactly by C61_read_back_exactly (all of them without showbase and left, or with internal: C61_read_back_partial; not all with showbase: C61_showbase_other_packet)."
  },
  {
   "property": "C62",
   "status": "proved",
   "theorems": [
    "Midi.C62_calls_exactly",
    "Midi.C62_nothing_invented",
    "Midi.C62_fresh_after_delivery",
    "Midi.C62_calls_exactly8",
    "Midi.C62_nothing_invented8",
    "Midi.C62_fresh_after_delivery8"
   ],
   "note": ""
  },
  {
   "property": "C63",
   "status": "partial",
   "theorems": [
    "Midi.C63_plain",
    "Midi.C63_resets_inside_partial",
    "Midi.C63_reset_first_partial",
    "Midi.C63_end_packet_partial",
    "Midi.C63_complete_packets_merge",
    "Midi.C63_unfinished_lost",
    "Midi.C63_false",
    "Midi.C63_plain8",
    "Midi.C63_resets_inside8_partial",
    "Midi.C63_reset_first8_partial",
    "Midi.C63_end_packet8_partial",
    "Midi.C63_complete_packets_merge8",
    "Midi.C63_unfinished_lost8",
    "Midi.C63_false8"
   ],
   "note": "False of the code: while the callback runs the collector still holds the message, and afterwards it forgets everything. A complete packet fed in the callback of a complete packet is appended to the message (C63_complete_packets_merge), messages begun in the callback are lost (C63_unfinished_lost). Proved: callbacks that only reset, that reset first, or that feed a first packet in the callback for an end packet; the exact behaviour for all trees of calls is C62_calls_exactly."
  },
  {
   "property": "C64",
   "status": "partial",
   "theorems": [
    "Midi.C64_with_sysex_callback_partial",
    "Midi.C64_status_first_partial",
    "Midi.C64_delivered_partial",
    "Midi.C64_overflow",
    "Midi.C64_exactly"
   ],
   "note": "False of the code without sysex callback: the ninth data byte fed in the callback for a packet with six bytes of sysex fails the assertion for bytes behind the packet (C64_overflow). Proved for all trees of calls with a sysex callback, and without one if every callback that feeds the parser begins with a status byte other than sysex end, or with a reset. C64_exactly: for all trees of calls, the assertion is the only thing that can fail, and it fails exactly if the reference machine has no result. C64_delivered_partial: if it does not fail, everything delivered is well formed except for sysex packets, which may have up to fourteen data bytes."
  },
  {
   "property": "C65",
   "status": "partial",
   "theorems": [
    "Midi.C65_complete_messages_partial",
    "Midi.C65_completed_partial",
    "Midi.C65_tune_request",
    "Midi.C65_system_common",
    "Midi.C65_reset_undone",
    "Midi.C65_manufacturer_lost",
    "Midi.C65_false",
    "Midi.C65_plain",
    "Midi.C65_exactly",
    "Midi.C65_exactly_when",
    "Midi.C65_real_time_partial",
    "Midi.C65_only_in_real_time_partial",
    "Midi.C65_settings_partial",
    "Midi.C65_enable_partial"
   ],
   "note": "False of the code (C65_false): a tune request and the end of sysex drop what the callback began (C65_tune_request, C65_manufacturer_lost), system common messages begun in a callback are dropped (C65_system_common), a reset in the callback for a sysex packet is undone (C65_reset_undone). Proved: all calls in callbacks for real time messages, settings and resets with a sysex callback, enabling and disabling callbacks, and, except for tune request and sysex packets, any calls that end with a complete message or a reset. C65_exactly gives the exact events for all trees of calls."
  },
  {
   "property": "C66",
   "status": "proved",
   "theorems": [
    "Midi.C66_sysex7_payload_byte",
    "Midi.C66_sysex8_payload_byte",
    "Midi.C66_sysex7_payload_size",
    "Midi.C66_sysex8_payload_size",
    "Midi.C66_stream_format",
    "Midi.C66_reset",
    "Midi.C66_of_words"
   ],
   "note": ""
  },
  {
   "property": "C67",
   "status": "proved",
   "theorems": [
    "Midi.C67_tries_exactly",
    "Midi.C67_plain",
    "Midi.C67_nothing_invented",
    "Midi.C67_failed_allocation",
    "Midi.C67_reset",
    "Midi.C67_tries_exactly8",
    "Midi.C67_plain8",
    "Midi.C67_nothing_invented8",
    "Midi.C67_failed_allocation8",
    "Midi.C67_reset8"
   ],
   "note": ""
  },
  {
   "property": "C68",
   "status": "partial",
   "theorems": [
    "Midi.C68_next_exactly",
    "Midi.C68_next_message_partial",
    "Midi.C68_message_kept",
    "Midi.C68_message_continued",
    "Midi.C68_packet_missing",
    "Midi.C68_next_exactly8",
    "Midi.C68_next_message8_partial",
    "Midi.C68_message_kept8",
    "Midi.C68_message_continued8",
    "Midi.C68_packet_missing8"
   ],
   "note": "False of the code: a message for which the callback threw is put in front of the next message that is one packet (C68_message_kept), or delivered again with the payload of a further end packet appended (C68_message_continued); a message is delivered without the packet for which there was no memory (C68_packet_missing). Proved, for collectors without limit: the next message is delivered unchanged if no callback threw for a complete packet; C68_next_exactly and C67_tries_exactly give the exact behaviour for all histories. The same for 8 bit sysex."
  },
  {
   "property": "C69",
   "status": "partial",
   "theorems": [
    "Midi.C69_plain",
    "Midi.C69_with_sysex_callback_partial",
    "Midi.C69_starting_afresh_partial",
    "Midi.C69_overflow",
    "Midi.C69_exactly",
    "Midi.C69_delivered_partial"
   ],
   "note": "False of the code without sysex callback: if the callback for a packet with six bytes of sysex throws, the ninth data byte behind it fails the assertion for bytes behind the packet (C69_overflow). Proved for all histories with a sysex callback, and without one if the caller goes on with a reset or a status byte other than sysex end behind an exception. C69_exactly: for all histories, the assertion is the only thing that can fail, and it fails exactly if the reference machine has no result. C69_delivered_partial: if it does not fail, everything delivered is well formed except for sysex packets, which may have up to fourteen data bytes."
  },
  {
   "property": "C70",
   "status": "proved",
   "theorems": [
    "Midi.C70_reset",
    "Midi.C70_next_status",
    "Midi.C70_next_message"
   ],
   "note": ""
  },
  {
   "property": "C71",
   "status": "partial",
   "theorems": [
    "Midi.C71_exactly",
    "Midi.C71_no_effect_partial",
    "Midi.C71_end_twice",
    "Midi.C71_rest_misplaced",
    "Midi.C71_byte_lost",
    "Midi.C71_collected_while_disabled"
   ],
   "note": "False of the code: without sysex callback the packet with the end of a sysex message can be delivered twice (C71_end_twice) or with misplaced bytes (C71_rest_misplaced); with a sysex callback a byte can be missing from a message (C71_byte_lost) and a message that should be dropped is delivered (C71_collected_while_disabled). Proved: exceptions from callbacks have no effect with a sysex callback and for streams without sysex; C71_exactly gives the exact events for all histories."
  },
  {
   "property": "C72",
   "status": "partial",
   "theorems": [
    "Midi.C72_no_memory_needed_partial",
    "Midi.C72_no_exception_partial",
    "Midi.C72_large_limit",
    "Midi.C72_large_storage",
    "Midi.C72_exactly",
    "Midi.C72_no_memory_needed8_partial",
    "Midi.C72_no_exception8_partial",
    "Midi.C72_large_limit8",
    "Midi.C72_large_storage8",
    "Midi.C72_exactly8"
   ],
   "note": "False of the code for limits of more than 16384 bytes (C72_large_limit), and if the collector had a larger storage before (C72_large_storage): the storage is given back when a message is complete. Proved for all other limits and histories, for 7 and 8 bit sysex. C72_exactly and C72_exactly8: these are the only exceptions."
  },
  {
   "property": "C73",
   "status": "proved",
   "theorems": [
    "Midi.C73_send_sysex7",
    "Midi.C73_send_sysex8",
    "Midi.C73_send_names",
    "Midi.C73_send_product_instance_id",
    "Midi.C73_exception",
    "Midi.C73_into_collector"
   ],
   "note": ""
  },
  {
   "property": "C74",
   "status": "proved",
   "theorems": [
    "Midi.C74_other_groups"
   ],
   "note": ""
  },
  {
   "property": "C75",
   "status": "partial",
   "theorems": [
    "Midi.C75_message_group_partial",
    "Midi.C75_sysex_exactly",
    "Midi.C75_sysex_false"
   ],
   "note": "False of the code for sysex in packet mode: the packets of one message can be in different groups (C75_sysex_false, and exactly C75_sysex_exactly). Proved for all other messages, with running status."
  },
  {
   "property": "C76",
   "status": "proved",
   "theorems": [
    "Midi.C76_one_filter",
    "Midi.C76_refined_filters",
    "Midi.C76_filters_agree",
    "Midi.C76_processor_agrees"
   ],
   "note": ""
  },
  {
   "property": "C77",
   "status": "partial",
   "theorems": [
    "Midi.C77_defined_partial",
    "Midi.C77_undefined"
   ],
   "note": "False of the code for MIDI 1 pitch bend messages whose second data byte has the high bit set (C77_undefined). Proved exactly: C77_defined_partial is an equivalence."
  },
  {
   "property": "C78",
   "status": "proved",
   "theorems": [
    "Midi.C78_to_midi1",
    "Midi.C78_to_midi2",
    "Midi.C78_precision",
    "Midi.C78_fixed_points",
    "Midi.C78_data"
   ],
   "note": ""
  },
  {
   "property": "C79",
   "status": "proved",
   "theorems": [
    "Midi.C79_send_sysex7",
    "Midi.C79_send_sysex8",
    "Midi.C79_send_endpoint_name",
    "Midi.C79_send_function_block_name",
    "Midi.C79_send_product_instance_id",
    "Midi.C79_parser",
    "Midi.C79_parser_sysex",
    "Midi.C79_collector7",
    "Midi.C79_collector8"
   ],
   "note": ""
  },
  {
   "property": "C80",
   "status": "proved",
   "theorems": [
    "Midi.C80_collector7",
    "Midi.C80_collector8",
    "Midi.C80_parser"
   ],
   "note": "For sysex8 the messages are those send_sysex8 frames correctly, see C19 and C20."
  },
  {
   "property": "C81",
   "status": "proved",
   "theorems": [
    "Midi.C81_genuine",
    "Midi.C81_distinct",
    "Midi.C81_names",
    "Midi.C81_transport",
    "Midi.C81_identity"
   ],
   "note": "The table of names is the whole of inc/midi/manufacturer.h; C81_transport and C81_identity are for all data."
  },
  {
   "property": "C82",
   "status": "proved",
   "theorems": [
    "Midi.C82_groups",
    "Midi.C82_one_collector",
    "Midi.C82_streams"
   ],
   "note": "C82_streams excludes the lengths for which send_sysex8 frames packets wrongly (C19). C82_one_collector shows what happens with a single collector."
  },
  {
   "property": "C83",
   "status": "partial",
   "theorems": [
    "Midi.C83_reading_ends",
    "Midi.C83_one_cut",
    "Midi.C83_reads_messages_partial",
    "Midi.C83_exactly",
    "Midi.C83_truncated_message_delivered"
   ],
   "note": "False of the code for a text that ends with the last digit of an incomplete message: operator>> checks good() and not fail(), so the message is delivered with words of the packet before it in place of the missing ones (C83_truncated_message_delivered). C83_reads_messages_partial proves the property for all texts with white space at the end, C83_exactly says what happens for all texts, C83_one_cut that the messages are determined by the words."
  },
  {
   "property": "C84",
   "status": "proved",
   "theorems": [
    "Midi.C84_receiver_safe",
    "Midi.C84_reply_can_be_made",
    "Midi.C84_set_can_be_made",
    "Midi.C84_receiver",
    "Midi.C84_transfers",
    "Midi.C84_lost_messages"
   ],
   "note": "Transfers are made by make_get_property_data_reply and make_set_property_data_inquiry (first message with header, the others without). The receiver and the transfers are in Spec/Transfer.lean; C84_receiver also says what it has after any part of the messages. The hypotheses are the preconditions of the factories (7 bit data, at most 16383 chunks of at most 16383 bytes), and that no two transfers have the same subtype, source and request id."
  },
  {
   "property": "C85",
   "status": "proved",
   "theorems": [
    "Midi.C85_packet",
    "Midi.C85_text",
    "Midi.C85_long",
    "Midi.C85_channel_voice_filters",
    "Midi.C85_channel_voice_values",
    "Midi.C85_midi2_values",
    "Midi.C85_short_values",
    "Midi.C85_sysex7_values",
    "Midi.C85_views",
    "Midi.C85_translation",
    "Midi.C85_processor",
    "Midi.C85_byte_stream",
    "Midi.C85_collector7",
    "Midi.C85_collector8",
    "Midi.C85_edit",
    "Midi.C85_longer_type",
    "Midi.C85_behind_the_end"
   ],
   "note": "Preconditions are those of the functions: 32 bit values are those of channel voice messages, bytes are those of the message. C85_behind_the_end and C85_longer_type show what happens without them: bytes behind the end are those of the unused words, and changing the type to one with longer messages makes them part of the message."
  },
  {
   "property": "C86",
   "status": "proved",
   "theorems": [
    "Midi.C86_cable_callback",
    "Midi.C86_cable_packets",
    "Midi.C86_direct",
    "Midi.C86_cable_transparent",
    "Midi.C86_interrupted_differs",
    "Midi.C86_orphan_differs"
   ],
   "note": "The meaning of a packet sequence is itemsOf in Spec/Cable.lean. C86_interrupted_differs: a direct receiver still gets a sysex message interrupted by a channel voice message, a receiver behind a cable does not."
  },
  {
   "property": "C87",
   "status": "partial",
   "theorems": [
    "Midi.C87_set_byte",
    "Midi.C87_get_byte_partial",
    "Midi.C87_set_type",
    "Midi.C87_set_group_partial",
    "Midi.C87_group_corrupts_type",
    "Midi.C87_channel",
    "Midi.C87_make_sysex7_partial",
    "Midi.C87_set_payload_size7",
    "Midi.C87_add_payload_byte7",
    "Midi.C87_overfull_sysex7",
    "Midi.C87_set_payload_size8",
    "Midi.C87_add_payload_byte8",
    "Midi.C87_send_sysex7_partial",
    "Midi.C87_send_sysex7_same",
    "Midi.C87_send_sysex8",
    "Midi.C87_send_sysex8_partial",
    "Midi.C87_send_sysex8_type",
    "Midi.C87_send_sysex7_corrupts",
    "Midi.C87_texts_cut",
    "Midi.C87_flex_text",
    "Midi.C87_flex_message",
    "Midi.C87_send_names",
    "Midi.C87_stream_configuration",
    "Midi.C87_function_block_info",
    "Midi.C87_function_block_info_options",
    "Midi.C87_sysex7_add",
    "Midi.C87_add_device_identity",
    "Midi.C87_sysex7_make_partial",
    "Midi.C87_set_device_id_partial",
    "Midi.C87_ci_message",
    "Midi.C87_ci_device_id",
    "Midi.C87_set_muid_partial"
   ],
   "note": "False of the code as stated. A group of 16 or more gets into the message type (C87_group_corrupts_type), so that sysex7 packets become packets of another type (C87_send_sysex7_corrupts); get_byte, make_uint14, make_uint28, make_uint32, make_device_identity, set_device_id and the setters of muids access memory out of bounds for positions behind the end, exactly as with assertions switched on they stop; a device id above 127 is stored as it is (C87_ci_device_id). The theorems without suffix hold for all arguments of the functions they are about, those with suffix _partial say for which arguments the claim holds and what happens for the others. send_sysex8 asserts nothing about the group, so the same holds in both builds (C87_send_sysex8_partial, C87_send_sysex8_type). Functions not listed in the property are not covered."
  },
  {
   "property": "C88",
   "status": "partial",
   "theorems": [
    "Midi.C88_same",
    "Midi.C88_normal_use",
    "Midi.C88_delivered_partial",
    "Midi.C88_header_lost",
    "Midi.C88_rest_lost",
    "Midi.C88_reset",
    "Midi.C88_next_status",
    "Midi.C88_groups",
    "Midi.C88_sysex_lost",
    "Midi.C88_no_sysex"
   ],
   "note": "False of the code as stated. When the callback for a sysex packet throws and the caller goes on with data bytes, the byte counter runs through all 256 values and the header of the packet is overwritten with data: packets can be delivered in other groups (C88_header_lost) or the rest of the message is lost (C88_rest_lost). C88_delivered_partial says what can be delivered at most, for groups below 16; C88_reset and C88_next_status that the parser recovers. Groups 10h to 3Fh act as their lower four bits (C88_groups), with groups from 40h on all sysex is lost (C88_sysex_lost for calm callbacks: everything else is delivered; C88_no_sysex whatever is thrown). That no memory outside of the parser is touched shows in the functions of Verif.Model.ReleaseParser being total: set_byte checks its position."
  },
  {
   "property": "C89",
   "status": "partial",
   "theorems": [
    "Midi.C89_utility",
    "Midi.C89_system",
    "Midi.C89_song_position",
    "Midi.C89_midi1",
    "Midi.C89_midi1_values",
    "Midi.C89_midi1_note_on",
    "Midi.C89_midi1_note_on_zero",
    "Midi.C89_midi1_one_byte",
    "Midi.C89_midi1_pitch_bend",
    "Midi.C89_midi2_partial",
    "Midi.C89_midi2_view_loses_bit",
    "Midi.C89_midi2_notes",
    "Midi.C89_midi2_note_on_variants",
    "Midi.C89_midi2_per_note",
    "Midi.C89_midi2_controllers",
    "Midi.C89_midi2_program",
    "Midi.C89_sysex7",
    "Midi.C89_sysex8",
    "Midi.C89_flex_data",
    "Midi.C89_flex_text",
    "Midi.C89_endpoint_discovery",
    "Midi.C89_endpoint_info",
    "Midi.C89_device_identity",
    "Midi.C89_stream_configuration",
    "Midi.C89_function_block_discovery",
    "Midi.C89_function_block_info_partial",
    "Midi.C89_function_block_info_lost",
    "Midi.C89_names_partial",
    "Midi.C89_name_lost"
   ],
   "note": "Exact conditions for all kinds of messages. False of the code as stated in three places: the MIDI 2 view drops the top bit of the fourth byte, which belongs to per-note controller numbers and note attribute types (C89_midi2_partial, C89_midi2_view_loses_bit; the specific getters keep it, C89_midi2_notes and C89_midi2_per_note); function blocks without user interface hint or spanning 16 groups (C89_function_block_info_partial, C89_function_block_info_lost); names which are not ASCII and product instance ids with a continue message (C89_names_partial, C89_name_lost). A MIDI 1 note on with velocity zero becomes a note off with velocity 64 (C89_midi1_note_on_zero)."
  },
  {
   "property": "C90",
   "status": "partial",
   "theorems": [
    "Midi.C90_equal_iff",
    "Midi.C90_discovery_inquiry",
    "Midi.C90_discovery_inquiry_v1",
    "Midi.C90_discovery_reply",
    "Midi.C90_discovery_reply_v1",
    "Midi.C90_endpoint_information_inquiry",
    "Midi.C90_endpoint_information_reply",
    "Midi.C90_ack",
    "Midi.C90_nak",
    "Midi.C90_invalidate_muid",
    "Midi.C90_profile_inquiry",
    "Midi.C90_profile_inquiry_reply",
    "Midi.C90_profile_on",
    "Midi.C90_profile_off",
    "Midi.C90_profile_enabled",
    "Midi.C90_profile_disabled",
    "Midi.C90_profile_added",
    "Midi.C90_profile_removed",
    "Midi.C90_profile_details_inquiry",
    "Midi.C90_profile_details_reply",
    "Midi.C90_profile_specific_data",
    "Midi.C90_property_exchange_capabilities_inquiry",
    "Midi.C90_property_exchange_capabilities_reply",
    "Midi.C90_property_data_partial",
    "Midi.C90_property_data_no_chunk",
    "Midi.C90_process_inquiry_capabilities_reply",
    "Midi.C90_midi_message_report_inquiry",
    "Midi.C90_midi_message_report_reply",
    "Midi.C90_identity_request",
    "Midi.C90_identity_reply"
   ],
   "note": "One theorem for each kind of message; C90_equal_iff says when the two messages are equal. False of the code as stated for property data messages with chunk number 0: the factory asserts that the chunk pointer is null, which chunk_begin() of the view is not (C90_property_data_no_chunk: with a null pointer the message is made again, with the pointer of the view the assertion fails); C90_property_data_partial covers all other chunk numbers."
  },
  {
   "property": "C91",
   "status": "proved",
   "theorems": [
    "Midi.Jr.C91_sender_counter",
    "Midi.Jr.C91_system_clock",
    "Midi.Jr.C91_system_clock_defined",
    "Midi.Jr.C91_receive_times",
    "Midi.Jr.C91_before_clock"
   ],
   "note": "C91_sender_counter includes failures: both runs fail in the same way or not at all. C91_system_clock relates the runs that do not overflow; C91_system_clock_defined shows that none does within the stated span."
  },
  {
   "property": "C92",
   "status": "proved",
   "theorems": [
    "Midi.C92_upsample_same",
    "Midi.C92_upsample_defined_iff",
    "Midi.C92_upsample_equal_depth",
    "Midi.C92_upsample_one_bit",
    "Midi.C92_set_payload_byte7",
    "Midi.C92_set_payload_byte8",
    "Midi.Jr.C92_follower_same",
    "Midi.Jr.C92_follower_any_offset",
    "Midi.CI.C92_profile_reply",
    "Midi.CI.C92_profile_reply_same",
    "Midi.CI.C92_profile_reply_read",
    "Midi.CI.C92_profile_reply_wraps",
    "Midi.CI.C92_profiles",
    "Midi.CI.C92_property_data",
    "Midi.CI.C92_property_data_same",
    "Midi.CI.C92_property_data_read"
   ],
   "note": "Continues C87 and C88. C92_profile_reply_wraps shows what the view makes of a reply for 16384 enabled profiles: none enabled, and one disabled profile that was never passed."
  },
  {
   "property": "C93",
   "status": "proved",
   "theorems": [
    "Midi.C93_short_message",
    "Midi.C93_running_status",
    "Midi.C93_sysex_message",
    "Midi.C93_sysex_packets",
    "Midi.C93_collector7",
    "Midi.C93_collector8"
   ],
   "note": "Real time bytes in between are the subject of C27, which makes them transparent. For sysex8 the messages that arrive at all are those of C20."
  },
  {
   "property": "C94",
   "status": "proved",
   "theorems": [
    "Midi.C94_text",
    "Midi.C94_same_text",
    "Midi.C94_no_prefix",
    "Midi.C94_log"
   ],
   "note": "Exact text for every packet; the specification (digits by division, blanks between words) does not mention the stream manipulators of the code. A stream with default formatting; C61 is about reading texts back."
  },
  {
   "property": "C95",
   "status": "proved",
   "theorems": [
    "Midi.C95_sysex7",
    "Midi.C95_sysex8",
    "Midi.C95_bytes",
    "Midi.C95_to_bytes",
    "Midi.C95_to_midi2"
   ],
   "note": "Messages without a genuine manufacturer id are ambiguous (see the example beside the theorem and C18); sysex8 messages of the lengths of C19 are excluded."
  },
  {
   "property": "C96",
   "status": "proved",
   "theorems": [
    "Midi.C96_collector7",
    "Midi.C96_collector8",
    "Midi.C96_released7",
    "Midi.C96_released8",
    "Midi.C96_parser",
    "Midi.C96_parser_released",
    "Midi.C96_interrupted_kept",
    "Midi.C96_interrupted_any_size"
   ],
   "note": "Growth of std::vector as in the common standard libraries: reserve(n) makes the capacity max(capacity, n), push_back doubles, shrink_to_fit of an empty vector releases. With a limit see C22. C96_interrupted_any_size: a parser with no message in progress can hold any amount of memory."
  },
  {
   "property": "C97",
   "status": "proved",
   "theorems": [
    "Midi.C97_played",
    "Midi.C97_after_parser",
    "Midi.C97_bytes",
    "Midi.C97_coarse",
    "Midi.C97_over_cable"
   ],
   "note": "The processor is code of the documentation, modelled in Model/Processor. What is to be played is specified on the bytes of the packet (Spec/Actions: played, midi1Action, midi2Action) and on byte streams (Block.actions)."
  },
  {
   "property": "C98",
   "status": "proved",
   "theorems": [
    "Midi.Jr.C98_jitter",
    "Midi.Jr.C98_scheduled",
    "Midi.Jr.C98_gap"
   ],
   "note": "Within four years from the construction of the follower (C48). The finding for users: the security offset never shrinks, so a clock difference of 100 ppm delays messages by ten seconds after a day, and one gap of three seconds by 2.5 s for good."
  },
  {
   "property": "C99",
   "status": "proved",
   "theorems": [
    "Midi.Jr.C99_punctual",
    "Midi.Jr.C99_steady"
   ],
   "note": "For system clocks that run at the same rate (C98 says what happens otherwise) and within four years. The upper bound on the time scheduled is new here; C49 has the lower one."
  },
  {
   "property": "C100",
   "status": "proved",
   "theorems": [
    "Midi.C100_not_heard",
    "Midi.C100_discovery",
    "Midi.C100_unknown",
    "Midi.C100_silent",
    "Midi.C100_faults",
    "Midi.C100_valid_answered",
    "Midi.C100_no_answer_to_answer",
    "Midi.C100_cable",
    "Midi.C100_handshake",
    "Midi.C100_nak_v1_faults",
    "Midi.C100_packets_fault",
    "Midi.C100_packets_nak"
   ],
   "note": "The application (Spec/Device.lean) is written for this property; everything it calls is the library. C100_faults and C100_nak_v1_faults say exactly which messages make an assertion fail, C100_packets_fault and C100_packets_nak show packets that do so or that lead to an invalid answer."
  },
  {
   "property": "C101",
   "status": "proved",
   "theorems": [
    "Midi.C101_box",
    "Midi.C101_filter",
    "Midi.C101_bridge",
    "Midi.C101_needs_realTime",
    "Midi.C101_needs_sysex"
   ],
   "note": "The programs are those of Spec/Box.lean (Box); C101_bridge is the case of MIDI 2 in between (intoMidi2, outOfMidi2). C101_needs_realTime and C101_needs_sysex show that the conditions on programs are needed."
  },
  {
   "property": "C102",
   "status": "proved",
   "theorems": [
    "Midi.C102_endpoint",
    "Midi.C102_blocks",
    "Midi.C102_protocol",
    "Midi.C102_everything",
    "Midi.C102_never_wrong",
    "Midi.C102_knows_nothing",
    "Midi.C102_quiet",
    "Midi.C102_other_traffic",
    "Midi.C102_interleaved",
    "Midi.C102_view_of_both"
   ],
   "note": "The two applications are those of Spec/Endpoint.lean (Endpoint.receive, Known.hear). C102_view_of_both shows why the endpoint has to look at the status: as_stream_configuration_view accepts requests and notifications."
  },
  {
   "property": "C103",
   "status": "proved",
   "theorems": [
    "Midi.C103_reader_safe",
    "Midi.C103_independent",
    "Midi.C103_text",
    "Midi.C103_can_be_sent",
    "Midi.C103_all_texts",
    "Midi.C103_lost_packet",
    "Midi.C103_no_zeros"
   ],
   "note": "The two applications are those of Spec/FlexText.lean (TextSender.send, TextReader.read). C103_no_zeros shows that the condition on zeros is necessary; C103_lost_packet says exactly what a lost packet does."
  },
  {
   "property": "C104",
   "status": "proved",
   "theorems": [
    "Midi.C104_device",
    "Midi.C104_client",
    "Midi.C104_inquiry",
    "Midi.C104_turn_on",
    "Midi.C104_turn_off",
    "Midi.C104_never_wrong",
    "Midi.C104_knows"
   ],
   "note": "The applications are those of Spec/Profiles.lean (ProfileDevice.step, KnownProfiles.hear, netRun); profiles are compared with the library's operator==. The client hears all messages sent, in order; C104_inquiry holds for any knowledge, so asking again repairs what a lost notification spoilt."
  },
  {
   "property": "C105",
   "status": "proved",
   "theorems": [
    "Midi.C105_any_packets",
    "Midi.C105_to_midi2",
    "Midi.C105_to_midi1",
    "Midi.C105_same_notes",
    "Midi.C105_no_hanging_note",
    "Midi.C105_hanging_note",
    "Midi.C105_there_and_back",
    "Midi.C105_over_cable"
   ],
   "note": "The instrument and the two translating programs are those of Spec/Sounding.lean. C105_to_midi1 is exact; C105_hanging_note is the witness for Note Off with attribute."
  },
  {
   "property": "C106",
   "status": "proved",
   "theorems": [
    "Midi.C106_understood",
    "Midi.C106_told_apart",
    "Midi.C106_safe",
    "Midi.C106_over_packets",
    "Midi.C106_over_cable",
    "Midi.C106_off_number"
   ],
   "note": "What can be said (29 kinds) and the program that understands it with the views are in Spec/Said.lean. The NAK of version 1, the process inquiry capabilities inquiry and the end of a MIDI message report have no view of their own: they are told by subtype (and version) of capability_inquiry_view."
  },
  {
   "property": "C107",
   "status": "proved",
   "theorems": [
    "Midi.C107_like_a_table",
    "Midi.C107_marks",
    "Midi.C107_over_packets"
   ],
   "note": "The device, the clients and the table are in Spec/Store.lean; the last message of every request is marked with what it asks for (C107_marks), so the marks in the order of arrival are the order of the requests."
  },
  {
   "property": "C108",
   "status": "proved",
   "theorems": [
    "Midi.C108_not_mistaken",
    "Midi.C108_cut_short",
    "Midi.C108_packets_lost",
    "Midi.C108_conversation",
    "Midi.C108_header_lost"
   ],
   "note": "What is said and understood is that of C106. How far the length fields of a message go is Said.lengthsEnd (Spec/SaidLost.lean). The loss of a packet before that is C108_header_lost: a property reply that lost the middle of its header is understood with a header that was never sent."
  },
  {
   "property": "C109",
   "status": "proved",
   "theorems": [
    "Midi.C109_any_packets",
    "Midi.C109_to_midi2",
    "Midi.C109_same_settings",
    "Midi.C109_to_midi1",
    "Midi.C109_coarse_settings",
    "Midi.C109_remains",
    "Midi.C109_there_and_back",
    "Midi.C109_over_cable",
    "Midi.C109_bank_lost"
   ],
   "note": "What remains of a value is Knob.coarse (Spec/Panel.lean), explained by C109_remains. C109_bank_lost shows that the messages which are left out matter: behind a translation to MIDI 1 a program change with bank changes neither bank nor program."
  },
  {
   "property": "C110",
   "status": "proved",
   "theorems": [
    "Midi.C110_packet",
    "Midi.C110_message_careful",
    "Midi.C110_message",
    "Midi.C110_careful",
    "Midi.C110_any",
    "Midi.C110_collectors",
    "Midi.C110_cable",
    "Midi.C110_three_bytes",
    "Midi.C110_bad_bend"
   ],
   "note": "The conditions are exact in both directions (C110_packet, C110_message, C110_careful, C110_any); C110_three_bytes and C110_bad_bend are the shortest failures. Getters that are total functions in the model are not in the monitor, as they cannot fail."
  },
  {
   "property": "C111",
   "status": "proved",
   "theorems": [
    "Midi.C111_delivered_exactly",
    "Midi.C111_passing",
    "Midi.C111_just_too_large",
    "Midi.C111_size",
    "Midi.C111_transfers",
    "Midi.C111_told"
   ],
   "note": "C111_delivered_exactly says which messages pass, C111_passing what that means, C111_just_too_large that a message slightly too large takes the next one with it. Messages that fit into a single packet are not covered: those are prefixed with what is left over, see C23_dropped_late_leaks."
  },
  {
   "property": "C112",
   "status": "proved",
   "theorems": [
    "Midi.C112_report",
    "Midi.C112_everything",
    "Midi.C112_reply_for_everybody"
   ],
   "note": "The device and the listener are programs of the specification (Spec/Report.lean) around the modelled factories, collector and getters; C112_report covers both protocols, C112_everything a complete report. The messages of the report are sent in one group."
  },
  {
   "property": "C113",
   "status": "proved",
   "theorems": [
    "Midi.C113_copies",
    "Midi.C113_over_packets",
    "Midi.C113_number_id"
   ],
   "note": "Device and clients are programs of the specification (Spec/Mirror.lean) around the modelled factories, views, JSON headers and collector. C113_number_id and C52_empty_subscribe_id show why the ids are restricted. Clients do not check who sends the values."
  },
  {
   "property": "C114",
   "status": "proved",
   "theorems": [
    "Midi.C114_cables",
    "Midi.C114_merge",
    "Midi.C114_at_once",
    "Midi.C114_packets_broken",
    "Midi.C114_id_zero",
    "Midi.C114_groups"
   ],
   "note": "C114_cables: any number of cables, any interleaving. C114_merge: the merge box with sysex callbacks, for messages with a manufacturer id other than 00 00 00; C114_at_once: passed on at once. C114_groups: sixteen cables in one packet connection. Witnesses: C114_id_zero (the excepted id), C114_packets_broken (merging without sysex callbacks)."
  },
  {
   "property": "C115",
   "status": "proved",
   "theorems": [
    "Midi.C115_arrive",
    "Midi.C115_any_bytes",
    "Midi.C115_unique",
    "Midi.C115_in_step",
    "Midi.C115_sysex7",
    "Midi.C115_sysex8",
    "Midi.C115_lost_word",
    "Midi.C115_lost_byte"
   ],
   "note": "C115_arrive: any packets, receiver between two packets. C115_any_bytes: any bytes. C115_unique: no two sequences have the same bytes. C115_in_step: three NOOPs after lost words. C115_sysex7, C115_sysex8: with collectors (sysex8 as in C20). Witnesses: C115_lost_word, C115_lost_byte."
  },
  {
   "property": "C116",
   "status": "proved",
   "theorems": [
    "Midi.C116_moved",
    "Midi.C116_values",
    "Midi.C116_bytes",
    "Midi.C116_collectors",
    "Midi.C116_collectors_of_group",
    "Midi.C116_merged_groups",
    "Midi.C116_stream_message",
    "Midi.C116_translation",
    "Midi.C116_translated_stream",
    "Midi.C116_notes"
   ],
   "note": "C116_moved, C116_values: one packet. C116_bytes, C116_collectors: streams of packets. C116_collectors_of_group and C116_notes: maps which keep groups apart. C116_translation, C116_translated_stream: either order. Witnesses: C116_merged_groups, C116_stream_message."
  },
  {
   "property": "C117",
   "status": "proved",
   "theorems": [
    "Midi.C117_safe",
    "Midi.C117_pair",
    "Midi.C117_distinct",
    "Midi.C117_once",
    "Midi.C117_quiet"
   ],
   "note": "C117_safe, C117_pair, C117_distinct: everything that may happen. C117_once, C117_quiet: devices join and messages arrive."
  },
  {
   "property": "C118",
   "status": "proved",
   "theorems": [
    "Midi.C118_performance",
    "Midi.C118_protocol",
    "Midi.C118_notes",
    "Midi.C118_settings",
    "Midi.C118_asked"
   ],
   "note": "C118_notes for notes without attributes: those with attributes are lost in MIDI 1 (C105). C118_settings for the knobs that C109 keeps."
  },
  {
   "property": "C119",
   "status": "proved",
   "theorems": [
    "Midi.C119_cut",
    "Midi.C119_resume",
    "Midi.C119_careful",
    "Midi.C119_line_end",
    "Midi.C119_collectors",
    "Midi.C119_wrong",
    "Midi.C119_lost"
   ],
   "note": "The loop while (in >> p) gets fuel; any value above the number of packets plus four gives the same result. C119_wrong and C119_lost are witnesses of the limits: a cut line may be read as a packet that was never recorded, and a recording continued behind it may lose a packet."
  }
 ]
}
