# Axioms of the property theorems

Generated by tools/axioms.py from the output of `#print axioms`.

## Classical.choice, Quot.sound, propext

* `Midi.C01_get_byte_value`
* `Midi.C01_set_byte`
* `Midi.C01_set_byte_7bit`
* `Midi.C01_bytes_determine_packet`
* `Midi.C02_set_group`
* `Midi.C02_set_type`
* `Midi.C02_header_fields`
* `Midi.C03_size`
* `Midi.C03_eq_iff`
* `Midi.C03_equivalence`
* `Midi.C03_unused_words_ignored`
* `Midi.C04_read_back`
* `Midi.C04_sequence_read_back`
* `Midi.C04_text_length`
* `Midi.C05_scaling_scheme`
* `Midi.C05_shift_back`
* `Midi.C05_strictly_increasing`
* `Midi.C05_fixed_points`
* `Midi.C05_bad_depths`
* `Midi.C06_14_to_32_is_general`
* `Midi.C06_round_trip_14`
* `Midi.C06_downsample_values`
* `Midi.C06_downsample_monotone`
* `Midi.C06_pitch_7_9_to_7_25`
* `Midi.C07_controller_add`
* `Midi.C07_pitch_add`
* `Midi.C07_increment_add`
* `Midi.C07_controller_add_monotone`
* `Midi.C07_pitch_add_monotone`
* `Midi.C07_increment_add_laws`
* `Midi.C07_increment_add_monotone`
* `Midi.C07_compound`
* `Midi.C07_add_twice`
* `Midi.C08_bend_exact`
* `Midi.C08_bend_center`
* `Midi.C08_bend_bounded`
* `Midi.C08_bend_full_down`
* `Midi.C08_bend_monotone`
* `Midi.C08_bend_antisymmetric`
* `Midi.C09_round_trip`
* `Midi.C09_zero_velocity`
* `Midi.C09_untranslated`
* `Midi.C09_translation`
* `Midi.C10_layout`
* `Midi.C10_translation`
* `Midi.C10_well_formed`
* `Midi.C11_meaning`
* `Midi.C11_exclusive`
* `Midi.C11_exactly_one`
* `Midi.C12_view_reads_layout`
* `Midi.C12_make`
* `Midi.C12_factories`
* `Midi.C13_of_packet`
* `Midi.C13_sensitivity_predicates`
* `Midi.C13_sensitivity_values`
* `Midi.C13_view_reads_layout`
* `Midi.C13_make`
* `Midi.C13_note_factories`
* `Midi.C13_controller_factories`
* `Midi.C13_program_factories`
* `Midi.C13_predicates`
* `Midi.C13_own_predicate`
* `Midi.C13_accessors`
* `Midi.Jr.C14_jr_set_timestamp`
* `Midi.Jr.C14_jr_messages`
* `Midi.C14_system`
* `Midi.C14_song_position`
* `Midi.C14_utility`
* `Midi.C15_is_sysex7_packet_iff`
* `Midi.C15_payload`
* `Midi.C15_payload_full`
* `Midi.C15_view_payload`
* `Midi.C16_is_sysex8_packet_iff`
* `Midi.C16_payload`
* `Midi.C16_payload_full`
* `Midi.C16_set_stream_id`
* `Midi.C16_view_payload`
* `Midi.C17_as_packets`
* `Midi.C17_any_id`
* `Midi.C17_genuine_never_bad`
* `Midi.C17_send_sysex7`
* `Midi.C17_no_id_not_framed`
* `Midi.C18_sysex7_round_trip`
* `Midi.C18_send_succeeds`
* `Midi.C18_exactly`
* `Midi.C19_as_packets`
* `Midi.C19_any_id`
* `Midi.C19_send_sysex8_payload`
* `Midi.C19_send_sysex8_framed_partial`
* `Midi.C20_sysex8_round_trip_partial`
* `Midi.C20_send_succeeds`
* `Midi.C20_received`
* `Midi.C20_exactly`
* `Midi.C21_collector_decodes`
* `Midi.C21_never_faults`
* `Midi.C21_groups_ignored`
* `Midi.C21_history_never_faults`
* `Midi.C21_only_payload`
* `Midi.C22_size_limit_partial`
* `Midi.C22_fitting_delivered`
* `Midi.C22_size_limit8_partial`
* `Midi.C22_history_exactly`
* `Midi.C22_late_limit_exactly`
* `Midi.C22_history_exactly8`
* `Midi.C22_late_limit_exactly8`
* `Midi.C22_effective_limit`
* `Midi.C22_limited_exactly`
* `Midi.C22_effective_limit8`
* `Midi.C22_limited_exactly8`
* `Midi.C23_dropped_then_exact_partial`
* `Midi.C23_reset_then_exact`
* `Midi.C23_dropped_then_exact8_partial`
* `Midi.C23_reset8_then_exact`
* `Midi.C23_dropped_early_then_exact`
* `Midi.C23_dropped_late_leaks`
* `Midi.C23_dropped_early_then_exact8`
* `Midi.C23_dropped_late_leaks8`
* `Midi.C24_collector_decodes`
* `Midi.C24_only_own_stream`
* `Midi.C24_other_streams_ignored`
* `Midi.C24_never_faults`
* `Midi.C24_history_never_faults`
* `Midi.C25_parser_output`
* `Midi.C26_parser_grammar`
* `Midi.C26_parser_bytes`
* `Midi.C27_realtime_transparent`
* `Midi.C27_realtime_inserted`
* `Midi.C28_running_status`
* `Midi.C28_messages`
* `Midi.C29_sysex_packets`
* `Midi.C30_sysex_callback`
* `Midi.C30_incomplete_id`
* `Midi.C30_aborted`
* `Midi.C31_reset`
* `Midi.C32_disabled_silent`
* `Midi.C32_enabled_later`
* `Midi.C32_enabled_later_callback`
* `Midi.C33_to_byte_stream`
* `Midi.C33_stream_size`
* `Midi.C33_parse_back`
* `Midi.C34_from_to`
* `Midi.C34_to_from`
* `Midi.C34_agrees_with_parser`
* `Midi.C35_chain_callback`
* `Midi.C35_chain_packets`
* `Midi.C35_chain_collector`
* `Midi.C36_both_modes`
* `Midi.C36_same_messages`
* `Midi.C37_uint14`
* `Midi.C37_uint28`
* `Midi.C37_uint32`
* `Midi.C38_identity_request`
* `Midi.C38_identity_reply`
* `Midi.C38_identity_reply_of`
* `Midi.C38_device_identity`
* `Midi.C39_discovery_reachable`
* `Midi.CI.C39_endpoint_information_reply`
* `Midi.CI.C39_ack`
* `Midi.CI.C39_nak`
* `Midi.CI.C39_profile_details_reply`
* `Midi.CI.C40_discovery_inquiry_v1`
* `Midi.CI.C40_discovery_inquiry`
* `Midi.CI.C40_discovery_reply_v1`
* `Midi.CI.C40_discovery_reply`
* `Midi.CI.C40_endpoint_information_inquiry`
* `Midi.CI.C40_endpoint_information_reply`
* `Midi.CI.C40_ack`
* `Midi.CI.C40_nak`
* `Midi.CI.C40_nak_v1`
* `Midi.CI.C40_nak_for`
* `Midi.CI.C40_nak_v1_for`
* `Midi.CI.C40_set_source_muid`
* `Midi.CI.C40_set_destination_muid`
* `Midi.CI.C40_invalidate_muid`
* `Midi.CI.C40_profile_inquiry`
* `Midi.CI.C40_profile_on`
* `Midi.CI.C40_profile_off`
* `Midi.CI.C40_profile_enabled`
* `Midi.CI.C40_profile_disabled`
* `Midi.CI.C40_profile_added`
* `Midi.CI.C40_profile_removed`
* `Midi.CI.C40_profile_details_inquiry`
* `Midi.CI.C40_profile_details_reply`
* `Midi.CI.C40_property_exchange_capabilities_inquiry`
* `Midi.CI.C40_property_exchange_capabilities_reply`
* `Midi.CI.C40_process_inquiry_capabilities_inquiry`
* `Midi.CI.C40_process_inquiry_capabilities_reply`
* `Midi.CI.C40_midi_message_report_inquiry`
* `Midi.CI.C40_midi_message_report_reply`
* `Midi.CI.C40_midi_message_report_end`
* `Midi.CI.C40_length_wraps`
* `Midi.CI.C41_profile_inquiry_reply_array`
* `Midi.CI.C41_profile_inquiry_reply`
* `Midi.CI.C42_property_data`
* `Midi.CI.C42_header_in_second_chunk_rejected`
* `Midi.CI.C42_get_inquiry`
* `Midi.CI.C42_get_inquiry_options`
* `Midi.CI.C42_get_reply_header`
* `Midi.CI.C42_get_reply_status`
* `Midi.CI.C42_get_reply_message`
* `Midi.CI.C42_get_reply_chunk`
* `Midi.CI.C42_set_inquiry`
* `Midi.CI.C42_set_inquiry_options`
* `Midi.CI.C42_set_inquiry_chunk`
* `Midi.CI.C42_set_reply`
* `Midi.CI.C42_set_reply_message`
* `Midi.CI.C42_subscription_inquiry`
* `Midi.CI.C42_subscription_inquiry_chunks`
* `Midi.CI.C42_subscription_inquiry_chunk`
* `Midi.CI.C42_subscription_reply`
* `Midi.CI.C42_subscription_reply_message`
* `Midi.CI.C42_notify`
* `Midi.CI.C42_notify_message`
* `Midi.CI.C43_profile_specific_data`
* `Midi.CI.C43_profile_specific_data_vector_partial`
* `Midi.CI.C43_vector_is_cut`
* `Midi.CI.C43_vector_round_trip_iff`
* `Midi.C44_endpoint_name`
* `Midi.C44_function_block_name`
* `Midi.C44_read_back_partial`
* `Midi.C44_not_ascii_differs`
* `Midi.C44_text_from`
* `Midi.C44_read_back_iff`
* `Midi.C44_product_instance_id`
* `Midi.C44_product_instance_id_iff`
* `Midi.C45_views`
* `Midi.C45_endpoint_discovery`
* `Midi.C45_endpoint_info`
* `Midi.C45_device_identity_bytes`
* `Midi.C45_device_identity`
* `Midi.C45_stream_configuration`
* `Midi.C45_function_block_discovery`
* `Midi.C45_function_block_info_partial`
* `Midi.C45_function_block_info_direction`
* `Midi.C45_function_block_info_exact`
* `Midi.C45_function_block_info_iff`
* `Midi.C46_view`
* `Midi.C46_flex_data`
* `Midi.C46_text`
* `Midi.C46_setup`
* `Midi.Jr.C47_difference`
* `Midi.Jr.C47_elapsed`
* `Midi.Jr.C47_round`
* `Midi.Jr.C47_clock_now`
* `Midi.Jr.C48_no_fault_partial`
* `Midi.Jr.C48_overflow`
* `Midi.Jr.C48_clock_messages`
* `Midi.Jr.C48_ideal_jitter`
* `Midi.Jr.C48_ideal_no_fault`
* `Midi.Jr.C49_exactly`
* `Midi.Jr.C49_disorder_bounded`
* `Midi.Jr.C49_never_early`
* `Midi.Jr.C49_order_partial`
* `Midi.Jr.C49_spacing_partial`
* `Midi.Fp.C50_rounding`
* `Midi.Fp.C50_velocity_defined`
* `Midi.Fp.C50_velocity_monotone`
* `Midi.Fp.C50_velocity_as`
* `Midi.Fp.C50_velocity_round_trip`
* `Midi.Fp.C50_controller_defined`
* `Midi.Fp.C50_controller_monotone`
* `Midi.Fp.C50_controller_as`
* `Midi.Fp.C50_controller_round_trip`
* `Midi.Fp.C50_controller_float_differs`
* `Midi.Fp.C50_nan`
* `Midi.Fp.C50_velocity_accuracy`
* `Midi.Fp.C50_controller_accuracy`
* `Midi.Fp.C50_pitch_bend_accuracy`
* `Midi.Fp.C50_velocity_as_accuracy`
* `Midi.Fp.C50_controller_as_accuracy`
* `Midi.Fp.C50_controller_float_trip`
* `Midi.Fp.C50_pitch_bend_as_accuracy`
* `Midi.Fp.C50_pitch_bend_float_trip`
* `Midi.Fp.C50_pitch_bend_defined`
* `Midi.Fp.C50_pitch_bend_monotone`
* `Midi.Fp.C50_pitch_bend_as_double`
* `Midi.Fp.C50_pitch_bend_as_float`
* `Midi.Fp.C50_pitch_bend_round_trip_partial`
* `Midi.Fp.C50_pitch_bend_differs`
* `Midi.Fp.C50_pitch_7_9`
* `Midi.Fp.C50_pitch_7_9_nearest`
* `Midi.Fp.C50_pitch_7_9_round_trip`
* `Midi.Fp.C50_pitch_7_25`
* `Midi.Fp.C50_pitch_7_25_nearest`
* `Midi.Fp.C50_pitch_7_25_round_trip`
* `Midi.Fp.C50_pitch_7_25_as_float`
* `Midi.Fp.C50_pitch_7_25_float_range`
* `Midi.Fp.C50_pitch_7_25_float_differs`
* `Midi.Fp.C50_pitch_increment_double`
* `Midi.Fp.C50_pitch_increment_float`
* `Midi.Fp.C50_pitch_increment_nan`
* `Midi.Fp.C50_detune`
* `Midi.Fp.C50_detune_float`
* `Midi.C51_getters_agree`
* `Midi.C51_ranges`
* `Midi.C51_pitch_bend_defined`
* `Midi.CI.C52_rjson_string_options_partial`
* `Midi.CI.C52_rjson_int_options_partial`
* `Midi.CI.C52_rjson_string_options_exact`
* `Midi.CI.C52_rjson_int_options_exact`
* `Midi.CI.C52_rjson_string`
* `Midi.CI.C52_rjson_int`
* `Midi.CI.C52_fault_iff_empty_option`
* `Midi.CI.C52_empty_subscribe_id`
* `Midi.CI.C52_not_json`
* `Midi.C53_is_8bit`
* `Midi.C53_is_valid`
* `Midi.C53_total_data_size`
* `Midi.C54_message_types`
* `Midi.C54_midi1_protocol`
* `Midi.C54_midi1_protocol_has_bytes`
* `Midi.CI.C55_endpoint_information_inquiry`
* `Midi.CI.C55_profile_details_inquiry`
* `Midi.CI.C55_process_inquiry_capabilities_reply`
* `Midi.CI.C55_midi_message_report_inquiry`
* `Midi.CI.C55_midi_message_report_reply`
* `Midi.CI.C55_profile_id`
* `Midi.CI.C55_profile_destination`
* `Midi.CI.C55_discovery_inquiry`
* `Midi.CI.C55_discovery_reply`
* `Midi.CI.C55_property_exchange_capabilities`
* `Midi.CI.C55_invalidate_muid`
* `Midi.CI.C55_profile_inquiry`
* `Midi.CI.C55_endpoint_information_reply`
* `Midi.CI.C55_ack`
* `Midi.CI.C55_nak`
* `Midi.CI.C55_profile_details_reply`
* `Midi.CI.C55_profile_specific_data`
* `Midi.CI.C55_profile_inquiry_reply`
* `Midi.CI.C55_property_data`
* `Midi.CI.C55_get_property_data`
* `Midi.CI.C55_set_property_data`
* `Midi.CI.C55_subscription`
* `Midi.CI.C55_notify`
* `Midi.CI.C55_views`
* `Midi.UniversalSysex.C55_identity_request`
* `Midi.UniversalSysex.C55_identity_reply`
* `Midi.UniversalSysex.C55_is_identity_reply`
* `Midi.C56_reparse`
* `Midi.C56_unchanged`
* `Midi.C57_stable`
* `Midi.C57_midi2_over_cable`
* `Midi.C57_cable_over_midi2`
* `Midi.C58_collector`
* `Midi.C58_cable`
* `Midi.C59_same_message`
* `Midi.C60_exact`
* `Midi.C60_centre`
* `Midi.C60_bounded`
* `Midi.C60_monotone`
* `Midi.C60_full_down`
* `Midi.C60_full_up`
* `Midi.C60_default`
* `Midi.C61_flags_restored`
* `Midi.C61_unchanged_iff`
* `Midi.C61_text_exactly`
* `Midi.C61_text_partial`
* `Midi.C61_fill_left_behind`
* `Midi.C61_left_other_packet`
* `Midi.C61_showbase_uppercase`
* `Midi.C61_noskipws`
* `Midi.C61_read_back_exactly`
* `Midi.C61_read_back_partial`
* `Midi.C61_showbase_other_packet`
* `Midi.C62_calls_exactly`
* `Midi.C62_nothing_invented`
* `Midi.C62_calls_exactly8`
* `Midi.C62_nothing_invented8`
* `Midi.C63_end_packet_partial`
* `Midi.C63_complete_packets_merge`
* `Midi.C63_unfinished_lost`
* `Midi.C63_false`
* `Midi.C63_end_packet8_partial`
* `Midi.C63_complete_packets_merge8`
* `Midi.C63_unfinished_lost8`
* `Midi.C63_false8`
* `Midi.C64_with_sysex_callback_partial`
* `Midi.C64_status_first_partial`
* `Midi.C64_delivered_partial`
* `Midi.C64_overflow`
* `Midi.C64_exactly`
* `Midi.C65_complete_messages_partial`
* `Midi.C65_completed_partial`
* `Midi.C65_exactly`
* `Midi.C65_exactly_when`
* `Midi.C66_sysex7_payload_byte`
* `Midi.C66_sysex8_payload_byte`
* `Midi.C66_sysex7_payload_size`
* `Midi.C66_sysex8_payload_size`
* `Midi.C66_stream_format`
* `Midi.C66_reset`
* `Midi.C67_tries_exactly`
* `Midi.C67_nothing_invented`
* `Midi.C67_failed_allocation`
* `Midi.C67_reset`
* `Midi.C67_tries_exactly8`
* `Midi.C67_nothing_invented8`
* `Midi.C67_failed_allocation8`
* `Midi.C67_reset8`
* `Midi.C68_next_exactly`
* `Midi.C68_next_message_partial`
* `Midi.C68_message_kept`
* `Midi.C68_message_continued`
* `Midi.C68_packet_missing`
* `Midi.C68_next_exactly8`
* `Midi.C68_next_message8_partial`
* `Midi.C68_message_kept8`
* `Midi.C68_message_continued8`
* `Midi.C68_packet_missing8`
* `Midi.C69_with_sysex_callback_partial`
* `Midi.C69_starting_afresh_partial`
* `Midi.C69_overflow`
* `Midi.C69_exactly`
* `Midi.C69_delivered_partial`
* `Midi.C70_reset`
* `Midi.C70_next_status`
* `Midi.C70_next_message`
* `Midi.C71_exactly`
* `Midi.C71_no_effect_partial`
* `Midi.C71_byte_lost`
* `Midi.C71_collected_while_disabled`
* `Midi.C72_no_memory_needed_partial`
* `Midi.C72_no_exception_partial`
* `Midi.C72_large_limit`
* `Midi.C72_large_storage`
* `Midi.C72_exactly`
* `Midi.C72_no_memory_needed8_partial`
* `Midi.C72_no_exception8_partial`
* `Midi.C72_large_limit8`
* `Midi.C72_large_storage8`
* `Midi.C72_exactly8`
* `Midi.C73_send_sysex7`
* `Midi.C73_send_sysex8`
* `Midi.C73_send_names`
* `Midi.C73_send_product_instance_id`
* `Midi.C73_exception`
* `Midi.C73_into_collector`
* `Midi.C74_other_groups`
* `Midi.C75_message_group_partial`
* `Midi.C75_sysex_exactly`
* `Midi.C76_one_filter`
* `Midi.C76_refined_filters`
* `Midi.C76_filters_agree`
* `Midi.C76_processor_agrees`
* `Midi.C77_defined_partial`
* `Midi.C78_to_midi1`
* `Midi.C78_to_midi2`
* `Midi.C78_precision`
* `Midi.C78_data`
* `Midi.C79_send_sysex7`
* `Midi.C79_send_sysex8`
* `Midi.C79_send_endpoint_name`
* `Midi.C79_send_function_block_name`
* `Midi.C79_send_product_instance_id`
* `Midi.C79_parser_sysex`
* `Midi.C79_collector7`
* `Midi.C79_collector8`
* `Midi.C80_collector7`
* `Midi.C80_collector8`
* `Midi.C80_parser`
* `Midi.C81_transport`
* `Midi.C81_identity`
* `Midi.C82_groups`
* `Midi.C82_streams`
* `Midi.C83_reading_ends`
* `Midi.C83_reads_messages_partial`
* `Midi.C83_exactly`
* `Midi.C83_truncated_message_delivered`
* `Midi.C84_reply_can_be_made`
* `Midi.C84_set_can_be_made`
* `Midi.C84_receiver`
* `Midi.C84_transfers`
* `Midi.C84_lost_messages`
* `Midi.C85_packet`
* `Midi.C85_text`
* `Midi.C85_long`
* `Midi.C85_channel_voice_filters`
* `Midi.C85_channel_voice_values`
* `Midi.C85_midi2_values`
* `Midi.C85_short_values`
* `Midi.C85_sysex7_values`
* `Midi.C85_views`
* `Midi.C85_translation`
* `Midi.C85_processor`
* `Midi.C85_byte_stream`
* `Midi.C85_collector7`
* `Midi.C85_collector8`
* `Midi.C85_edit`
* `Midi.C86_cable_callback`
* `Midi.C86_cable_packets`
* `Midi.C86_direct`
* `Midi.C86_cable_transparent`
* `Midi.C87_set_type`
* `Midi.C87_set_group_partial`
* `Midi.C87_make_sysex7_partial`
* `Midi.C87_set_payload_size7`
* `Midi.C87_add_payload_byte7`
* `Midi.C87_overfull_sysex7`
* `Midi.C87_set_payload_size8`
* `Midi.C87_add_payload_byte8`
* `Midi.C87_send_sysex7_partial`
* `Midi.C87_send_sysex7_same`
* `Midi.C87_send_sysex8`
* `Midi.C87_send_sysex8_partial`
* `Midi.C87_send_sysex8_type`
* `Midi.C87_flex_message`
* `Midi.C87_send_names`
* `Midi.C87_stream_configuration`
* `Midi.C87_function_block_info_options`
* `Midi.C87_sysex7_add`
* `Midi.C87_add_device_identity`
* `Midi.C87_ci_message`
* `Midi.C87_set_muid_partial`
* `Midi.C88_normal_use`
* `Midi.C88_delivered_partial`
* `Midi.C88_reset`
* `Midi.C88_next_status`
* `Midi.C88_sysex_lost`
* `Midi.C88_no_sysex`
* `Midi.C89_utility`
* `Midi.C89_system`
* `Midi.C89_song_position`
* `Midi.C89_midi1`
* `Midi.C89_midi1_values`
* `Midi.C89_midi1_note_on`
* `Midi.C89_midi1_note_on_zero`
* `Midi.C89_midi1_one_byte`
* `Midi.C89_midi1_pitch_bend`
* `Midi.C89_midi2_partial`
* `Midi.C89_midi2_notes`
* `Midi.C89_midi2_note_on_variants`
* `Midi.C89_midi2_per_note`
* `Midi.C89_midi2_controllers`
* `Midi.C89_midi2_program`
* `Midi.C89_sysex7`
* `Midi.C89_sysex8`
* `Midi.C89_flex_data`
* `Midi.C89_flex_text`
* `Midi.C89_endpoint_discovery`
* `Midi.C89_endpoint_info`
* `Midi.C89_device_identity`
* `Midi.C89_stream_configuration`
* `Midi.C89_function_block_discovery`
* `Midi.C89_function_block_info_partial`
* `Midi.C89_names_partial`
* `Midi.C90_discovery_inquiry`
* `Midi.C90_discovery_inquiry_v1`
* `Midi.C90_discovery_reply`
* `Midi.C90_discovery_reply_v1`
* `Midi.C90_endpoint_information_inquiry`
* `Midi.C90_endpoint_information_reply`
* `Midi.C90_ack`
* `Midi.C90_nak`
* `Midi.C90_invalidate_muid`
* `Midi.C90_profile_inquiry`
* `Midi.C90_profile_inquiry_reply`
* `Midi.C90_profile_on`
* `Midi.C90_profile_off`
* `Midi.C90_profile_enabled`
* `Midi.C90_profile_disabled`
* `Midi.C90_profile_added`
* `Midi.C90_profile_removed`
* `Midi.C90_profile_details_inquiry`
* `Midi.C90_profile_details_reply`
* `Midi.C90_profile_specific_data`
* `Midi.C90_property_exchange_capabilities_inquiry`
* `Midi.C90_property_exchange_capabilities_reply`
* `Midi.C90_property_data_partial`
* `Midi.C90_property_data_no_chunk`
* `Midi.C90_process_inquiry_capabilities_reply`
* `Midi.C90_midi_message_report_inquiry`
* `Midi.C90_midi_message_report_reply`
* `Midi.C90_identity_request`
* `Midi.C90_identity_reply`
* `Midi.Jr.C91_sender_counter`
* `Midi.Jr.C91_system_clock`
* `Midi.Jr.C91_system_clock_defined`
* `Midi.Jr.C91_receive_times`
* `Midi.C92_upsample_same`
* `Midi.C92_upsample_defined_iff`
* `Midi.C92_upsample_equal_depth`
* `Midi.C92_set_payload_byte7`
* `Midi.C92_set_payload_byte8`
* `Midi.CI.C92_profile_reply`
* `Midi.CI.C92_profile_reply_same`
* `Midi.CI.C92_profile_reply_read`
* `Midi.CI.C92_profile_reply_wraps`
* `Midi.CI.C92_property_data`
* `Midi.CI.C92_property_data_same`
* `Midi.CI.C92_property_data_read`
* `Midi.C93_short_message`
* `Midi.C93_running_status`
* `Midi.C93_sysex_message`
* `Midi.C93_sysex_packets`
* `Midi.C93_collector7`
* `Midi.C93_collector8`
* `Midi.C94_text`
* `Midi.C94_same_text`
* `Midi.C94_no_prefix`
* `Midi.C94_log`
* `Midi.C95_sysex7`
* `Midi.C95_sysex8`
* `Midi.C95_bytes`
* `Midi.C95_to_bytes`
* `Midi.C95_to_midi2`
* `Midi.C96_collector7`
* `Midi.C96_collector8`
* `Midi.C96_parser`
* `Midi.C96_interrupted_any_size`
* `Midi.C97_played`
* `Midi.C97_after_parser`
* `Midi.C97_bytes`
* `Midi.C97_coarse`
* `Midi.C97_over_cable`
* `Midi.Jr.C98_jitter`
* `Midi.Jr.C98_scheduled`
* `Midi.Jr.C98_gap`
* `Midi.Jr.C99_punctual`
* `Midi.Jr.C99_steady`
* `Midi.C100_discovery`
* `Midi.C100_unknown`
* `Midi.C100_silent`
* `Midi.C100_faults`
* `Midi.C100_valid_answered`
* `Midi.C100_no_answer_to_answer`
* `Midi.C100_cable`
* `Midi.C100_handshake`
* `Midi.C100_nak_v1_faults`
* `Midi.C100_packets_fault`
* `Midi.C101_box`
* `Midi.C101_filter`
* `Midi.C101_bridge`
* `Midi.C102_endpoint`
* `Midi.C102_blocks`
* `Midi.C102_protocol`
* `Midi.C102_everything`
* `Midi.C102_never_wrong`
* `Midi.C102_quiet`
* `Midi.C102_other_traffic`
* `Midi.C102_interleaved`
* `Midi.C102_view_of_both`
* `Midi.C103_reader_safe`
* `Midi.C103_independent`
* `Midi.C103_text`
* `Midi.C103_can_be_sent`
* `Midi.C103_all_texts`
* `Midi.C103_lost_packet`
* `Midi.C103_no_zeros`
* `Midi.C104_device`
* `Midi.C104_inquiry`
* `Midi.C104_turn_on`
* `Midi.C104_turn_off`
* `Midi.C104_never_wrong`
* `Midi.C104_knows`
* `Midi.C105_any_packets`
* `Midi.C105_to_midi2`
* `Midi.C105_to_midi1`
* `Midi.C105_same_notes`
* `Midi.C105_no_hanging_note`
* `Midi.C105_hanging_note`
* `Midi.C105_there_and_back`
* `Midi.C105_over_cable`
* `Midi.C106_understood`
* `Midi.C106_told_apart`
* `Midi.C106_safe`
* `Midi.C106_over_packets`
* `Midi.C106_over_cable`
* `Midi.C106_off_number`
* `Midi.C107_like_a_table`
* `Midi.C107_marks`
* `Midi.C107_over_packets`
* `Midi.C108_not_mistaken`
* `Midi.C108_cut_short`
* `Midi.C108_packets_lost`
* `Midi.C108_conversation`
* `Midi.C109_any_packets`
* `Midi.C109_to_midi2`
* `Midi.C109_same_settings`
* `Midi.C109_to_midi1`
* `Midi.C109_coarse_settings`
* `Midi.C109_there_and_back`
* `Midi.C109_over_cable`
* `Midi.C110_packet`
* `Midi.C110_message_careful`
* `Midi.C110_message`
* `Midi.C110_careful`
* `Midi.C110_any`
* `Midi.C110_collectors`
* `Midi.C110_cable`
* `Midi.C111_delivered_exactly`
* `Midi.C111_just_too_large`
* `Midi.C111_size`
* `Midi.C111_transfers`
* `Midi.C111_told`
* `Midi.C112_report`
* `Midi.C112_everything`
* `Midi.C112_reply_for_everybody`
* `Midi.C113_copies`
* `Midi.C113_over_packets`
* `Midi.C113_number_id`
* `Midi.C114_cables`
* `Midi.C114_merge`
* `Midi.C114_groups`
* `Midi.C115_arrive`
* `Midi.C115_any_bytes`
* `Midi.C115_unique`
* `Midi.C115_in_step`
* `Midi.C115_sysex7`
* `Midi.C115_sysex8`
* `Midi.C116_moved`
* `Midi.C116_values`
* `Midi.C116_bytes`
* `Midi.C116_collectors`
* `Midi.C116_collectors_of_group`
* `Midi.C116_translation`
* `Midi.C116_translated_stream`
* `Midi.C116_notes`
* `Midi.C117_safe`
* `Midi.C117_pair`
* `Midi.C117_distinct`
* `Midi.C117_once`
* `Midi.C117_quiet`
* `Midi.C118_performance`
* `Midi.C118_protocol`
* `Midi.C118_notes`
* `Midi.C118_settings`
* `Midi.C118_asked`
* `Midi.C119_cut`
* `Midi.C119_resume`
* `Midi.C119_careful`
* `Midi.C119_line_end`
* `Midi.C119_collectors`

## Quot.sound, propext

* `Midi.C01_get_byte_7bit`
* `Midi.C03_neq`
* `Midi.C06_7_to_16_is_general`
* `Midi.C06_7_to_32_is_general`
* `Midi.C06_14_to_32_out_of_range`
* `Midi.C06_round_trip_7`
* `Midi.C06_pitch_note_numbers`
* `Midi.C10_rejects`
* `Midi.C12_view_rejects`
* `Midi.C14_song_position_other`
* `Midi.C14_view_rejects`
* `Midi.C15_view`
* `Midi.C16_view`
* `Midi.C17_bad_group`
* `Midi.C17_mixed_id_not_framed`
* `Midi.C18_no_id_changed`
* `Midi.C19_three_byte_id_no_end`
* `Midi.C19_one_byte_id_stray_end`
* `Midi.C19_group_corrupts_type`
* `Midi.C20_round_trip_iff`
* `Midi.C20_three_byte_id_lost`
* `Midi.C20_one_byte_id_truncated`
* `Midi.C21_groups_mixed`
* `Midi.C22_limit_set_late`
* `Midi.C22_id_counts`
* `Midi.C22_limit8_set_late`
* `Midi.C23_dropped_message_leaks`
* `Midi.C23_dropped_message_leaks8`
* `Midi.C25_bad_group`
* `Midi.C31_chunking`
* `Midi.C31_same_bytes`
* `Midi.C33_size_differs`
* `Midi.C34_from_other`
* `Midi.C35_six_bytes_differ`
* `Midi.C36_truncated_id_differs`
* `Midi.C37_uint7`
* `Midi.C37_out_of_range`
* `Midi.C39_universal`
* `Midi.C39_universal_view`
* `Midi.C39_identity_reply`
* `Midi.CI.C39_capability_inquiry`
* `Midi.CI.C39_endpoint_information_inquiry`
* `Midi.CI.C39_invalidate_muid`
* `Midi.CI.C39_profile_inquiry`
* `Midi.CI.C39_profile_inquiry_reply`
* `Midi.CI.C39_profile_id`
* `Midi.CI.C39_profile_destination`
* `Midi.CI.C39_profile_details_inquiry`
* `Midi.CI.C39_profile_specific_data`
* `Midi.CI.C39_property_exchange_capabilities`
* `Midi.CI.C39_property_data`
* `Midi.CI.C39_get_property_data`
* `Midi.CI.C39_set_property_data`
* `Midi.CI.C39_subscription`
* `Midi.CI.C39_notify`
* `Midi.CI.C39_process_inquiry_capabilities_reply`
* `Midi.CI.C39_midi_message_report_inquiry`
* `Midi.CI.C39_midi_message_report_reply`
* `Midi.CI.C39_discovery_inquiry_partial`
* `Midi.CI.C39_discovery_reply_partial`
* `Midi.CI.C39_discovery_validate_reads_outside`
* `Midi.CI.C40_set_device_id`
* `Midi.C44_utf8_differs`
* `Midi.C45_exclusive`
* `Midi.C45_sixteen_groups`
* `Midi.C45_too_many_blocks`
* `Midi.C46_invalid_address`
* `Midi.C46_text_length`
* `Midi.Jr.C48_nonneg`
* `Midi.Jr.C48_offset_derived`
* `Midi.Jr.C48_clock_monotone`
* `Midi.Jr.C48_reset`
* `Midi.Jr.C49_order_between_clocks`
* `Midi.C53_is_7bit`
* `Midi.C53_total_data_size_no_id`
* `Midi.C54_default_constructed`
* `Midi.C58_invalid_changed`
* `Midi.C61_read_flags_restored`
* `Midi.C61_read_skipws`
* `Midi.C62_fresh_after_delivery`
* `Midi.C62_fresh_after_delivery8`
* `Midi.C63_plain`
* `Midi.C63_resets_inside_partial`
* `Midi.C63_reset_first_partial`
* `Midi.C63_plain8`
* `Midi.C63_resets_inside8_partial`
* `Midi.C63_reset_first8_partial`
* `Midi.C65_tune_request`
* `Midi.C65_system_common`
* `Midi.C65_reset_undone`
* `Midi.C65_manufacturer_lost`
* `Midi.C65_false`
* `Midi.C65_plain`
* `Midi.C65_real_time_partial`
* `Midi.C65_only_in_real_time_partial`
* `Midi.C65_settings_partial`
* `Midi.C65_enable_partial`
* `Midi.C66_of_words`
* `Midi.C67_plain`
* `Midi.C67_plain8`
* `Midi.C69_plain`
* `Midi.C71_end_twice`
* `Midi.C71_rest_misplaced`
* `Midi.C75_sysex_false`
* `Midi.C77_undefined`
* `Midi.C79_parser`
* `Midi.C82_one_collector`
* `Midi.C83_one_cut`
* `Midi.C84_receiver_safe`
* `Midi.C85_longer_type`
* `Midi.C85_behind_the_end`
* `Midi.C86_interrupted_differs`
* `Midi.C86_orphan_differs`
* `Midi.C87_set_byte`
* `Midi.C87_get_byte_partial`
* `Midi.C87_group_corrupts_type`
* `Midi.C87_channel`
* `Midi.C87_send_sysex7_corrupts`
* `Midi.C87_texts_cut`
* `Midi.C87_flex_text`
* `Midi.C87_function_block_info`
* `Midi.C87_sysex7_make_partial`
* `Midi.C87_set_device_id_partial`
* `Midi.C87_ci_device_id`
* `Midi.C88_same`
* `Midi.C88_header_lost`
* `Midi.C88_rest_lost`
* `Midi.C88_groups`
* `Midi.C89_midi2_view_loses_bit`
* `Midi.C89_function_block_info_lost`
* `Midi.C89_name_lost`
* `Midi.C90_equal_iff`
* `Midi.Jr.C91_before_clock`
* `Midi.C92_upsample_one_bit`
* `Midi.Jr.C92_follower_any_offset`
* `Midi.CI.C92_profiles`
* `Midi.C96_released7`
* `Midi.C96_released8`
* `Midi.C96_parser_released`
* `Midi.C96_interrupted_kept`
* `Midi.C100_not_heard`
* `Midi.C100_packets_nak`
* `Midi.C101_needs_realTime`
* `Midi.C101_needs_sysex`
* `Midi.C104_client`
* `Midi.C108_header_lost`
* `Midi.C109_remains`
* `Midi.C109_bank_lost`
* `Midi.C110_three_bytes`
* `Midi.C110_bad_bend`
* `Midi.C111_passing`
* `Midi.C114_at_once`
* `Midi.C114_packets_broken`
* `Midi.C114_id_zero`
* `Midi.C115_lost_word`
* `Midi.C115_lost_byte`
* `Midi.C116_merged_groups`
* `Midi.C116_stream_message`
* `Midi.C119_wrong`
* `Midi.C119_lost`

## none

* `Midi.C53_clear`
* `Midi.C60_controller`
* `Midi.C81_genuine`
* `Midi.C81_distinct`
* `Midi.C81_names`

## propext

* `Midi.C07_clamped_differs`
* `Midi.C08_swapped`
* `Midi.C08_clamped_not_antisymmetric`
* `Midi.Jr.C49_order_violated`
* `Midi.Jr.C49_spacing_violated`
* `Midi.C53_empty`
* `Midi.C53_equality`
* `Midi.C59_profile_id`
* `Midi.C59_profile_destination`
* `Midi.C59_destinations`
* `Midi.C78_fixed_points`
* `Midi.Jr.C92_follower_same`
* `Midi.C102_knows_nothing`
