{
 "C19": {
  "note": "The statement as given is false of the code: for messages of certain lengths send_sysex8 leaves out the end packet or sends a stray one (witnesses C19_three_byte_id_no_end, C19_one_byte_id_stray_end; groups above 15 change the packet type, C19_group_corrupts_type). C19_send_sysex8_framed_partial characterises the framed messages exactly (if and only if not BadLength8); the concatenated payload is right for every message (C19_send_sysex8_payload). What is sent for groups above 15 is said exactly by C87_send_sysex8_partial and C87_send_sysex8_type."
 },
 "C20": {
  "note": "False of the code for the messages send_sysex8 frames wrongly (witnesses C20_three_byte_id_lost, C20_one_byte_id_truncated). C20_received says exactly what arrives of any sequence of messages after any history; C20_round_trip_iff says that all messages arrive if and only if none of them has a bad length."
 },
 "C22": {
  "note": "False of the code as given: a limit set after larger messages were collected has no effect while the storage is larger (C22_limit_set_late, C22_limit8_set_late). C22_effective_limit and C22_effective_limit8 give the limit that is in effect after any history of calls; C22_limited_exactly and C22_limited_exactly8 say exactly what a collector with a limit delivers for any packet sequence, C22_history_exactly and C22_history_exactly8 for any history of calls. C22_size_limit_partial needs that the storage does not exceed the limit when it is set."
 },
 "C23": {
  "note": "False of the code: a message dropped at its last packet leaks into the following message (C23_dropped_message_leaks, C23_dropped_message_leaks8, and in general C23_dropped_late_leaks, C23_dropped_late_leaks8). Messages dropped earlier do not (C23_dropped_early_then_exact, C23_dropped_early_then_exact8), and not after reset (C23_reset_then_exact, C23_reset8_then_exact)."
 },
 "C39": {
  "note": "Proved for all views except that validate of the two discovery views reads data[3] of messages with less than four data bytes. C39_discovery_inquiry_partial and C39_discovery_reply_partial assume at least four data bytes; C39_discovery_validate_reads_outside shows that the read is outside of the data exactly if this is not so. C39_discovery_reachable: such a message is delivered by the parser for bytes received in any state, so a peer can cause the read."
 },
 "C43": {
  "note": "Proved for the factory with pointer and size (C43_profile_specific_data). The vector overload sends only size % 65536 bytes (C43_vector_is_cut); C43_vector_round_trip_iff is the exact condition."
 },
 "C44": {
  "note": "The framing and the payload bytes are proved for names of any length and content (C44_endpoint_name, C44_function_block_name, C44_product_instance_id). Names read back through the views if and only if they consist of ASCII characters other than zero (C44_read_back_iff, C44_product_instance_id_iff), so the statement is false for UTF-8 names (witness C44_utf8_differs)."
 },
 "C45": {
  "note": "Proved except for function block info messages: a missing user interface hint reads back as the direction, and 16 groups read back as 0 (C45_sixteen_groups). C45_function_block_info_exact says exactly what reads back, C45_function_block_info_iff when it is what was passed. 128 or more function blocks set an unrelated flag (C45_too_many_blocks)."
 },
 "C48": {
  "note": "Everything but the absence of overflow is proved for all call histories. The jitter estimate can overflow after 366509470 clock messages of a sender with a clock running backwards (C48_overflow). C48_no_fault_partial excludes overflow if the time span plus 2.09712 s for each clock message but the first is at most 2^63 / 12 ns, which for messages at the same time is exact (C48_clock_messages); for an ideal sender C48_ideal_no_fault needs no bound on their number, since the jitter estimate is exactly the spread of transmission times (C48_ideal_jitter)."
 },
 "C49": {
  "note": "Never early is proved (C49_never_early), and order between clock messages (C49_order_between_clocks). Order across clock messages and exact spacing are false of the code (witnesses C49_order_violated, C49_spacing_violated); the partial theorems give conditions under which they hold. For an ideal sender the scheduled times are given exactly by a reference plan (C49_exactly); a message overtakes an earlier one by at most the jitter estimate (C49_disorder_bounded); the distance of two messages after the same clock message is exact if and only if their timestamps agree or the first is scheduled at its ideal time (C49_spacing_partial)."
 },
 "C50": {
  "note": "Proved for all finite arguments, with NaN and infinities modelled. False in two points: the round trip of pitch_bend through double fails exactly for 0x80000001 to 0x80000200 (C50_pitch_bend_differs), and NaN is converted to an integer, which is undefined behaviour (C50_nan, C50_pitch_increment_nan). Round trips through float are not exact for controller values and pitch bends; they are proved to be at most 128 and 193 of 2^32 steps off (C50_controller_float_trip, C50_pitch_bend_float_trip). The documented range [0..128) of pitch_7_25::as_float is exceeded by exactly the values from 0xFFFFFF80 on (C50_pitch_7_25_float_range)."
 },
 "C52": {
  "note": "make_rjson does not escape and takes what looks like a number as one, so the result is not always JSON (C52_not_json), and an empty option reads before its first character (C52_fault_iff_empty_option). C52_rjson_string_options_exact and C52_rjson_int_options_exact give the exact condition under which the object reads back."
 },
 "C61": {
  "note": "False of the code: the fill character is not restored (C61_unchanged_iff, C61_fill_left_behind), std::left, showbase and uppercase change the text (C61_left_other_packet, C61_showbase_uppercase), and packets of several words cannot be read from a stream that does not skip white space (C61_noskipws). Proved: the flags are restored, C61_text_exactly says exactly when the text is the canonical one, C61_text_partial that base, fill character and width do not matter. Which texts are read back as the same packet is given exactly by C61_read_back_exactly (all of them without showbase and left, or with internal: C61_read_back_partial; not all with showbase: C61_showbase_other_packet)."
 },
 "C63": {
  "note": "False of the code: while the callback runs the collector still holds the message, and afterwards it forgets everything. A complete packet fed in the callback of a complete packet is appended to the message (C63_complete_packets_merge), messages begun in the callback are lost (C63_unfinished_lost). Proved: callbacks that only reset, that reset first, or that feed a first packet in the callback for an end packet; the exact behaviour for all trees of calls is C62_calls_exactly."
 },
 "C64": {
  "note": "False of the code without sysex callback: the ninth data byte fed in the callback for a packet with six bytes of sysex fails the assertion for bytes behind the packet (C64_overflow). Proved for all trees of calls with a sysex callback, and without one if every callback that feeds the parser begins with a status byte other than sysex end, or with a reset. C64_exactly: for all trees of calls, the assertion is the only thing that can fail, and it fails exactly if the reference machine has no result. C64_delivered_partial: if it does not fail, everything delivered is well formed except for sysex packets, which may have up to fourteen data bytes."
 },
 "C65": {
  "note": "False of the code (C65_false): a tune request and the end of sysex drop what the callback began (C65_tune_request, C65_manufacturer_lost), system common messages begun in a callback are dropped (C65_system_common), a reset in the callback for a sysex packet is undone (C65_reset_undone). Proved: all calls in callbacks for real time messages, settings and resets with a sysex callback, enabling and disabling callbacks, and, except for tune request and sysex packets, any calls that end with a complete message or a reset. C65_exactly gives the exact events for all trees of calls."
 },
 "C68": {
  "note": "False of the code: a message for which the callback threw is put in front of the next message that is one packet (C68_message_kept), or delivered again with the payload of a further end packet appended (C68_message_continued); a message is delivered without the packet for which there was no memory (C68_packet_missing). Proved, for collectors without limit: the next message is delivered unchanged if no callback threw for a complete packet; C68_next_exactly and C67_tries_exactly give the exact behaviour for all histories. The same for 8 bit sysex."
 },
 "C69": {
  "note": "False of the code without sysex callback: if the callback for a packet with six bytes of sysex throws, the ninth data byte behind it fails the assertion for bytes behind the packet (C69_overflow). Proved for all histories with a sysex callback, and without one if the caller goes on with a reset or a status byte other than sysex end behind an exception. C69_exactly: for all histories, the assertion is the only thing that can fail, and it fails exactly if the reference machine has no result. C69_delivered_partial: if it does not fail, everything delivered is well formed except for sysex packets, which may have up to fourteen data bytes."
 },
 "C71": {
  "note": "False of the code: without sysex callback the packet with the end of a sysex message can be delivered twice (C71_end_twice) or with misplaced bytes (C71_rest_misplaced); with a sysex callback a byte can be missing from a message (C71_byte_lost) and a message that should be dropped is delivered (C71_collected_while_disabled). Proved: exceptions from callbacks have no effect with a sysex callback and for streams without sysex; C71_exactly gives the exact events for all histories."
 },
 "C72": {
  "note": "False of the code for limits of more than 16384 bytes (C72_large_limit), and if the collector had a larger storage before (C72_large_storage): the storage is given back when a message is complete. Proved for all other limits and histories, for 7 and 8 bit sysex. C72_exactly and C72_exactly8: these are the only exceptions."
 },
 "C75": {
  "note": "False of the code for sysex in packet mode: the packets of one message can be in different groups (C75_sysex_false, and exactly C75_sysex_exactly). Proved for all other messages, with running status."
 },
 "C77": {
  "note": "False of the code for MIDI 1 pitch bend messages whose second data byte has the high bit set (C77_undefined). Proved exactly: C77_defined_partial is an equivalence."
 },
 "C80": {
  "note": "For sysex8 the messages are those send_sysex8 frames correctly, see C19 and C20."
 },
 "C81": {
  "note": "The table of names is the whole of inc/midi/manufacturer.h; C81_transport and C81_identity are for all data."
 },
 "C82": {
  "note": "C82_streams excludes the lengths for which send_sysex8 frames packets wrongly (C19). C82_one_collector shows what happens with a single collector."
 },
 "C83": {
  "note": "False of the code for a text that ends with the last digit of an incomplete message: operator>> checks good() and not fail(), so the message is delivered with words of the packet before it in place of the missing ones (C83_truncated_message_delivered). C83_reads_messages_partial proves the property for all texts with white space at the end, C83_exactly says what happens for all texts, C83_one_cut that the messages are determined by the words."
 },
 "C84": {
  "note": "Transfers are made by make_get_property_data_reply and make_set_property_data_inquiry (first message with header, the others without). The receiver and the transfers are in Spec/Transfer.lean; C84_receiver also says what it has after any part of the messages. The hypotheses are the preconditions of the factories (7 bit data, at most 16383 chunks of at most 16383 bytes), and that no two transfers have the same subtype, source and request id."
 },
 "C85": {
  "note": "Preconditions are those of the functions: 32 bit values are those of channel voice messages, bytes are those of the message. C85_behind_the_end and C85_longer_type show what happens without them: bytes behind the end are those of the unused words, and changing the type to one with longer messages makes them part of the message."
 },
 "C86": {
  "note": "The meaning of a packet sequence is itemsOf in Spec/Cable.lean. C86_interrupted_differs: a direct receiver still gets a sysex message interrupted by a channel voice message, a receiver behind a cable does not."
 },
 "C87": {
  "note": "False of the code as stated. A group of 16 or more gets into the message type (C87_group_corrupts_type), so that sysex7 packets become packets of another type (C87_send_sysex7_corrupts); get_byte, make_uint14, make_uint28, make_uint32, make_device_identity, set_device_id and the setters of muids access memory out of bounds for positions behind the end, exactly as with assertions switched on they stop; a device id above 127 is stored as it is (C87_ci_device_id). The theorems without suffix hold for all arguments of the functions they are about, those with suffix _partial say for which arguments the claim holds and what happens for the others. send_sysex8 asserts nothing about the group, so the same holds in both builds (C87_send_sysex8_partial, C87_send_sysex8_type). Functions not listed in the property are not covered."
 },
 "C88": {
  "note": "False of the code as stated. When the callback for a sysex packet throws and the caller goes on with data bytes, the byte counter runs through all 256 values and the header of the packet is overwritten with data: packets can be delivered in other groups (C88_header_lost) or the rest of the message is lost (C88_rest_lost). C88_delivered_partial says what can be delivered at most, for groups below 16; C88_reset and C88_next_status that the parser recovers. Groups 10h to 3Fh act as their lower four bits (C88_groups), with groups from 40h on all sysex is lost (C88_sysex_lost for calm callbacks: everything else is delivered; C88_no_sysex whatever is thrown). That no memory outside of the parser is touched shows in the functions of Verif.Model.ReleaseParser being total: set_byte checks its position."
 },
 "C89": {
  "note": "Exact conditions for all kinds of messages. False of the code as stated in three places: the MIDI 2 view drops the top bit of the fourth byte, which belongs to per-note controller numbers and note attribute types (C89_midi2_partial, C89_midi2_view_loses_bit; the specific getters keep it, C89_midi2_notes and C89_midi2_per_note); function blocks without user interface hint or spanning 16 groups (C89_function_block_info_partial, C89_function_block_info_lost); names which are not ASCII and product instance ids with a continue message (C89_names_partial, C89_name_lost). A MIDI 1 note on with velocity zero becomes a note off with velocity 64 (C89_midi1_note_on_zero)."
 },
 "C90": {
  "note": "One theorem for each kind of message; C90_equal_iff says when the two messages are equal. False of the code as stated for property data messages with chunk number 0: the factory asserts that the chunk pointer is null, which chunk_begin() of the view is not (C90_property_data_no_chunk: with a null pointer the message is made again, with the pointer of the view the assertion fails); C90_property_data_partial covers all other chunk numbers."
 },
 "C91": {
  "note": "C91_sender_counter includes failures: both runs fail in the same way or not at all. C91_system_clock relates the runs that do not overflow; C91_system_clock_defined shows that none does within the stated span."
 },
 "C92": {
  "note": "Continues C87 and C88. C92_profile_reply_wraps shows what the view makes of a reply for 16384 enabled profiles: none enabled, and one disabled profile that was never passed."
 },
 "C93": {
  "note": "Real time bytes in between are the subject of C27, which makes them transparent. For sysex8 the messages that arrive at all are those of C20."
 },
 "C94": {
  "note": "Exact text for every packet; the specification (digits by division, blanks between words) does not mention the stream manipulators of the code. A stream with default formatting; C61 is about reading texts back."
 },
 "C95": {
  "note": "Messages without a genuine manufacturer id are ambiguous (see the example beside the theorem and C18); sysex8 messages of the lengths of C19 are excluded."
 },
 "C96": {
  "note": "Growth of std::vector as in the common standard libraries: reserve(n) makes the capacity max(capacity, n), push_back doubles, shrink_to_fit of an empty vector releases. With a limit see C22. C96_interrupted_any_size: a parser with no message in progress can hold any amount of memory."
 },
 "C97": {
  "note": "The processor is code of the documentation, modelled in Model/Processor. What is to be played is specified on the bytes of the packet (Spec/Actions: played, midi1Action, midi2Action) and on byte streams (Block.actions)."
 },
 "C98": {
  "note": "Within four years from the construction of the follower (C48). The finding for users: the security offset never shrinks, so a clock difference of 100 ppm delays messages by ten seconds after a day, and one gap of three seconds by 2.5 s for good."
 },
 "C99": {
  "note": "For system clocks that run at the same rate (C98 says what happens otherwise) and within four years. The upper bound on the time scheduled is new here; C49 has the lower one."
 },
 "C100": {
  "note": "The application (Spec/Device.lean) is written for this property; everything it calls is the library. C100_faults and C100_nak_v1_faults say exactly which messages make an assertion fail, C100_packets_fault and C100_packets_nak show packets that do so or that lead to an invalid answer."
 },
 "C101": {
  "note": "The programs are those of Spec/Box.lean (Box); C101_bridge is the case of MIDI 2 in between (intoMidi2, outOfMidi2). C101_needs_realTime and C101_needs_sysex show that the conditions on programs are needed."
 },
 "C102": {
  "note": "The two applications are those of Spec/Endpoint.lean (Endpoint.receive, Known.hear). C102_view_of_both shows why the endpoint has to look at the status: as_stream_configuration_view accepts requests and notifications."
 },
 "C103": {
  "note": "The two applications are those of Spec/FlexText.lean (TextSender.send, TextReader.read). C103_no_zeros shows that the condition on zeros is necessary; C103_lost_packet says exactly what a lost packet does."
 },
 "C104": {
  "note": "The applications are those of Spec/Profiles.lean (ProfileDevice.step, KnownProfiles.hear, netRun); profiles are compared with the library's operator==. The client hears all messages sent, in order; C104_inquiry holds for any knowledge, so asking again repairs what a lost notification spoilt."
 },
 "C105": {
  "note": "The instrument and the two translating programs are those of Spec/Sounding.lean. C105_to_midi1 is exact; C105_hanging_note is the witness for Note Off with attribute."
 },
 "C106": {
  "note": "What can be said (29 kinds) and the program that understands it with the views are in Spec/Said.lean. The NAK of version 1, the process inquiry capabilities inquiry and the end of a MIDI message report have no view of their own: they are told by subtype (and version) of capability_inquiry_view."
 },
 "C107": {
  "note": "The device, the clients and the table are in Spec/Store.lean; the last message of every request is marked with what it asks for (C107_marks), so the marks in the order of arrival are the order of the requests."
 },
 "C108": {
  "note": "What is said and understood is that of C106. How far the length fields of a message go is Said.lengthsEnd (Spec/SaidLost.lean). The loss of a packet before that is C108_header_lost: a property reply that lost the middle of its header is understood with a header that was never sent."
 },
 "C109": {
  "note": "What remains of a value is Knob.coarse (Spec/Panel.lean), explained by C109_remains. C109_bank_lost shows that the messages which are left out matter: behind a translation to MIDI 1 a program change with bank changes neither bank nor program."
 },
 "C110": {
  "note": "The conditions are exact in both directions (C110_packet, C110_message, C110_careful, C110_any); C110_three_bytes and C110_bad_bend are the shortest failures. Getters that are total functions in the model are not in the monitor, as they cannot fail."
 },
 "C111": {
  "note": "C111_delivered_exactly says which messages pass, C111_passing what that means, C111_just_too_large that a message slightly too large takes the next one with it. Messages that fit into a single packet are not covered: those are prefixed with what is left over, see C23_dropped_late_leaks."
 },
 "C112": {
  "note": "The device and the listener are programs of the specification (Spec/Report.lean) around the modelled factories, collector and getters; C112_report covers both protocols, C112_everything a complete report. The messages of the report are sent in one group."
 },
 "C113": {
  "note": "Device and clients are programs of the specification (Spec/Mirror.lean) around the modelled factories, views, JSON headers and collector. C113_number_id and C52_empty_subscribe_id show why the ids are restricted. Clients do not check who sends the values."
 },
 "C114": {
  "note": "C114_cables: any number of cables, any interleaving. C114_merge: the merge box with sysex callbacks, for messages with a manufacturer id other than 00 00 00; C114_at_once: passed on at once. C114_groups: sixteen cables in one packet connection. Witnesses: C114_id_zero (the excepted id), C114_packets_broken (merging without sysex callbacks)."
 },
 "C115": {
  "note": "C115_arrive: any packets, receiver between two packets. C115_any_bytes: any bytes. C115_unique: no two sequences have the same bytes. C115_in_step: three NOOPs after lost words. C115_sysex7, C115_sysex8: with collectors (sysex8 as in C20). Witnesses: C115_lost_word, C115_lost_byte."
 },
 "C116": {
  "note": "C116_moved, C116_values: one packet. C116_bytes, C116_collectors: streams of packets. C116_collectors_of_group and C116_notes: maps which keep groups apart. C116_translation, C116_translated_stream: either order. Witnesses: C116_merged_groups, C116_stream_message."
 },
 "C117": {
  "note": "C117_safe, C117_pair, C117_distinct: everything that may happen. C117_once, C117_quiet: devices join and messages arrive."
 },
 "C118": {
  "note": "C118_notes for notes without attributes: those with attributes are lost in MIDI 1 (C105). C118_settings for the knobs that C109 keeps."
 },
 "C119": {
  "note": "The loop while (in >> p) gets fuel; any value above the number of packets plus four gives the same result. C119_wrong and C119_lost are witnesses of the limits: a cut line may be read as a packet that was never recorded, and a recording continued behind it may lose a packet."
 }
}