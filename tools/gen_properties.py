#!/usr/bin/env python3
# Generates /verif/properties.jsonl (one JSON object per line).
import json, os
P = []
def p(title, statement, quantifier, why, *anchors):
    P.append(dict(id=f"C{len(P)+1:02d}", title=title, statement=statement, quantifier=quantifier,
                  why_tests_cant=why, anchors=list(anchors)))

UP="inc/midi/universal_packet.h"; TY="inc/midi/types.h"; DM="inc/midi/data_message.h"; XD="inc/midi/extended_data_message.h"
SX="inc/midi/sysex.h"; SXC="src/sysex.cpp"; COL="src/sysex_collector.cpp"; COLH="inc/midi/sysex_collector.h"
BS="src/midi1_byte_stream.cpp"; BSH="inc/midi/midi1_byte_stream.h"; CV="inc/midi/channel_voice_message.h"
M1="inc/midi/midi1_channel_voice_message.h"; M2="inc/midi/midi2_channel_voice_message.h"; FD="inc/midi/flex_data_message.h"
ST="inc/midi/stream_message.h"; JR="src/jitter_reduction_timestamps.cpp"; JRH="inc/midi/jitter_reduction_timestamps.h"
US="inc/midi/universal_sysex.h"; USC="src/universal_sysex.cpp"; CI="inc/midi/capability_inquiry.h"; CIC="src/capability_inquiry.cpp"
SY="inc/midi/system_message.h"; UT="inc/midi/utility_message.h"

p("Byte access on a packet is a 16 byte array",
  "For every packet and byte positions b, b' < 16: after set_byte(b, v), get_byte(b) is v and get_byte(b') is unchanged for b' != b; a packet is determined by its 16 bytes; byte 4*w+k is the k-th most significant byte of data word w.",
  "every packet (2^128), every pair of positions below 16, every byte value",
  "The domain is 2^128 packets; a test fixes a few packets and positions and cannot rule out that some write touches a neighbouring byte.",
  f"{UP}: universal_packet::get_byte, universal_packet::set_byte")
p("Packet header setters touch only their own field",
  "set_type(t) and set_group(g) with t,g < 16 make type()/group() return t/g and leave every other bit of the packet unchanged (status, data bytes, other words, and the other header field).",
  "every packet, every type and every group below 16",
  "Quantifies over all 2^128 packets; unit tests start from default-constructed packets only.",
  f"{UP}: universal_packet::set_type, universal_packet::set_group, type, group")
p("Packet equality is an equivalence on the significant words",
  "operator== is reflexive, symmetric and transitive, and p == q holds exactly if both packets have the same number of significant words (size() by packet type) and those words agree; words beyond size() never matter. operator!= is its negation.",
  "all triples of packets",
  "Symmetry is not obvious as only the left operand's size is consulted; needs all pairs of packet types and contents.",
  f"{UP}: universal_packet::operator==, universal_packet::operator!=, universal_packet::size")
p("Packet text output can be read back",
  "Writing a sequence of packets with operator<< separated by white space and reading them back with operator>> yields packets that compare equal to the originals, in order and without loss.",
  "every finite sequence of packets and every target packet content before reading",
  "Unbounded sequences and 2^128 packets; formatting (leading zeros, number of words per type) must be right for all of them.",
  "src/universal_packet.cpp: operator<<, operator>>", f"{UP}: size")
p("Scaling up keeps resolution, order and the fixed points",
  "For all bit depths 1 < x < y <= 32 and values v < 2^x, upsample_x_to_ybit(v, x, y) fits into y bits, shifting the result right by y-x yields v again, the mapping is strictly increasing, and it maps minimum, centre and maximum onto minimum, centre and maximum.",
  "all pairs of bit depths and all values of the source bit depth",
  "About 2^31 values for the large depths and a data dependent loop; tests check a handful of values.",
  f"{TY}: upsample_x_to_ybit")
p("Fixed depth scaling functions agree with the general one and invert",
  "upsample_7_to_16bit, upsample_7_to_32bit and upsample_14_to_32bit agree with upsample_x_to_ybit for every value in range, and downsample_16_to_7bit, downsample_32_to_7bit, downsample_32_to_14bit undo them; every downsample is monotone and never leaves its range. Hence velocity, pitch_bend and controller_value made from 7 or 14 bit values read back the same 7 or 14 bit value.",
  "all 7 bit, 14 bit, 16 bit and 32 bit values",
  "Tests sample; the claims are equalities of functions.",
  f"{TY}: upsample_7_to_16bit, upsample_7_to_32bit, upsample_14_to_32bit, downsample_16_to_7bit, downsample_32_to_7bit, downsample_32_to_14bit, velocity, pitch_bend, controller_value")
p("Controller and pitch arithmetic saturates, never wraps",
  "controller_value + controller_increment, pitch_7_25 + pitch_increment and pitch_increment + pitch_increment return the mathematically exact sum clamped to the range of the type; they never invoke undefined behaviour, are monotone in each argument, and the compound assignment forms store the same value.",
  "all pairs of 32 bit operands",
  "2^64 operand pairs; overflow bugs hide at corners of corners (v1.6.0 fixed such bugs).",
  f"{TY}: operator+(controller_value, controller_increment), operator+(pitch_7_25, pitch_increment), operator+(pitch_increment, pitch_increment), operator+=")
p("Pitch bend times sensitivity",
  "pitch_bend * pitch_bend_sensitivity equals ((bend - 2^31) * sensitivity) / 2^31 rounded toward zero and clamped to int32, never overflows the 64 bit intermediate, is zero for the centred bend, is antisymmetric around the centre for sensitivities up to 64 semitones (for larger ones except for the clamping) and bounded in magnitude by the sensitivity.",
  "all 2^32 bends and 2^32 sensitivities",
  "2^64 pairs, overflow of the intermediate product only at the extreme corner.",
  f"{TY}: operator*(pitch_bend, pitch_bend_sensitivity)")
p("MIDI 1 to MIDI 2 and back is lossless",
  "For every MIDI 1 channel voice message with 7 bit data that has a MIDI 2 equivalent, as_midi1_channel_voice_message(as_midi2_channel_voice_message(m)) returns the same message (with a zero velocity Note On returning as the Note Off with velocity 64 that MIDI 2 mandates), for every group and channel.",
  "every MIDI 1 channel voice packet (all groups, channels, statuses, data bytes)",
  "16*16*7*128*128 messages through two scaling functions; tests pick examples.",
  f"{CV}: as_midi1_channel_voice_message, as_midi2_channel_voice_message")
p("MIDI 2 to MIDI 1 translation yields well formed MIDI 1",
  "Whenever as_midi1_channel_voice_message(p) of a MIDI 2 channel voice packet returns a message it is a MIDI 1 channel voice packet with 7 bit data, the same group and channel, and the corresponding status; a Note On stays a Note On (velocity is never 0). Anything that is no channel voice packet is rejected.",
  "every packet (2^128)",
  "The velocity-zero corner (16 bit velocities 0..511 round to 0) must be excluded for every value; unbounded packet content.",
  f"{CV}: as_midi1_channel_voice_message")
p("Note On and Note Off predicates partition note messages",
  "No packet is both is_note_on and is_note_off; every channel voice packet with a Note On or Note Off status and 7 bit data satisfies exactly one of them, and both imply the packet is a channel voice message.",
  "every packet",
  "Two packet formats with different velocity conventions over 2^64 significant bits.",
  f"{CV}: is_note_on_message, is_note_off_message, get_note_nr, get_note_velocity, get_note_pitch")
p("MIDI 1 channel voice factories and view agree",
  "For each make_midi1_* factory with arguments in range, the packet has type MIDI 1 channel voice, and the view returns exactly the group, channel, status, note/controller/program numbers and values passed in; out of range data never leaks into other fields.",
  "all arguments of all factories",
  "Field packing must be right for every combination of arguments.",
  f"{M1}: make_midi1_channel_voice_message, make_midi1_note_off_message, make_midi1_pitch_bend_message, midi1_channel_voice_message_view")
p("MIDI 2 channel voice factories and view agree",
  "For each make_* factory of MIDI 2 channel voice messages with arguments in range, the packet has type MIDI 2 channel voice, matches its own is_*_message predicate and no other one, and the accessors return exactly the arguments passed in.",
  "all arguments of all factories",
  "Field packing for every combination of 64 bit content.",
  f"{M2}: make_midi2_channel_voice_message, make_midi2_note_on_message, make_registered_controller_message, is_*_message, midi2_channel_voice_message_view")
p("Utility and system message factories and views agree",
  "make_utility_message, make_system_message, make_song_position_message, make_jr_*_message produce packets of the right type whose views return the arguments; the 14 bit song position round trips.",
  "all arguments",
  "All 16384 song positions / 65536 timestamps in all groups.",
  f"{SY}: make_system_message, make_song_position_message, system_message_view", f"{UT}: make_utility_message, utility_message_view", f"{JRH}: jr_clock_message, jr_timestamp_message")
p("A sysex7 packet holds up to six 7 bit bytes",
  "Starting with an empty sysex7 packet, adding n <= 6 payload bytes gives a packet that is_sysex7_packet accepts, with unchanged format and group, payload_size() n and payload bytes exactly the added ones reduced to 7 bit in order; no assertion or out of range access occurs.",
  "every group, format and every list of at most six bytes",
  "All byte contents; independence of neighbouring payload bytes.",
  f"{DM}: sysex7_packet, add_payload_byte, set_payload_size, is_sysex7_packet, sysex7_packet_view")
p("A sysex8 packet holds up to thirteen 8 bit bytes",
  "Starting with an empty sysex8 packet, adding n <= 13 payload bytes gives a packet that is_sysex8_packet accepts, with unchanged format, group and stream id, payload_size() n and payload bytes exactly the added ones in order; no assertion or out of range access occurs.",
  "every group, format, stream id and every list of at most thirteen bytes",
  "All byte contents; independence of neighbouring payload bytes.",
  f"{XD}: sysex8_packet, add_payload_byte, set_payload_size, is_sysex8_packet, sysex8_packet_view")
p("send_sysex7 produces correctly framed packets",
  "For every message with a genuine one or three byte manufacturer id, send_sysex7 emits either a single complete packet or a start packet, any number of continue packets and an end packet, all in the requested group; all but the last are full, and the concatenated payload is the manufacturer id bytes followed by the data (reduced to 7 bit).",
  "messages of any length, any group",
  "Unbounded data length; framing depends on length modulo six.",
  f"{SX}: send_sysex7, as_sysex7_packets", f"{SXC}: sysex::total_data_size")
p("sysex7 packets collect back into the message",
  "Feeding the packets of send_sysex7 for a sequence of valid messages into a sysex7_collector (without size limit) invokes the callback exactly once per message, in order, with equal messages, whatever the collector was fed before and whatever non-sysex7 packets are interleaved.",
  "every sequence of valid messages of any length, every previous history, every interleaving with other packets",
  "Unbounded histories and lengths.",
  f"{COL}: sysex7_collector::feed", f"{SX}: send_sysex7")
p("send_sysex8 produces correctly framed packets",
  "For every message, send_sysex8 emits either a single complete packet or a start packet, any number of continue packets and an end packet, with the requested group and stream id, and the concatenated payload is the two manufacturer bytes followed by the data.",
  "messages of any length, any group and stream id",
  "Unbounded data length; framing depends on length modulo thirteen and the id size.",
  f"{SX}: send_sysex8, as_sysex8_packets", f"{SXC}: sysex::total_data_size")
p("sysex8 packets collect back into the message",
  "Feeding the packets of send_sysex8 for a sequence of messages into a sysex8_collector (without size limit) invokes the callback exactly once per message, in order, with an equal message and the stream id, whatever was fed before.",
  "every sequence of messages of any length, every previous history",
  "Unbounded histories and lengths; fails only for particular lengths.",
  f"{COL}: sysex8_collector::feed", f"{SX}: send_sysex8")
p("The sysex7 collector delivers exactly the framed messages",
  "For every packet sequence the (unlimited) sysex7 collector delivers exactly one message per complete packet and per start/continue*/end run of consecutive sysex7 packets, containing exactly the payload of that run; orphaned continue or end packets and unfinished runs deliver nothing, other packets are ignored. No input causes an out of range access.",
  "every finite sequence of arbitrary packets",
  "All histories of arbitrary (also malformed) packets.",
  f"{COL}: sysex7_collector::feed", f"{COLH}: sysex7_collector")
p("The collector honours the size limit",
  "With set_max_sysex_data_size(n), n > 0, no message with more than n data bytes is delivered, and the collector's storage does not grow beyond n.",
  "every packet sequence and every limit",
  "Depends on the entire history (vector capacity).",
  f"{COL}: set_max_sysex_data_size, sysex7_collector::feed, sysex8_collector::feed")
p("An oversized message does not corrupt the following one",
  "After a message was dropped because of the size limit, the next well framed message that fits is delivered exactly, without bytes of the dropped one.",
  "every packet history, every limit",
  "Needs a history with an overflow at a particular point.",
  f"{COL}: sysex7_collector::feed, sysex8_collector::feed")
p("The sysex8 collector keeps streams apart",
  "Every message delivered by the sysex8 collector consists only of payload from packets with the stream id reported in the callback; continue and end packets of other stream ids do not disturb a running message. Delivered messages are exactly the framed runs of the sequence.",
  "every finite sequence of arbitrary packets",
  "All interleavings of streams.",
  f"{COL}: sysex8_collector::feed")
p("The byte stream parser only emits well formed packets",
  "For every byte sequence, every packet the parser emits is a MIDI 1 protocol message (system, MIDI 1 channel voice or sysex7) in the parser's group with 7 bit data, and the parser never performs an out of range access or fails an assertion; every sysex delivered in callback mode is 7 bit.",
  "every byte sequence from every reachable parser state, callback and packet mode",
  "Unbounded sequences of arbitrary bytes.",
  f"{BS}: midi1_byte_stream_parser::feed")
p("The parser implements the MIDI 1 byte stream grammar",
  "For every byte sequence the events emitted by the parser are those of a reference MIDI 1 byte stream grammar (status, running status, data bytes, real time bytes anywhere, sysex terminated or aborted).",
  "every byte sequence",
  "Equality with a reference over all unbounded sequences.",
  f"{BS}: midi1_byte_stream_parser::feed")
p("Real time bytes are transparent",
  "Inserting System Real Time bytes at arbitrary positions of a byte stream adds exactly the corresponding real time packets and changes neither the other emitted packets or sysex messages nor their order nor the behaviour on later bytes.",
  "every byte sequence and every set of insertion points",
  "All interleavings.",
  f"{BS}: midi1_byte_stream_parser::feed, system_realtime")
p("Running status equals explicit status",
  "Omitting a channel voice status byte equal to the one in effect does not change the parser's output.",
  "every sequence of channel voice messages from every parser state",
  "Unbounded sequences, all parser states.",
  f"{BS}: midi1_byte_stream_parser::feed, channel_voice")
p("Sysex bytes become sysex7 packets without loss",
  "Without sysex callback, F0, any number of data bytes and F7 produces packets complete or start/continue*/end whose concatenated payload is exactly the data bytes.",
  "data of any length, interleaved with real time bytes, from any parser state",
  "Unbounded length; the grouping by six has boundary cases.",
  f"{BS}: sysex_continue_packet, sysex_end_packet")
p("Sysex bytes become sysex messages in callback mode",
  "With a sysex callback, F0, a one or three byte manufacturer id, data bytes and F7 calls the callback exactly once with that manufacturer id and data; sysex aborted by a status byte is not delivered.",
  "ids and data of any length, from any parser state",
  "Unbounded length.",
  f"{BS}: sysex_start, sysex_continue_callback, sysex_end_callback")
p("Parser feeding is independent of chunking; reset equals fresh",
  "Feeding a byte sequence in arbitrary blocks or byte by byte gives the same events; after reset() the parser behaves like a newly constructed one on every further input.",
  "every sequence, every split, every state at reset",
  "All histories and futures.",
  f"{BS}: feed, reset")
p("A disabled parser stays silent",
  "While callbacks are disabled no callback is invoked whatever is fed; parsing continues so that enabling does not change the events of later complete messages.",
  "every byte sequence",
  "All sequences and switch points.",
  f"{BS}: feed", f"{BSH}: enable_callbacks")
p("Packet to byte stream conversion is consistent and parses back",
  "to_midi1_byte_stream never writes more than 8 bytes; for system and channel voice packets it writes exactly midi1_byte_stream_size(p) bytes, for sysex7 packets the payload, with F0 in front of the first and F7 behind the last packet of a message, and nothing for other packets; parsing the bytes of a sequence of well formed channel voice and system packets yields the same packets.",
  "every packet, every sequence of packets",
  "Unbounded sequences of 2^64 packets.",
  f"{BS}: to_midi1_byte_stream", f"{BSH}: midi1_byte_stream_size")
p("from_midi1_byte_stream inverts to_midi1_byte_stream",
  "For status bytes of channel voice and system messages and 7 bit data, converting to a packet and back to bytes returns status and the significant data bytes; from_midi1_byte_stream agrees with what the parser emits for the same bytes.",
  "all status and data bytes",
  "256*128*128 inputs.",
  f"{BSH}: from_midi1_byte_stream", f"{BS}: to_midi1_byte_stream")
p("Sysex survives the whole transport chain",
  "A valid sysex7 message sent with send_sysex7, converted with to_midi1_byte_stream, parsed by midi1_byte_stream_parser in callback mode yields the original message exactly once; in packet mode it yields sysex7 packets with the same payload, which a sysex7_collector delivers as the original message; these are the very packets of send_sysex7 if and only if the payload size is not a multiple of six.",
  "messages of any length",
  "Composition of three components over unbounded data.",
  f"{SX}: send_sysex7", f"{BS}: to_midi1_byte_stream, feed", f"{COL}: feed")
p("Packet mode plus collector equals callback mode",
  "For well formed sysex in a byte stream, parsing in packet mode and feeding the packets into a sysex7_collector delivers the same sysex messages as the parser's sysex callback.",
  "every byte stream of sysex messages with full manufacturer ids",
  "Two independent implementations of the same decoding over unbounded streams.",
  f"{BS}: feed", f"{COL}: sysex7_collector::feed")
p("Integer fields in sysex7 data round trip",
  "add_uint14/add_uint28/add_uint32 followed by make_uint14/28/32 at that position return the value; all added bytes are 7 bit for 14/28/32 bit values; other data is unchanged.",
  "all 14, 28 and 32 bit values, any preceding data",
  "2^32 values, any position.",
  f"{SX}: add_uint14, make_uint14, add_uint28, make_uint28, add_uint32, make_uint32")
p("Device identity round trips",
  "add_device_identity / make_device_identity and identity_reply / identity_reply_view return the identity that was encoded, for every in range identity.",
  "all device identities, any preceding data",
  "2^24 * 2^14 * 2^14 * 2^28 identities.",
  f"{SXC}: add_device_identity, make_device_identity", f"{USC}: identity_reply", f"{US}: identity_reply_view")
p("Validated sysex views never read out of bounds",
  "For universal sysex and MIDI-CI views: validate() itself is safe for every message, and once it returns true every accessor stays inside the message data.",
  "every sysex7 message (any id, any data length and content)",
  "Memory safety on untrusted input of any length.",
  f"{US}: validate", f"{CI}: *_view::validate", f"{CIC}: validate")
p("MIDI-CI messages round trip",
  "For every MIDI-CI message factory and in range arguments, the message is valid 7 bit sysex, validates as exactly its own view type, and the view returns the arguments.",
  "all arguments of all factories",
  "All 28 bit MUIDs and field combinations.",
  f"{CI}: make_*, *_view", f"{CIC}: message")
p("Profile inquiry replies round trip lists of profiles",
  "make_profile_inquiry_reply with lists of enabled and disabled profiles produces a message that validates and whose view returns the same lists.",
  "lists of any length up to 16383",
  "Unbounded lists; offsets depend on the first list's length.",
  f"{CIC}: make_profile_inquiry_reply, profile_inquiry_reply_view")
p("Property exchange messages round trip header and chunk",
  "make_property_data_message, and every factory based on it, called with a header in the first chunk only and with consistent chunk numbers, yields a message that validates and whose view returns the same header, chunk numbers and chunk data. A header in a later chunk is not accepted by the view.",
  "headers and chunks of any length up to 16383",
  "Variable length fields; offsets depend on header length.",
  f"{CIC}: make_property_data_message, property_data_message_view")
p("Profile specific data round trips",
  "make_profile_specific_data_message yields a message whose view returns the same profile id and payload for payloads of any size that fits 28 bit.",
  "payloads of any length",
  "Truncation happens only for large payloads.",
  f"{CI}: make_profile_specific_data_message, profile_specific_data_view", f"{CIC}: make_profile_specific_data_message")
p("Names sent in stream messages can be reassembled",
  "send_endpoint_name, send_product_instance_id and send_function_block_name split a name of any length into complete or start/continue*/end packets; concatenating the payload strings of the packets returns the name.",
  "names of any length (documented character range)",
  "Unbounded length; chunk boundaries.",
  f"{ST}: send_endpoint_name, send_product_instance_id, send_function_block_name, payload_as_string")
p("Stream message factories and views agree",
  "Endpoint discovery, endpoint info, device identity, stream configuration, function block discovery/info messages return through their views the arguments passed to the factories; each packet is accepted by its own as_*_view only.",
  "all in range arguments",
  "Field packing for all argument combinations.",
  f"{ST}: make_*_message, as_*_view")
p("Flex data factories and views agree",
  "Flex data messages (text, tempo, time signature, metronome, key signature, chord name) return format, address, group, channel, bank, status and payload as passed in; text payloads of up to 12 characters round trip.",
  "all in range arguments and texts",
  "Field packing for all argument combinations and all texts.",
  f"{FD}: make_flex_data_message, make_flex_data_text_message, flex_data_message_view")
p("Timestamp differences wrap correctly",
  "The difference of jr timestamps is the number of ticks from the earlier to the later one modulo 2^16, for every pair, also across the wrap around.",
  "all pairs of timestamps",
  "2^32 pairs including wrap around.",
  f"{JRH}: jr_timestamp_t::operator-")
p("Clock follower statistics stay sane",
  "For every sequence of clock and schedule calls with monotone receive times the follower never produces undefined behaviour, the jitter estimate is non negative and the security offset is derived from it; reset() forgets all history.",
  "every call history",
  "Depends on whole histories.",
  f"{JR}: jr_clock_follower::process, update_stats, reset")
p("Scheduled messages keep their order",
  "Messages with non decreasing timestamps between clock messages of an ideal sender are scheduled at non decreasing times, never before their ideal time, and two messages with timestamp difference d following the same clock are scheduled exactly d ticks apart.",
  "every call history of an ideal sender",
  "Depends on histories and wrap around of timestamps.",
  f"{JR}: jr_clock_follower")
p("Floating point conversions are bounded and invert",
  "Conversions of velocity, controller_value, pitch_bend and pitch types to and from float/double stay in range for every finite argument (clamping), map 0, 0.5, 1 / -1, 0, 1 to minimum, centre, maximum, are monotone, stand for the same part of the range up to one step (up to the precision of the format for float), and double conversion round trips every value.",
  "all values and all finite floating point arguments",
  "2^32 values and 2^64 doubles.",
  f"{TY}: velocity, controller_value, pitch_bend, pitch_7_9, pitch_7_25, pitch_increment")
p("Channel voice getters agree with both protocols",
  "get_note_nr, get_note_velocity, get_controller_value, get_program_value, get_channel_pressure_value, get_channel_pitch_bend_value return for a MIDI 1 message and for its MIDI 2 translation the same values and never exceed the value range for messages with 7 bit data.",
  "every channel voice message",
  "All messages in both formats.",
  f"{CV}: get_note_velocity, get_controller_value, get_program_value, get_channel_pressure_value, get_channel_pitch_bend_value")
p("Property exchange header JSON",
  "make_rjson produces for keys, values and options without special characters a syntactically valid flat JSON object from which the key/value pairs can be recovered; it never reads out of bounds.",
  "all strings and option lists",
  "All strings; the empty option value is a corner case.",
  f"{CIC}: make_rjson, is_number")
p("Sysex message helpers",
  "sysex equality, empty(), is_7bit(), is_8bit(), is_valid() and total_data_size() characterise exactly what they promise: is_7bit iff every data byte < 0x80, is_8bit its counterpart, empty iff no id and no data, total_data_size the number of bytes on the wire between F0 and F7 for genuine manufacturer ids.",
  "every sysex message of any length",
  "Unbounded data.",
  f"{SXC}: total_data_size, empty, is_7bit, is_8bit", f"{SX}: sysex7::is_valid, operator==")

p("Classification of packets",
  "The predicates on packets (is_utility_message, is_system_message, is_channel_voice_message, is_data_message, has_channel, is_midi1_channel_voice_message, is_midi2_channel_voice_message, is_flex_data_message, is_stream_message, ...) depend on the message type alone and agree with the UMP type table; is_midi1_protocol_message accepts exactly the system and MIDI 1 channel voice messages with an existing status byte, which are exactly those of these types that to_midi1_byte_stream turns into bytes.",
  "every packet",
  "2^128 packets; the predicates are separate switch statements and bit tests that must agree.",
  f"{UP}: universal_packet::is_utility_message, is_system_message, is_channel_voice_message, is_data_message, has_channel, is_midi1_protocol_message")

p("Views accept exactly the complete messages of their kind",
  "The validate function of each MIDI-CI view class (and the identity request/reply recognisers) accepts a sysex message if and only if it is universal non-real-time sysex with the right type and one of the subtypes of the class, contains all fixed fields required by its version, and every length field in it is followed by at least as many bytes as it says; for property exchange data messages also the chunk number does not exceed a known number of chunks, only the first chunk has a header, and a message with data has a chunk number. Nothing incomplete is accepted, and nothing complete is rejected.",
  "all sysex messages of 7 bit bytes, of any length, and all 23 view classes",
  "Unit tests build messages with the library's own factories and cut them at a few places; the claim is about every sequence of bytes and every value of every length field.",
  "inc/midi/capability_inquiry.h: *_view::validate", "src/capability_inquiry.cpp: profile_inquiry_reply_view::validate, property_data_message_view::validate", "inc/midi/universal_sysex.h: is_identity_request, identity_reply_view::validate")

p("Re-sending a parsed byte stream changes nothing",
  "For every byte sequence whatsoever (running status, stray data, undefined bytes, interrupted or empty sysex, real time bytes anywhere): the packets a MIDI 1 byte stream parser emits, converted by to_midi1_byte_stream and fed to any other packet mode parser of the same group, give the same packets in the same order. A stream of complete messages with explicit status bytes is reproduced byte by byte.",
  "every byte sequence, every prior history of the second parser",
  "All byte sequences: tests compare a handful of well formed streams.",
  "src/midi1_byte_stream.cpp: midi1_byte_stream_parser::feed, to_midi1_byte_stream")

p("Translation between protocols in chains",
  "What as_midi1_channel_voice_message returns is a fixed point: translating it to MIDI 2 and back returns the same packet. MIDI 2 channel voice messages of a group sent over a MIDI 1 cable (translated, converted to bytes, parsed) arrive as exactly their MIDI 1 translations. A byte stream of channel voice messages (other than sequence controllers and Note On with velocity 0) carried as MIDI 2 messages is reproduced byte by byte.",
  "every sequence of MIDI 2 packets, every sequence of channel voice messages, every parser history",
  "2^32 data words per message and unbounded sequences through four conversions.",
  f"{CV}: as_midi1_channel_voice_message, as_midi2_channel_voice_message", "src/midi1_byte_stream.cpp: midi1_byte_stream_parser::feed, to_midi1_byte_stream")

p("MIDI-CI messages arrive as they were sent",
  "Every valid sysex message accepted by a MIDI-CI view, sent as sysex7 packets in any groups one after the other, is delivered unchanged by a sysex7 collector, and, over a MIDI 1 cable, by a byte stream parser with sysex callback, whatever these have received before.",
  "all messages accepted by any of the views, of any length, and all histories of the receiver",
  "Unbounded messages through packetisation, byte conversion and reassembly.",
  f"{SX}: send_sysex7", "src/sysex_collector.cpp: sysex7_collector::feed", "src/midi1_byte_stream.cpp: midi1_byte_stream_parser::feed", "inc/midi/capability_inquiry.h: *_view::validate")

p("Equality of profile ids and destinations",
  "profile_id and profile_destination compare equal if and only if all their bytes, respectively scope and number of channels, are; equivalently, if and only if the requests made from them are the same message.",
  "all pairs of profile ids and destinations with 7 and 14 bit fields",
  "2^70 pairs; a forgotten field is invisible to tests with few profiles.",
  "inc/midi/capability_inquiry.h: operator==(profile_id), operator==(profile_destination), make_profile_on_request")

p("Pitch of a bent note",
  "For every pitch, pitch bend and sensitivity, pitch + bend * sensitivity is defined, deviates from the pitch by at most the sensitivity and only in the direction of the bend, is monotone in pitch and bend, and for sensitivities of up to 64 semitones is the exact bent pitch clamped to the range. A centred bend (also one after reset(), or a default one) changes nothing; full bend down with a whole number of semitones gives exactly the lower note, full bend up the higher note less one unit. The default sensitivity is two semitones.",
  "all 2^96 triples of pitch, bend and sensitivity",
  "The product and sum of 32 bit fixed point values are rounded and clamped at several places.",
  f"{TY}: operator*(pitch_bend, pitch_bend_sensitivity), operator+(pitch_7_25, pitch_increment), pitch_bend::reset, pitch_7_25, controller_value")

p("Packets as text on streams with any format",
  "Writing a packet with operator<< produces the same text whatever base, width, fill character, adjustment and other flags the stream is set to, and leaves all of them as they were; reading a packet with operator>> does not depend on them and leaves them alone.",
  "all packets and all formatting states of a stream",
  "The combinations of flags, widths and fill characters are unbounded, and the effect on values written afterwards is not in the packet's own text.",
  "src/universal_packet.cpp: operator<<, operator>>, iobase_restore_flags")

p("Collector callbacks may use the collector: safety",
  "A callback of a sysex collector may call feed, set_max_sysex_data_size and reset of the collector that calls it, also from within callbacks caused by these calls, to any depth. No assertion fails and nothing is accessed out of bounds. Every message delivered consists of payload bytes of packets that were fed, in the order in which they were fed; and once the call of feed that delivered a message has returned, the collector is like a new one with the same limit, apart from up to 16384 bytes of memory it keeps reserved.",
  "every tree of calls: any calls of any depth made by callbacks, after any history",
  "Unbounded trees of calls; tests use callbacks that only store the message.",
  "src/sysex_collector.cpp: sysex7_collector::feed, sysex8_collector::feed, reset", "inc/midi/sysex_collector.h: sysex7_collector, sysex8_collector")

p("Collector callbacks may use the collector: effect",
  "The calls of the collector made by its callback have the same effect as the same calls made right after the call of feed that caused the callback.",
  "every tree of calls",
  "Unbounded trees of calls; tests use callbacks that only store the message.",
  "src/sysex_collector.cpp: sysex7_collector::feed, sysex8_collector::feed, reset")

p("Parser callbacks may use the parser: safety",
  "A callback of the MIDI 1 byte stream parser may call feed, set_group, enable_callbacks and reset of the parser that calls it, also from within callbacks caused by these calls, to any depth. No assertion fails and nothing is accessed out of bounds, and all packets and sysex messages delivered are well formed.",
  "every tree of calls: any bytes, any calls of any depth made by callbacks, both with and without sysex callback",
  "Unbounded trees of calls; tests use callbacks that only store the event.",
  "src/midi1_byte_stream.cpp: midi1_byte_stream_parser::feed", "inc/midi/midi1_byte_stream.h: midi1_byte_stream_parser")

p("Parser callbacks may use the parser: effect",
  "The calls of the parser made by its callback have the same effect as the same calls made right after the call of feed that caused the callback.",
  "every tree of calls",
  "Unbounded trees of calls; tests use callbacks that only store the event.",
  "src/midi1_byte_stream.cpp: midi1_byte_stream_parser::feed")

p("Editing a packet in place",
  "Setting a payload byte or the payload size of a sysex packet, or the format of a stream message, changes exactly that: the packet remains of its kind, the new value is read back, and all other bytes, the format, the group and the rest of the payload stay. Resetting a packet makes it equal to a new one, and a packet made of words consists of these words.",
  "all packets, positions, values and sizes, including those out of range",
  "2^128 packets; the setters share bytes with the format, the group or the size, so that a wrong mask only shows for certain old contents.",
  "inc/midi/data_message.h: sysex7_packet::set_payload_byte, set_payload_size", "inc/midi/extended_data_message.h: sysex8_packet::set_payload_byte, set_payload_size", "inc/midi/stream_message.h: stream_message::set_format", "inc/midi/universal_packet.h: universal_packet::reset, universal_packet")

p("Exceptions and sysex collectors: safety",
  "Whatever callbacks of a sysex collector throw, and whatever memory allocations fail, in any history of calls: no assertion fails and nothing is accessed out of bounds, then or later. Every message delivered consists of payloads of sysex packets that were fed, in order. A packet for which an allocation fails leaves the collector as it was, except that a running message is given up if the packet begins another one. After a reset, a collector without size limit delivers the same as a new one.",
  "all histories of calls, with an exception or a failed allocation in any of them",
  "Every allocation and callback of every history is a point at which the call can be left; tests do not inject failures.",
  "src/sysex_collector.cpp: sysex7_collector::feed, sysex8_collector::feed, set_max_sysex_data_size, reset", "inc/midi/sysex_collector.h: sysex7_collector, sysex8_collector")

p("Exceptions and sysex collectors: effect",
  "A callback that throws, or an allocation that fails, affects only the message concerned: the next complete message fed to the collector is delivered unchanged, and no message is delivered with parts missing.",
  "all histories of calls, with an exception or a failed allocation in any of them",
  "Every allocation and callback of every history is a point at which the call can be left; tests do not inject failures.",
  "src/sysex_collector.cpp: sysex7_collector::feed, sysex8_collector::feed, reset")

p("Exceptions and the byte stream parser: safety",
  "Whatever callbacks of the MIDI 1 byte stream parser throw, and whatever memory allocations fail, for any bytes fed before and after: no assertion fails, nothing is accessed out of bounds, and all packets and sysex messages delivered are well formed.",
  "all histories of calls, both with and without sysex callback, with an exception or a failed allocation at any byte",
  "Every byte of every stream is a point at which the call can be left; tests do not inject failures.",
  "src/midi1_byte_stream.cpp: midi1_byte_stream_parser::feed", "inc/midi/midi1_byte_stream.h: midi1_byte_stream_parser")

p("Exceptions and the byte stream parser: recovery",
  "After any calls of the byte stream parser, whichever callbacks threw and whichever allocations failed: once it is reset, or as soon as a status byte other than a real time byte or sysex end is fed, it behaves like a new parser with the same settings; so the next complete message is received as by a new parser.",
  "all histories of calls with exceptions and failed allocations, all status bytes and all bytes behind them",
  "Every byte of every stream is a point at which the call can be left; tests do not inject failures.",
  "src/midi1_byte_stream.cpp: midi1_byte_stream_parser::feed, reset", "inc/midi/midi1_byte_stream.h: midi1_byte_stream_parser")

p("Exceptions and the byte stream parser: effect",
  "If the caller goes on behind the byte for which a callback threw or an allocation failed, everything is delivered as if nothing had gone wrong.",
  "all histories of calls with exceptions and failed allocations",
  "Every byte of every stream is a point at which the call can be left; tests do not inject failures.",
  "src/midi1_byte_stream.cpp: midi1_byte_stream_parser::feed")

p("Collecting without allocating memory",
  "Setting a maximum size reserves the memory a sysex collector needs: once set_max_sysex_data_size has succeeded, collecting messages never allocates memory, so that feed cannot fail for want of memory, and messages are delivered whether there is memory left or not.",
  "all limits, all histories before, and all calls of feed, reset and set_callback afterwards, with allocations failing at any time",
  "Every allocation of every history can fail; tests never run out of memory.",
  "src/sysex_collector.cpp: set_max_sysex_data_size, sysex7_collector::feed, sysex8_collector::feed, reset", "src/sysex.cpp: sysex::clear")

p("Sending to callbacks with any effect",
  "send_sysex7, send_sysex8 and the functions that send names call the function they are given exactly once for each packet, in order, and do nothing else observable, whatever the function does: an exception from it ends the sending at once and arrives at the caller, and it may change any state, or call the library again, as when it feeds a collector.",
  "all messages, names and groups, and all functions, as computations in any lawful monad",
  "The effects of callbacks are unbounded; tests use functions that store the packet.",
  "inc/midi/sysex.h: send_sysex7, send_sysex8", "inc/midi/stream_message.h: send_endpoint_name, send_product_instance_id, send_function_block_name")

p("Groups do not influence parsing",
  "The group of a byte stream parser only shows in the group of the packets it emits: two parsers with different groups, used in the same way except for the groups that are set, emit the same packets and sysex messages, one for one, except for the groups of the packets.",
  "all pairs of groups, all sequences of bytes and operations, with the group changed at any time in either of them",
  "A group shares its bits with status and type of the packets under construction; a test compares a few groups for a few messages.",
  "src/midi1_byte_stream.cpp: midi1_byte_stream_parser::feed", "inc/midi/midi1_byte_stream.h: midi1_byte_stream_parser::set_group")

p("Changing the group within a message",
  "If the group of a byte stream parser is changed while a message is received, the message keeps its group: all its packets are in the group that was set when its status byte was received.",
  "all messages, with running status, and all groups set before each of their bytes",
  "The group can be changed before every byte; the number of schedules is exponential in the number of bytes.",
  "src/midi1_byte_stream.cpp: midi1_byte_stream_parser::feed", "inc/midi/midi1_byte_stream.h: midi1_byte_stream_parser::set_group")

p("Dispatching channel voice messages",
  "Of the filters for channel voice messages (is_note_on_message to is_per_note_pitch_bend_message) exactly one accepts a MIDI 1 channel voice message, or a MIDI 2 channel voice message other than relative controllers, per note management and undefined ones, and none accepts any other packet, so that the order in which a program asks does not matter. The filters for particular messages accept a part of what the general ones accept. Every filter gives the same answer for a MIDI 1 message with 7 bit data and its translation to MIDI 2, and the message processor in the documentation does the same with both.",
  "all packets",
  "There are 2^128 packets, and the filters share status bits, types and data bytes; tests try each filter on a few messages.",
  "inc/midi/channel_voice_message.h: is_note_on_message, is_note_off_message, is_poly_pressure_message, is_control_change_message, is_channel_pitch_bend_message", "inc/midi/midi2_channel_voice_message.h: is_registered_controller_message, is_registered_per_note_controller_message", "docs/channel_voice_message.examples.cpp: channel_voice_message_processor")

p("The documented message processor is defined for all packets",
  "The message processor in the documentation, which asks the filters for channel voice messages and gets the values of the message, can be given any packet that is received: it never runs into undefined behaviour.",
  "all packets",
  "Received packets are not validated; tests use messages made by the library.",
  "docs/channel_voice_message.examples.cpp: channel_voice_message_processor", "inc/midi/channel_voice_message.h: get_channel_pitch_bend_value")

p("Translation keeps the order and precision of values",
  "Translating channel voice messages from MIDI 1 to MIDI 2 keeps the order of velocities, controller, pressure and pitch bend values and keeps different values different, and maps the smallest, middle and largest value to the smallest, middle and largest one. Translating from MIDI 2 to MIDI 1 never reverses the order of two values. From MIDI 2 to MIDI 1 and back to MIDI 2 a value changes by less than one step of MIDI 1, except that a Note On velocity below the smallest one of MIDI 1 is raised to it.",
  "all pairs of messages with the same status, all 7, 14, 16 and 32 bit values",
  "There are 2^64 pairs of 32 bit values; tests compare a few values.",
  "inc/midi/channel_voice_message.h: as_midi1_channel_voice_message, as_midi2_channel_voice_message", "inc/midi/types.h: upsample_7_to_16bit, upsample_7_to_32bit, upsample_14_to_32bit")

p("How much output there is",
  "A byte stream parser makes at most one callback for each byte it is fed, and exactly n / 6 + 1 packets for sysex with n > 0 data bytes; a sysex collector delivers at most one message for each complete or end packet; send_sysex7 and send_sysex8 send exactly as many packets as needed with six, respectively 13, bytes in each, and the functions that send names and the product instance id as many as needed with 14, respectively 13, characters, but at least one.",
  "all bytes and packets in any state of parser and collector, all messages and names of any length",
  "Lengths and histories are unbounded; a program that reserves space for the output relies on the bound for all of them.",
  "src/midi1_byte_stream.cpp: midi1_byte_stream_parser::feed", "src/sysex_collector.cpp: sysex7_collector::feed, sysex8_collector::feed", "inc/midi/sysex.h: send_sysex7, send_sysex8", "inc/midi/stream_message.h: send_endpoint_name, send_function_block_name")

p("Damaged messages do not affect intact ones",
  "If some messages of a stream are damaged on the way in whatever way (packets or bytes lost, repeated, reordered or changed), every message that arrives intact is delivered exactly as it was sent, and in order; a damaged sysex message causes at most one message for each of its complete and end packets.",
  "all sequences of messages, each of them intact or replaced by any packets or bytes whatsoever, with packets of other kinds in between; sysex7 and sysex8 collectors without size limit, parsers in any state",
  "The ways in which messages can be damaged are unbounded; tests lose a few packets.",
  "src/sysex_collector.cpp: sysex7_collector::feed, sysex8_collector::feed", "src/midi1_byte_stream.cpp: midi1_byte_stream_parser::feed")

p("Named manufacturers",
  "Every manufacturer id the library names is one that exists in MIDI, and no two names stand for the same one (except for Focusrite and Novation). Sysex messages of all of them arrive unchanged over packets and byte streams, and their device identities can be read from identity replies.",
  "all named manufacturer ids; all 7 bit data, groups, histories of receiver and parser",
  "An id is only good if all functions that take one agree about it for all messages; tests use two or three of the names.",
  "inc/midi/manufacturer.h: manufacturer", "inc/midi/sysex.h: send_sysex7", "src/sysex_collector.cpp: sysex7_collector::feed", "src/universal_sysex.cpp: identity_reply")

p("Messages sent at the same time on different groups and streams",
  "If several senders send sysex messages at the same time on different groups (or, for 8 bit sysex, with different groups or stream ids), a receiver that has a collector for each of them, and feeds it the packets with that group and stream id, receives from every sender exactly its messages and in order, however the packets are interleaved. (8 bit sysex messages whose length send_sysex8 gets wrong, see C19, are excluded.)",
  "any number of senders and messages, all interleavings of their packets, also with packets of other kinds",
  "The number of interleavings grows exponentially with the number of packets.",
  "inc/midi/sysex.h: send_sysex7, send_sysex8", "src/sysex_collector.cpp: sysex7_collector::feed, sysex8_collector::feed", "inc/midi/universal_packet.h: group")

p("Packets are read from any text of numbers",
  "Reading packets with while (in >> p) from a text of hexadecimal numbers, in upper or lower case, with or without a sign, a prefix 0x and leading zeros, separated by any white space, delivers exactly the complete messages in the sequence of words, in order, with nothing lost or made up. An incomplete message at the end is not delivered. If something that is not a number of 32 bit follows, reading stops there. For every text whatsoever, reading ends, after at most as many packets as there are characters.",
  "all sequences of numbers below 2^32, all ways to write them, all white space between them, any content of the packet variable",
  "Texts, message sizes and their boundaries are unbounded; tests read single packets.",
  "src/universal_packet.cpp: operator>>", "inc/midi/universal_packet.h: size")

p("Property data sent in chunks arrives, also when transfers overlap",
  "The data of a get reply or set inquiry, cut into any chunks, made into messages by the library and sent by send_sysex7, arrives: a receiver that takes from everything a sysex7 collector delivers the messages property_data_message_view accepts with its subtype, source and request id ends with the header and the concatenated data, and knows from the chunk numbers when it is complete and that it is not before. Messages of other transfers and other sysex messages may come in between in any order, and so may other packets. If messages are lost, a receiver that compares the chunk numbers with its count finds out. The receiver is safe for every sysex message there is.",
  "all numbers of transfers, chunks, contents, interleavings of messages and packets, groups, previous contents of the collector",
  "Interleavings and chunk sequences are unbounded, and the claim is about the factories, the sender, the collector and the view together.",
  "inc/midi/capability_inquiry.h: make_get_property_data_reply, make_set_property_data_inquiry, property_data_message_view", "src/capability_inquiry.cpp: property_data_message", "inc/midi/sysex.h: send_sysex7", "src/sysex_collector.cpp: sysex7_collector::feed")

p("Equal packets can be exchanged for one another",
  "If two packets compare equal, then everything that is done with them as messages gives the same result, whatever the words behind the end of the message contain: header fields and bytes, classification, filters, views and their values, text output, translation between the protocols, the MIDI 1 byte stream, and what the sysex collectors do, also for sequences of packets. Editing the same field of both gives equal packets, as long as the message does not become longer.",
  "all pairs of equal packets, all collector states, all sequences of packets, all edits",
  "The unused words can have any content; tests only use packets in which they are zero.",
  "inc/midi/universal_packet.h: operator==, size, set_byte, set_type, set_group", "inc/midi/channel_voice_message.h: get_note_velocity, get_controller_value, as_midi1_channel_voice_message, as_midi2_channel_voice_message", "src/midi1_byte_stream.cpp: to_midi1_byte_stream", "src/sysex_collector.cpp: sysex7_collector::feed, sysex8_collector::feed", "src/universal_packet.cpp: operator<<")

p("A MIDI 1 cable makes no difference",
  "Any MIDI 1 traffic of a group, system messages, channel voice messages and sysex packets in any order, converted packet by packet with to_midi1_byte_stream and parsed again, arrives: short messages as they were, and sysex messages as a whole, all in order and nothing else, whatever the parser has seen before. A receiver behind the cable, with sysex callback or with packets and a collector, sees exactly the same messages in the same order as a receiver that gets the packets directly, provided that only real time messages come in between the packets of a sysex message and that the messages have a complete manufacturer id. A message interrupted by anything else does not arrive over the cable.",
  "all sequences of well formed packets without orphaned continue and end packets, all reachable parser states, all previous contents of the collector",
  "Traffic is unbounded, and real time messages can come anywhere; the claim is about conversion, parser and collector together.",
  "src/midi1_byte_stream.cpp: to_midi1_byte_stream, midi1_byte_stream_parser::feed", "src/sysex_collector.cpp: sysex7_collector::feed")

p("Arguments out of range do no harm in builds without assertions",
  "In a build with NDEBUG, functions of the API whose preconditions are only asserted behave for arguments in range as in a build with assertions. For arguments out of range they never touch memory outside of the packet or message, and what they make is what they make for arguments brought into range: numbers masked to their number of bits, texts cut to what fits, a channel or group reduced to four bits, nothing else in the packet changed.",
  "all arguments of the listed functions, in range or not, all packets and messages",
  "Unit tests are run with assertions or within the preconditions; behaviour outside of them in release builds is never exercised.",
  "inc/midi/universal_packet.h: get_byte, set_byte, set_byte_7bit, set_type, set_group", "inc/midi/data_message.h: set_payload_size, add_payload_byte", "inc/midi/extended_data_message.h: set_payload_size, add_payload_byte", "inc/midi/sysex.h: send_sysex7, send_sysex8, add_uint7, add_uint14, add_uint28, make_uint14, make_uint28, make_device_identity", "inc/midi/stream_message.h: make_endpoint_name_message, send_endpoint_name, make_function_block_info_message", "inc/midi/flex_data_message.h: flex_data_message, make_flex_data_text_message", "src/capability_inquiry.cpp: message::message, set_source_muid, set_destination_muid")

p("The byte stream parser stays in bounds and recovers in builds without assertions",
  "In a build with NDEBUG the MIDI 1 byte stream parser does what it does with assertions whenever no assertion is violated. In all other cases, that is when the caller goes on feeding after a callback has thrown or sets a group of 16 or more, it neither reads nor writes outside of itself; every packet it delivers is well formed and in one of the groups set, reduced to four bits; and it recovers with the next status byte or reset.",
  "all byte sequences, block boundaries, positions of throwing callbacks and failing allocations, group changes, and all groups 0 to 255",
  "The state behind an exception depends on when it was thrown and what was fed since, without bound; test builds stop at the assertion.",
  "src/midi1_byte_stream.cpp: feed, reset, sysex_start, sysex_continue_packet, sysex_end_packet", "inc/midi/midi1_byte_stream.h: midi1_byte_stream_parser, set_group, enable_callbacks")

p("A message can be made again from what is read from it",
  "Passing the values which the view or the getters of a packet return to the factory for that kind of message gives a packet that compares equal to the one read, exactly if the reserved bits of the packet are clear: reading loses nothing but reserved bits. This holds for utility and system messages, MIDI 1 and MIDI 2 channel voice messages, 7 and 8 bit sysex packets, stream messages and flex data messages.",
  "all packets of the kinds named, with any reserved bits",
  "A test compares packets it made itself, whose reserved bits are clear; whether some bit pattern a device sends is lost on the way depends on all 2^32 to 2^128 packets of a kind.",
  "inc/midi/utility_message.h: utility_message_view, make_utility_message", "inc/midi/system_message.h: system_message_view, make_system_message, make_song_position_message", "inc/midi/midi1_channel_voice_message.h: midi1_channel_voice_message_view, make_midi1_*", "inc/midi/midi2_channel_voice_message.h: midi2_channel_voice_message_view, make_midi2_*", "inc/midi/channel_voice_message.h: get_note_nr, get_note_velocity, get_controller_value, get_channel_pitch_bend_value", "inc/midi/data_message.h: sysex7_packet_view, make_sysex7_*", "inc/midi/extended_data_message.h: sysex8_packet_view, make_sysex8_*", "inc/midi/stream_message.h: *_view, make_*_message", "inc/midi/flex_data_message.h: flex_data_message_view, make_flex_data_message, make_flex_data_text_message")

p("A MIDI-CI message can be made again from what is read from it",
  "For every sysex that one of the MIDI-CI views or the identity views accepts, passing the values the view returns to the factory of that kind of message gives the same message back, byte for byte up to the length the message itself announces, except at named positions: the factories write their own message version, the function block device id and broadcast destination where the message kind prescribes them, and zero in reserved bytes. Bytes after the announced end are lost. The two messages are equal exactly if there are no such bytes and the named positions hold those values.",
  "all 7 bit sysex messages, of any length and with any payload, which the views accept",
  "A test compares messages the library made itself, which have the library's version and no trailing bytes; what a peer sends is any of the unboundedly many messages the views accept.",
  "src/capability_inquiry.cpp: make_*_message", "inc/midi/capability_inquiry.h: make_*_message", "inc/midi/capability_inquiry.h: *_view", "inc/midi/universal_sysex.h: identity_reply_view, identity_reply, identity_request", "src/universal_sysex.cpp: identity_reply")

p("The clock follower depends on differences only",
  "The scheduled times do not depend on where the sender's 16 bit counter starts: adding any number to all timestamps, modulo 65536, leaves every scheduled time, the jitter estimate, the offset and every failure unchanged. They do not depend on where the system clock starts: moving the start of the follower and all receive times by the same amount moves every scheduled time by that amount and leaves jitter and offset unchanged, as long as no time overflows, which is the case for receive times that never go back, from a start within 2^62 ns of zero, if the time span plus 2.1 s for each further clock message is less than 24 years (2^63 / 12 ns). Once a clock message was processed, the time at which a message is received has no influence on its scheduled time; before, the message is scheduled relative to its receive time.",
  "all sequences of clock messages, scheduled messages and offset changes, of any length, all amounts by which counter or system clock are moved",
  "A test runs a few sequences from one start value of the counter and of the system clock; the invariance relates pairs of runs of any length for all 65536 counter offsets and all clock offsets, across every wrap of the counter.",
  "inc/midi/jitter_reduction_timestamps.h: jr_clock_follower, jr_timestamp_t", "src/jitter_reduction_timestamps.cpp: jr_clock_follower::process, schedule_message, set_security_offset")

p("Builds without assertions: scaling, clock follower, profile lists and property data",
  "Compiled without assertions, the general scaling function, the clock follower, the profile inquiry reply and the property data factory give the same results as with assertions for all arguments the assertions allow. For all other arguments: scaling is defined exactly for depths 1 <= x <= 32, x <= y < x + 32 (and values up to 2^31 for x = 32), is the identity for equal depths and a plain shift from one bit; a negative offset schedules messages by that amount earlier; storing a payload byte behind the end of a sysex packet does nothing; a profile inquiry reply contains all profiles with 7 bit bytes and announces their numbers modulo 16384, and the view returns that many of them; a list of profiles that does not fit into the message is read beyond its end; a property data message contains the numbers modulo 16384 and, for a header and data of up to 16383 bytes, is accepted by its view exactly if these numbers are consistent with the data.",
  "all values and bit depths; all sequences of calls of the follower; all lists of profiles, headers, chunks and chunk numbers",
  "Tests run with assertions enabled, or with arguments in range; which results out of range arguments give, and that all arguments in range are unaffected, concerns unbounded lists and all numbers.",
  "inc/midi/types.h: upsample_x_to_ybit", "src/jitter_reduction_timestamps.cpp: set_security_offset", "src/capability_inquiry.cpp: make_profile_inquiry_reply, profile_inquiry_reply_view::make_profiles, make_property_data_message", "inc/midi/capability_inquiry.h: profile_inquiry_reply_view, property_data_message_view")

p("Messages are delivered with their last byte",
  "Whatever a byte stream parser was fed before, a short message (also in running status) is delivered with its last byte and a sysex message with F7: the bytes before cause no callback, the last one exactly one. Without sysex callback at most five data bytes of sysex wait for a packet: after F0 and n data bytes n / 6 full packets have been sent with all other data. Sysex collectors deliver a message with its last packet, and call back for none of the packets before.",
  "all messages of any length, all states of parser and collectors",
  "Tests feed complete messages and look at the result; that nothing is delivered early or held back has to hold for every message length and every previous state.",
  "src/midi1_byte_stream.cpp: midi1_byte_stream_parser::feed", "src/sysex_collector.cpp: sysex7_collector::feed, sysex8_collector::feed")

p("The text of a packet",
  "operator<< writes a packet as its words, as many as its message type has, in eight lower case hexadecimal digits each with single blanks between them. Two packets have the same text exactly if they compare equal, no text is the beginning of the text of an unequal packet, and a log with one packet per line determines the packets that were written to it.",
  "all packets, all lists of packets",
  "The numbers of texts and of pairs of packets are beyond enumeration; tests compare a handful of literal texts.",
  "src/universal_packet.cpp: operator<<", "inc/midi/universal_packet.h: universal_packet::operator==")

p("Different messages look different",
  "Two lists of valid sysex messages sent with send_sysex7 (or with send_sysex8, as far as it frames them correctly) result in the same packets only if they are the same messages in the same groups (and streams). Two byte streams of complete MIDI 1 messages of a group are the same only if the messages are, in particular if they come from to_midi1_byte_stream. Two MIDI 1 channel voice messages have the same translation to MIDI 2 exactly if they compare equal or both end the same note without a velocity (Note Off with velocity 64, Note On with velocity 0).",
  "all pairs of lists of messages of any length, all pairs of channel voice messages",
  "Ambiguity is about pairs of message sequences; no test can enumerate them, and a collision anywhere would break every receiver.",
  "inc/midi/sysex.h: send_sysex7, send_sysex8", "src/midi1_byte_stream.cpp: to_midi1_byte_stream", "inc/midi/channel_voice_message.h: as_midi2_channel_voice_message")

p("Memory is bounded by the message being received",
  "The storage of a sysex collector without limit never exceeds the larger of 16384 bytes and twice the payload received since the last packet that began a message, and is at most 16384 bytes when a message has been delivered or after reset. The storage of a byte stream parser with sysex callback never exceeds the larger of 16384 bytes and twice the number of data bytes since the last F0, and is at most 16384 bytes when a message has been delivered; without sysex callback it needs none. The storage for a message interrupted by a status byte is kept until the next F0 or reset.",
  "all histories of calls, all packets and bytes",
  "The largest amount of memory depends on the whole history; a test can only look at the histories it runs.",
  "src/sysex_collector.cpp: sysex7_collector::feed, sysex8_collector::feed, reset", "src/sysex.cpp: sysex::clear", "src/midi1_byte_stream.cpp: midi1_byte_stream_parser::feed, sysex_start, sysex_continue_callback, sysex_end_callback")

p("What the documented message processor plays",
  "The message processor of the documentation, which filters packets and calls one function per kind of message, does for every packet whose MIDI 1 data bytes have seven bits exactly what is to be played for the message: the right function once with the note or controller number and the value in the resolution of MIDI 2, note on with velocity zero as note off, and nothing for all other packets. As packet callback of a byte stream parser it is defined for everything the parser delivers, and a byte stream of complete messages, with or without running status, is played message by message in order. MIDI 2 messages sent over a MIDI 1 cable are played at the other end as they are played directly, in the resolution of MIDI 1.",
  "all packets, all byte streams and blocks they are fed in, all states of the parser, all sequences of MIDI 2 messages",
  "The outcome combines parser, translation, filters, views and conversions of values over 2^64 packets and unbounded streams; tests look at single packets.",
  "docs/channel_voice_message.examples.cpp: channel_voice_message_processor", "docs/midi1_byte_stream.examples.cpp", "inc/midi/channel_voice_message.h: is_note_on_message, is_note_off_message, get_note_nr, get_note_velocity, get_note_pitch, get_controller_value, as_midi1_channel_voice_message", "src/midi1_byte_stream.cpp: midi1_byte_stream_parser::feed, to_midi1_byte_stream")

p("How a sender whose clock runs at another rate is followed",
  "For a sender whose clock runs at a constant rate other than the receiver's, the jitter estimate is the accumulated difference of the clocks, up to the amount by which clock messages are late. A message that follows n+1 clock messages is scheduled exactly as far after the last one as its timestamp says, less the accumulated difference if the sender is slow, plus 1.2 times the accumulated difference and at least 2 ms: with clocks of different rates the delay of messages grows with time. A gap of 65536 ticks (2.1 s) or more between clock messages adds 1.2 times 2.1 s to the delay for every 65536 ticks.",
  "all rates, all numbers of clock messages, all timestamps, all gaps",
  "Whether delays stay bounded depends on the whole history; the effect appears after hours with real clocks.",
  "src/jitter_reduction_timestamps.cpp: jr_clock_follower::process_clock, jr_clock_follower::schedule_message, jr_clock_follower::update_stats, jr_clock_follower::recalc_security_offset")

p("Jitter reduction from the sending to the receiving device",
  "The sending device reads the jitter reduction clock when it sends a message, and sends the reading in a clock or timestamp message; the receiving device reads the packets as utility messages and passes the timestamps to its clock follower. If both system clocks run at the same rate, messages arrive in the order they are sent, the first is a clock message and there is one at least every two seconds, nothing faults for four years, and a message sent at time t is scheduled between t + least + 2 ms and t + most + max(2 ms, 1.2 times the spread), up to one tick of 32 us, where clock messages take between least and most. How long the message itself took has no influence. If all clock messages take the same time, messages are scheduled exactly 2 ms after that time, up to one tick.",
  "all histories of messages, all times of sending, all transport times, all starting times of both clocks",
  "This is what jitter reduction is for: a bound on the timing of every message, for any network behaviour and any wrapping of the 16 bit timestamps.",
  "src/jitter_reduction_timestamps.cpp: jr_clock::now, jr_clock_follower::process_clock, jr_clock_follower::schedule_message",
  "inc/midi/jitter_reduction_timestamps.h: jr_clock_message, jr_timestamp_message, jr_timestamp_t::operator-",
  "inc/midi/utility_message.h: utility_message_view::status, utility_message_view::payload")

p("A device that answers MIDI-CI messages",
  "An application that takes each received message, ignores it if it is no MIDI-CI message or for another device, answers discovery inquiries with make_discovery_reply, and answers other messages for it with make_nak_message unless it knows their kind: valid discovery inquiries are answered with a reply to the device that asked, containing the data of the device and the output path id of the inquiry; unknown messages with a NAK naming the message; nothing else is answered. Answers are never answered, by any device. Over a MIDI 1 cable no received bytes can make an assertion fail. Packets can: exactly when a discovery inquiry has an output path id above 7F, which is then passed to the factory function.",
  "all devices with valid data, all received messages, all received bytes, all packets",
  "It must hold for every message a peer can send; endless exchanges of answers or failed assertions caused by a peer appear only with unusual messages.",
  "inc/midi/capability_inquiry.h: as_capability_inquiry_view, as, discovery_inquiry_view::validate, discovery::message_view::output_path_id, make_discovery_reply, make_nak_message, make_nak_message_v1, capability_inquiry_view::source_muid, capability_inquiry_view::destination_muid",
  "inc/midi/universal_sysex.h: message_view::subtype, message_view::device_id",
  "src/midi1_byte_stream.cpp: midi1_byte_stream_parser::feed",
  "src/sysex_collector.cpp: sysex7_collector::feed")

p("A program between two MIDI 1 cables",
  "A program parses the bytes of one cable, makes other complete messages of every complete message (or none), real time messages only of real time messages, passes on all sysex packets or none, and sends the result over a second cable: for any bytes on the first cable, the parser at the end of the second one, in any state, delivers exactly the packets the program has made. In particular any filter works, and so does MIDI 2 in between: translating everything to MIDI 2 and back delivers the same packets, with note off in place of note on with velocity zero, and the documented message processor plays the same before, in between and after. Without the conditions on real time and sysex packets messages are broken.",
  "all byte sequences, all programs, all states of the second parser",
  "It must hold for every byte sequence, with running status, interrupted sysex and real time bytes at any place, and for every program; the composition of parser, translation, serialisation and parser is not tested.",
  "src/midi1_byte_stream.cpp: midi1_byte_stream_parser::feed, to_midi1_byte_stream",
  "inc/midi/channel_voice_message.h: as_midi1_channel_voice_message, as_midi2_channel_voice_message")

p("Discovery between an endpoint and a client",
  "An application that answers endpoint discovery, function block discovery and stream configuration requests with the factories and senders of the library, and one that asks and keeps what the views return: for every endpoint with at most 32 function blocks, ASCII texts and a valid identity, and whatever the client knew before, it knows exactly what it has asked for, with texts of any length, and keeps the rest; two messages are enough to know everything. For any packets the endpoint receives, from any number of clients, it never fails, and a client that hears all its answers never knows anything wrong. Answers are not answered, provided that requests and notifications, for which there is one view, are told apart by the status. Other traffic in between does not matter.",
  "all valid endpoints, all filters, all states of the client, all sequences of packets",
  "Endpoints, names, numbers of function blocks and histories are unbounded; the tests look at single messages.",
  "inc/midi/stream_message.h: as_endpoint_discovery_view, make_endpoint_info_message, send_endpoint_name, send_product_instance_id, send_function_block_name, make_function_block_info_message, as_stream_configuration_view, make_stream_configuration_notification, payload_as_string")

p("Texts of any length in flex data messages",
  "An application splits texts (lyrics, titles, ...) into flex data text messages of 12 characters, complete or with start, continue and end, and a reader puts together what the views return, separately for every group, address, channel, bank and status: a text of any length without zeros, of any 8 bit characters, needs one packet per 12 characters, and a reader in any state delivers it exactly, with the last packet. Any number of senders to different keys may send at the same time, in any interleaving, mixed with any other packets: every text arrives, in order. Texts with different keys never disturb each other, for any packets. If a packet gets lost only this text suffers: it is not delivered if the packet was the last one (or the first, if nothing had begun), and delivered without these 12 characters, undetectably, if it was one in the middle. The reader never fails, and no text it delivers has a zero.",
  "all texts without zeros, all valid senders, all interleavings, all states of the reader, all sequences of packets",
  "Texts, numbers of senders and interleavings are unbounded; the tests look at single messages of at most 12 characters.",
  "inc/midi/flex_data_message.h: make_flex_data_text_message, as_flex_data_message_view, payload_as_string, flex_data_message_view")

p("Devices with profiles, and someone who wants to know about them",
  "Two applications written with the library: a device has profiles (enabled and disabled, in every scope), answers profile inquiries, obeys requests to turn profiles on and off, and tells everybody about every change, also those made by its user; a client asks, listens and keeps what it hears. For any number of devices with different MUIDs and anything that happens, in any order: no device and no client fails, a profile is never twice in a device's lists, the client never knows anything wrong about a device, and from the moment its inquiry about a scope reached a device it knows exactly the profiles of this scope, in order, at every time. A request turns on exactly the profile it names in exactly the scope it names, and only if the device has it disabled (turn off: enabled); everybody is told which one. No reply or notification makes any device do anything.",
  "all numbers of devices and profiles (up to 16383 in a scope), all valid messages received, all messages of any bytes heard by the client, all histories",
  "Numbers of devices, profiles, messages and histories are unbounded; the tests look at single messages.",
  "inc/midi/capability_inquiry.h: profile_inquiry_view, profile_inquiry_reply_view, profile_id_view, profile_destination_view, make_profile_inquiry_message, make_profile_inquiry_reply, make_profile_on_request, make_profile_off_request, make_profile_enabled_notification, make_profile_disabled_notification, make_profile_added_notification, make_profile_removed_notification, profile_id")

p("The notes that sound do not depend on the protocol, except for notes with attributes",
  "An instrument remembers for every group, channel and note number whether the note sounds, with is_note_on_message, is_note_off_message, get_note_nr, group and channel: it can be given any packets. If a stream of packets is translated to MIDI 2 (every MIDI 1 channel voice message with as_midi2_channel_voice_message, the others unchanged) the same notes sound, from any notes before. If it is translated to MIDI 1, the notes that sound are exactly those of the stream without the MIDI 2 note messages that have an attribute: so the same ones if there are none, and no note hangs if no Note Off has an attribute; a Note Off with attribute is lost and its note hangs. The same notes sound after a translation there and back, and behind a MIDI 1 cable.",
  "all streams of packets of any kinds and lengths (MIDI 1 data bytes below 128 for the translation to MIDI 2), all notes that sound before, all histories of the parser",
  "Which notes sound depends on the whole stream of messages; the tests translate single messages.",
  "inc/midi/channel_voice_message.h: is_note_on_message, is_note_off_message, get_note_nr, as_midi1_channel_voice_message, as_midi2_channel_voice_message",
  "inc/midi/universal_packet.h: group, channel")

p("Everything that is said in MIDI-CI is understood",
  "Whatever an application says with one of the MIDI-CI factory functions, with every number in the range of its field, the other side can find out with the views of the library what was said: the kind of the message, who said it to whom, the device id, and every argument, exactly. No two different things are said with the same message. A conversation of any number of messages in any groups is understood word for word after it was sent in packets and collected, with other packets between and whatever the collector received before, and after it went over a MIDI 1 cable. Finding out what a message says reads nothing outside of it, whatever sysex message arrives. The number of channels of the destination of a request to turn a profile off is not in the message.",
  "all factory functions with all arguments in range, all lists of messages and groups, all sysex messages that arrive, all histories of collector and parser",
  "There are 29 kinds of messages with fields and texts of any length; the tests make one message of each kind and read it with the view that fits.",
  "inc/midi/capability_inquiry.h: capability_inquiry_view, discovery_inquiry_view, discovery_reply_view, ack_view, nak_view, profile_inquiry_reply_view, profile_destination_view, property_data_message_view, midi_message_report_inquiry_view",
  "inc/midi/capability_inquiry.h: make_discovery_inquiry, make_discovery_reply, make_ack_message, make_nak_message, make_nak_message_v1, make_profile_inquiry_reply, make_profile_on_request, make_profile_off_request, make_midi_message_report_inquiry",
  "src/capability_inquiry.cpp: make_profile_inquiry_reply, make_property_data_message")

p("A device with properties and its clients behave like a table",
  "A device keeps properties; any number of clients set and get them by property exchange, written with the factory functions and views of the library. Each client asks one thing after the other with any request ids, data is cut into any chunks, and a client may stop at any time, also within a set inquiry. Whatever the order in which the messages of different clients arrive, with other sysex messages between, the device does what a table does with the requests in the order in which their last messages arrive (linearizability), never reads out of bounds nor fails an assertion, and every client reads exactly the answers of that table, in the order in which it asked. The same holds over sysex7 packets in any groups there and back, with other packets between and whatever the collectors received before.",
  "all numbers of clients, requests, names, data, cuts into chunks, interleavings, points at which clients stop, initial properties, sizes of chunks, histories of the collectors",
  "It is about all interleavings of the messages of concurrent clients; the tests make and read single messages.",
  "inc/midi/capability_inquiry.h: make_get_property_data_inquiry, make_get_property_data_reply, make_set_property_data_inquiry, make_set_property_data_reply, property_data_message_view",
  "src/capability_inquiry.cpp: make_property_data_message",
  "src/sysex_collector.cpp: sysex7_collector",
  "inc/midi/sysex.h: send_sysex7")

p("MIDI-CI messages with bytes missing are not mistaken for others",
  "Of a MIDI-CI message made with a factory function, take away bytes: as long as what is left agrees with the message up to its length fields, or ends before them, none of the views accepts it for what its subtype says and nothing is understood from it. In particular no beginning of a message is understood, and when some of the packets of a message are lost, but not those with the fields, a sysex7 collector delivers nothing or a message from which nothing is understood, whatever it received before and whatever other packets come between. Of a conversation, of each message of which all packets arrive, or none, or some with those that have the fields, everything that arrived whole is understood, nothing is understood that was not said, and the order is kept. The one exception is the request to turn a profile off, which is understood as what it is without the two reserved bytes at its end. When a packet with a length field, or before one, is lost, a message can be understood as one that was never sent.",
  "all factory functions with all arguments in range, all ways to take away bytes after the length fields, all ways to lose packets, all histories of the collector",
  "A message can lose bytes in as many ways as it has parts; the tests check a few truncated messages.",
  "inc/midi/capability_inquiry.h: capability_inquiry_view, discovery_inquiry_view, discovery_reply_view, ack_view, nak_view, profile_inquiry_reply_view, profile_specific_data_view, property_data_message_view",
  "src/sysex_collector.cpp: sysex7_collector",
  "src/capability_inquiry.cpp: make_property_data_message")

p("What an instrument is set to, before and after translation",
  "An instrument remembers for every group and channel the controllers, the pressure of the channel and of every note, the pitch bend and the program, with the predicates and getters for channel voice messages of either protocol. It can be given packets of any kind. If all MIDI 1 channel voice messages of a stream are translated to MIDI 2 and everything else is passed on, no call fails and the instrument is set to the same values, to the last bit, other than the controllers that are part of sequences (bank select, data entry, registered and non registered parameters, velocity prefix), whose messages are left out. If all MIDI 2 channel voice messages are translated to MIDI 1, it is set to what remains of the values in 7 bits, and for pitch bend in 14 bits, other than those controllers and program changes with bank, which are left out. To MIDI 2 and back the values are the same, and they arrive over a MIDI 1 cable.",
  "all streams of packets whose MIDI 1 channel voice messages have 7 bit data, all settings to begin with, all histories of the parser at the end of the cable",
  "What an instrument is set to depends on everything it received; the tests translate single messages.",
  "inc/midi/channel_voice_message.h: as_midi1_channel_voice_message, as_midi2_channel_voice_message, is_poly_pressure_message, is_control_change_message, is_program_change_message, is_channel_pressure_message, is_channel_pitch_bend_message, get_controller_nr, get_controller_value, get_program_value, get_channel_pressure_value, get_channel_pitch_bend_value, get_note_nr",
  "src/midi1_byte_stream.cpp: midi1_byte_stream_parser, to_midi1_byte_stream")

p("A monitor can show everything it receives",
  "A program that asks for everything about everything it receives, that is for every packet all views, their accessors, the values of the documented message processor, the translation to the other protocol and the bytes on a MIDI 1 cable, and for every message from its sysex7 and sysex8 collectors all universal sysex and MIDI-CI views and their accessors, fails an assertion or runs into undefined behaviour only for MIDI 1 pitch bend packets whose second data byte has the high bit set, if it asks for the views of discovery messages only for MIDI-CI messages. If it asks for these for every message, then it also fails for universal non real time messages with less than four bytes of data, and for nothing else. Connected to a byte stream parser, the careful program never fails, whatever bytes come over the cable.",
  "all packets and sequences of packets, all states of the collectors, all sysex messages, all histories of calls on a parser",
  "The set of inputs is everything a network or a cable can deliver; tests show views for messages they made themselves.",
  "src/sysex_collector.cpp: sysex7_collector, sysex8_collector",
  "src/universal_packet.cpp: universal_packet",
  "src/midi1_byte_stream.cpp: midi1_byte_stream_parser, to_midi1_byte_stream",
  "inc/midi/channel_voice_message.h: get_channel_pitch_bend_value, as_midi2_channel_voice_message",
  "inc/midi/capability_inquiry.h: capability_inquiry_view, discovery_inquiry_view, discovery_reply_view",
  "inc/midi/stream_message.h: as_endpoint_info_view, as_function_block_info_view",
  "inc/midi/flex_data_message.h: as_flex_data_message_view")

p("Messages that respect the receiver's maximum size arrive, and which others do is known",
  "Of messages with several packets each, sent by send_sysex7 one after the other to a new sysex7 collector with a size limit, exactly those are delivered whose data fits, unless the message directly before was just too large, that is too large only with its last packet: then the following message is lost too. A counting receiver of property data behind such a collector considers a transfer complete exactly if all its messages passed, never if one of them does not fit, and always if everything fits. The messages of a transfer have 22 bytes beside header and chunk, so a sender that reads the maximum message size from the discovery reply of a device whose collector has this limit, and cuts its data accordingly, gets all its data across.",
  "all limits, all numbers and contents of messages, groups, other packets between, transfers and their interleavings, all data of any length that fits into 16383 chunks",
  "Whether a message gets through depends on the message before it and on how the sizes are divided into packets; tests use one limit and one message.",
  "src/sysex_collector.cpp: sysex7_collector::feed, set_max_sysex_data_size",
  "inc/midi/sysex.h: send_sysex7",
  "src/sysex.cpp: total_data_size",
  "inc/midi/capability_inquiry.h: make_discovery_reply, make_get_property_data_reply, make_set_property_data_inquiry, maximum_message_size, property_data_message_view")

p("A device that is asked what it is set to tells it, whatever is played meanwhile",
  "A device reports its settings by a report reply, channel voice messages made by the factories that say what its knobs (controllers, program, pressures, pitch bend) are set to, and an end message. Knobs may be turned and other packets sent in between. After every part of the report the listener, who feeds a sysex7 collector with an arbitrary history and reads the channel messages with the getters, knows exactly what every knob shown so far is set to now: the value itself with MIDI 2 messages, what is left of it in 7 or 14 bits with MIDI 1 messages. Knobs not shown stay as they were known. After the end message it knows that the report is finished, and if everything was reported it knows everything. The reply and the end message are addressed to everybody.",
  "all histories, devices, report masks, groups, settings, orders of reported and turned knobs and other packets, all values",
  "The order in which knobs are turned and reported is arbitrary, and every packet could be mistaken by a getter for something else; a test has one order.",
  "inc/midi/capability_inquiry.h: make_midi_message_report_reply, make_midi_message_report_end, midi_message_report_reply_view",
  "inc/midi/midi2_channel_voice_message.h: make_midi2_control_change_message, make_midi2_poly_pressure_message, make_midi2_program_change_message",
  "inc/midi/midi1_channel_voice_message.h: make_midi1_control_change_message, make_midi1_pitch_bend_message",
  "inc/midi/channel_voice_message.h: is_control_change_message, get_controller_value, get_program_value",
  "src/sysex_collector.cpp: sysex7_collector::feed")

p("Subscribed clients have an up-to-date copy of a device's properties",
  "A device uses the subscription messages: when a client subscribes to a property with an id of its choice, the device acknowledges and sends the value, in chunks of a fixed size; when a property changes, it sends the new value to everybody who has subscribed to it; when a client ends a subscription, it gets no more values. For every sequence of changes, subscriptions, ends of subscriptions and other messages: nothing is refused and nothing is read out of bounds. Whatever part of the device's messages a client has received, each of its copies is a value the property had while the client was subscribed to it with that id. When it has received all of them, the copy of every active subscription is the present value. This also holds over sysex7 packets in any group with other packets between, whatever the client's collector received before. Names must be non-empty, need no escapes and not look like numbers: an id of digits is sent as a number, and an empty id cannot be sent at all.",
  "every device with a MUID, chunk size from 1 to 16383 and table of 7-bit values; every number of clients and every list of incidents; every prefix of the device's messages; every group, every history of the collector and all other packets",
  "The subscribers, changes, ids and chunk boundaries interleave in unboundedly many ways; a test has one sequence with a few values.",
  "inc/midi/capability_inquiry.h: make_subscription_inquiry, make_subscription_reply, subscription_view",
  "src/capability_inquiry.cpp: make_rjson, is_number, make_property_data_message",
  "inc/midi/sysex.h: send_sysex7",
  "src/sysex_collector.cpp: sysex7_collector::feed")

p("Several MIDI 1 cables can be merged into one",
  "An application receives bytes from any number of MIDI 1 cables, interleaved in any way, with one parser per cable. Each parser reports what it would report if its cable were the only one. A merge box passes on each report at once, as bytes: messages with to_midi1_byte_stream, sysex messages with send_sysex7. With sysex callbacks, the parser at the end of the common cable, whatever it received before, reports exactly what the parsers of the incoming cables reported, in that order: no message is split by one of another cable, and running status on one cable does not affect others. Exception: a sysex message with manufacturer id 00 00 00 is passed on with another id. Without sysex callbacks, merging two sysex messages that arrive together destroys them; but then up to sixteen cables can share one packet connection, cable i in group i, and each of them can be separated again and converted back to bytes.",
  "every number of cables, every sequence of bytes on each of them and every interleaving; every group; every history of the parser at the end",
  "Messages of several cables interleave at every byte, with running status, real time messages and unterminated sysex messages on each; a test shows one interleaving.",
  "inc/midi/midi1_byte_stream.h: midi1_byte_stream_parser, to_midi1_byte_stream",
  "src/midi1_byte_stream.cpp: midi1_byte_stream_parser::feed",
  "inc/midi/sysex.h: send_sysex7")

p("Packets can be sent as bytes",
  "An application sends packets over a connection that transports bytes, or writes them to a file: get_byte(b) for all b < 4 * size(). The receiver sets the bytes with set_byte and delivers the packet when it has 4 * size() bytes. For any sequence of packets, the receiver delivers equal packets, in order, each with its last byte, and is ready for the next one; sysex messages sent this way among any other packets arrive. For any bytes, whoever has sent them, nothing fails, and the bytes are those of the packets delivered followed by fewer bytes than the next one needs. Two sequences of packets have the same bytes exactly if they are equal, one by one. If words were lost, three NOOP messages bring the receiver back in step, whatever it has received; if a byte was lost, possibly nothing arrives any more.",
  "all sequences of packets of all types with any content of the words that are not used, all sequences of bytes, all histories of the receiver",
  "Whether packets can be told apart without separators depends on the sizes of all types and on every state of the receiver; tests try some packets one at a time.",
  "inc/midi/universal_packet.h: universal_packet::size, universal_packet::get_byte, universal_packet::set_byte, universal_packet::operator==, universal_packet::reset",
  "inc/midi/sysex.h: send_sysex7, send_sysex8",
  "src/sysex_collector.cpp: sysex7_collector::feed, sysex8_collector::feed")

p("Packets can be moved to other groups",
  "A patch bay moves every packet to a group that depends on its group, with set_group, and leaves utility and stream messages alone. This never fails for groups below 16. The packet is then in the new group, with the same type, size and bytes except for the group. All filters and getters for channel voice, system, sysex and flex data messages return what they returned before, the bytes for a MIDI 1 cable are the same, and a sysex collector in any state does the same with the moved packets. Translating channel voice messages to the other protocol and moving packets can be done in either order. If no two groups are moved to the same group, sysex messages sent in several groups at the same time arrive in their new groups as they would have in the old ones, and the notes that sound in a new group are those that sounded in the old one; if two groups are moved to the same, simultaneous sysex messages are destroyed. set_group on a stream message makes it a different message.",
  "all maps of groups to groups below 16, all packets and sequences of packets, all states of the collectors, all groups",
  "There are 16^16 maps of groups and any sequence of packets of all types; tests set the group of some packets.",
  "inc/midi/universal_packet.h: universal_packet::set_group, universal_packet::group, universal_packet::type",
  "inc/midi/channel_voice_message.h: as_midi1_channel_voice_message, as_midi2_channel_voice_message, is_note_on_message, is_note_off_message",
  "src/sysex_collector.cpp: sysex7_collector::feed, sysex8_collector::feed",
  "src/midi1_byte_stream.cpp: to_midi1_byte_stream")

p("Devices that find that they have the same MUID get different ones",
  "Devices in a network choose MUIDs, possibly the same. Each announces its MUID to all others by a message made with make_discovery_inquiry. A device that reads with the views that another one announces its MUID sends a message made with make_invalidate_muid_message and chooses another MUID; a device that reads that its MUID is invalid chooses another MUID; each new MUID is announced. Messages may arrive in any order, with any delay, devices may join or change their MUID at any time, and any other sysex messages may come in between. Nothing is refused and nothing is read out of bounds. At every moment, two devices between which no message is on its way have different MUIDs, so if all messages have arrived all MUIDs are different. If devices only join and messages only arrive, and newly chosen MUIDs are ones nobody has had, then each device changes its MUID at most once, and only if another device joined with the same; and after the last device has joined at most 2 n^2 messages arrive in a network of n devices, in addition to those on their way, before there are none left.",
  "every number of devices, every identity, every MUID chosen, every order in which devices join and messages arrive, all other sysex messages",
  "The order in which announcements cross is arbitrary; a test shows one order with two devices.",
  "inc/midi/capability_inquiry.h: make_discovery_inquiry, discovery_inquiry_view, make_invalidate_muid_message, invalidate_muid_view")

p("An endpoint that changes its protocol while it plays",
  "An endpoint plays channel voice messages in the protocol in use, translating them with the library where needed, while clients ask at any moment, with make_stream_configuration_request or anything else, for another protocol; it answers as in C102. Nothing fails, and a client that reads every packet with the views never knows anything wrong about the endpoint. If it knew the protocol in the beginning, it knows at every channel voice message it hears which protocol that message is in. A request for a supported protocol is answered once, saying so, and what is played from then on is in that protocol. At the end the same notes sound at the client as have been played (if none has an attribute, see C105), and pressures, pitch bend, controllers that are no part of a sequence, and programs without a bank are set to the values played, to the precision of MIDI 1.",
  "every valid endpoint, every sequence of packets to play and of packets received between them, every client, every state of the synthesizer",
  "Requests may come between any two notes and any number of times, with notes held across the change; tests translate single messages in one direction.",
  "inc/midi/stream_message.h: make_stream_configuration_request, make_stream_configuration_notification, as_stream_configuration_view",
  "inc/midi/channel_voice_message.h: as_midi1_channel_voice_message, as_midi2_channel_voice_message, is_note_on_message, is_note_off_message")

p("A recording that was cut off",
  "A program writes every packet it receives as a line of text with operator<< and is stopped at any moment, so that only the first characters of the text exist. A reader with while (in >> p) gets all packets whose lines are complete, in order and comparing equal, whatever its packet variable held before, and after them at most one other packet; if nothing but the end of the last line is missing, it gets all packets. If a last line without an end is removed first, it gets exactly those packets; collectors of system exclusive do with them what they do with the recorded ones; and a program that removes that line and continues the recording loses and adds nothing. Without that, the other packet may be one that was never recorded, and a line written later may be lost.",
  "every sequence of packets, every number of characters at which the text is cut, every packet variable, every sequence of packets recorded later",
  "The text may end behind any of its characters, in any word of a packet of any size; tests write and read whole packets.",
  "src/universal_packet.cpp: operator<<, operator>>",
  "inc/midi/universal_packet.h: universal_packet")

out=os.path.join(os.path.dirname(os.path.abspath(__file__)),"..","properties.jsonl")
with open(out,"w") as f:
    for x in P: f.write(json.dumps(x)+"\n")
print(len(P))
