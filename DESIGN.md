# Formal model of ni-midi2 in Lean 4: design

## 1. Trusted base

* Lean 4.33.0's kernel. No `sorry`, no `admit`, no `native_decide`, no `bv_decide`, no axioms of our own. Mathlib is used for
  a few list, rational number and tactic modules.
* Axioms a theorem may depend on: `propext`, `Classical.choice`, `Quot.sound` (Lean's standard three, which come in through
  `simp`, `omega` and core/Mathlib lemmas). AXIOMS.md lists for every property theorem the ones it depends on; it is made by
  tools/axioms.py from the output of `#print axioms`.
* `decide +kernel` is used where a statement ranges over one or two bytes or a finite table: the kernel evaluates all cases.
  Larger domains (packets, byte sequences, call histories, lists of messages) are treated by proofs.
* The faithfulness of the model: it was written by reading /repo as text; nothing was compiled or executed. Each definition
  cites the file and lines it models. tools/coverage.py lists the lines of /repo no definition cites.
  Two things support it. The model was read a second time against the source, definition by definition. And the unit tests of
  the project were translated into statements about the model, by tools/conformance (about 5850 expectations of 20 of the
  test files, loops over large ranges are sampled, and the 300 assertions of 7 of the example files in docs) and by hand
  (collectors, senders, string streams): `lean/Verif/Conformance`,
  checked by the kernel with every build. These are tests on the inputs of the unit tests, evidence that the model agrees with
  what the project expects of its code; no claim of MANIFEST.json rests on them. Left out are tests that need the host's
  clock, checks of `capacity()`, and those on undefined behaviour (section 5).

## 2. How the code is modelled

* `uint8_t`, `uint16_t`, `uint32_t` are `BitVec 8/16/32`, i.e. modular arithmetic as in C++; `size_t` and loop counters are
  `Nat` (no container of 2^64 elements exists; where the code narrows a size to a smaller type this is modelled as truncation;
  positions passed by the caller are taken to be so far below 2^64 that adding an offset to them does not wrap).
  Signed arithmetic is done in `Int` with an explicit range check, overflow being a fault.
* Undefined behaviour and failed `assert`s are the distinct outcome `Except.error f` of type `Fault`
  (`assertFailed`, `outOfBounds`, `signedOverflow`, `badShift`, `badFloatCast`, `divByZero`, and `lengthError` for an exception
  of the standard library). A function that can run into one of these returns `Except Fault _`; a function that returns a plain value cannot, by inspection of the cited lines.
  `assert` is therefore modelled as in a debug build, and a theorem that shows `= .ok _` shows that no assertion fires.
  Builds with `NDEBUG` are modelled in `Verif.Model.Release` (C87) and `Verif.Model.ReleaseRest` (C92), for functions whose
  preconditions are only asserted, and in `Verif.Model.ReleaseParser` (C88), for the byte stream parser with callbacks that throw.
* Callbacks are modelled as a list of emitted events in call order. Callbacks that call back into the object that invokes them
  are modelled separately, in `Verif.Model.Reentrant` (C62 .. C65): a call of `feed` carries the calls its callback makes, which
  gives a tree of calls. What such a callback sees change in the sysex message passed to it by reference is not modelled, nor is
  replacing a callback from within itself.
* `std::vector<uint8_t>` is a `List`; its capacity is modelled only where the code consults it (the sysex collectors), with
  `reserve(n)` giving exactly `max capacity n` (as in libstdc++, libc++ and MSVC) and `shrink_to_fit` giving `size`.
  Allocations that fail and callbacks that throw are modelled separately, for the collectors and the byte stream parser, in
  `Verif.Model.Exceptions` (C67 .. C71): every call, and for the parser every byte, carries what goes wrong with it. The capacity
  of the parser's own sysex buffer is modelled in `Verif.Model.ParserMemory` (C96); in C67 .. C71 an allocation may fail
  whenever a byte is added to it. Elsewhere allocations
  are taken to succeed.
* Floating point: values are exact rationals, infinities or NaN (`Flt`); every operation rounds its exact result to nearest,
  ties to even, as IEEE 754 prescribes for binary32 and binary64. The sign of zero is not modelled (no operation looks at it).
  Conversion of a value outside of the target's range, or of NaN, to an integer is the fault `badFloatCast`.
  `FLT_EVAL_METHOD == 0` is assumed.
* Time points and durations are `int64_t` counts of nanoseconds, as in the three major standard libraries.
* Text streams (`operator<<`, `operator>>` of packets) are lists of characters with end of input and failure; the formatting
  state (flags, fill character, width) is modelled in `Verif.Model.TextFormat`. Locales other than the classic one, failing
  output and exceptions are not modelled.

Modelled: all of src/*.cpp, and of inc/midi/*.h all functions except those listed here. Not modelled: defaulted constructors,
assignment and comparison operators of plain value types where they are member-wise; the getters `security_offset()` and `jitter()` of the follower (the members themselves are
modelled); `jr_clock::now()` as a reader of the host's clock (its computation is modelled, `clockNow`); functions that only
pass on their arguments to a constructor (`make_identity_reply`); the variant of `sysex` with a polymorphic allocator
(`NIMIDI2_PMR_SYSEX_DATA`).

## 3. Layout

`lean/Verif/Model/*` the model, `lean/Verif/Spec/*` small independent specifications (byte lists, grammars, reference
decoders), `lean/Verif/Lemmas/*` helper lemmas, `lean/Verif/Props/*` the property theorems with satisfiability examples.
`lean/Verif/Conformance/*` the unit tests of the project about the model (see section 1).

## 4. Properties: plan

(kept current as the model grows; see MANIFEST.json for theorem names)

| id | modelled | proof method |
|----|----------|--------------|
| C01 C02 C03 | `universal_packet` accessors | bit extensionality on 32 bit words, case split on the position |
| C04 | `operator<<`, `operator>>` on character lists | induction over the packet list, digit lemma for hex |
| C05 C06 | all scaling functions | `Nat.testBit` characterisation of the repeat loop, by strong induction; fixed depth functions shown equal to the general one |
| C07 C08 | arithmetic operators in `Int` with overflow faults | `omega`, division lemmas |
| C09 C10 C11 C51 | translation functions and getters | byte level characterisation of packets |
| C12 C13 C14 C45 C46 | factories and views | byte level characterisation of packets |
| C15 C16 | sysex packets | induction over the added bytes |
| C17 C19 | `send_sysex7/8` as folds emitting packets | invariant over the loop; C19 is false for some lengths (section 5): exact characterisation plus witnesses |
| C18 C20 C21 C24 | collectors as state machines | refinement to a reference run-decoder |
| C22 C23 | collector with vector capacity | invariant; false in general (section 5), witnesses plus partial theorems |
| C25 .. C32 | byte stream parser as state machine | invariant, refinement to a reference grammar, bisimulation |
| C33 .. C36 | byte conversion and composition | byte level lemmas, induction over packet lists |
| C37 C38 | sysex7 integer fields | base 128 digit arithmetic |
| C39 .. C43 C52 | universal sysex and MIDI-CI views and factories | list index lemmas; out of range reads are faults |
| C44 | name chunking | induction over chunks |
| C47 C48 C49 | timestamps and clock follower in `Int` nanoseconds | invariant over call histories |
| C50 | conversions over rationals with IEEE rounding function | order lemmas on `Rat` floor and rounding; error bounds of each rounding for accuracy (`Lemmas/FloatAccuracy`) |
| C53 | sysex helpers | list induction |
| C54 | predicates on packets | case analysis over the 16 message types and 256 status bytes |
| C55 | `validate` of all MIDI-CI views | equivalence with a grammar of messages (Spec/CIMessages.lean) |
| C56 | parser, `to_midi1_byte_stream` | simulation of the second parser by the first one, byte by byte |
| C57 | translation functions, parser, `to_midi1_byte_stream` | composition of C09, C10, C33 |
| C58 | `send_sysex7`, collector, parser, views | composition of C18, C35, C55 |
| C59 | `operator==` of `profile_id`, `profile_destination` | from the definitions and C40 |
| C60 | product and sum of pitch types | composition of C07 and C08, `omega` |
| C61 | `operator<<`, `operator>>` with the formatting state of the stream | induction over the words; exact condition on the flags by comparing lengths and digits |
| C62 C63 | collectors with callbacks that call them | refinement to a reference machine by mutual induction over trees of calls |
| C64 C65 | parser with callbacks that call it | the same, with an invariant for the state in which a callback runs |
| C66 | setters of payload bytes, payload size and stream format, reset, constructors from words | byte extensionality; finite tables over one byte |
| C67 C68 | collectors with callbacks that throw and allocations that fail | refinement to a reference machine, induction over histories |
| C69 C70 C71 | byte stream parser with callbacks that throw and allocations that fail | refinement to a reference machine, invariant for the state behind an exception |
| C72 | the same model of the collectors | invariant: the storage is at least the limit and is not given back |
| C73 | `send_sysex7/8` and `send_*_name` with a callback in any monad | induction over the loops, monad laws |
| C74 C75 | byte stream parser, group set at any time | simulation between two runs of the reference grammar of C26 |
| C76 C77 | filters and getters of the model, the processor of the documentation | filters as functions of type, status and one bit, all status bytes by the kernel |
| C78 | `asMidi1`, `asMidi2` of the model; a table of values for each opcode in `Spec/Translation.lean` | exact translation in both directions (`C09_translation`, `C10_translation`), arithmetic on the table |
| C79 | parser, collectors, senders of the model | one callback per byte by cases on the code, numbers of packets from full packets by induction |
| C80 | the same; traffic as a list of intact and damaged parts in `Spec/Damage.lean` | induction on the parts, round trips from any history (C18, C20, C29, C30, C33), C79 |
| C81 | the table of names in inc/midi/manufacturer.h | all of the table by the kernel, then C18, C35, C38 |
| C82 | collectors and senders; interleavings in `Spec/Interleave.lean` | selecting from an interleaving, by induction; C18, C20 |
| C83 | `operator>>` on character lists; words cut into messages in `Spec/WordStream.lean` | induction over the numbers, with the state of the stream between them |
| C84 | factories and view of property data, `send_sysex7`, collector; receiver in `Spec/Transfer.lean` | C42 for each message, selecting from an interleaving, induction over the chunks, C18 |
| C85 | all functions on packets, sysex collectors | equal packets agree in the words the functions read; induction over payload bytes and packets |
| C86 | `to_midi1_byte_stream`, `midi1_byte_stream_parser`, `sysex7_collector`; receiver `receive` and meaning of traffic `itemsOf` in `Spec/Cable.lean` | induction over the packets, with parser state (reference grammar), collector state and payload so far related; C26, C33 |
| C87 | the functions with assertions, without them (`Verif.Model.Release`) | equations between the two models with the arguments brought into range; list and bit vector reasoning |
| C88 | the byte stream parser with exceptions, without assertions (`Verif.Model.ReleaseParser`) | agreement with the checked model where that has a result; invariant of all states behind an overflow; simulation by the parser with the group reduced; comparison with the reference grammar, filtered |
| C89 | factories, views and getters of all messages (`Verif.Model.Messages`, `.SysexPackets`, `.Stream`, `.FlexData`); reserved bits by masks (`Verif.Spec.Remake`) | the packet made is computed byte by byte and compared with the bytes read; each theorem is an equivalence with the reserved bits being clear; witnesses where valid messages are lost |
| C90 | factories and views of MIDI-CI and identity messages (`Verif.Model.CapabilityInquiry`, `.UniversalSysex`); messages equal but for named bytes (`Verif.Spec.RemakeCI`) | every accepted message is split into header, fields and rest by C55; 7 bit digits are shown to be the digits of the number read; the factory is computed on the values read and compared position by position |
| C91 | the clock follower (`Verif.Model.Jitter`); shifted calls and what a caller sees (`Verif.Spec.Jitter`) | relation between the states of two runs, preserved by every call, by induction over the sequence; overflow freedom from C48 |
| C92 | the remaining functions with assertions, compiled without them (`Verif.Model.ReleaseRest`) | agreement with the checked model by following its steps; the messages are computed byte by byte for all arguments and read back; scaling by case distinction on the shifts |
| C93 | the byte stream parser and the collectors, fed in two parts | the reference grammar of C26 for the state before the last byte; counting packets (C79) and framing (C17, C19) for the collectors |
| C94 | operator<< of packets as list of characters | digits by induction on their number; uniqueness from the fixed width of words and the blanks between them |
| C95 | senders, byte stream conversion and translation as functions of lists of messages | a receiver recovers the messages (C18, C20, C80, C09); groups from the packets, which are as many for equal messages (C79) |
| C96 | the capacity of the data vectors of collectors and, in Model/ParserMemory, of the parser | invariant of the reference machine of C22 (collectors) and of the parser with its capacity, by induction over histories |
| C97 | the message processor of the documentation (Model/Processor) on top of filters, views, parser and translation | cases over message type and opcode; induction over the blocks of a byte stream with the reference machine of C25; C10 and C57 for the cable |
| C98 | the clock follower of C48 and C49 with a sender of constant rate | corollary of the exact jitter (C48) and the exact plan (C49), induction over the number of clock messages |
| C99 | the clock of the sender (C47), its messages (C14), the utility view and the clock follower in sequence | simulation by an ideal sender of C49, invariant of the plan: the floor lies within the longest time a clock message took |
| C100 | an application (Spec/Device.lean) calling the views, factories, parser and collector of the model | cases of the views (C39, C40), the parser delivers 7 bit data only (C25), transport (C35) |
| C101 | any function from packets to packets (Spec/Box.lean) between the parser and `to_midi1_byte_stream`; the translations in particular | simulation of the second parser by the first one (as C56), generalised to the packets of the program; C09, C10 and C97 for the translations |
| C102 | two applications using factories, senders and views of stream messages (Spec/Endpoint.lean) | what a client hears of each answer from C44, C45; induction over function blocks, parts of texts and histories |
| C103 | two applications using the factory and the view of flex data texts (Spec/FlexText.lean) | reading a packet from C46; induction over the parts of a text, texts and packets; texts of other keys do not matter (C103_independent), interleavings as for C82 |
| C104 | devices with profiles and a client, using only views and factory functions (Spec/Profiles.lean) | one step of a device from C39, C40, C41 and C59; invariant "no wrong knowledge, lists good" over histories by induction |
| C105 | an instrument that remembers the notes that sound, and programs that translate streams (Spec/Sounding.lean) | one packet from C09_translation, C10_translation and C11_meaning; induction over the stream |
| C106 | messages as data with one constructor for every factory function, and a program that reads them with the views (Spec/Said.lean) | case by case from C40 and C39; conversations by induction from C18 and C35 |
| C107 | a device that keeps properties and clients that set and get them, and a table (Spec/Store.lean) | what the device has of a client depends on that client only: induction over the interleaving, with C42, C84 and C106 for the messages; packets from C18 |
| C108 | the messages of C106 with bytes or packets taken away; how far the length fields go (Spec/SaidLost.lean) | case by case: what a view accepts is complete (C55), and a length in the common part is the length of the message; packets with C17 and the collector machine of C21 |
| C109 | an instrument that remembers controllers, pressures, pitch bend and program with the getters of the library, and the translating programs of C105 (Spec/Panel.lean) | what a packet sets, from its fields (C09, C10); induction over the stream; leaving out packets that set something else |
| C110 | a program that calls every function of the model that can fail on every packet and every collected message (Spec/Monitor.lean) | C39, C45, C46, C77 for single packets and messages; induction over the packets with the collectors (C21, C24), and over the output of a parser (C25) |
| C111 | which of a list of messages pass a limited collector, as a recursion over the messages (`passing`, Spec/Limit.lean); chunk size from the size told | the reference machine of C22 on whole messages, induction over the list; C84 for the transfers, C40 for the size told |
| C112 | a device that performs deeds (turn, tell, other) and a listener (collector, phase, panel), Spec/Report.lean | the factories and getters agree for each knob, channel messages leave the collector alone; induction over the deeds; C18, C40 for reply and end |
| C113 | a device with subscriptions (Publisher) and clients with copies (Mirror), Spec/Mirror.lean | each block of messages gives one client one value (chunk induction, C42, C52); the list of blocks is compared with the abstract table and subscriptions by induction over the incidents; C18 for packets |
| C114 | several parsers that receive interleaved bytes (`listenAll`) and a merge box (`passOn`), Spec/Merge.lean | induction over the bytes: each parser sees its own cable; what a parser reports is well formed (C25, C26), so C33 and C35 give the bytes and what they parse to; the groups follow from C25 and C56 |
| C115 | a sender and a receiver of bytes written with `get_byte`, `set_byte` and `size()`, Spec/Wire.lean | invariant: the receiver has the bytes of an incomplete packet; the bytes of packets are a prefix code, so the packets are determined by them; C85 and C18, C20 for the collectors |
| C116 | a program which moves packets to other groups with `set_group`, Spec/PatchBay.lean | a packet and the moved packet agree in all but the group field; every function of the model that reads packets is shown to depend on the other fields only; induction over the stream |
| C117 | a network of stations with messages on their way, each station written with the factories and `understand` (the views), Spec/Muids.lean | invariant: of two stations with the same MUID one is about to hear of it; for orderly runs an invariant about the MUIDs each station had, and a decreasing measure |
| C118 | the endpoint of C102, playing in the protocol in use with the translations of C105 and C109, Spec/Performance.lean | induction over the moments; what the client knows, hears and is set to are related at every moment |
| C119 | operator<< and operator>> as in C04, C83 and C94, a text that is cut off anywhere, Spec/Recording.lean | the beginning of a line is a list of numerals that makes at most one message (induction over its words), then induction over the complete lines |

Not expressible in this model: absolute accuracy of `jr_clock::now` (reads the host's clock);
thread safety (the library has no synchronisation at all).

## 5. Where the code does not have the property

Each entry has a Lean theorem with a concrete witness. "Exactly" names theorems that say for all inputs what happens instead, or
for which inputs the property does hold.

* C17: `send_sysex7` with manufacturer id 0 and 6 data bytes, or with an id with both high and low bytes set, is not framed
  correctly (`C17_no_id_not_framed`, `C17_mixed_id_not_framed`). C17 is stated for genuine ids. Exactly: `C17_any_id`.
* C18: a message without manufacturer id is received with its first data bytes as id (`C18_no_id_changed`). Exactly:
  `C18_exactly`.
* C19, C20: `send_sysex8` compares the size of the data including the id on the wire of 7 bit sysex with the payload size, so a
  3 byte id with 11 data bytes sends a start packet but no end packet, and a 1 byte id with 12 data bytes or id 0 with 12
  or 13 data bytes sends a complete packet followed by stray ones (`C19_three_byte_id_no_end`, `C19_one_byte_id_stray_end`,
  `C20_three_byte_id_lost`, `C20_one_byte_id_truncated`). A group above 15 corrupts the packet type
  (`C19_group_corrupts_type`). Exactly: `C19_any_id`, `C20_received`, `C20_round_trip_iff`, `C20_exactly`.
* C22: a size limit that is set when the collector's storage already exceeds it is not enforced (`C22_limit_set_late`,
  `C22_limit8_set_late`); the bytes of the manufacturer id count (`C22_id_counts`). Exactly: `C22_effective_limit`,
  `C22_limited_exactly`, `C22_late_limit_exactly` and, for whole histories of calls, `C22_history_exactly`; and the same for
  8 bit sysex.
* C21, C24: the collectors ignore the group (`C21_groups_ignored`), so messages on two groups at the same time are mixed up
  (`C21_groups_mixed`).
* C23: after a message was dropped at its last packet, stale bytes leak into the next message (`C23_dropped_message_leaks`,
  `C23_dropped_message_leaks8`, in general `C23_dropped_late_leaks`, `C23_dropped_late_leaks8`).
* C25: a parser with a group above 15 fails an assertion when sysex starts (`C25_bad_group`).
* C33, C35, C36: `midi1_byte_stream_size` differs from the bytes written for sysex7 packets (`C33_size_differs`); the packets
  of the parser are not those of `send_sysex7` if the payload size is a multiple of six (`C35_six_bytes_differ`); sysex that ends
  within its manufacturer id is delivered by the collector only (`C36_truncated_id_differs`). The properties are stated
  accordingly.
* C39: `discovery_inquiry_view::validate` and `discovery_reply_view::validate` read `data[3]` before checking the size. Exactly:
  `C39_discovery_validate_reads_outside`. A peer can cause it by sending `F0 7E F7` (`C39_discovery_reachable`).
* C40, C42: payloads of 65536 bytes and more pass the length assertion with the length cut to 16 bit (`C40_length_wraps`), a header in a chunk other than the first one is made but not
  accepted (`C42_header_in_second_chunk_rejected`).
* C43: `make_profile_specific_data_message(vector)` sends only `size % 65536` bytes (`C43_vector_is_cut`). Exactly:
  `C43_vector_round_trip_iff`.
* C44: names with non ASCII characters do not read back (`C44_utf8_differs`). Exactly: `C44_read_back_iff`,
  `C44_product_instance_id_iff`.
* C45: a function block spanning 16 groups reads back as spanning 0, a missing user interface hint as the direction
  (`C45_sixteen_groups`); 128 function blocks set the flag for static blocks (`C45_too_many_blocks`). Exactly:
  `C45_function_block_info_exact`, `C45_function_block_info_iff`.
* C48: clock messages of a misbehaving sender make the jitter estimate overflow (`C48_overflow`), at the earliest with the
  366509470th one if they arrive at the same time (`C48_clock_messages`). For an ideal sender the
  estimate is exactly the spread of transmission times (`C48_ideal_jitter`).
* C49: messages can be scheduled in the wrong order across clock messages (`C49_order_violated`) and with the wrong distance
  (`C49_spacing_violated`). `C49_exactly` gives the scheduled times of an ideal sender (a small reference plan in
  `Spec/Jitter.lean`), `C49_disorder_bounded` bounds the disorder by the jitter estimate, and `C49_spacing_partial` says
  exactly when the distance is right.
* C50: `pitch_bend` does not round trip through `double` for 0x80000001 .. 0x80000200 (`C50_pitch_bend_differs`); NaN is cast to
  an integer (`C50_nan`); `pitch_increment(double)` near -64 negates INT_MIN (`C50_pitch_increment_double`); `float` cannot
  represent all controller values and pitches (`C50_controller_float_differs`, `C50_pitch_7_25_float_differs`), and the
  documented range [0..128) of `pitch_7_25::as_float` (docs/types.md) is left by exactly the values from 0xFFFFFF80 on, which
  convert to 128 (`C50_pitch_7_25_float_range`).
* C51: `get_channel_pitch_bend_value` does not mask data bytes, and is undefined for a byte 4 of 0x80 or above
  (`C51_pitch_bend_defined` gives the condition).
* C52: `is_number("")` reads beyond an empty string view (`C52_fault_iff_empty_option`, `C52_empty_subscribe_id`); nothing is
  escaped, and `-` or numbers with leading zeros are written without quotes (`C52_not_json`). Exactly:
  `C52_rjson_string_options_exact`, `C52_rjson_int_options_exact`.
* C60: full pitch bend up misses the higher note by one unit, so that `note_nr()` reports one note less (`C60_full_up`).
* C61: `operator<<` leaves the fill character `0` behind in the stream, so a number written later with a width is padded with
  zeros (`C61_fill_left_behind`). It does not reset `left`, `showbase` and `uppercase`: with `std::left` the text of a packet
  can be the text of another packet (`C61_left_other_packet`), and with `std::showbase` the zeros in front of the prefix end the
  number when it is read (`C61_showbase_other_packet`). Exactly: `C61_text_exactly`, `C61_read_back_exactly`.
* C63: in the callback of a collector the message delivered is still held: a complete packet fed there is appended to it
  (`C63_complete_packets_merge`, `C63_complete_packets_merge8`), and a message begun there is forgotten when the callback returns
  (`C63_unfinished_lost`, `C63_unfinished_lost8`). Exactly: `C62_calls_exactly`, `C62_calls_exactly8`.
* C64: a parser without sysex callback fails the assertion for bytes behind its packet if the callback for a sysex packet feeds
  nine data bytes (`C64_overflow`). Without assertions the byte is ignored. Packets with seven to fourteen bytes of sysex can be
  delivered. Exactly: `C64_exactly`, `C64_delivered_partial`.
* C65: what callbacks of the parser begin can be dropped or mixed up: after a tune request (`C65_tune_request`), system common
  messages (`C65_system_common`), sysex within the callback for sysex (`C65_manufacturer_lost`); a reset in the callback for a
  sysex packet has no effect (`C65_reset_undone`). Exactly: `C65_exactly`.
* C68: if the callback of a collector throws for a message that is one packet, the message is kept and put in front of the next
  one (`C68_message_kept`); if it throws for a message of several packets, a further end packet delivers the message again
  (`C68_message_continued`); a packet for which there is no memory is missing from the message, which is delivered nevertheless
  (`C68_packet_missing`). The same for 8 bit sysex (`C68_message_kept8` and others). Exactly: `C67_tries_exactly`, `C68_next_exactly`.
* C69: a parser without sysex callback fails the assertion for bytes behind its packet if the callback for a sysex packet throws
  and nine data bytes follow (`C69_overflow`). Packets with seven to fourteen bytes of sysex can be delivered. Exactly:
  `C69_exactly`, `C69_delivered_partial`.
* C71: behind an exception the parser can deliver the last sysex packet twice (`C71_end_twice`), or with the bytes that follow in
  the wrong place (`C71_rest_misplaced`), lose a byte of a sysex message (`C71_byte_lost`) or collect a message that began while
  callbacks were disabled (`C71_collected_while_disabled`). Exactly: `C71_exactly`.
* C72: a collector with a limit of more than 16384 bytes gives its storage back with every message and allocates again
  (`C72_large_limit`, `C72_large_limit8`); likewise if it had a larger storage when the limit was set (`C72_large_storage`).
* C75: if the group is changed while sysex is received in packet mode, the packets of one message are in different groups
  (`C75_sysex_false`); the group takes effect with the packet behind the one being filled (`C75_sysex_exactly`).
* C77: the processor in the documentation runs into the undefined behaviour of C51 (`C77_undefined`, exactly `C77_defined_partial`).
* C83: `operator>>` takes a text that ends in the middle of a message, with no white space after the last digit, for a packet: the
  missing words are those the packet variable had before (`C83_truncated_message_delivered`). Exactly: `C83_exactly`.
* C87: in builds without assertions `set_group(g)` with g >= 16 changes the message type (`C87_group_corrupts_type`), and so sysex7
  sent to group 0x40 or above is no sysex (`C87_send_sysex7_corrupts`). Positions behind the end are read or written out of bounds by
  `get_byte`, `make_uint14/28/32`, `make_device_identity`, `set_device_id`, `set_source_muid` and `set_destination_muid`
  (`C87_get_byte_partial`, `C87_sysex7_make_partial`, `C87_set_device_id_partial`, `C87_set_muid_partial`); a device id above 127 is
  stored in a capability inquiry message as it is (`C87_ci_device_id`).
* C88: in builds without assertions the byte stream parser, fed with more than 248 data bytes behind a callback for a sysex packet
  that has thrown, overwrites the header of its packet with data: it delivers packets in other groups (`C88_header_lost`) or loses
  the rest of the message (`C88_rest_lost`). With a group of 40h or more it delivers no sysex (`C88_sysex_lost`).
* C89: `midi2_channel_voice_message_view::byte4()` drops the top bit, so per-note controllers 128 to 255 and attribute types 128 to
  255 can not be told from 0 to 127 by the view (`C89_midi2_view_loses_bit`). Function block infos without user interface hint, or
  spanning 16 groups, are read but can not be made (`C89_function_block_info_lost`). Names which are not ASCII are not read as they
  are (`C89_name_lost`).
* C90: a property data message without data (chunk number 0) can not be made again by passing `chunk_begin()` and 0 to the factory:
  `make_property_data_message` asserts that the pointer is null (`C90_property_data_no_chunk`). The factories always write message
  version 2 (or 1), so a message of a later version comes back as version 2; profile off messages lose bytes 17 and 18.
* C44: `payload_as_string(offset)` of a stream message throws `std::length_error` for an offset above 16, because the space it
  reserves is a negative number converted to unsigned (`C44_text_from`); the library itself only passes offsets 2 and 3.
* C92: without assertions `make_profile_inquiry_reply` for 16384 profiles announces 0 of them, and the view takes their bytes for
  the list of disabled profiles (`C92_profile_reply_wraps`); `upsample_x_to_ybit` from one bit scales the largest value to the centre.
* C119: a recorded line that was cut off is read without an error: `209`, left of the note `20903c64`, is the utility message 0x00000209, and
  `40903c00 ffff` is a note on with velocity zero. A recording continued on a new line behind `40903c00` makes the next packet the second word of
  that note (C119_wrong, C119_lost).
* C116: stream messages have no group, but `set_group` accepts them and changes their format, so a complete name notification becomes the start of a
  longer one (`C116_stream_message`). Programs that move packets to other groups must leave them alone.
* C114: a parser reports a sysex message with manufacturer id 00 00 00 with id 0, which `send_sysex7` sends in one byte, so a message passed on by a
  merge box arrives with its first two data bytes taken for the id (`C114_id_zero`). Sysex messages merged packet by packet are destroyed (`C114_packets_broken`).
* C113: a subscription id of digits is sent as a JSON number, not as a string (`C113_number_id`). The subscription id cannot be left out when a
  subscription starts (`C52_empty_subscribe_id`), and `make_subscription_reply` cannot carry one, so it is the client that chooses it.
* C112: the report reply and the end message are always addressed to everybody, they do not say who asked (`C112_reply_for_everybody`), and
  there is no view for the end message (subtype 0x44).
* C111: a message that exceeds the limit only with its last packet also destroys the following message, even if that fits: its start packet
  does not fit in addition to the bytes left over, and it is dropped (`C111_just_too_large`; if it is a single packet it may instead be delivered
  with the bytes left over, C23).
* C110: three bytes on a cable, `F0 7E F7`, let a program that asks for the discovery views of every message read outside of the data
  (`C110_three_bytes`), and one packet with an 8 bit pitch bend is undefined behaviour in every program that asks for its value
  (`C110_bad_bend`). Nothing else that can be received lets a function for looking at messages fail (`C110_careful`, `C110_any`).
* C109: the translations drop bank select (from MIDI 1) and program changes with bank as a whole (from MIDI 2), so that an
  instrument behind them plays another program (`C109_bank_lost`). Exactly: `C109_to_midi2`, `C109_to_midi1`.
* C108: MIDI-CI messages have no checksum: a property message that lost a packet with part of its header is understood with a header that was never sent (`C108_header_lost`).
* C106: `make_profile_off_request` takes a profile destination but writes only its scope: the number of channels is not in the message (`C106_off_number`; the specification reserves these bytes).
* C105: `as_midi1_channel_voice_message` drops note messages with an attribute, so a Note On without and a Note Off with attribute leave a hanging note behind the translation (`C105_hanging_note`).
* C104: a request to turn a profile off does not carry the number of channels given to `make_profile_off_request`: the device that obeys tells everybody zero channels (`C104_turn_off`).
* C103: parts of a flex data text have no numbers: a lost continue packet goes unnoticed, the text arrives without its 12 characters (`C103_lost_packet`). Texts with zeros never arrive as they were sent (`C103_no_zeros`).
* C102: there is one view for stream configuration requests and notifications. An application that answers whatever it gets a view of answers its own answers; it has to look at the status of the packet (`C102_view_of_both`).
* C100: sysex7 packets from another device can contain payload bytes above 7F; the collector delivers them. A device that
  answers such messages runs into failed assertions: an output path id above 7F passed on to `make_discovery_reply`
  (`C100_packets_fault`), a device id or MUID passed on by `make_nak_message_v1` (`C100_nak_v1_faults`). `make_nak_message` checks
  nothing and returns an invalid message instead (`C100_packets_nak`). Messages from the byte stream parser are always valid.
* C98: a sender whose clock runs at a slightly different rate makes the jitter estimate and with it the delay of all messages grow
  without limit, in either direction: with 100 ppm by ten seconds a day (example at `C98_scheduled`). A single gap of more than
  2.1 s between clock messages delays all later messages by 2.5 s or more (`C98_gap`), since the estimate never shrinks.
* Within C96: a byte stream parser keeps the memory of a sysex message that was interrupted by a status byte, of whatever size, until
  the next F0 or `reset` (`C96_interrupted_kept`, `C96_interrupted_any_size`); the collectors give it back with the next packet.
* Outside of C86 (its hypotheses exclude these): over a MIDI 1 cable a sysex message interrupted by other than real time messages is
  lost, while a direct receiver gets it (`C86_interrupted_differs`); the payload of a continue or end packet without start packet is
  taken for data of the last channel voice message, so notes can sound that nobody played (`C86_orphan_differs`).
* Not a property of its own: default constructed `midi1_channel_voice_message` and `midi2_channel_voice_message` objects are
  utility messages (NOOP), not channel voice messages (`C54_default_constructed`).
* Not a property of its own: unit tests of the project construct `pitch_bend{ uint14_t{ 0xAFED } }`
  (tests/channel_voice_message_tests.cpp 840, 977-981, 1108-1110). The value has more than 14 bits, and `upsample_14_to_32bit`
  shifts it as an `int` beyond 32 bits: undefined behaviour in C++17 (last example of
  `lean/Verif/Conformance/HandWrittenTests.lean`). `uint14_t` does not mask its argument.

## 6. Testing the theorems

seeded/LOG.jsonl records edits to the model that mimic realistic bugs, made in a scratch copy, with the theorems that no longer
prove. Edits that no theorem noticed led to further or stronger theorems; these are named there as well.
