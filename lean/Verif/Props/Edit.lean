import Verif.Model.Defaults
import Verif.Props.Classify
import Verif.Props.Packet
import Verif.Props.SysexPackets
import Verif.Props.Stream
import Verif.Props.SysexAnyId

/-!
# C66: editing a packet in place

Beside it: default constructed messages (C54), the pitch bend sensitivity (C13).
-/

namespace Midi
open Spec

/-! ## Payload of sysex packets -/

theorem range_map_set (n : Nat) (f : Nat → Byte) (i : Nat) (v : Byte) :
    ((List.range n).map f).set i v = (List.range n).map fun k => if k = i then v else f k := by
  apply List.ext_getElem
  · simp
  · intro k h1 h2
    simp only [List.getElem_set, List.getElem_map, List.getElem_range]
    by_cases e : i = k
    · simp [e]
    · rw [if_neg e, if_neg (fun h => e h.symm)]

/-- C66: `sysex7_packet::set_payload_byte(i, v)` changes one byte of the packet and nothing else. The value is reduced to
7 bit. The payload is that before, with this byte replaced if it is a part of the payload. From the seventh position on the byte
is not a significant one, so that the packet compares equal; behind the last of the sixteen bytes an assertion fails. -/
theorem C66_sysex7_payload_byte (p : Packet) (i : Nat) (v : Byte) :
    (i < 14 → ∃ q, sysex7SetPayloadByte p i v = .ok q ∧ sysex7PayloadByte q i = .ok (v &&& 0x7F) ∧
      (∀ c, c < 16 → c ≠ 2 + i → q.byteAt c = p.byteAt c) ∧
      (isSysex7Packet p = true → isSysex7Packet q = true ∧ payload7 q = (payload7 p).set i (v &&& 0x7F) ∧
        (6 ≤ i → p.eqv q = true))) ∧
    (14 ≤ i → sysex7SetPayloadByte p i v = .error .assertFailed ∧ sysex7PayloadByte p i = .error .assertFailed) := by
  refine ⟨fun hi => ?_, fun hi => ⟨if_neg (by omega), if_neg (by omega)⟩⟩
  have ne : ∀ c, c < 16 → c ≠ 2 + i → (p.putByte (2 + i) (v &&& 0x7F)).byteAt c = p.byteAt c :=
    fun c hc h => Packet.byteAt_putByte_ne _ (by omega) hc h _
  refine ⟨p.putByte (2 + i) (v &&& 0x7F), Packet.setByte_lt _ (by omega) _, ?_, ne, ?_⟩
  · rw [sysex7PayloadByte, Packet.getByte_lt _ (by omega), Packet.byteAt_putByte_same _ (by omega)]
  · intro h
    rw [C15_is_sysex7_packet_iff] at h ⊢
    have h0 := h
    unfold IsSysex7 payload7 at *
    rw [ne 0 (by omega) (by omega), ne 1 (by omega) (by omega)]
    refine ⟨h, ?_, fun h6 => ?_⟩
    · rw [range_map_set]
      apply List.map_congr_left
      intro k hk
      have hk := List.mem_range.1 hk
      by_cases e : k = i
      · rw [if_pos e, e, Packet.byteAt_putByte_same _ (by omega)]
      · rw [if_neg e, ne _ (by omega) (by omega)]
    · have hs : p.size = 2 := by
        rw [C03_size, Packet.type_eq, BitVec.toNat_ushiftRight, Nat.shiftRight_eq_div_pow, show _ / 2 ^ 4 = 3 from h0.1]; rfl
      unfold Packet.putByte
      rw [(C03_unused_words_ignored p p ((2 + i) / 4) (by omega) (by omega) _).2]
      exact C03_equivalence.1 p

/-- C66: `sysex8_packet::set_payload_byte(i, v)` changes one byte of the packet and nothing else; behind the last of the
thirteen bytes an assertion fails. -/
theorem C66_sysex8_payload_byte (p : Packet) (i : Nat) (v : Byte) :
    (i < 13 → ∃ q, sysex8SetPayloadByte p i v = .ok q ∧ sysex8PayloadByte q i = .ok v ∧
      (∀ c, c < 16 → c ≠ 3 + i → q.byteAt c = p.byteAt c) ∧
      (isSysex8Packet p = true → isSysex8Packet q = true ∧ payload8 q = (payload8 p).set i v)) ∧
    (13 ≤ i → sysex8SetPayloadByte p i v = .error .assertFailed ∧ sysex8PayloadByte p i = .error .assertFailed) := by
  refine ⟨fun hi => ?_, fun hi => ?_⟩
  · have ne : ∀ c, c < 16 → c ≠ 3 + i → (p.putByte (3 + i) v).byteAt c = p.byteAt c :=
      fun c hc h => Packet.byteAt_putByte_ne _ (by omega) hc h _
    refine ⟨p.putByte (3 + i) v, Packet.setByte_lt _ (by omega) _, ?_, ne, ?_⟩
    · rw [sysex8PayloadByte, Packet.getByte_lt _ (by omega), Packet.byteAt_putByte_same _ (by omega)]
    · intro h
      rw [C16_is_sysex8_packet_iff] at h ⊢
      unfold IsSysex8 payload8 at *
      rw [ne 0 (by omega) (by omega), ne 1 (by omega) (by omega)]
      refine ⟨h, ?_⟩
      rw [range_map_set]
      apply List.map_congr_left
      intro k hk
      have hk := List.mem_range.1 hk
      by_cases e : k = i
      · rw [if_pos e, e, Packet.byteAt_putByte_same _ (by omega)]
      · rw [if_neg e, ne _ (by omega) (by omega)]
  · constructor
    · unfold sysex8SetPayloadByte Packet.setByte; rw [if_neg (by omega)]
    · unfold sysex8PayloadByte Packet.getByte; rw [if_neg (by omega)]

theorem size_byte (s : Byte) : ∀ n, n ≤ 14 → ((s &&& 0xF0) + (BitVec.ofNat 8 n &&& 0x0F)).toNat / 16 = s.toNat / 16 ∧
    ((s &&& 0xF0) + (BitVec.ofNat 8 n &&& 0x0F)).toNat % 16 = n ∧
    ((s &&& 0xF0) + (BitVec.ofNat 8 n &&& 0x0F)) >>> 4 = s >>> 4 ∧
    (((s &&& 0xF0) + (BitVec.ofNat 8 n &&& 0x0F)) &&& 0x0F).toNat = n := by
  revert s; decide +kernel

theorem range_map_take (a b : Nat) (f : Nat → Byte) : ((List.range a).map f).take b = (List.range (min b a)).map f := by
  rw [← List.map_take, List.take_range]

/-- C66: `sysex7_packet::set_payload_size(n)` changes the number of payload bytes and nothing else: not the format, not the
group, not the bytes. A smaller size cuts the payload. More than six bytes fail the assertion. -/
theorem C66_sysex7_payload_size (p : Packet) (n : Nat) :
    (n ≤ 6 → ∃ q, sysex7SetPayloadSize p n = .ok q ∧ sysex7PayloadSize q = n ∧ sysex7Format q = sysex7Format p ∧
      (q.byteAt 1).toNat / 16 = (p.byteAt 1).toNat / 16 ∧ (∀ c, c < 16 → c ≠ 1 → q.byteAt c = p.byteAt c) ∧
      (isSysex7Packet p = true → isSysex7Packet q = true ∧
        (n ≤ (payload7 p).length → payload7 q = (payload7 p).take n))) ∧
    (6 < n → sysex7SetPayloadSize p n = .error .assertFailed) := by
  refine ⟨fun hn => ?_, fun hn => ?_⟩
  · obtain ⟨f1, f2, f3, f4⟩ := size_byte p.status n (by omega)
    rw [Packet.status_eq] at f1 f2 f3 f4
    have ne : ∀ c, c < 16 → c ≠ 1 → (p.putByte 1 ((p.byteAt 1 &&& 0xF0) + (BitVec.ofNat 8 n &&& 0x0F))).byteAt c = p.byteAt c :=
      fun c hc h => Packet.byteAt_putByte_ne _ (by omega) hc h _
    have e1 := Packet.byteAt_putByte_same p (b := 1) (by omega) ((p.byteAt 1 &&& 0xF0) + (BitVec.ofNat 8 n &&& 0x0F))
    refine ⟨p.putByte 1 ((p.byteAt 1 &&& 0xF0) + (BitVec.ofNat 8 n &&& 0x0F)), ?_, ?_, ?_, ?_, ne, ?_⟩
    · unfold sysex7SetPayloadSize; rw [assert_ok (by simpa using hn), Packet.status_eq]; exact Packet.setByte_lt _ (b := 1) (by omega) _
    · rw [sysex7PayloadSize, Packet.status_eq, e1, f4]
    · rw [sysex7Format, sysex7Format, Packet.status_eq, Packet.status_eq, e1, f3]
    · rw [e1, f1]
    · intro h
      rw [C15_is_sysex7_packet_iff] at h ⊢
      unfold IsSysex7 payload7 at *
      rw [ne 0 (by omega) (by omega), e1, f1, f2]
      refine ⟨⟨h.1, h.2.1, hn⟩, fun hl => ?_⟩
      rw [range_map_take, Nat.min_eq_left (by simpa using hl)]
      apply List.map_congr_left
      intro k hk
      have hk := List.mem_range.1 hk
      exact ne _ (by omega) (by omega)
  · unfold sysex7SetPayloadSize; rw [assert_fail (by simpa using hn)]; rfl

/-- C66: `sysex8_packet::set_payload_size(n)` changes the number of payload bytes and nothing else. More than thirteen bytes
fail the assertion. -/
theorem C66_sysex8_payload_size (p : Packet) (n : Nat) :
    (n ≤ 13 → ∃ q, sysex8SetPayloadSize p n = .ok q ∧ sysex8PayloadSize q = n ∧ sysex8Format q = sysex8Format p ∧
      (q.byteAt 1).toNat / 16 = (p.byteAt 1).toNat / 16 ∧ (∀ c, c < 16 → c ≠ 1 → q.byteAt c = p.byteAt c) ∧
      (isSysex8Packet p = true → isSysex8Packet q = true ∧
        (n ≤ (payload8 p).length → payload8 q = (payload8 p).take n))) ∧
    (13 < n → sysex8SetPayloadSize p n = .error .assertFailed) := by
  refine ⟨fun hn => ?_, fun hn => ?_⟩
  · obtain ⟨f1, f2, f3, f4⟩ := size_byte p.status (n + 1) (by omega)
    rw [Packet.status_eq] at f1 f2 f3 f4
    have ne : ∀ c, c < 16 → c ≠ 1 →
        (p.putByte 1 ((p.byteAt 1 &&& 0xF0) + (BitVec.ofNat 8 (n + 1) &&& 0x0F))).byteAt c = p.byteAt c :=
      fun c hc h => Packet.byteAt_putByte_ne _ (by omega) hc h _
    have e1 := Packet.byteAt_putByte_same p (b := 1) (by omega) ((p.byteAt 1 &&& 0xF0) + (BitVec.ofNat 8 (n + 1) &&& 0x0F))
    refine ⟨p.putByte 1 ((p.byteAt 1 &&& 0xF0) + (BitVec.ofNat 8 (n + 1) &&& 0x0F)), ?_, ?_, ?_, ?_, ne, ?_⟩
    · unfold sysex8SetPayloadSize; rw [assert_ok (by simpa using hn), Packet.status_eq]; exact Packet.setByte_lt _ (b := 1) (by omega) _
    · rw [sysex8PayloadSize, Packet.status_eq, e1, f4]; simp
    · rw [sysex8Format, sysex8Format, Packet.status_eq, Packet.status_eq, e1, f3]
    · rw [e1, f1]
    · intro h
      rw [C16_is_sysex8_packet_iff] at h ⊢
      unfold IsSysex8 payload8 at *
      rw [ne 0 (by omega) (by omega), e1, f1, f2]
      refine ⟨⟨h.1, h.2.1, by omega, by omega⟩, fun hl => ?_⟩
      rw [range_map_take, Nat.min_eq_left (by simpa using hl)]
      apply List.map_congr_left
      intro k hk
      have hk := List.mem_range.1 hk
      simp only [List.length_map, List.length_range] at hl
      exact ne _ (by omega) (by omega)
  · unfold sysex8SetPayloadSize; rw [assert_fail (by simpa using hn)]; rfl

/-! A packet with three bytes of payload: one is replaced, then one is cut off. -/
example : ∃ p q r, (do let e ← makeSysex7 .start 5; [(1 : Byte), 2, 3].foldlM sysex7AddPayloadByte e) = .ok p ∧
    isSysex7Packet p = true ∧ payload7 p = [1, 2, 3] ∧
    sysex7SetPayloadByte p 1 0x99 = .ok q ∧ payload7 q = [1, 0x19, 3] ∧
    sysex7SetPayloadSize q 2 = .ok r ∧ payload7 r = [1, 0x19] :=
  ⟨⟨0x35130102, 0x03000000, 0, 0⟩, ⟨0x35130119, 0x03000000, 0, 0⟩, ⟨0x35120119, 0x03000000, 0, 0⟩, by decide, by decide,
    by decide, by decide, by decide, by decide, by decide⟩

/-! ## Format of stream messages -/

theorem low_two_bits (b : Byte) : (b &&& 3).toNat = b.toNat % 4 := by revert b; decide +kernel

/-- C66: `stream_message::set_format(f)` changes the format and nothing else: type, the two reserved bits of the first byte
and all other bytes stay. -/
theorem C66_stream_format (p : Packet) (f : Format) :
    streamFormat (streamSetFormat p f) = f ∧ (streamSetFormat p f).type = p.type ∧
    ((streamSetFormat p f).byteAt 0).toNat % 4 = (p.byteAt 0).toNat % 4 ∧
    (∀ c, 1 ≤ c → c < 16 → (streamSetFormat p f).byteAt c = p.byteAt c) := by
  refine ⟨?_, ?_, ?_, ?_⟩
  · have e : ((streamSetFormat p f).w0 >>> 26 &&& 0x03).setWidth 8 = f.code := by
      cases f <;> (simp only [streamSetFormat, Format.code]; bits)
    rw [streamFormat, e]; cases f <;> rfl
  · cases f <;> (simp only [Packet.type, streamSetFormat, Format.code]; bits)
  · rw [← low_two_bits, ← low_two_bits]
    congr 1
    cases f <;> (simp only [Packet.byteAt, Packet.word, streamSetFormat, Format.code]; bits)
  · intro c h1 h2
    obtain h | h : c < 4 ∨ 4 ≤ c := by omega
    · have : c = 1 ∨ c = 2 ∨ c = 3 := by omega
      rcases this with rfl | rfl | rfl <;> cases f <;>
        (simp only [Packet.byteAt, Packet.word, streamSetFormat, Format.code]; bits)
    · have : (c / 4) = 1 ∨ (c / 4) = 2 ∨ (c / 4) = 3 := by omega
      rw [Packet.byteAt_eq, Packet.byteAt_eq]
      rcases this with e | e | e <;> rw [e] <;> rfl

example : streamFormat (streamSetFormat (streamMessage 0x03 .start) .fin) = .fin ∧
    streamSetFormat (streamMessage 0x03 .start) .fin = streamMessage 0x03 .fin := by decide

/-! ## Reset and construction -/

/-- C66: `reset()` makes all sixteen bytes zero, and the packet equal to a default constructed one. -/
theorem C66_reset (p : Packet) : (∀ b, b < 16 → p.reset.getByte b = .ok 0) ∧ p.reset.eqv {} = true := by
  refine ⟨fun b hb => ?_, ?_⟩
  · rw [Packet.getByte_lt _ hb]
    have : p.reset = ⟨0, 0, 0, 0⟩ := rfl
    rw [this]
    revert b; decide
  · exact (C03_equivalence).1 _

/-- C66: a packet made of up to four words has these words, and zero behind them. -/
theorem C66_of_words (ws : List Word) (h : ws.length ≤ 4) (i : Nat) (hi : i < 4) :
    (Packet.ofWords ws).word i = ws.getD i 0 := by
  have : i = 0 ∨ i = 1 ∨ i = 2 ∨ i = 3 := by omega
  match ws, h with
  | [], _ => rcases this with rfl | rfl | rfl | rfl <;> rfl
  | [_], _ => rcases this with rfl | rfl | rfl | rfl <;> rfl
  | [_, _], _ => rcases this with rfl | rfl | rfl | rfl <;> rfl
  | [_, _, _], _ => rcases this with rfl | rfl | rfl | rfl <;> rfl
  | [_, _, _, _], _ => rcases this with rfl | rfl | rfl | rfl <;> rfl

example : Packet.ofWords [0x40906000, 0x12345678] = { w0 := 0x40906000, w1 := 0x12345678 } := rfl

/-- C54: default constructed messages. Utility, system, data, extended data, flex data and stream messages are messages of
their kind; a default constructed sysex packet is complete and has no payload. A default constructed message of the channel voice classes
is none: it is a utility message (a NOOP). -/
theorem C54_default_constructed :
    utilityDefault.isUtility = true ∧ systemDefault.isSystem = true ∧
    isDataMessage dataDefault = true ∧ isSysex7Packet dataDefault = true ∧ payload7 dataDefault = [] ∧
    formatCode dataDefault = 0 ∧ dataDefault.group = 0 ∧ systemDefault.group = 0 ∧
    isExtendedDataMessage extendedDataDefault = true ∧ isSysex8Packet extendedDataDefault = false ∧
    isSysex8Packet sysex8Default = true ∧ payload8 sysex8Default = [] ∧ stream8 sysex8Default = 0 ∧
    sysex8Format sysex8Default = .complete ∧
    (∀ s, isExtendedDataMessage (extendedDataMessage s) = true ∧ (extendedDataMessage s).status = s) ∧
    (∀ g, g < 16 → isFlexDataMessage (flexDefault g) = true ∧ flexGroup (flexDefault g) = g ∧
      flexFormat (flexDefault g) = .complete) ∧
    isStreamMessage streamDefault = true ∧ streamFormat streamDefault = .complete ∧ streamDefault.group = 0 ∧
    isMidi1CV midi1CVDefault = false ∧ isMidi2CV midi2CVDefault = false ∧
    midi1CVDefault.isUtility = true ∧ midi2CVDefault.isUtility = true := by
  refine ⟨by decide, by decide, by decide, by decide, by decide, by decide, by decide, by decide, by decide, by decide,
    by decide, by decide, by decide, by decide, fun s => ⟨?_, ?_⟩, fun g hg => ?_, by decide, by decide, by decide, by decide, by decide, by decide, by decide⟩
  · revert s; decide +kernel
  · revert s; decide +kernel
  · revert g; decide +kernel

/-- C13: constructing a MIDI 2 channel voice message from a packet accepts exactly the packets of type 4, and keeps them. -/
theorem C13_of_packet (p : Packet) :
    (messageType p = 4 → midi2OfPacket p = .ok p) ∧ (messageType p ≠ 4 → midi2OfPacket p = .error .assertFailed) := by
  have e : isMidi2CV p = decide (messageType p = 4) := (C54_message_types p).2.2.2.2.2.1
  unfold isMidi2CV at e
  unfold midi2OfPacket
  refine ⟨fun h => ?_, fun h => ?_⟩
  · rw [assert_ok (by rw [e]; simpa using h)]; rfl
  · rw [assert_fail (by rw [e]; simpa using h)]; rfl

/-- C13: the predicates for pitch bend sensitivity hold exactly for registered controllers of bank 0 with index 0, and 7 for
the sensitivity of per note pitch bend. -/
theorem C13_sensitivity_predicates (p : Packet) :
    (isPitchBendSensitivity p = true ↔ messageType p = 4 ∧ (p.byteAt 1).toNat / 16 = 2 ∧ p.byteAt 2 = 0 ∧ p.byteAt 3 = 0) ∧
    (isPerNotePitchBendSensitivity p = true ↔
      messageType p = 4 ∧ (p.byteAt 1).toNat / 16 = 2 ∧ p.byteAt 2 = 0 ∧ p.byteAt 3 = 7) := by
  have hst : ∀ s : Byte, (s &&& 0xF0 = (0x20 : Byte)) ↔ s.toNat / 16 = 2 := by decide +kernel
  have e : isMidi2CV p = decide (messageType p = 4) := (C54_message_types p).2.2.2.2.2.1
  unfold isPitchBendSensitivity isPerNotePitchBendSensitivity isRegistered
  rw [e, Packet.status_eq, Packet.byte3_eq, Packet.byte4_eq]
  simp only [CVStatus.registered, Bool.and_eq_true, beq_iff_eq, decide_eq_true_eq, hst]
  tauto

/-- C13: the sensitivity in a registered controller message. The sensitivity of pitch bend has seven bits of semitones and
seven bits of fraction: the lower 18 bits of the value are ignored. That of per note pitch bend uses all 32 bits. -/
theorem C13_sensitivity_values (g c : Byte) (v : Word) :
    isPitchBendSensitivity (makeRegistered g c 0 0 v) = true ∧
    (pitchBendSensitivityValue (makeRegistered g c 0 0 v)).toNat = v.toNat / 2 ^ 18 * 2 ^ 18 ∧
    isPerNotePitchBendSensitivity (makeRegistered g c 0 7 v) = true ∧
    perNotePitchBendSensitivityValue (makeRegistered g c 0 7 v) = v := by
  have r : ∀ b i, isRegistered (makeRegistered g c b i v) = true := by
    intro b i
    simp only [isRegistered, isMidi2CV, makeRegistered, type_midi2Message, status_midi2Message, status_hi,
      PacketType.midi2ChannelVoice, CVStatus.registered]
    decide
  refine ⟨?_, ?_, ?_, rfl⟩
  · simp only [isPitchBendSensitivity, r]; simp [makeRegistered, byte3_midi2Message, byte4_midi2Message]
  · have e : v &&& (0xFFFC0000 : Word) = (v >>> 18) <<< 18 := by bits
    rw [pitchBendSensitivityValue, makeRegistered, w1_midi2Message, e]
    simp only [BitVec.toNat_shiftLeft, BitVec.toNat_ushiftRight, Nat.shiftRight_eq_div_pow, Nat.shiftLeft_eq]
    have := v.isLt
    omega
  · simp only [isPerNotePitchBendSensitivity, r]; simp [makeRegistered, byte3_midi2Message, byte4_midi2Message]

/-! A sensitivity of 2 semitones and a very small fraction, which is lost. -/
example : pitchBendSensitivityValue (makeRegistered 0 3 0 0 0x04000001) = 0x04000000 ∧
    perNotePitchBendSensitivityValue (makeRegistered 0 3 0 7 0x04000001) = 0x04000001 := by decide

/-! ## Collected packets of sysex messages -/

/-- C17: what `as_sysex7_packets` returns, for every message. -/
theorem C17_as_packets (s : Sysex) (g : Byte) (hg : g < 16) :
    ∃ ps, asSysex7Packets s g = .ok ps ∧
      (∀ p ∈ ps, IsSysex7 p ∧ groupOf p = g.toNat ∧ payload7 p ≠ []) ∧
      (Framed (ps.map formatCode) ↔ ¬ BadLength7 s) ∧
      (∀ p ∈ ps.dropLast, (payload7 p).length = 6) ∧
      ps.flatMap payload7 = sentId7 s.manufacturerID ++ s.data.map (· &&& 0x7F) := C17_any_id s g hg

example := C17_as_packets ⟨0x002109, [1, 2, 3, 4]⟩ 7 (by decide)

/-- C19: what `as_sysex8_packets` returns, for every message. -/
theorem C19_as_packets (s : Sysex) (st g : Byte) (hg : g < 16) :
    ∃ ps, asSysex8Packets s st g = .ok ps ∧
      (∀ p ∈ ps, IsSysex8 p ∧ groupOf p = g.toNat ∧ stream8 p = st ∧ payload8 p ≠ []) ∧
      (Framed (ps.map formatCode) ↔ ¬ BadCount8 s) ∧
      (∀ p ∈ ps.dropLast, (payload8 p).length = 13) ∧
      ps.flatMap payload8 = sentId8 s.manufacturerID ++ s.data := C19_any_id s st g hg

example := C19_as_packets ⟨0x002109, [1, 2, 3, 4]⟩ 5 7 (by decide)

end Midi
