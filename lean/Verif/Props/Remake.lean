import Verif.Lemmas.Remake
import Verif.Props.Scaling

/-!
# Property C89: messages can be made again from what is read from them

A packet is read with the view or the getters of its kind, and the values are passed to the factory for the kind. The
packet made compares equal to the one read exactly if the reserved bits of the packet are clear.
-/

namespace Midi
open Packet

/-! ## Utility and system messages -/

/-- C89: a utility message made from status and payload of a utility message is equal to it exactly if the reserved
bits, which are those of the group, are clear. -/
theorem C89_utility (p : Packet) (ht : p.type = 0) :
    p.eqv (makeUtility (utilityStatus p) (utilityPayload p)) = true ↔ p.group = 0 := by
  rw [eqv_one_word (size_of_type ht), makeUtility_eq, w0_eq p, wordOf_inj, ht, utilityStatus, utilityPayload]
  have h3 : (((p.byte3.setWidth 16 <<< 8) ||| p.byte4.setWidth 16 : U16) >>> 8).setWidth 8 = p.byte3 := by
    generalize p.byte3 = a; generalize p.byte4 = b; bits
  have h4 : ((p.byte3.setWidth 16 <<< 8) ||| p.byte4.setWidth 16 : U16).setWidth 8 = p.byte4 := by
    generalize p.byte3 = a; generalize p.byte4 = b; bits
  rw [h3, h4]
  simp

example : (⟨0x00201234, 0, 0, 0⟩ : Packet).type = 0 := by decide
example : (⟨0x00201234, 0, 0, 0⟩ : Packet).eqv (makeUtility 0x20 0x1234) = true := by decide

/-- C89: a system message made from the values its view returns is equal to it exactly if both data bytes have seven
bits. -/
theorem C89_system (p : Packet) (ht : p.type = 1) :
    p.eqv (makeSystem p.group p.status (systemData1 p) (systemData2 p)) = true ↔ p.byte3 < 0x80 ∧ p.byte4 < 0x80 := by
  rw [system_remake ht, systemData1, systemData2, eq_and7F, eq_and7F]
  simp

example : (⟨0x14F31200, 0, 0, 0⟩ : Packet).type = 1 := by decide

/-- C89: a song position message made from the position read is equal to the message read exactly if both data bytes
have seven bits. -/
theorem C89_song_position (p : Packet) (ht : p.type = 1) (hs : p.status = 0xF2) :
    p.eqv (makeSongPosition p.group (songPositionOf p)) = true ↔ p.byte3 < 0x80 ∧ p.byte4 < 0x80 := by
  rw [makeSongPosition, system_remake ht, songPositionOf,
    if_pos (show p.status = SystemStatus.songPosition from hs), systemData1, systemData2, hs]
  have e1 : (((p.byte3 &&& 0x7F).setWidth 16 ||| ((p.byte4 &&& 0x7F).setWidth 16 <<< 7) : U16) &&& 0x7F).setWidth 8 =
      p.byte3 &&& 0x7F := by generalize p.byte3 = a; generalize p.byte4 = b; bits
  have e2 : ((((p.byte3 &&& 0x7F).setWidth 16 ||| ((p.byte4 &&& 0x7F).setWidth 16 <<< 7) : U16) >>> 7) &&& 0x7F).setWidth 8 =
      p.byte4 &&& 0x7F := by generalize p.byte3 = a; generalize p.byte4 = b; bits
  rw [e1, e2, eq_and7F, eq_and7F]
  simp [SystemStatus.songPosition]

example : (⟨0x14F21234, 0, 0, 0⟩ : Packet).type = 1 ∧ (⟨0x14F21234, 0, 0, 0⟩ : Packet).status = 0xF2 := by decide
example : (⟨0x14F21234, 0, 0, 0⟩ : Packet).eqv (makeSongPosition 4 (0x12 + 0x34 * 128)) = true := by decide

/-! ## MIDI 1 channel voice messages -/

/-- C89: a MIDI 1 channel voice message made from the values its view returns is equal to it exactly if both data bytes
have seven bits. -/
theorem C89_midi1 (p : Packet) (ht : p.type = 2) :
    p.eqv (makeMidi1 p.group (midi1Status p) (midi1Channel p) (midi1Data1 p) (midi1Data2 p)) = true ↔
      p.byte3 < 0x80 ∧ p.byte4 < 0x80 := by
  rw [makeMidi1, midi1_remake ht, midi1Status, midi1Channel, midi1Data1, midi1Data2, and7F_and7F, and7F_and7F, eq_and7F,
    eq_and7F]
  have e : (p.status &&& 0xF0 ||| p.status &&& 0x0F &&& 0x0F) = p.status := by generalize p.status = x; bits
  rw [e]; simp

/-- The status of a channel voice message from its opcode and its channel. -/
private theorem status_of {s : Byte} {n : Nat} {k : Byte} (h : s.toNat / 16 = n) (hk : k = BitVec.ofNat 8 (16 * n)) :
    s = k ||| (s &&& 0x0F &&& 0x0F) := by
  rw [hk, ← hi_of_div h]; bits

/-- C89: MIDI 1 Note Off, Poly Pressure and Control Change messages, made from the note or controller number and the
(16 or 32 bit) value read, are equal to the message read exactly if both data bytes have seven bits. -/
theorem C89_midi1_values (p : Packet) (ht : p.type = 2) :
    (p.status.toNat / 16 = 8 →
      (p.eqv (makeMidi1NoteOff p.group (midi1Channel p) (noteNr p) (noteVelocity p)) = true ↔
        p.byte3 < 0x80 ∧ p.byte4 < 0x80)) ∧
    (p.status.toNat / 16 = 0xA →
      (p.eqv (makeMidi1PolyPressure p.group (midi1Channel p) (noteNr p) (controllerValue p)) = true ↔
        p.byte3 < 0x80 ∧ p.byte4 < 0x80)) ∧
    (p.status.toNat / 16 = 0xB →
      (p.eqv (makeMidi1ControlChange p.group (midi1Channel p) (controllerNr p) (controllerValue p)) = true ↔
        p.byte3 < 0x80 ∧ p.byte4 < 0x80)) := by
  have hv := C06_round_trip_7 (p.byte4 &&& 0x7F) (and7F_lt _)
  have hc : controllerAs7 (controllerValue p) = p.byte4 &&& 0x7F := by
    rw [controllerValue, if_pos (show p.type = PacketType.midi1ChannelVoice from ht), hv.2]
  refine ⟨fun hs => ?_, fun hs => ?_, fun hs => ?_⟩
  · have hn : ¬ (p.status &&& 0xF0 = 0x90) := by rw [hi_of_div hs]; decide
    have hv' : velocityAs7 (noteVelocity p) = p.byte4 &&& 0x7F := by
      rw [noteVelocity, if_neg (by rw [ht]; decide), if_neg (fun k => hn k.2.1), hv.1]
    rw [makeMidi1NoteOff, makeMidi1, midi1_remake ht, hv', noteNr, midi1Channel, and7F_and7F, and7F_and7F, eq_and7F,
      eq_and7F]
    simp only [and_iff_right_iff_imp]
    exact fun _ => status_of hs rfl
  · rw [makeMidi1PolyPressure, makeMidi1, midi1_remake ht, hc, noteNr, midi1Channel, and7F_and7F, and7F_and7F, eq_and7F,
      eq_and7F]
    simp only [and_iff_right_iff_imp]
    exact fun _ => status_of hs rfl
  · rw [makeMidi1ControlChange, makeMidi1, midi1_remake ht, hc, controllerNr, midi1Channel, and7F_and7F, and7F_and7F,
      eq_and7F, eq_and7F]
    simp only [and_iff_right_iff_imp]
    exact fun _ => status_of hs rfl

example : (⟨0x23856440, 0, 0, 0⟩ : Packet).type = 2 ∧ (⟨0x23856440, 0, 0, 0⟩ : Packet).status.toNat / 16 = 8 := by decide

/-- C89: a message with the opcode of Note On, made from the note and velocity read, is equal to the message read exactly
if both data bytes have seven bits and the velocity byte is not zero, that is, if it is a Note On. -/
theorem C89_midi1_note_on (p : Packet) (ht : p.type = 2) (hs : p.status.toNat / 16 = 9) :
    p.eqv (makeMidi1NoteOn p.group (midi1Channel p) (noteNr p) (noteVelocity p)) = true ↔
      p.byte3 < 0x80 ∧ p.byte4 < 0x80 ∧ p.byte4 ≠ 0 := by
  have hn : p.status &&& 0xF0 = 0x90 := by rw [hi_of_div hs]; decide
  rw [makeMidi1NoteOn, makeMidi1, midi1_remake ht, noteNr, midi1Channel, and7F_and7F, eq_and7F]
  have e := status_of hs (k := CVStatus.noteOn) rfl
  by_cases h0 : p.byte4 = 0
  · have hv : velocityAs7 (noteVelocity p) = 64 := by
      rw [noteVelocity, if_neg (by rw [ht]; decide), if_pos ⟨ht, hn, h0⟩]; decide
    rw [hv, h0]
    simp
  · have hv : velocityAs7 (noteVelocity p) = p.byte4 &&& 0x7F := by
      rw [noteVelocity, if_neg (by rw [ht]; decide), if_neg (fun k => h0 k.2.2), (C06_round_trip_7 _ (and7F_lt _)).1]
    rw [hv, and7F_and7F, eq_and7F]
    exact ⟨fun k => ⟨k.2.1, k.2.2, h0⟩, fun k => ⟨e, k.1, k.2.1⟩⟩

/-- C89: a Note On with velocity zero is a Note Off; made again as a Note Off, from the note and velocity read, it is the
Note Off of the same group, channel and note with velocity 64. -/
theorem C89_midi1_note_on_zero (p : Packet) (ht : p.type = 2) (hs : p.status.toNat / 16 = 9) (h3 : p.byte3 < 0x80)
    (h4 : p.byte4 = 0) :
    isNoteOff p = true ∧
      ∃ q, makeMidi1NoteOff p.group (midi1Channel p) (noteNr p) (noteVelocity p) = q ∧ q.type = 2 ∧ q.group = p.group ∧
        q.status.toNat / 16 = 8 ∧ q.status &&& 0x0F = p.status &&& 0x0F ∧ q.byte3 = p.byte3 ∧ q.byte4 = 64 := by
  have hn : p.status &&& 0xF0 = 0x90 := by rw [hi_of_div hs]; decide
  have hv : velocityAs7 (noteVelocity p) = 64 := by
    rw [noteVelocity, if_neg (by rw [ht]; decide), if_pos ⟨ht, hn, h4⟩]; decide
  refine ⟨?_, _, rfl, ?_⟩
  · rw [isNoteOff]
    split
    · rfl
    · rw [ht, hn, h4]; decide
  rw [makeMidi1NoteOff, makeMidi1, hv, midi1Message_eq, type_wordOf, group_wordOf, status_wordOf, byte3_wordOf,
    byte4_wordOf, noteNr, midi1Channel, and7F_and7F, and7F_of_lt h3]
  refine ⟨typ_or 2 p.group (by decide), by rw [grp_or, group_and], ?_, ?_, rfl, by decide⟩
  · generalize p.status = x; revert x; decide +kernel
  · generalize p.status = x; revert x; decide +kernel

example : (⟨0x23956400, 0, 0, 0⟩ : Packet).type = 2 ∧ (⟨0x23956400, 0, 0, 0⟩ : Packet).status.toNat / 16 = 9 ∧
    (⟨0x23956400, 0, 0, 0⟩ : Packet).byte3 < 0x80 ∧ (⟨0x23956400, 0, 0, 0⟩ : Packet).byte4 = 0 := by decide

/-- C89: Program Change and Channel Pressure have one data byte: made again from the value read, they are equal to the
message read exactly if it has seven bits and the reserved byte is zero. -/
theorem C89_midi1_one_byte (p : Packet) (ht : p.type = 2) :
    (p.status.toNat / 16 = 0xC →
      (p.eqv (makeMidi1ProgramChange p.group (midi1Channel p) (programValue p)) = true ↔ p.byte3 < 0x80 ∧ p.byte4 = 0)) ∧
    (p.status.toNat / 16 = 0xD →
      (p.eqv (makeMidi1ChannelPressure p.group (midi1Channel p) (channelPressureValue p)) = true ↔
        p.byte3 < 0x80 ∧ p.byte4 = 0)) := by
  have ht' : p.type = PacketType.midi1ChannelVoice := ht
  refine ⟨fun hs => ?_, fun hs => ?_⟩
  · rw [makeMidi1ProgramChange, makeMidi1, midi1_remake ht, programValue, if_pos ht', midi1Channel, and7F_and7F, eq_and7F]
    exact ⟨fun h => h.2, fun h => ⟨status_of hs rfl, h⟩⟩
  · rw [makeMidi1ChannelPressure, makeMidi1, midi1_remake ht, channelPressureValue, if_pos ht', midi1Channel,
      (C06_round_trip_7 _ (and7F_lt _)).2, and7F_and7F, eq_and7F]
    exact ⟨fun h => h.2, fun h => ⟨status_of hs rfl, h⟩⟩

example : (⟨0x23C56400, 0, 0, 0⟩ : Packet).type = 2 ∧ (⟨0x23C56400, 0, 0, 0⟩ : Packet).status.toNat / 16 = 0xC := by decide

/-- C89: a Pitch Bend message with data bytes of seven bits, made again from the value read, is equal to the message
read. -/
theorem C89_midi1_pitch_bend (p : Packet) (ht : p.type = 2) (hs : p.status.toNat / 16 = 0xE) (h3 : p.byte3 < 0x80)
    (h4 : p.byte4 < 0x80) :
    ∃ v, pitchBendValue p = .ok v ∧ p.eqv (makeMidi1PitchBend p.group (midi1Channel p) v) = true := by
  have hb : (p.byte3.setWidth 16 ||| (p.byte4.setWidth 16 <<< 7) : U16).toNat < 2 ^ 14 := by
    have e : (p.byte3.setWidth 16 ||| (p.byte4.setWidth 16 <<< 7) : U16) =
        (p.byte3.setWidth 16 ||| (p.byte4.setWidth 16 <<< 7) : U16) &&& 0x3FFF := by
      rw [← and7F_of_lt h3, ← and7F_of_lt h4]
      generalize p.byte3 = a; generalize p.byte4 = b; bits
    rw [e, BitVec.toNat_and]
    exact Nat.lt_of_le_of_lt Nat.and_le_right (by decide)
  obtain ⟨v, hv, _, hb, _⟩ := C06_round_trip_14 _ hb
  refine ⟨v, by rw [pitchBendValue, if_pos (show p.type = PacketType.midi1ChannelVoice from ht), hv], ?_⟩
  rw [makeMidi1PitchBend]
  simp only [hb]
  rw [makeMidi1, midi1_remake ht]
  have e1 : ((p.byte3.setWidth 16 ||| (p.byte4.setWidth 16 <<< 7) : U16) &&& 0x7F).setWidth 8 &&& 0x7F = p.byte3 := by
    conv => rhs; rw [← and7F_of_lt h3]
    generalize p.byte3 = a; generalize p.byte4 = b; bits
  have e2 : (((p.byte3.setWidth 16 ||| (p.byte4.setWidth 16 <<< 7) : U16) >>> 7) &&& 0x7F).setWidth 8 &&& 0x7F =
      p.byte4 := by
    conv => lhs; rw [← and7F_of_lt h3]
    conv => rhs; rw [← and7F_of_lt h4]
    generalize p.byte3 = a; generalize p.byte4 = b; bits
  exact ⟨status_of hs rfl, e1.symm, e2.symm⟩

example : (⟨0x23E56477, 0, 0, 0⟩ : Packet).type = 2 ∧ (⟨0x23E56477, 0, 0, 0⟩ : Packet).status.toNat / 16 = 0xE ∧
    (⟨0x23E56477, 0, 0, 0⟩ : Packet).byte3 < 0x80 ∧ (⟨0x23E56477, 0, 0, 0⟩ : Packet).byte4 < 0x80 := by decide

/-! ## MIDI 2 channel voice messages -/

/-- C89: a MIDI 2 channel voice message made from the values its view returns is equal to it exactly if its third and
fourth byte have seven bits. The fourth byte may use all eight: see `C89_midi2_view_loses_bit`. -/
theorem C89_midi2_partial (p : Packet) (ht : p.type = 4) :
    p.eqv (midi2Message p.group (midi2Status p) (midi2Channel p) (midi2Byte3 p) (midi2Byte4 p) (midi2Data p)) = true ↔
      p.byte3 < 0x80 ∧ p.byte4 < 0x80 := by
  rw [midi2Channel, midi2_remake ht, midi2Status, midi2Byte3, midi2Byte4, midi2Data, eq_and7F, eq_and7F]
  have e : p.status &&& 0xF0 = p.status &&& 0xF0 &&& 0xF0 := by generalize p.status = x; bits
  simp only [← e, true_and, and_true]

example := C89_midi2_partial ⟨0x43953C02, 0x12345678, 2, 3⟩ rfl

/-- C89, where it fails: messages which differ in the number of a registered per-note controller, or in the type of the
attribute of a note, can not be told apart by the values the view returns, and the message made from them is not equal
to the one read. -/
theorem C89_midi2_view_loses_bit :
    (∃ p q : Packet, p = makeRegisteredPerNote 1 2 60 0x03 0x12345678 ∧ q = makeRegisteredPerNote 1 2 60 0x83 0x12345678 ∧
      p.eqv q = false ∧ perNoteControllerIndex p ≠ perNoteControllerIndex q ∧ p.group = q.group ∧
      midi2Status p = midi2Status q ∧ midi2Channel p = midi2Channel q ∧ midi2Byte3 p = midi2Byte3 q ∧
      midi2Byte4 p = midi2Byte4 q ∧ midi2Data p = midi2Data q) ∧
    (∃ p q : Packet, p = makeMidi2NoteOnAttribute 1 2 60 0x8000 0x02 7 ∧ q = makeMidi2NoteOnAttribute 1 2 60 0x8000 0x82 7 ∧
      p.eqv q = false ∧ noteAttribute p ≠ noteAttribute q ∧ p.group = q.group ∧
      midi2Status p = midi2Status q ∧ midi2Channel p = midi2Channel q ∧ midi2Byte3 p = midi2Byte3 q ∧
      midi2Byte4 p = midi2Byte4 q ∧ midi2Data p = midi2Data q) := by
  exact ⟨⟨_, _, rfl, rfl, by decide⟩, ⟨_, _, rfl, rfl, by decide⟩⟩

/-- The opcode of a MIDI 2 message. -/
private theorem opcode_of {s : Byte} {n : Nat} {k : Byte} (h : s.toNat / 16 = n) (hk : k = BitVec.ofNat 8 (16 * n))
    (hk' : k &&& 0xF0 = k) : s &&& 0xF0 = k &&& 0xF0 := by
  rw [hi_of_div h, hk', hk]

private theorem noteData_read (w : Word) : noteData ((w >>> 16).setWidth 16) ((w &&& 0xFFFF).setWidth 16) = w := by
  rw [noteData]; bits

/-- C89: notes, made again from note number, velocity, attribute type and attribute data, are equal to the message read
exactly if the reserved bit next to the note number is clear. -/
theorem C89_midi2_notes (p : Packet) (ht : p.type = 4) :
    (p.status.toNat / 16 = 8 →
      (p.eqv (makeMidi2NoteOff p.group (midi2Channel p) (noteNr p) (noteVelocity p) (noteAttribute p)
        (noteAttributeData p)) = true ↔ p.byte3 < 0x80)) ∧
    (p.status.toNat / 16 = 9 →
      (p.eqv (makeMidi2NoteOnAttribute p.group (midi2Channel p) (noteNr p) (noteVelocity p) (noteAttribute p)
        (noteAttributeData p)) = true ↔ p.byte3 < 0x80)) := by
  have hv : noteVelocity p = (p.w1 >>> 16).setWidth 16 := by
    rw [noteVelocity, if_pos (show p.type = PacketType.midi2ChannelVoice from ht)]
  refine ⟨fun hs => ?_, fun hs => ?_⟩
  · rw [makeMidi2NoteOff, midi2Channel, midi2_remake ht, hv, noteAttribute, noteAttributeData, noteData_read, noteNr,
      and7F_and7F, eq_and7F]
    exact ⟨fun h => h.2.1, fun h => ⟨opcode_of hs rfl rfl, h, rfl, rfl⟩⟩
  · rw [makeMidi2NoteOnAttribute, midi2Channel, midi2_remake ht, hv, noteAttribute, noteAttributeData, noteData_read, noteNr,
      eq_and7F]
    exact ⟨fun h => h.2.1, fun h => ⟨opcode_of hs rfl rfl, h, rfl, rfl⟩⟩

example : (⟨0x43853C81, 0x12345678, 0, 0⟩ : Packet).type = 4 ∧
    (⟨0x43853C81, 0x12345678, 0, 0⟩ : Packet).status.toNat / 16 = 8 := by decide

/-- C89: a Note On with pitch, made again from note number, velocity and pitch, is equal to the message read exactly if
the reserved bit next to the note number is clear; a Note On made again from note number and velocity only is equal
to the message read exactly if that has no attribute. -/
theorem C89_midi2_note_on_variants (p : Packet) (ht : p.type = 4) (hs : p.status.toNat / 16 = 9) :
    (isNoteOnWithPitch79 p = true →
      (p.eqv (makeMidi2NoteOnPitch p.group (midi2Channel p) (noteNr p) (noteVelocity p) (notePitch p)) = true ↔
        p.byte3 < 0x80)) ∧
    (p.eqv (makeMidi2NoteOn p.group (midi2Channel p) (noteNr p) (noteVelocity p)) = true ↔
      p.byte3 < 0x80 ∧ noteAttribute p = 0 ∧ noteAttributeData p = 0) := by
  have hv : noteVelocity p = (p.w1 >>> 16).setWidth 16 := by
    rw [noteVelocity, if_pos (show p.type = PacketType.midi2ChannelVoice from ht)]
  have ho : p.status &&& 0xF0 = 0x90 := by rw [hi_of_div hs]; decide
  refine ⟨fun h9 => ?_, ?_⟩
  · have h4 : p.byte4 = 3 := by
      simp only [isNoteOnWithPitch79, isNoteOnWithAttribute, Bool.and_eq_true, beq_iff_eq] at h9
      exact h9.2
    rw [makeMidi2NoteOnPitch, midi2Channel, midi2_remake ht, hv, notePitch, if_pos ⟨ht, ho, h4⟩, noteData_read, noteNr,
      eq_and7F]
    exact ⟨fun h => h.2.1, fun h => ⟨opcode_of hs rfl rfl, h, h4, rfl⟩⟩
  · rw [makeMidi2NoteOn, midi2Channel, midi2_remake ht, hv, noteNr, eq_and7F, noteAttribute, noteAttributeData]
    have e : (p.w1 = ((p.w1 >>> 16).setWidth 16 : U16).setWidth 32 <<< 16) ↔ ((p.w1 &&& 0xFFFF).setWidth 16 : U16) = 0 := by
      generalize p.w1 = w
      constructor
      · intro h; rw [h]; bits
      · intro h
        have hw := noteData_read w
        rw [h] at hw
        conv => lhs; rw [← hw]
        rw [noteData]; simp
    rw [e]
    exact ⟨fun h => h.2, fun h => ⟨opcode_of hs rfl rfl, h⟩⟩

example : (⟨0x43953C03, 0x12345678, 0, 0⟩ : Packet).type = 4 ∧
    (⟨0x43953C03, 0x12345678, 0, 0⟩ : Packet).status.toNat / 16 = 9 ∧
    isNoteOnWithPitch79 ⟨0x43953C03, 0x12345678, 0, 0⟩ = true := by decide

/-- C89: per-note controllers, made again from note number, controller number and value, are equal to the message read
exactly if the reserved bit next to the note number is clear; per-note pitch bend and poly pressure, exactly if the
reserved fourth byte is zero as well; per-note management, exactly if the reserved second word and the top bit of the
flags are zero as well. -/
theorem C89_midi2_per_note (p : Packet) (ht : p.type = 4) :
    (p.status.toNat / 16 = 0 →
      (p.eqv (makeRegisteredPerNote p.group (midi2Channel p) (noteNr p) (perNoteControllerIndex p) (controllerValue p)) =
        true ↔ p.byte3 < 0x80)) ∧
    (p.status.toNat / 16 = 1 →
      (p.eqv (makeAssignablePerNote p.group (midi2Channel p) (noteNr p) (perNoteControllerIndex p) (controllerValue p)) =
        true ↔ p.byte3 < 0x80)) ∧
    (p.status.toNat / 16 = 6 →
      (p.eqv (makePerNotePitchBend p.group (midi2Channel p) (noteNr p) (perNotePitchBendValue p)) = true ↔
        p.byte3 < 0x80 ∧ p.byte4 = 0)) ∧
    (p.status.toNat / 16 = 0xA →
      (p.eqv (makeMidi2PolyPressure p.group (midi2Channel p) (noteNr p) (controllerValue p)) = true ↔
        p.byte3 < 0x80 ∧ p.byte4 = 0)) ∧
    (p.status.toNat / 16 = 0xF →
      (p.eqv (makePerNoteManagement p.group (midi2Channel p) (noteNr p) (midi2Byte4 p)) = true ↔
        p.byte3 < 0x80 ∧ p.byte4 < 0x80 ∧ p.w1 = 0)) := by
  have hc : controllerValue p = p.w1 := by rw [controllerValue, if_neg (by rw [ht]; decide)]
  refine ⟨fun hs => ?_, fun hs => ?_, fun hs => ?_, fun hs => ?_, fun hs => ?_⟩
  · rw [makeRegisteredPerNote, midi2Channel, midi2_remake ht, noteNr, perNoteControllerIndex, hc, eq_and7F]
    exact ⟨fun h => h.2.1, fun h => ⟨opcode_of hs rfl rfl, h, rfl, rfl⟩⟩
  · rw [makeAssignablePerNote, midi2Channel, midi2_remake ht, noteNr, perNoteControllerIndex, hc, eq_and7F]
    exact ⟨fun h => h.2.1, fun h => ⟨opcode_of hs rfl rfl, h, rfl, rfl⟩⟩
  · rw [makePerNotePitchBend, midi2Channel, midi2_remake ht, noteNr, perNotePitchBendValue, eq_and7F]
    exact ⟨fun h => ⟨h.2.1, h.2.2.1⟩, fun h => ⟨opcode_of hs rfl rfl, h.1, h.2, rfl⟩⟩
  · rw [makeMidi2PolyPressure, midi2Channel, midi2_remake ht, noteNr, hc, eq_and7F]
    exact ⟨fun h => ⟨h.2.1, h.2.2.1⟩, fun h => ⟨opcode_of hs rfl rfl, h.1, h.2, rfl⟩⟩
  · rw [makePerNoteManagement, midi2Channel, midi2_remake ht, noteNr, midi2Byte4, eq_and7F, eq_and7F]
    exact ⟨fun h => h.2, fun h => ⟨opcode_of hs rfl rfl, h⟩⟩

example : (⟨0x43053C83, 0x12345678, 0, 0⟩ : Packet).type = 4 ∧
    (⟨0x43053C83, 0x12345678, 0, 0⟩ : Packet).status.toNat / 16 = 0 := by decide

/-- C89: the controllers of a channel. -/
theorem C89_midi2_controllers (p : Packet) (ht : p.type = 4) :
    (p.status.toNat / 16 = 0xB →
      (p.eqv (makeMidi2ControlChange p.group (midi2Channel p) (controllerNr p) (controllerValue p)) = true ↔
        p.byte3 < 0x80 ∧ p.byte4 = 0)) ∧
    (p.status.toNat / 16 = 2 →
      (p.eqv (makeRegistered p.group (midi2Channel p) (midi2Byte3 p) (midi2Byte4 p) (controllerValue p)) = true ↔
        p.byte3 < 0x80 ∧ p.byte4 < 0x80)) ∧
    (p.status.toNat / 16 = 3 →
      (p.eqv (makeAssignable p.group (midi2Channel p) (midi2Byte3 p) (midi2Byte4 p) (controllerValue p)) = true ↔
        p.byte3 < 0x80 ∧ p.byte4 < 0x80)) ∧
    (p.status.toNat / 16 = 4 →
      (p.eqv (makeRelativeRegistered p.group (midi2Channel p) (midi2Byte3 p) (midi2Byte4 p) (midi2Data p)) = true ↔
        p.byte3 < 0x80 ∧ p.byte4 < 0x80)) ∧
    (p.status.toNat / 16 = 5 →
      (p.eqv (makeRelativeAssignable p.group (midi2Channel p) (midi2Byte3 p) (midi2Byte4 p) (midi2Data p)) = true ↔
        p.byte3 < 0x80 ∧ p.byte4 < 0x80)) ∧
    (p.status.toNat / 16 = 0xD →
      (p.eqv (makeMidi2ChannelPressure p.group (midi2Channel p) (channelPressureValue p)) = true ↔
        p.byte3 = 0 ∧ p.byte4 = 0)) ∧
    (p.status.toNat / 16 = 0xE →
      ∃ v, pitchBendValue p = .ok v ∧
        (p.eqv (makeMidi2PitchBend p.group (midi2Channel p) v) = true ↔ p.byte3 = 0 ∧ p.byte4 = 0)) := by
  have hn : ¬ p.type = PacketType.midi1ChannelVoice := by rw [ht]; decide
  have hc : controllerValue p = p.w1 := by rw [controllerValue, if_neg hn]
  refine ⟨fun hs => ?_, fun hs => ?_, fun hs => ?_, fun hs => ?_, fun hs => ?_, fun hs => ?_, fun hs => ?_⟩
  · rw [makeMidi2ControlChange, midi2Channel, midi2_remake ht, controllerNr, hc, and7F_and7F, eq_and7F]
    exact ⟨fun h => ⟨h.2.1, h.2.2.1⟩, fun h => ⟨opcode_of hs rfl rfl, h.1, h.2, rfl⟩⟩
  · rw [makeRegistered, midi2Channel, midi2_remake ht, midi2Byte3, midi2Byte4, hc, and7F_and7F, and7F_and7F, eq_and7F,
      eq_and7F]
    exact ⟨fun h => ⟨h.2.1, h.2.2.1⟩, fun h => ⟨opcode_of hs rfl rfl, h.1, h.2, rfl⟩⟩
  · rw [makeAssignable, midi2Channel, midi2_remake ht, midi2Byte3, midi2Byte4, hc, and7F_and7F, and7F_and7F, eq_and7F,
      eq_and7F]
    exact ⟨fun h => ⟨h.2.1, h.2.2.1⟩, fun h => ⟨opcode_of hs rfl rfl, h.1, h.2, rfl⟩⟩
  · rw [makeRelativeRegistered, midi2Channel, midi2_remake ht, midi2Byte3, midi2Byte4, midi2Data, and7F_and7F, and7F_and7F,
      eq_and7F, eq_and7F]
    exact ⟨fun h => ⟨h.2.1, h.2.2.1⟩, fun h => ⟨opcode_of hs rfl rfl, h.1, h.2, rfl⟩⟩
  · rw [makeRelativeAssignable, midi2Channel, midi2_remake ht, midi2Byte3, midi2Byte4, midi2Data, and7F_and7F, and7F_and7F,
      eq_and7F, eq_and7F]
    exact ⟨fun h => ⟨h.2.1, h.2.2.1⟩, fun h => ⟨opcode_of hs rfl rfl, h.1, h.2, rfl⟩⟩
  · rw [makeMidi2ChannelPressure, midi2Channel, midi2_remake ht, channelPressureValue, if_neg hn]
    exact ⟨fun h => ⟨h.2.1, h.2.2.1⟩, fun h => ⟨opcode_of hs rfl rfl, h.1, h.2, rfl⟩⟩
  · refine ⟨p.w1, by rw [pitchBendValue, if_neg hn], ?_⟩
    rw [makeMidi2PitchBend, midi2Channel, midi2_remake ht]
    exact ⟨fun h => ⟨h.2.1, h.2.2.1⟩, fun h => ⟨opcode_of hs rfl rfl, h.1, h.2, rfl⟩⟩

example : (⟨0x43B54A00, 0x12345678, 0, 0⟩ : Packet).type = 4 ∧
    (⟨0x43B54A00, 0x12345678, 0, 0⟩ : Packet).status.toNat / 16 = 0xB := by decide

/-- C89: a Program Change made again from the program read is equal to the message read exactly if that has no bank and
no reserved bit set: the option bits and the bytes next to the program are zero. With a bank (for which there is no getter)
it is equal to the message made from program and bank exactly if the bank is the one in the last two bytes. -/
theorem C89_midi2_program (p : Packet) (ht : p.type = 4) (hs : p.status.toNat / 16 = 0xC) :
    (p.eqv (makeMidi2ProgramChange p.group (midi2Channel p) (programValue p)) = true ↔
      p.byte3 = 0 ∧ p.byte4 = 0 ∧ p.byteAt 4 < 0x80 ∧ p.byteAt 5 = 0 ∧ p.byteAt 6 = 0 ∧ p.byteAt 7 = 0) ∧
    (∀ b : U16, b.toNat < 2 ^ 14 →
      (p.eqv (makeMidi2ProgramChangeBank p.group (midi2Channel p) (programValue p) b) = true ↔
        p.byte3 = 0 ∧ p.byte4 = 1 ∧ p.byteAt 4 < 0x80 ∧ p.byteAt 5 = 0 ∧ (p.byteAt 6).toNat = b.toNat / 128 ∧
          (p.byteAt 7).toNat = b.toNat % 128)) := by
  have hp : programValue p = p.byteAt 4 &&& 0x7F := by
    rw [programValue, if_neg (by rw [ht]; decide), if_pos (show p.type = PacketType.midi2ChannelVoice from ht)]
    show _ = byteOf p.w1 0 &&& 0x7F
    rw [byteOf]; generalize p.w1 = w; bits
  have hw : p.w1 = wordOf (p.byteAt 4) (p.byteAt 5) (p.byteAt 6) (p.byteAt 7) := (wordOf_byteOf p.w1).symm
  refine ⟨?_, fun b hb => ?_⟩
  · rw [makeMidi2ProgramChange, midi2Channel, midi2_remake ht, hp, hw]
    have e : (p.byteAt 4 &&& 0x7F &&& 0x7F).setWidth 32 <<< 24 = wordOf (p.byteAt 4 &&& 0x7F) 0 0 0 := by
      generalize p.byteAt 4 = x; rw [wordOf]; bits
    rw [e, wordOf_inj, eq_and7F]
    exact ⟨fun h => h.2, fun h => ⟨opcode_of hs rfl rfl, h⟩⟩
  · rw [makeMidi2ProgramChangeBank, midi2Channel, midi2_remake ht, hp, hw]
    have e : (p.byteAt 4 &&& 0x7F &&& 0x7F).setWidth 32 <<< 24 ||| (b &&& 0x3F80).setWidth 32 <<< 1 ||| (b &&& 0x7F).setWidth 32 =
        wordOf (p.byteAt 4 &&& 0x7F) 0 (((b >>> 7) &&& 0x7F).setWidth 8) ((b &&& 0x7F).setWidth 8) := by
      generalize p.byteAt 4 = x; rw [wordOf]; bits
    have e6 : (((b >>> 7) &&& 0x7F).setWidth 8 : Byte).toNat = b.toNat / 128 := by
      rw [BitVec.toNat_setWidth, BitVec.toNat_and, BitVec.toNat_ushiftRight, Nat.shiftRight_eq_div_pow,
        show (0x7F : U16).toNat = 2 ^ 7 - 1 from rfl, Nat.and_two_pow_sub_one_eq_mod]
      omega
    have e7 : ((b &&& 0x7F).setWidth 8 : Byte).toNat = b.toNat % 128 := by
      rw [BitVec.toNat_setWidth, BitVec.toNat_and, show (0x7F : U16).toNat = 2 ^ 7 - 1 from rfl,
        Nat.and_two_pow_sub_one_eq_mod]
      omega
    rw [e, wordOf_inj, eq_and7F, ← e6, ← e7, BitVec.toNat_inj, BitVec.toNat_inj]
    exact ⟨fun h => h.2, fun h => ⟨opcode_of hs rfl rfl, h⟩⟩

example : (⟨0x43C50001, 0x12003456, 0, 0⟩ : Packet).type = 4 ∧
    (⟨0x43C50001, 0x12003456, 0, 0⟩ : Packet).status.toNat / 16 = 0xC := by decide
example : (⟨0x43C50001, 0x12003456, 0, 0⟩ : Packet).eqv (makeMidi2ProgramChangeBank 3 5 0x12 (0x34 * 128 + 0x56)) = true := by
  decide

end Midi
