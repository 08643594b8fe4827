import Verif.Model.Packet
import Verif.Model.Types

/-!
# Utility, system and channel voice messages

Models inc/midi/utility_message.h, inc/midi/system_message.h, inc/midi/midi1_channel_voice_message.h,
inc/midi/midi2_channel_voice_message.h and inc/midi/channel_voice_message.h.

The message classes derive from `universal_packet` and add no data members, so they are modelled by `Packet`. The
`*_view` classes only hold a reference to a packet; constructing one asserts the packet type, which is modelled by
the functions `systemView`, `midi1View`, `midi2View`, and the accessors are functions of the packet.
-/

namespace Midi

/-! ## Utility messages -/

/-- `utility_message(status, payload)`, `make_utility_message` (inc/midi/utility_message.h 76-79, 83-86). -/
def makeUtility (status : Byte) (payload : U16) : Packet :=
  { w0 := (status.setWidth 32 <<< 16) ||| payload.setWidth 32 }

/-- `utility_message_view(p)`: the assertion of the constructor (inc/midi/utility_message.h 55-59). -/
def utilityView (p : Packet) : Except Fault Packet := do
  assert (p.type == PacketType.utility)
  return p

/-- `utility_message_view::status()` (inc/midi/utility_message.h 61). -/
def utilityStatus (p : Packet) : Byte := p.status

/-- `utility_message_view::payload()` (inc/midi/utility_message.h 62). -/
def utilityPayload (p : Packet) : U16 := (p.byte3.setWidth 16 <<< 8) ||| p.byte4.setWidth 16

/-! ## System messages -/

/-- `system_message(group, status, data1, data2)`, `make_system_message`
(inc/midi/system_message.h 90-93, 126-129). -/
def makeSystem (group status data1 data2 : Byte) : Packet :=
  { w0 := 0x10000000 ||| ((group &&& 0x0F).setWidth 32 <<< 24) ||| (status.setWidth 32 <<< 16)
          ||| (data1.setWidth 32 <<< 8) ||| data2.setWidth 32 }

/-- `make_song_position_message(group, position)` (inc/midi/system_message.h 131-137). -/
def makeSongPosition (group : Byte) (position : U16) : Packet :=
  makeSystem group SystemStatus.songPosition ((position &&& 0x7F).setWidth 8) (((position >>> 7) &&& 0x7F).setWidth 8)

/-- `is_system_message(p)` (inc/midi/system_message.h 97-100). -/
def isSystemMessage (p : Packet) : Bool := p.type == PacketType.system

/-- `system_message_view(p)`: the assertion of the constructor (inc/midi/system_message.h 56-60). -/
def systemView (p : Packet) : Except Fault Packet := do
  assert (p.type == PacketType.system)
  return p

/-- `as_system_message_view(p)` (inc/midi/system_message.h 116-122). -/
def asSystemView (p : Packet) : Except Fault (Option Packet) :=
  if isSystemMessage p then some <$> systemView p else .ok none

/-- `system_message_view::data_byte_1()` (inc/midi/system_message.h 64). -/
def systemData1 (p : Packet) : Byte := p.byte3 &&& 0x7F

/-- `system_message_view::data_byte_2()` (inc/midi/system_message.h 65). -/
def systemData2 (p : Packet) : Byte := p.byte4 &&& 0x7F

/-- `system_message_view::get_song_position()` (inc/midi/system_message.h 104-112). -/
def songPositionOf (p : Packet) : U16 :=
  if p.status = SystemStatus.songPosition then
    (systemData1 p).setWidth 16 ||| ((systemData2 p).setWidth 16 <<< 7)
  else 0

/-! ## MIDI 1 channel voice messages -/

/-! `namespace midi1_channel_voice_status` (inc/midi/universal_packet.h 91-99) and `namespace channel_voice_status`
(inc/midi/universal_packet.h 112-132). The seven MIDI 1 codes agree with the MIDI 2 codes of the same name. -/

namespace CVStatus
/-- `channel_voice_status::registered_per_note_controller` (inc/midi/universal_packet.h 113). -/
def registeredPerNote : Byte := 0x00
/-- `channel_voice_status::assignable_per_note_controller` (inc/midi/universal_packet.h 114). -/
def assignablePerNote : Byte := 0x10
/-- `channel_voice_status::registered_controller` (inc/midi/universal_packet.h 116). -/
def registered : Byte := 0x20
/-- `channel_voice_status::assignable_controller` (inc/midi/universal_packet.h 117). -/
def assignable : Byte := 0x30
/-- `channel_voice_status::relative_registered_controller` (inc/midi/universal_packet.h 119). -/
def relativeRegistered : Byte := 0x40
/-- `channel_voice_status::relative_assignable_controller` (inc/midi/universal_packet.h 120). -/
def relativeAssignable : Byte := 0x50
/-- `channel_voice_status::per_note_pitch_bend` (inc/midi/universal_packet.h 122). -/
def perNotePitchBend : Byte := 0x60
/-- `note_off` (inc/midi/universal_packet.h 92, 124). -/
def noteOff : Byte := 0x80
/-- `note_on` (inc/midi/universal_packet.h 93, 125). -/
def noteOn : Byte := 0x90
/-- `poly_pressure` (inc/midi/universal_packet.h 94, 126). -/
def polyPressure : Byte := 0xA0
/-- `control_change` (inc/midi/universal_packet.h 95, 127). -/
def controlChange : Byte := 0xB0
/-- `program_change` (inc/midi/universal_packet.h 96, 128). -/
def programChange : Byte := 0xC0
/-- `channel_pressure` (inc/midi/universal_packet.h 97, 129). -/
def channelPressure : Byte := 0xD0
/-- `pitch_bend` (inc/midi/universal_packet.h 98, 130). -/
def pitchBend : Byte := 0xE0
/-- `channel_voice_status::per_note_management` (inc/midi/universal_packet.h 131). -/
def perNoteManagement : Byte := 0xF0
end CVStatus

/-- `midi1_channel_voice_message(group, status, data1, data2)` (inc/midi/midi1_channel_voice_message.h 102-108). -/
def midi1Message (group status data1 data2 : Byte) : Packet :=
  { w0 := 0x20000000 ||| ((group &&& 0x0F).setWidth 32 <<< 24) ||| (status.setWidth 32 <<< 16)
          ||| (data1.setWidth 32 <<< 8) ||| data2.setWidth 32 }

/-- `midi1_channel_voice_message(const universal_packet&)` (inc/midi/midi1_channel_voice_message.h 94-98). -/
def midi1OfPacket (p : Packet) : Except Fault Packet := do
  assert (p.type == PacketType.midi1ChannelVoice)
  return p

/-- `is_midi1_channel_voice_message(p)` (inc/midi/midi1_channel_voice_message.h 112-115). -/
def isMidi1CV (p : Packet) : Bool := p.type == PacketType.midi1ChannelVoice

/-- `midi1_channel_voice_message_view(p)`: the assertion of the constructor
(inc/midi/midi1_channel_voice_message.h 119-123). -/
def midi1View (p : Packet) : Except Fault Packet := do
  assert (isMidi1CV p)
  return p

/-- `as_midi1_channel_voice_message_view(p)` (inc/midi/midi1_channel_voice_message.h 155-161). -/
def asMidi1View (p : Packet) : Except Fault (Option Packet) :=
  if isMidi1CV p then some <$> midi1View p else .ok none

/-- `midi1_channel_voice_message_view::status()` (inc/midi/midi1_channel_voice_message.h 57). -/
def midi1Status (p : Packet) : Byte := p.status &&& 0xF0

/-- `midi1_channel_voice_message_view::channel()` (inc/midi/midi1_channel_voice_message.h 127-130). -/
def midi1Channel (p : Packet) : Byte := p.status &&& 0x0F

/-- `midi1_channel_voice_message_view::data_byte_1()` (inc/midi/midi1_channel_voice_message.h 134-137). -/
def midi1Data1 (p : Packet) : Byte := p.byte3 &&& 0x7F

/-- `midi1_channel_voice_message_view::data_byte_2()` (inc/midi/midi1_channel_voice_message.h 141-144). -/
def midi1Data2 (p : Packet) : Byte := p.byte4 &&& 0x7F

/-- `midi1_channel_voice_message_view::get_14bit_value()` (inc/midi/midi1_channel_voice_message.h 148-151). -/
def midi1Value14 (p : Packet) : U16 := (midi1Data1 p).setWidth 16 ||| ((midi1Data2 p).setWidth 16 <<< 7)

/-- `make_midi1_channel_voice_message` (inc/midi/midi1_channel_voice_message.h 165-172). -/
def makeMidi1 (group status channel data1 data2 : Byte) : Packet :=
  midi1Message group (status ||| (channel &&& 0x0F)) (data1 &&& 0x7F) (data2 &&& 0x7F)

/-- `make_midi1_note_off_message` (inc/midi/midi1_channel_voice_message.h 176-183). -/
def makeMidi1NoteOff (group channel note : Byte) (vel : U16) : Packet :=
  makeMidi1 group CVStatus.noteOff channel note (velocityAs7 vel)

/-- `make_midi1_note_on_message` (inc/midi/midi1_channel_voice_message.h 187-194). -/
def makeMidi1NoteOn (group channel note : Byte) (vel : U16) : Packet :=
  makeMidi1 group CVStatus.noteOn channel note (velocityAs7 vel)

/-- `make_midi1_poly_pressure_message` (inc/midi/midi1_channel_voice_message.h 198-205). -/
def makeMidi1PolyPressure (group channel note : Byte) (pressure : Word) : Packet :=
  makeMidi1 group CVStatus.polyPressure channel note (controllerAs7 pressure)

/-- `make_midi1_control_change_message` (inc/midi/midi1_channel_voice_message.h 209-216). -/
def makeMidi1ControlChange (group channel controller : Byte) (value : Word) : Packet :=
  makeMidi1 group CVStatus.controlChange channel controller (controllerAs7 value)

/-- `make_midi1_program_change_message` (inc/midi/midi1_channel_voice_message.h 220-225; `data2` defaults to 0, 75). -/
def makeMidi1ProgramChange (group channel program : Byte) : Packet :=
  makeMidi1 group CVStatus.programChange channel program 0

/-- `make_midi1_channel_pressure_message` (inc/midi/midi1_channel_voice_message.h 229-235). -/
def makeMidi1ChannelPressure (group channel : Byte) (pressure : Word) : Packet :=
  makeMidi1 group CVStatus.channelPressure channel (controllerAs7 pressure) 0

/-- `make_midi1_pitch_bend_message` (inc/midi/midi1_channel_voice_message.h 239-247). -/
def makeMidi1PitchBend (group channel : Byte) (pb : Word) : Packet :=
  let v := pitchBendAs14 pb
  makeMidi1 group CVStatus.pitchBend channel ((v &&& 0x7F).setWidth 8) (((v >>> 7) &&& 0x7F).setWidth 8)

/-! ## MIDI 2 channel voice messages -/

/-- `midi2_channel_voice_message(group, status, channel, byte3, byte4, data)`, `make_midi2_channel_voice_message`
(inc/midi/midi2_channel_voice_message.h 172-177, 198-202). -/
def midi2Message (group status channel byte3 byte4 : Byte) (data : Word) : Packet :=
  { w0 := 0x40000000 ||| ((group &&& 0x0F).setWidth 32 <<< 24)
          ||| (((status &&& 0xF0) ||| (channel &&& 0x0F)).setWidth 32 <<< 16)
          ||| (byte3.setWidth 32 <<< 8) ||| byte4.setWidth 32,
    w1 := data }

/-- `midi2_channel_voice_message(const universal_packet&)` (inc/midi/midi2_channel_voice_message.h 43-47). -/
def midi2OfPacket (p : Packet) : Except Fault Packet := do
  assert (p.type == PacketType.midi2ChannelVoice)
  return p

/-- `is_midi2_channel_voice_message(p)` (inc/midi/midi2_channel_voice_message.h 181-184). -/
def isMidi2CV (p : Packet) : Bool := p.type == PacketType.midi2ChannelVoice

/-- `midi2_channel_voice_message_view(p)`: the assertion of the constructor
(inc/midi/midi2_channel_voice_message.h 85-89). -/
def midi2View (p : Packet) : Except Fault Packet := do
  assert (p.type == PacketType.midi2ChannelVoice)
  return p

/-- `as_midi2_channel_voice_message_view(p)` (inc/midi/midi2_channel_voice_message.h 188-194). -/
def asMidi2View (p : Packet) : Except Fault (Option Packet) :=
  if isMidi2CV p then some <$> midi2View p else .ok none

/-- `midi2_channel_voice_message_view::status()` (inc/midi/midi2_channel_voice_message.h 92). -/
def midi2Status (p : Packet) : Byte := p.status &&& 0xF0
/-- `midi2_channel_voice_message_view::channel()` (inc/midi/midi2_channel_voice_message.h 93). -/
def midi2Channel (p : Packet) : Byte := p.status &&& 0x0F
/-- `midi2_channel_voice_message_view::byte3()` (inc/midi/midi2_channel_voice_message.h 94). -/
def midi2Byte3 (p : Packet) : Byte := p.byte3 &&& 0x7F
/-- `midi2_channel_voice_message_view::byte4()` (inc/midi/midi2_channel_voice_message.h 95). -/
def midi2Byte4 (p : Packet) : Byte := p.byte4 &&& 0x7F
/-- `midi2_channel_voice_message_view::data()` (inc/midi/midi2_channel_voice_message.h 96). -/
def midi2Data (p : Packet) : Word := p.w1

/-- `note_attribute::pitch_7_9` (inc/midi/midi2_channel_voice_message.h 122). -/
def attributePitch79 : Byte := 0x3

/-- `(vel.value << 16) | attribute_data` as `uint32_t` (inc/midi/midi2_channel_voice_message.h 211, 221, 230, 240). -/
def noteData (vel attributeData : U16) : Word := (vel.setWidth 32 <<< 16) ||| attributeData.setWidth 32

/-- `make_midi2_note_off_message` (inc/midi/midi2_channel_voice_message.h 206-212). -/
def makeMidi2NoteOff (group channel note : Byte) (vel : U16) (attr : Byte) (attributeData : U16) : Packet :=
  midi2Message group CVStatus.noteOff channel (note &&& 0x7F) attr (noteData vel attributeData)

/-- `make_midi2_note_on_message(group, channel, note, vel)` (inc/midi/midi2_channel_voice_message.h 216-222). -/
def makeMidi2NoteOn (group channel note : Byte) (vel : U16) : Packet :=
  midi2Message group CVStatus.noteOn channel note 0 (vel.setWidth 32 <<< 16)

/-- `make_midi2_note_on_message(group, channel, note, vel, pitch_7_9)`
(inc/midi/midi2_channel_voice_message.h 226-231). -/
def makeMidi2NoteOnPitch (group channel note : Byte) (vel pitch : U16) : Packet :=
  midi2Message group CVStatus.noteOn channel note attributePitch79 (noteData vel pitch)

/-- `make_midi2_note_on_message(group, channel, note, vel, attribute, attribute_data)`
(inc/midi/midi2_channel_voice_message.h 235-241). -/
def makeMidi2NoteOnAttribute (group channel note : Byte) (vel : U16) (attr : Byte) (attributeData : U16) :
    Packet :=
  midi2Message group CVStatus.noteOn channel note attr (noteData vel attributeData)

/-- `make_midi2_poly_pressure_message` (inc/midi/midi2_channel_voice_message.h 245-251). -/
def makeMidi2PolyPressure (group channel note : Byte) (pressure : Word) : Packet :=
  midi2Message group CVStatus.polyPressure channel note 0 pressure

/-- `make_registered_per_note_controller_message` (inc/midi/midi2_channel_voice_message.h 255-259). -/
def makeRegisteredPerNote (group channel note controller : Byte) (v : Word) : Packet :=
  midi2Message group CVStatus.registeredPerNote channel note controller v

/-- `make_assignable_per_note_controller_message` (inc/midi/midi2_channel_voice_message.h 263-267). -/
def makeAssignablePerNote (group channel note controller : Byte) (v : Word) : Packet :=
  midi2Message group CVStatus.assignablePerNote channel note controller v

/-- `make_per_note_management_message` (inc/midi/midi2_channel_voice_message.h 271-277). -/
def makePerNoteManagement (group channel note flags : Byte) : Packet :=
  midi2Message group CVStatus.perNoteManagement channel note flags 0

/-- `make_midi2_control_change_message` (inc/midi/midi2_channel_voice_message.h 281-289). -/
def makeMidi2ControlChange (group channel controller : Byte) (v : Word) : Packet :=
  midi2Message group CVStatus.controlChange channel (controller &&& 0x7F) 0 v

/-- `make_registered_controller_message` (inc/midi/midi2_channel_voice_message.h 293-302). -/
def makeRegistered (group channel bank index : Byte) (v : Word) : Packet :=
  midi2Message group CVStatus.registered channel (bank &&& 0x7F) (index &&& 0x7F) v

/-- `make_assignable_controller_message` (inc/midi/midi2_channel_voice_message.h 306-315). -/
def makeAssignable (group channel bank index : Byte) (v : Word) : Packet :=
  midi2Message group CVStatus.assignable channel (bank &&& 0x7F) (index &&& 0x7F) v

/-- `make_relative_registered_controller_message` (inc/midi/midi2_channel_voice_message.h 319-328); the increment is
given by the bit pattern of its `int32_t` value. -/
def makeRelativeRegistered (group channel bank index : Byte) (inc : Word) : Packet :=
  midi2Message group CVStatus.relativeRegistered channel (bank &&& 0x7F) (index &&& 0x7F) inc

/-- `make_relative_assignable_controller_message` (inc/midi/midi2_channel_voice_message.h 332-341). -/
def makeRelativeAssignable (group channel bank index : Byte) (inc : Word) : Packet :=
  midi2Message group CVStatus.relativeAssignable channel (bank &&& 0x7F) (index &&& 0x7F) inc

/-- `make_midi2_program_change_message(group, channel, program)`
(inc/midi/midi2_channel_voice_message.h 345-352). -/
def makeMidi2ProgramChange (group channel program : Byte) : Packet :=
  midi2Message group CVStatus.programChange channel 0 0 ((program &&& 0x7F).setWidth 32 <<< 24)

/-- `make_midi2_program_change_message(group, channel, program, bank)`
(inc/midi/midi2_channel_voice_message.h 356-364). -/
def makeMidi2ProgramChangeBank (group channel program : Byte) (bank : U16) : Packet :=
  midi2Message group CVStatus.programChange channel 0 1
    (((program &&& 0x7F).setWidth 32 <<< 24) ||| ((bank &&& 0x3F80).setWidth 32 <<< 1) ||| (bank &&& 0x7F).setWidth 32)

/-- `make_midi2_channel_pressure_message` (inc/midi/midi2_channel_voice_message.h 368-373). -/
def makeMidi2ChannelPressure (group channel : Byte) (pressure : Word) : Packet :=
  midi2Message group CVStatus.channelPressure channel 0 0 pressure

/-- `make_midi2_pitch_bend_message` (inc/midi/midi2_channel_voice_message.h 377-380). -/
def makeMidi2PitchBend (group channel : Byte) (pb : Word) : Packet :=
  midi2Message group CVStatus.pitchBend channel 0 0 pb

/-- `make_per_note_pitch_bend_message` (inc/midi/midi2_channel_voice_message.h 384-390). -/
def makePerNotePitchBend (group channel note : Byte) (pb : Word) : Packet :=
  midi2Message group CVStatus.perNotePitchBend channel note 0 pb

/-- `is_registered_controller_message` (inc/midi/midi2_channel_voice_message.h 392-395, 430-433). -/
def isRegistered (p : Packet) : Bool := isMidi2CV p && (p.status &&& 0xF0) == CVStatus.registered
/-- `is_assignable_controller_message` (inc/midi/midi2_channel_voice_message.h 396-399, 435-438). -/
def isAssignable (p : Packet) : Bool := isMidi2CV p && (p.status &&& 0xF0) == CVStatus.assignable
/-- `is_registered_per_note_controller_message` (inc/midi/midi2_channel_voice_message.h 400-404, 440-443). -/
def isRegisteredPerNote (p : Packet) : Bool := isMidi2CV p && (p.status &&& 0xF0) == CVStatus.registeredPerNote
/-- `get_per_note_controller_index` (inc/midi/midi2_channel_voice_message.h 466-474). -/
def perNoteControllerIndex (p : Packet) : Byte := p.byte4
/-- `is_registered_per_note_controller_pitch_message` (inc/midi/midi2_channel_voice_message.h 405-409, the constant
`registered_per_note_controller::pitch_7_25` is inc/midi/universal_packet.h 282). -/
def isRegisteredPerNotePitch (p : Packet) : Bool := isRegisteredPerNote p && perNoteControllerIndex p == 3
/-- `is_assignable_per_note_controller_message` (inc/midi/midi2_channel_voice_message.h 410-414, 445-448). -/
def isAssignablePerNote (p : Packet) : Bool := isMidi2CV p && (p.status &&& 0xF0) == CVStatus.assignablePerNote
/-- `is_per_note_pitch_bend_message` (inc/midi/midi2_channel_voice_message.h 415-418, 450-453). -/
def isPerNotePitchBend (p : Packet) : Bool := isMidi2CV p && (p.status &&& 0xF0) == CVStatus.perNotePitchBend
/-- `is_note_on_with_attribute` (inc/midi/midi2_channel_voice_message.h 419-423). -/
def isNoteOnWithAttribute (p : Packet) (a : Byte) : Bool :=
  isMidi2CV p && (p.status &&& 0xF0) == CVStatus.noteOn && p.byte4 == a
/-- `is_note_off_with_attribute` (inc/midi/midi2_channel_voice_message.h 424-428). -/
def isNoteOffWithAttribute (p : Packet) (a : Byte) : Bool :=
  isMidi2CV p && (p.status &&& 0xF0) == CVStatus.noteOff && p.byte4 == a
/-- `is_note_on_with_pitch_7_9` (inc/midi/midi2_channel_voice_message.h 454-457). -/
def isNoteOnWithPitch79 (p : Packet) : Bool := isNoteOnWithAttribute p attributePitch79
/-- `get_midi2_note_attribute` (inc/midi/midi2_channel_voice_message.h 458-461). -/
def noteAttribute (p : Packet) : Byte := p.byte4
/-- `get_midi2_note_attribute_data` (inc/midi/midi2_channel_voice_message.h 462-465). -/
def noteAttributeData (p : Packet) : U16 := (p.w1 &&& 0xFFFF).setWidth 16
/-- `is_pitch_bend_sensitivity_message` (inc/midi/midi2_channel_voice_message.h 476-480; constant:
inc/midi/universal_packet.h 269). -/
def isPitchBendSensitivity (p : Packet) : Bool := isRegistered p && p.byte3 == 0 && p.byte4 == 0
/-- `is_per_note_pitch_bend_sensitivity_message` (inc/midi/midi2_channel_voice_message.h 481-485; constant:
inc/midi/universal_packet.h 274). -/
def isPerNotePitchBendSensitivity (p : Packet) : Bool := isRegistered p && p.byte3 == 0 && p.byte4 == 7
/-- `get_pitch_bend_sensitivity_value` (inc/midi/midi2_channel_voice_message.h 486-489). -/
def pitchBendSensitivityValue (p : Packet) : Word := p.w1 &&& 0xFFFC0000
/-- `get_per_note_pitch_bend_sensitivity_value` (inc/midi/midi2_channel_voice_message.h 490-493). -/
def perNotePitchBendSensitivityValue (p : Packet) : Word := p.w1
/-- `get_per_note_pitch_bend_value` (inc/midi/midi2_channel_voice_message.h 494-497). -/
def perNotePitchBendValue (p : Packet) : Word := p.w1

/-! ## Channel voice messages of either protocol -/

/-- `is_channel_voice_message_with_status` (inc/midi/channel_voice_message.h 74-77). -/
def isCVWithStatus (p : Packet) (status : Byte) : Bool := (p.status &&& 0xF0) == status && p.isChannelVoice

/-- `is_note_on_message` (inc/midi/channel_voice_message.h 81-90). -/
def isNoteOn (p : Packet) : Bool :=
  if isCVWithStatus p 0x90 then p.type == PacketType.midi2ChannelVoice || p.byte4 != 0 else false

/-- `is_note_off_message` (inc/midi/channel_voice_message.h 94-101). -/
def isNoteOff (p : Packet) : Bool :=
  if isCVWithStatus p 0x80 then true
  else p.type == PacketType.midi1ChannelVoice && (p.status &&& 0xF0) == 0x90 && p.byte4 == 0

/-- `get_note_nr` (inc/midi/channel_voice_message.h 105-111). -/
def noteNr (p : Packet) : Byte := p.byte3 &&& 0x7F

/-- `get_note_pitch` (inc/midi/channel_voice_message.h 115-125). -/
def notePitch (p : Packet) : U16 :=
  if p.type = PacketType.midi2ChannelVoice ∧ p.status &&& 0xF0 = 0x90 ∧ p.byte4 = 3 then (p.w1 &&& 0xFFFF).setWidth 16
  else pitch79OfNote (noteNr p)

/-- `get_note_velocity` (inc/midi/channel_voice_message.h 129-141). -/
def noteVelocity (p : Packet) : U16 :=
  if p.type = PacketType.midi2ChannelVoice then (p.w1 >>> 16).setWidth 16
  else if p.type = PacketType.midi1ChannelVoice ∧ p.status &&& 0xF0 = 0x90 ∧ p.byte4 = 0 then velocityOf7 64
  else velocityOf7 (p.byte4 &&& 0x7F)

/-- `is_poly_pressure_message` (inc/midi/channel_voice_message.h 145-148). -/
def isPolyPressure (p : Packet) : Bool := isCVWithStatus p 0xA0
/-- `is_control_change_message` (inc/midi/channel_voice_message.h 159-162). -/
def isControlChange (p : Packet) : Bool := isCVWithStatus p 0xB0
/-- `is_program_change_message` (inc/midi/channel_voice_message.h 188-191). -/
def isProgramChange (p : Packet) : Bool := isCVWithStatus p 0xC0
/-- `is_channel_pressure_message` (inc/midi/channel_voice_message.h 213-216). -/
def isChannelPressure (p : Packet) : Bool := isCVWithStatus p 0xD0
/-- `is_channel_pitch_bend_message` (inc/midi/channel_voice_message.h 232-235). -/
def isPitchBend (p : Packet) : Bool := isCVWithStatus p 0xE0

/-- `get_controller_nr` (inc/midi/channel_voice_message.h 166-170). -/
def controllerNr (p : Packet) : Byte := p.byte3 &&& 0x7F

/-- `get_controller_value` and `get_poly_pressure_value` (inc/midi/channel_voice_message.h 152-155, 174-184). -/
def controllerValue (p : Packet) : Word :=
  if p.type = PacketType.midi1ChannelVoice then controllerOf7 (p.byte4 &&& 0x7F) else p.w1

/-- `get_program_value` (inc/midi/channel_voice_message.h 195-209). -/
def programValue (p : Packet) : Byte :=
  if p.type = PacketType.midi1ChannelVoice then p.byte3 &&& 0x7F
  else if p.type = PacketType.midi2ChannelVoice then ((p.w1 >>> 24) &&& 0x7F).setWidth 8
  else 0xFF

/-- `get_channel_pressure_value` (inc/midi/channel_voice_message.h 220-228). -/
def channelPressureValue (p : Packet) : Word :=
  if p.type = PacketType.midi1ChannelVoice then controllerOf7 (p.byte3 &&& 0x7F) else p.w1

/-- `get_channel_pitch_bend_value` (inc/midi/channel_voice_message.h 239-247). The data bytes are not masked;
`uint14_t(byte3 | (byte4 << 7))` is a 16 bit value. -/
def pitchBendValue (p : Packet) : Except Fault Word :=
  if p.type = PacketType.midi1ChannelVoice then
    pitchBendOf14 (p.byte3.setWidth 16 ||| (p.byte4.setWidth 16 <<< 7))
  else .ok p.w1

/-- The controllers which the translation skips: bank select, data entry, high resolution velocity prefix, (N)RPN
(inc/midi/channel_voice_message.h 278-286 and 327-335; values: inc/midi/universal_packet.h 176-252). -/
def untranslatedControllers : List Byte := [0, 6, 32, 38, 88, 98, 99, 100, 101]

/-- `as_midi1_channel_voice_message(view)` (inc/midi/channel_voice_message.h 251-305). -/
def asMidi1 (p : Packet) : Option Packet :=
  let status := midi2Status p
  let group := p.group
  let channel := midi2Channel p
  if status = CVStatus.noteOff then
    if midi2Byte4 p = 0 then
      some (makeMidi1NoteOff group channel (midi2Byte3 p) ((midi2Data p >>> 16).setWidth 16))
    else none
  else if status = CVStatus.noteOn then
    if midi2Byte4 p = 0 then
      let vel : U16 := (midi2Data p >>> 16).setWidth 16
      let vel := if velocityAs7 vel = 0 then velocityOf7 1 else vel
      some (makeMidi1NoteOn group channel (midi2Byte3 p) vel)
    else none
  else if status = CVStatus.polyPressure then
    some (makeMidi1PolyPressure group channel (midi2Byte3 p) (midi2Data p))
  else if status = CVStatus.controlChange then
    if untranslatedControllers.contains (midi2Byte3 p) then none
    else some (makeMidi1ControlChange group channel (midi2Byte3 p) (midi2Data p))
  else if status = CVStatus.programChange then
    if midi2Byte4 p &&& 1 = 0 then
      some (makeMidi1ProgramChange group channel ((midi2Data p >>> 24).setWidth 8))
    else none
  else if status = CVStatus.channelPressure then
    some (makeMidi1ChannelPressure group channel (midi2Data p))
  else if status = CVStatus.pitchBend then
    some (makeMidi1PitchBend group channel (midi2Data p))
  else none

/-- `as_midi2_channel_voice_message(view)` (inc/midi/channel_voice_message.h 309-353). -/
def asMidi2 (p : Packet) : Except Fault (Option Packet) :=
  let status := midi1Status p
  let group := p.group
  let channel := midi1Channel p
  if status = CVStatus.noteOff then
    .ok (some (makeMidi2NoteOff group channel (midi1Data1 p) (velocityOf7 (midi1Data2 p)) 0 0))
  else if status = CVStatus.noteOn then
    if midi1Data2 p = 0 then
      .ok (some (makeMidi2NoteOff group channel (midi1Data1 p) (velocityOf7 64) 0 0))
    else .ok (some (makeMidi2NoteOn group channel (midi1Data1 p) (velocityOf7 (midi1Data2 p))))
  else if status = CVStatus.polyPressure then
    .ok (some (makeMidi2PolyPressure group channel (midi1Data1 p) (controllerOf7 (midi1Data2 p))))
  else if status = CVStatus.controlChange then
    if untranslatedControllers.contains (midi1Data1 p) then .ok none
    else .ok (some (makeMidi2ControlChange group channel (midi1Data1 p) (controllerOf7 (midi1Data2 p))))
  else if status = CVStatus.programChange then
    .ok (some (makeMidi2ProgramChange group channel (midi1Data1 p)))
  else if status = CVStatus.channelPressure then
    .ok (some (makeMidi2ChannelPressure group channel (controllerOf7 (midi1Data1 p))))
  else if status = CVStatus.pitchBend then
    (pitchBendOf14 (midi1Value14 p)).map fun pb => some (makeMidi2PitchBend group channel pb)
  else .ok none

end Midi
