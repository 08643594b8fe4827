import Verif.Conformance.Prelude
import Verif.Model.ByteStream
import Verif.Model.CapabilityInquiry
import Verif.Model.Collector
import Verif.Model.Defaults
import Verif.Model.FlexData
import Verif.Model.Jitter
import Verif.Model.PitchTypes
import Verif.Model.Senders
import Verif.Model.Stream
import Verif.Model.Sysex
import Verif.Model.SysexPackets
import Verif.Model.TextFormat
import Verif.Model.Types
import Verif.Model.UniversalSysex
import Verif.Model.Reentrant

/-!
The expectations of tests/midi1_channel_voice_message_tests.cpp about the model. Generated by tools/conformance.
-/

namespace Midi.Conformance

open Midi

-- midi1_channel_voice_message,constructors: lines 60-69
example : holds (do
  let x1 := midi1Message 4 150 44 101
  return (isMidi1CV x1) && decide (613821541 = ((x1.w0).toNat : Int)) && decide (0 = ((x1.w1).toNat : Int)) && decide
    (0 = ((x1.w2).toNat : Int)) && decide (0 = ((x1.w3).toNat : Int)) && decide (1 = ((Packet.size x1) : Int)) &&
    decide (2 = ((Packet.type x1).toNat : Int)) && decide (4 = ((Packet.group x1).toNat : Int))) = true := by decide +kernel

-- midi1_channel_voice_message,constructors: lines 70-80
example : holds (do
  let x1 := midi1Message 4 150 44 101
  let x2 ← asMidi1View x1
  let x3 ← midi1View x1
  return decide (150 = ((Packet.status x1).toNat : Int)) && decide (150 = ((Packet.byte2 x1).toNat : Int)) && decide
    (44 = ((Packet.byte3 x1).toNat : Int)) && decide (101 = ((Packet.byte4 x1).toNat : Int)) && x2.isSome && decide (4
    = ((Packet.group x3).toNat : Int)) && decide (144 = ((midi1Status x3).toNat : Int)) && decide (6 = ((midi1Channel
    x3).toNat : Int))) = true := by decide +kernel

-- midi1_channel_voice_message,constructors: lines 81-82
example : holds (do
  let x1 := midi1Message 4 150 44 101
  let x2 ← midi1View x1
  return decide (44 = ((midi1Data1 x2).toNat : Int)) && decide (101 = ((midi1Data2 x2).toNat : Int))) = true := by decide +kernel

-- midi1_channel_voice_message,midi1_channel_voice_message_view: lines 95-103
example : holds (do
  let x1 := midi1Message 4 150 44 101
  let x2 ← asMidi1View x1
  let x3 ← midi1View x1
  return (isMidi1CV x1) && x2.isSome && decide (4 = ((Packet.group x3).toNat : Int)) && decide (144 = ((midi1Status
    x3).toNat : Int)) && decide (6 = ((midi1Channel x3).toNat : Int)) && decide (44 = ((midi1Data1 x3).toNat : Int))
    && decide (101 = ((midi1Data2 x3).toNat : Int))) = true := by decide +kernel

-- midi1_channel_voice_message,channel: line 119
example : holds (do
  let x1 := Packet.ofWords [546186053]
  let x2 ← midi1OfPacket x1
  let x3 ← Packet.channel x2
  let x4 := Packet.ofWords [596779845]
  let x5 ← midi1OfPacket x4
  let x6 ← Packet.channel x5
  let x7 := Packet.ofWords [715474465]
  let x8 ← midi1OfPacket x7
  let x9 ← Packet.channel x8
  let x10 := Packet.ofWords [649143109]
  let x11 ← midi1OfPacket x10
  let x12 ← Packet.channel x11
  let x13 := Packet.ofWords [667755333]
  let x14 ← midi1OfPacket x13
  let x15 ← Packet.channel x14
  let x16 := Packet.ofWords [701113157]
  let x17 ← midi1OfPacket x16
  let x18 ← Packet.channel x17
  return decide (14 = (x3.toNat : Int)) && decide (2 = (x6.toNat : Int)) && decide (5 = (x9.toNat : Int)) && decide (1
    = (x12.toNat : Int)) && decide (13 = (x15.toNat : Int)) && decide (10 = (x18.toNat : Int))) = true := by decide +kernel

-- midi1_channel_voice_message,data_bytes: lines 131-148
example : holds (do
  let x1 := Packet.ofWords [545342515]
  let x2 ← midi1OfPacket x1
  let x3 ← midi1View x2
  let x4 := Packet.ofWords [686954300]
  let x5 ← midi1OfPacket x4
  let x6 ← midi1View x5
  let x7 := Packet.ofWords [749076738]
  let x8 ← midi1OfPacket x7
  let x9 ← midi1View x8
  return decide (((midi1Data1 x3).toNat : Int) = 68) && decide (((midi1Data2 x3).toNat : Int) = 51) && decide (23 =
    ((midi1Data1 x6).toNat : Int)) && decide (60 = ((midi1Data2 x6).toNat : Int)) && decide (1 = ((midi1Data1
    x9).toNat : Int)) && decide (2 = ((midi1Data2 x9).toNat : Int))) = true := by decide +kernel

-- midi1_channel_voice_message,get_14bit_value: lines 160-195
example : holds (do
  let x1 := Packet.ofWords [636551168]
  let x2 ← midi1OfPacket x1
  let x3 ← midi1View x2
  let x4 := Packet.ofWords [545342515]
  let x5 ← midi1OfPacket x4
  let x6 ← midi1View x5
  let x7 := Packet.ofWords [686954300]
  let x8 ← midi1OfPacket x7
  let x9 ← midi1View x8
  let x10 := Packet.ofWords [749076738]
  let x11 ← midi1OfPacket x10
  let x12 ← midi1View x11
  let x13 := Packet.ofWords [753270848]
  let x14 ← midi1OfPacket x13
  let x15 ← midi1View x14
  let x16 := Packet.ofWords [753303423]
  let x17 ← midi1OfPacket x16
  let x18 ← midi1View x17
  return decide (0 = ((midi1Value14 x3).toNat : Int)) && decide (6596 = ((midi1Value14 x6).toNat : Int)) && decide
    (7703 = ((midi1Value14 x9).toNat : Int)) && decide (257 = ((midi1Value14 x12).toNat : Int)) && decide (8192 =
    ((midi1Value14 x15).toNat : Int)) && decide (16383 = ((midi1Value14 x18).toNat : Int))) = true := by decide +kernel

-- midi1_channel_voice_message,make_midi1_channel_voice_message: lines 206-224
example : holds (do
  let x1 := makeMidi1 9 144 5 116 120
  let x2 := Packet.ofWords [697660536]
  let x3 ← midi1OfPacket x2
  let x4 := makeMidi1 12 192 10 4 0
  let x5 := Packet.ofWords [751436800]
  let x6 ← midi1OfPacket x5
  let x7 := makeMidi1 0 171 0 60 118
  let x8 := Packet.ofWords [548093046]
  let x9 ← midi1OfPacket x8
  let x10 := makeMidi1 4 176 53 69 119
  let x11 := Packet.ofWords [615859575]
  let x12 ← midi1OfPacket x11
  return (x3.eqv x1) && (x6.eqv x4) && (x9.eqv x7) && (x12.eqv x10)) = true := by decide +kernel

-- midi1_channel_voice_message,make_midi1_note_off_message: lines 234-239
example : holds (do
  let x1 := makeMidi1NoteOff 4 9 80 (velocityOf7 35)
  let x2 := Packet.ofWords [612978723]
  let x3 ← midi1OfPacket x2
  let x4 := makeMidi1NoteOff 13 14 20 (velocityOf7 209)
  let x5 := Packet.ofWords [764286033]
  let x6 ← midi1OfPacket x5
  return (x3.eqv x1) && (x6.eqv x4)) = true := by decide +kernel

-- midi1_channel_voice_message,make_note_on_message: lines 249-254
example : holds (do
  let x1 := makeMidi1NoteOn 8 4 18 (velocityOf7 1)
  let x2 := Packet.ofWords [680792577]
  let x3 ← midi1OfPacket x2
  let x4 := makeMidi1NoteOn 7 3 119 (velocityOf7 240)
  let x5 := Packet.ofWords [663975792]
  let x6 ← midi1OfPacket x5
  return (x3.eqv x1) && (x6.eqv x4)) = true := by decide +kernel

-- midi1_channel_voice_message,make_midi1_poly_pressure_message: lines 265-271
example : holds (do
  let x1 := makeMidi1PolyPressure 0 1 99 (controllerOf7 114)
  let x2 := Packet.ofWords [547447666]
  let x3 ← midi1OfPacket x2
  let x4 := makeMidi1PolyPressure 6 9 64 (controllerOf7 255)
  let x5 := Packet.ofWords [648626303]
  let x6 ← midi1OfPacket x5
  return (x3.eqv x1) && (x6.eqv x4)) = true := by decide +kernel

-- midi1_channel_voice_message,make_midi1_control_change_message: lines 282-288
example : holds (do
  let x1 := makeMidi1ControlChange 9 4 56 (controllerOf7 118)
  let x2 := Packet.ofWords [699676790]
  let x3 ← midi1OfPacket x2
  let x4 := makeMidi1ControlChange 11 12 197 (controllerOf7 96)
  let x5 := Packet.ofWords [733758816]
  let x6 ← midi1OfPacket x5
  return (x3.eqv x1) && (x6.eqv x4)) = true := by decide +kernel

-- midi1_channel_voice_message,make_midi1_program_change_message: lines 298-303
example : holds (do
  let x1 := makeMidi1ProgramChange 14 3 99
  let x2 := Packet.ofWords [784556800]
  let x3 ← midi1OfPacket x2
  let x4 := makeMidi1ProgramChange 9 11 197
  let x5 := Packet.ofWords [701187328]
  let x6 ← midi1OfPacket x5
  return (x3.eqv x1) && (x6.eqv x4)) = true := by decide +kernel

-- midi1_channel_voice_message,make_midi1_channel_pressure_message: lines 314-320
example : holds (do
  let x1 := makeMidi1ChannelPressure 14 3 (controllerOf7 121)
  let x2 := Packet.ofWords [785611008]
  let x3 ← midi1OfPacket x2
  let x4 := makeMidi1ChannelPressure 9 11 (controllerOf7 99)
  let x5 := Packet.ofWords [702243584]
  let x6 ← midi1OfPacket x5
  return (x3.eqv x1) && (x6.eqv x4)) = true := by decide +kernel

-- midi1_channel_voice_message,make_midi1_pitch_bend_message: lines 330-335
example : holds (do
  let x1 ← pitchBendOf14 8192
  let x2 := makeMidi1PitchBend 12 9 x1
  let x3 := Packet.ofWords [753467456]
  let x4 ← midi1OfPacket x3
  let x5 ← pitchBendOf14 9234
  let x6 := makeMidi1PitchBend 3 7 x5
  let x7 := Packet.ofWords [602346056]
  let x8 ← midi1OfPacket x7
  return (x4.eqv x2) && (x8.eqv x6)) = true := by decide +kernel

end Midi.Conformance
