import Verif.Conformance.Prelude
import Verif.Model.ByteStream
import Verif.Model.CapabilityInquiry
import Verif.Model.Collector
import Verif.Model.Defaults
import Verif.Model.FlexData
import Verif.Model.Jitter
import Verif.Model.PitchTypes
import Verif.Model.Senders
import Verif.Model.Stream
import Verif.Model.Sysex
import Verif.Model.SysexPackets
import Verif.Model.TextFormat
import Verif.Model.Types
import Verif.Model.UniversalSysex
import Verif.Model.Reentrant

/-!
The assertions in docs/midi2_channel_voice_message.examples.cpp about the model. Generated by tools/conformance.
-/

namespace Midi.Conformance

open Midi

-- docs,registered_per_note_controller_message_examples: lines 19-32
example : holds (do
  let x1 := makeRegisteredPerNote 9 11 102 7 (878082202 : Word)
  let x2 ← midi2View x1
  return (isRegisteredPerNote x1) && (isMidi2CV x1) && decide (((Packet.group x2).toNat : Int) = 9) && decide
    (((midi2Channel x2).toNat : Int) = 11) && decide (((Packet.byte3 x2).toNat : Int) = 102) && decide (((Packet.byte4
    x2).toNat : Int) = 7) && decide (((midi2Data x2).toNat : Int) = ((878082202 : Word).toNat : Int)) && decide
    (((noteNr x1).toNat : Int) = 102)) = true := by decide +kernel

-- docs,registered_per_note_controller_message_examples: lines 33-34
example : holds (do
  let x1 := makeRegisteredPerNote 9 11 102 7 (878082202 : Word)
  return decide (((perNoteControllerIndex x1).toNat : Int) = 7) && decide ((controllerValue x1) = (878082202 : Word))) = true := by decide +kernel

-- docs,assignable_per_note_controller_message_examples: lines 49-60
example : holds (do
  let x1 ← Fp.controllerOf (Fp.ofRat Fp.double (9 / 20))
  let x2 := makeAssignablePerNote 15 15 37 99 x1
  let x3 ← asMidi2View x2
  let x4 ← valueOf x3
  return (isAssignablePerNote x2) && x3.isSome && decide (((Packet.group x4).toNat : Int) = 15) && decide
    (((midi2Channel x4).toNat : Int) = 15) && decide (((Packet.byte3 x4).toNat : Int) = 37) && decide (((Packet.byte4
    x4).toNat : Int) = 99) && decide (((midi2Data x4).toNat : Int) = (x1.toNat : Int)) && decide (((noteNr x2).toNat :
    Int) = 37)) = true := by decide +kernel

-- docs,assignable_per_note_controller_message_examples: lines 61-62
example : holds (do
  let x1 ← Fp.controllerOf (Fp.ofRat Fp.double (9 / 20))
  let x2 := makeAssignablePerNote 15 15 37 99 x1
  return decide (((perNoteControllerIndex x2).toNat : Int) = 99) && decide ((controllerValue x2) = x1)) = true := by decide +kernel

-- docs,registered_controller_message_examples: lines 77-89
example : holds (do
  let x1 := makeRegistered 3 14 0 99 (883604428 : Word)
  let x2 ← asMidi2View x1
  let x3 ← valueOf x2
  return (isRegistered x1) && x2.isSome && decide (((Packet.group x3).toNat : Int) = 3) && decide (((midi2Channel
    x3).toNat : Int) = 14) && decide (((Packet.byte3 x3).toNat : Int) = 0) && decide (((Packet.byte4 x3).toNat : Int)
    = 99) && decide (((midi2Data x3).toNat : Int) = ((883604428 : Word).toNat : Int)) && decide ((controllerValue x1)
    = (883604428 : Word))) = true := by decide +kernel

-- docs,assignable_controller_message_examples: lines 104-118
example : holds (do
  let x1 ← Fp.controllerOf (Fp.ofRat Fp.double (9 / 20))
  let x2 := makeAssignable 6 6 13 42 x1
  let x3 ← midi2View x2
  return (isAssignable x2) && (isMidi2CV x2) && decide (((Packet.group x3).toNat : Int) = 6) && decide (((midi2Channel
    x3).toNat : Int) = 6) && decide (((Packet.byte3 x3).toNat : Int) = 13) && decide (((Packet.byte4 x3).toNat : Int)
    = 42) && decide (((midi2Data x3).toNat : Int) = (x1.toNat : Int)) && decide ((controllerValue x2) = x1)) = true := by decide +kernel

-- docs,per_note_pitch_bend_message_examples: lines 132-145
example : holds (do
  let x1 ← Fp.pitchBendOf Fp.double (Fp.ofRat Fp.double (-617 / 5000))
  let x2 := makePerNotePitchBend 12 7 69 x1
  let x3 ← midi2View x2
  return (isPerNotePitchBend x2) && (isMidi2CV x2) && decide (((Packet.group x3).toNat : Int) = 12) && decide
    (((midi2Channel x3).toNat : Int) = 7) && decide (((Packet.byte3 x3).toNat : Int) = 69) && decide (((midi2Data
    x3).toNat : Int) = (x1.toNat : Int)) && decide (((noteNr x2).toNat : Int) = 69) && decide ((perNotePitchBendValue
    x2) = x1)) = true := by decide +kernel

-- docs,relative_registered_controller_message_examples: lines 163-172
example : holds (do
  let x1 := makeRelativeRegistered 3 14 0 99 (4294966062 : Word)
  let x2 ← midi2View x1
  return (isMidi2CV x1) && decide (((Packet.group x2).toNat : Int) = 3) && decide (((midi2Channel x2).toNat : Int) =
    14) && decide (((Packet.byte3 x2).toNat : Int) = 0) && decide (((Packet.byte4 x2).toNat : Int) = 99) && decide
    ((midi2Data x2) = (4294966062 : Word))) = true := by decide +kernel

-- docs,relative_assignable_controller_message_examples: lines 194-201
example : holds (do
  let x1 := makeRelativeAssignable 6 6 13 42 (1024 : Word)
  let x2 ← asMidi2View x1
  let x3 ← valueOf x2
  return x2.isSome && decide (((Packet.group x3).toNat : Int) = 6) && decide (((midi2Channel x3).toNat : Int) = 6) &&
    decide (((Packet.byte3 x3).toNat : Int) = 13) && decide (((Packet.byte4 x3).toNat : Int) = 42) && decide
    ((midi2Data x3) = (1024 : Word))) = true := by decide +kernel

-- docs,midi2_note_message_examples: lines 222-234
example : holds (do
  let x1 := makeMidi2NoteOn 3 8 23 (velocityOf7 100)
  let x2 ← midi2View x1
  return (isMidi2CV x1) && decide (((Packet.group x2).toNat : Int) = 3) && decide (((midi2Channel x2).toNat : Int) =
    8) && decide (((Packet.byte3 x2).toNat : Int) = 23) && decide (((midi2Data x2).toNat : Int) = ((((velocityOf7
    100).setWidth 32) <<< 16).toNat : Int)) && (isNoteOn x1) && decide (((noteNr x1).toNat : Int) = 23) && decide
    ((noteVelocity x1) = (velocityOf7 100))) = true := by decide +kernel

-- docs,midi2_note_message_examples: lines 235-248
example : holds (do
  let x1 ← Fp.pitch79Of Fp.double (Fp.ofRat Fp.double (407 / 5))
  let x2 := makeMidi2NoteOn 3 8 23 (velocityOf7 100)
  let x3 := makeMidi2NoteOnPitch 3 8 23 (velocityOf7 100) x1
  let x4 ← asMidi2View x3
  let x5 ← valueOf x4
  return decide ((notePitch x2) = (pitch79OfNote 23)) && x4.isSome && decide (((Packet.group x5).toNat : Int) = 3) &&
    decide (((midi2Channel x5).toNat : Int) = 8) && decide (((Packet.byte3 x5).toNat : Int) = 23) && decide
    (((Packet.byte4 x5).toNat : Int) = 3) && decide (((midi2Data x5).toNat : Int) = (((((velocityOf7 100).setWidth 32)
    <<< 16) ||| (x1.setWidth 32)).toNat : Int)) && (isNoteOn x3)) = true := by decide +kernel

-- docs,midi2_note_message_examples: lines 249-263
example : holds (do
  let x1 ← Fp.pitch79Of Fp.double (Fp.ofRat Fp.double (407 / 5))
  let x2 := makeMidi2NoteOnPitch 3 8 23 (velocityOf7 100) x1
  let x3 := makeMidi2NoteOnAttribute 3 8 23 (velocityOf7 100) 123 4567
  let x4 ← midi2View x3
  return (isNoteOnWithAttribute x2 3) && (isNoteOnWithPitch79 x2) && decide (((noteNr x2).toNat : Int) = 23) && decide
    ((noteVelocity x2) = (velocityOf7 100)) && decide ((notePitch x2) = x1) && decide (((noteAttribute x2).toNat :
    Int) = 3) && (isMidi2CV x3) && decide (((Packet.group x4).toNat : Int) = 3)) = true := by decide +kernel

-- docs,midi2_note_message_examples: lines 264-273
example : holds (do
  let x1 := makeMidi2NoteOnAttribute 3 8 23 (velocityOf7 100) 123 4567
  let x2 ← midi2View x1
  return decide (((midi2Channel x2).toNat : Int) = 8) && decide (((Packet.byte3 x2).toNat : Int) = 23) && decide
    (((Packet.byte4 x2).toNat : Int) = 123) && decide (((midi2Data x2).toNat : Int) = (((((velocityOf7 100).setWidth
    32) <<< 16) ||| 4567).toNat : Int)) && (isNoteOn x1) && (isNoteOnWithAttribute x1 123) && decide (((noteNr
    x1).toNat : Int) = 23) && decide ((noteVelocity x1) = (velocityOf7 100))) = true := by decide +kernel

-- docs,midi2_note_message_examples: lines 274-287
example : holds (do
  let x1 := makeMidi2NoteOnAttribute 3 8 23 (velocityOf7 100) 123 4567
  let x2 := makeMidi2NoteOff 3 8 23 (velocityOf7 100) 0 0
  let x3 ← asMidi2View x2
  let x4 ← valueOf x3
  return decide (((noteAttribute x1).toNat : Int) = 123) && decide (((noteAttributeData x1).toNat : Int) = 4567) &&
    x3.isSome && decide (((Packet.group x4).toNat : Int) = 3) && decide (((midi2Channel x4).toNat : Int) = 8) &&
    decide (((Packet.byte3 x4).toNat : Int) = 23) && decide (((midi2Data x4).toNat : Int) = ((((velocityOf7
    100).setWidth 32) <<< 16).toNat : Int)) && (isNoteOff x2)) = true := by decide +kernel

-- docs,midi2_note_message_examples: lines 288-289
example : holds (do
  let x1 := makeMidi2NoteOff 3 8 23 (velocityOf7 100) 0 0
  return decide (((noteNr x1).toNat : Int) = 23) && decide ((noteVelocity x1) = (velocityOf7 100))) = true := by decide +kernel

-- docs,midi2_poly_pressure_message_examples: lines 303-315
example : holds (do
  let x1 ← Fp.controllerOf (Fp.ofRat Fp.double (47 / 50))
  let x2 := makeMidi2PolyPressure 9 12 71 x1
  let x3 ← midi2View x2
  return (isMidi2CV x2) && decide (((Packet.group x3).toNat : Int) = 9) && decide (((midi2Channel x3).toNat : Int) =
    12) && decide (((Packet.byte3 x3).toNat : Int) = 71) && decide (((midi2Data x3).toNat : Int) = (x1.toNat : Int))
    && (isPolyPressure x2) && decide (((noteNr x2).toNat : Int) = 71) && decide ((controllerValue x2) = x1)) = true := by decide +kernel

-- docs,midi2_control_change_message_examples: lines 329-339
example : holds (do
  let x1 := makeMidi2ControlChange 2 4 24 (305419896 : Word)
  let x2 ← asMidi2View x1
  let x3 ← valueOf x2
  return x2.isSome && decide (((Packet.group x3).toNat : Int) = 2) && decide (((midi2Channel x3).toNat : Int) = 4) &&
    decide (((Packet.byte3 x3).toNat : Int) = 24) && decide (((midi2Data x3).toNat : Int) = ((305419896 : Word).toNat
    : Int)) && (isControlChange x1) && decide (((controllerNr x1).toNat : Int) = 24) && decide ((controllerValue x1) =
    (305419896 : Word))) = true := by decide +kernel

-- docs,midi2_program_change_message_examples: lines 353-370
example : holds (do
  let x1 := makeMidi2ProgramChange 0 0 99
  let x2 ← asMidi2View x1
  let x3 ← valueOf x2
  let x4 := makeMidi2ProgramChangeBank 0 0 99 324
  let x5 ← midi2View x4
  return x2.isSome && decide (((Packet.group x3).toNat : Int) = 0) && decide (((midi2Channel x3).toNat : Int) = 0) &&
    decide (((midi2Data x3).toNat : Int) = 1660944384) && (isProgramChange x1) && decide (((programValue x1).toNat :
    Int) = 99) && (isMidi2CV x4) && decide (((Packet.group x5).toNat : Int) = 0)) = true := by decide +kernel

-- docs,midi2_program_change_message_examples: lines 371-376
example : holds (do
  let x1 := makeMidi2ProgramChangeBank 0 0 99 324
  let x2 ← midi2View x1
  return decide (((midi2Channel x2).toNat : Int) = 0) && decide (((midi2Data x2).toNat : Int) = 1660944964) &&
    (isProgramChange x1) && decide (((programValue x1).toNat : Int) = 99)) = true := by decide +kernel

-- docs,midi2_channel_pressure_message_examples: lines 390-400
example : holds (do
  let x1 ← Fp.controllerOf (Fp.ofRat Fp.single (43 / 50))
  let x2 := makeMidi2ChannelPressure 15 7 x1
  let x3 ← midi2View x2
  return (isMidi2CV x2) && decide (((Packet.group x3).toNat : Int) = 15) && decide (((midi2Channel x3).toNat : Int) =
    7) && decide (((midi2Data x3).toNat : Int) = (x1.toNat : Int)) && (isChannelPressure x2) && decide
    ((channelPressureValue x2) = x1)) = true := by decide +kernel

-- docs,midi2_pitch_bend_message_examples: lines 413-423
example : holds (do
  let x1 ← Fp.pitchBendOf Fp.double (Fp.ofRat Fp.double (-31 / 100))
  let x2 := makeMidi2PitchBend 3 4 x1
  let x3 ← midi2View x2
  let x4 ← pitchBendValue x2
  return (isMidi2CV x2) && decide (((Packet.group x3).toNat : Int) = 3) && decide (((midi2Channel x3).toNat : Int) =
    4) && decide (((midi2Data x3).toNat : Int) = (x1.toNat : Int)) && (isPitchBend x2) && decide (x4 = x1)) = true := by decide +kernel

-- docs,per_note_management_message_examples: lines 437-455
example : holds (do
  let x1 := makePerNoteManagement 13 4 111 1
  let x2 ← midi2View x1
  let x3 := makePerNoteManagement 13 4 111 2
  let x4 ← asMidi2View x3
  let x5 ← valueOf x4
  return (isMidi2CV x1) && decide (((Packet.group x2).toNat : Int) = 13) && decide (((midi2Channel x2).toNat : Int) =
    4) && decide (((Packet.byte3 x2).toNat : Int) = 111) && decide (((Packet.byte4 x2).toNat : Int) = 1) && decide
    (((noteNr x1).toNat : Int) = 111) && x4.isSome && decide (((Packet.group x5).toNat : Int) = 13)) = true := by decide +kernel

-- docs,per_note_management_message_examples: lines 456-462
example : holds (do
  let x1 := makePerNoteManagement 13 4 111 2
  let x2 ← asMidi2View x1
  let x3 ← valueOf x2
  return decide (((midi2Channel x3).toNat : Int) = 4) && decide (((Packet.byte3 x3).toNat : Int) = 111) && decide
    (((Packet.byte4 x3).toNat : Int) = 2) && decide (((noteNr x1).toNat : Int) = 111)) = true := by decide +kernel

end Midi.Conformance
