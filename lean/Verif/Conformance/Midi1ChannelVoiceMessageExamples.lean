import Verif.Conformance.Prelude
import Verif.Model.ByteStream
import Verif.Model.CapabilityInquiry
import Verif.Model.Collector
import Verif.Model.Defaults
import Verif.Model.FlexData
import Verif.Model.Jitter
import Verif.Model.PitchTypes
import Verif.Model.Senders
import Verif.Model.Stream
import Verif.Model.Sysex
import Verif.Model.SysexPackets
import Verif.Model.TextFormat
import Verif.Model.Types
import Verif.Model.UniversalSysex
import Verif.Model.Reentrant

/-!
The assertions in docs/midi1_channel_voice_message.examples.cpp about the model. Generated by tools/conformance.
-/

namespace Midi.Conformance

open Midi

-- docs,midi1_note_message_examples: lines 19-32
example : holds (do
  let x1 := makeMidi1NoteOn 3 8 23 (velocityOf7 100)
  let x2 := makeMidi1NoteOff 3 8 23 (defaultVelocity)
  let x3 ← midi1View x1
  let x4 ← asMidi1View x2
  let x5 ← valueOf x4
  return (isMidi1CV x1) && decide (((Packet.group x3).toNat : Int) = 3) && decide (((midi1Channel x3).toNat : Int) =
    8) && decide (((midi1Data1 x3).toNat : Int) = 23) && decide (((midi1Data2 x3).toNat : Int) = ((velocityAs7
    (velocityOf7 100)).toNat : Int)) && x4.isSome && decide (((Packet.group x5).toNat : Int) = 3) && decide
    (((midi1Channel x5).toNat : Int) = 8)) = true := by decide +kernel

-- docs,midi1_note_message_examples: lines 33-42
example : holds (do
  let x1 := makeMidi1NoteOn 3 8 23 (velocityOf7 100)
  let x2 := makeMidi1NoteOff 3 8 23 (defaultVelocity)
  let x3 ← asMidi1View x2
  let x4 ← valueOf x3
  return decide (((midi1Data1 x4).toNat : Int) = 23) && decide (((midi1Data2 x4).toNat : Int) = 64) && (isNoteOn x1)
    && (isNoteOff x2) && decide (((noteNr x1).toNat : Int) = 23) && decide (((noteNr x2).toNat : Int) = 23) && decide
    ((noteVelocity x1) = (velocityOf7 100)) && decide ((noteVelocity x2) = (defaultVelocity))) = true := by decide +kernel

-- docs,midi1_note_message_examples: line 43
example : holds (do
  let x1 := makeMidi1NoteOn 3 8 23 (velocityOf7 100)
  return decide ((notePitch x1) = (pitch79OfNote 23))) = true := by decide +kernel

-- docs,midi1_poly_pressure_message_examples: lines 57-69
example : holds (do
  let x1 := makeMidi1PolyPressure 9 12 71 (controllerOf7 83)
  let x2 ← midi1View x1
  return (isMidi1CV x1) && decide (((Packet.group x2).toNat : Int) = 9) && decide (((midi1Channel x2).toNat : Int) =
    12) && decide (((midi1Data1 x2).toNat : Int) = 71) && decide (((midi1Data2 x2).toNat : Int) = ((controllerAs7
    (controllerOf7 83)).toNat : Int)) && (isPolyPressure x1) && decide (((noteNr x1).toNat : Int) = 71) && decide
    ((controllerValue x1) = (controllerOf7 83))) = true := by decide +kernel

-- docs,midi1_control_change_message_examples: lines 83-93
example : holds (do
  let x1 := makeMidi1ControlChange 2 4 24 (controllerOf7 87)
  let x2 ← asMidi1View x1
  let x3 ← valueOf x2
  return x2.isSome && decide (((Packet.group x3).toNat : Int) = 2) && decide (((midi1Channel x3).toNat : Int) = 4) &&
    decide (((midi1Data1 x3).toNat : Int) = 24) && decide (((midi1Data2 x3).toNat : Int) = ((controllerAs7
    (controllerOf7 87)).toNat : Int)) && (isControlChange x1) && decide (((controllerNr x1).toNat : Int) = 24) &&
    decide ((controllerValue x1) = (controllerOf7 87))) = true := by decide +kernel

-- docs,midi1_program_change_message_examples: lines 106-114
example : holds (do
  let x1 := makeMidi1ProgramChange 0 0 99
  let x2 ← asMidi1View x1
  let x3 ← valueOf x2
  return x2.isSome && decide (((Packet.group x3).toNat : Int) = 0) && decide (((midi1Channel x3).toNat : Int) = 0) &&
    decide (((midi1Data1 x3).toNat : Int) = 99) && (isProgramChange x1) && decide (((programValue x1).toNat : Int) =
    99)) = true := by decide +kernel

-- docs,midi1_channel_pressure_message_examples: lines 127-137
example : holds (do
  let x1 := makeMidi1ChannelPressure 15 7 (controllerOf7 121)
  let x2 ← midi1View x1
  return (isMidi1CV x1) && decide (((Packet.group x2).toNat : Int) = 15) && decide (((midi1Channel x2).toNat : Int) =
    7) && decide (((midi1Data1 x2).toNat : Int) = ((controllerAs7 (controllerOf7 121)).toNat : Int)) &&
    (isChannelPressure x1) && decide ((channelPressureValue x1) = (controllerOf7 121))) = true := by decide +kernel

-- docs,midi1_pitch_bend_message_examples: lines 150-161
example : holds (do
  let x1 ← pitchBendOf14 9234
  let x2 := makeMidi1PitchBend 3 4 x1
  let x3 ← midi1View x2
  let x4 ← pitchBendValue x2
  return (isMidi1CV x2) && decide (((Packet.group x3).toNat : Int) = 3) && decide (((midi1Channel x3).toNat : Int) =
    4) && decide (((midi1Data1 x3).toNat : Int) = (((pitchBendAs14 x1) &&& 127).toNat : Int)) && decide (((midi1Data2
    x3).toNat : Int) = (((pitchBendAs14 x1) >>> 7).toNat : Int)) && (isPitchBend x2) && decide (x4 = x1)) = true := by decide +kernel

end Midi.Conformance
