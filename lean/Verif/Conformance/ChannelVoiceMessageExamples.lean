import Verif.Conformance.Prelude
import Verif.Model.ByteStream
import Verif.Model.CapabilityInquiry
import Verif.Model.Collector
import Verif.Model.Defaults
import Verif.Model.FlexData
import Verif.Model.Jitter
import Verif.Model.PitchTypes
import Verif.Model.Senders
import Verif.Model.Stream
import Verif.Model.Sysex
import Verif.Model.SysexPackets
import Verif.Model.TextFormat
import Verif.Model.Types
import Verif.Model.UniversalSysex
import Verif.Model.Reentrant

/-!
The assertions in docs/channel_voice_message.examples.cpp about the model. Generated by tools/conformance.
-/

namespace Midi.Conformance

open Midi

-- docs,note_on_examples: lines 19-27
example : holds (do
  let x1 ← Fp.velocityOf (Fp.ofRat Fp.double (2469 / 2500))
  let x2 ← Fp.pitch79Of Fp.double (Fp.ofRat Fp.double (4951 / 50))
  let x3 := makeMidi1NoteOn 0 0 99 x1
  let x4 := makeMidi2NoteOn 0 0 99 x1
  let x5 := makeMidi2NoteOnPitch 0 0 99 x1 x2
  let x6 := makeMidi2NoteOnAttribute 0 0 99 x1 42 1234
  return (isNoteOn x3) && (isNoteOn x4) && (isNoteOn x5) && (isNoteOn x6) && decide (((noteNr x3).toNat : Int) = 99)
    && decide (((noteNr x4).toNat : Int) = 99) && decide (((noteNr x5).toNat : Int) = 99) && decide (((noteNr
    x6).toNat : Int) = 99)) = true := by decide +kernel

-- docs,note_on_examples: lines 28-35
example : holds (do
  let x1 ← Fp.velocityOf (Fp.ofRat Fp.double (2469 / 2500))
  let x2 ← Fp.pitch79Of Fp.double (Fp.ofRat Fp.double (4951 / 50))
  let x3 := makeMidi1NoteOn 0 0 99 x1
  let x4 := makeMidi2NoteOn 0 0 99 x1
  let x5 := makeMidi2NoteOnPitch 0 0 99 x1 x2
  let x6 := makeMidi2NoteOnAttribute 0 0 99 x1 42 1234
  return decide ((noteVelocity x3) = (velocityOf7 (velocityAs7 x1))) && decide ((noteVelocity x4) = x1) && decide
    ((noteVelocity x5) = x1) && decide ((noteVelocity x6) = x1) && decide ((notePitch x3) = (pitch79OfNote 99)) &&
    decide ((notePitch x4) = (pitch79OfNote 99)) && decide ((notePitch x5) = x2) && decide ((notePitch x6) =
    (pitch79OfNote 99))) = true := by decide +kernel

-- docs,note_off_examples: lines 49-56
example : holds (do
  let x1 ← Fp.velocityOf (Fp.ofRat Fp.double (1 / 10))
  let x2 := makeMidi1NoteOff 0 0 71 x1
  let x3 := makeMidi2NoteOff 0 0 71 x1 0 0
  let x4 := makeMidi1NoteOn 0 0 71 (velocityOf7 0)
  return (isNoteOff x2) && (isNoteOff x3) && (isNoteOff x4) && decide (((noteNr x2).toNat : Int) = 71) && decide
    (((noteNr x3).toNat : Int) = 71) && decide (((noteNr x4).toNat : Int) = 71) && decide ((noteVelocity x2) =
    (velocityOf7 (velocityAs7 x1))) && decide ((noteVelocity x3) = x1)) = true := by decide +kernel

-- docs,note_off_examples: line 57
example : holds (do
  let x1 := makeMidi1NoteOn 0 0 71 (velocityOf7 0)
  return decide ((noteVelocity x1) = (velocityOf7 64))) = true := by decide +kernel

-- docs,poly_pressure_examples: lines 70-77
example : holds (do
  let x1 ← Fp.controllerOf (Fp.ofRat Fp.double (3 / 4))
  let x2 := makeMidi1PolyPressure 0 0 34 x1
  let x3 := makeMidi2PolyPressure 0 0 34 x1
  return (isPolyPressure x2) && (isPolyPressure x3) && decide (((noteNr x2).toNat : Int) = 34) && decide (((noteNr
    x3).toNat : Int) = 34) && decide ((controllerValue x3) = x1) && decide ((controllerValue x2) = (controllerOf7
    (controllerAs7 x1)))) = true := by decide +kernel

-- docs,control_change_examples: lines 90-97
example : holds (do
  let x1 := makeMidi1ControlChange 0 0 74 (1092753554 : Word)
  let x2 := makeMidi2ControlChange 0 0 74 (1092753554 : Word)
  return (isControlChange x1) && (isControlChange x2) && decide (((controllerNr x1).toNat : Int) = 74) && decide
    (((controllerNr x2).toNat : Int) = 74) && decide ((controllerValue x2) = (1092753554 : Word)) && decide
    ((controllerValue x1) = (controllerOf7 (controllerAs7 (1092753554 : Word))))) = true := by decide +kernel

-- docs,program_change_examples: lines 110-114
example : holds (do
  let x1 := makeMidi1ProgramChange 0 0 7
  let x2 := makeMidi2ProgramChange 0 0 7
  return (isProgramChange x1) && (isProgramChange x2) && decide (((programValue x1).toNat : Int) = 7) && decide
    (((programValue x2).toNat : Int) = 7)) = true := by decide +kernel

-- docs,channel_pressure_examples: lines 126-130
example : holds (do
  let x1 ← Fp.controllerOf (Fp.ofRat Fp.double (3 / 4))
  let x2 := makeMidi1ChannelPressure 0 0 x1
  let x3 := makeMidi2ChannelPressure 0 0 x1
  return (isChannelPressure x2) && (isChannelPressure x3) && decide ((channelPressureValue x3) = x1) && decide
    ((channelPressureValue x2) = (controllerOf7 (controllerAs7 x1)))) = true := by decide +kernel

-- docs,channel_pitch_bend_examples: lines 142-146
example : holds (do
  let x1 ← Fp.pitchBendOf Fp.double (Fp.ofRat Fp.double (-1 / 25))
  let x2 := makeMidi1PitchBend 0 0 x1
  let x3 := makeMidi2PitchBend 0 0 x1
  let x4 ← pitchBendValue x3
  let x5 ← pitchBendValue x2
  let x6 ← pitchBendOf14 (pitchBendAs14 x1)
  return (isPitchBend x2) && (isPitchBend x3) && decide (x4 = x1) && decide (x5 = x6)) = true := by decide +kernel

end Midi.Conformance
