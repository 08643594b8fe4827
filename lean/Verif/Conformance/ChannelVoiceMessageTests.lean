import Verif.Conformance.Prelude
import Verif.Model.ByteStream
import Verif.Model.CapabilityInquiry
import Verif.Model.Collector
import Verif.Model.Defaults
import Verif.Model.FlexData
import Verif.Model.Jitter
import Verif.Model.PitchTypes
import Verif.Model.Senders
import Verif.Model.Stream
import Verif.Model.Sysex
import Verif.Model.SysexPackets
import Verif.Model.TextFormat
import Verif.Model.Types
import Verif.Model.UniversalSysex
import Verif.Model.Reentrant

/-!
The expectations of tests/channel_voice_message_tests.cpp about the model. Generated by tools/conformance.
-/

namespace Midi.Conformance

open Midi

-- channel_voice_message,is_channel_voice_message_with_status: line 55
example : holds (do
  let x1 := Packet.ofWords [0]
  let x2 := Packet.ofWords [1048577]
  let x3 := Packet.ofWords [2097154]
  let x4 := Packet.ofWords [4194308]
  let x5 := Packet.ofWords [5242885]
  let x6 := Packet.ofWords [6291462]
  return decide (0 = (if (isCVWithStatus x1 0) then 1 else 0)) && decide (0 = (if (isCVWithStatus x2 0) then 1 else
    0)) && decide (0 = (if (isCVWithStatus x3 0) then 1 else 0)) && decide (0 = (if (isCVWithStatus x4 0) then 1 else
    0)) && decide (0 = (if (isCVWithStatus x5 0) then 1 else 0)) && decide (0 = (if (isCVWithStatus x6 0) then 1 else
    0))) = true := by decide +kernel

-- channel_voice_message,is_note_on_message: lines 69-78
example : holds (do
  let x1 := makeMidi1NoteOff 0 2 67 (defaultVelocity)
  let x2 := makeMidi1NoteOn 4 7 99 (velocityOf7 100)
  let x3 := makeMidi1NoteOn 13 5 60 (velocityOf7 0)
  let x4 := makeMidi1PolyPressure 14 2 64 (controllerOf7 77)
  let x5 := makeMidi1ControlChange 5 15 7 (controllerOf7 100)
  let x6 := makeMidi1ProgramChange 14 7 42
  let x7 := makeMidi1ChannelPressure 8 8 (controllerOf7 77)
  let x8 ← pitchBendOf14 8177
  let x9 := makeMidi1PitchBend 1 13 x8
  return (!(isNoteOn x1)) && (isNoteOn x2) && (!(isNoteOn x3)) && (!(isNoteOn x4)) && (!(isNoteOn x5)) && (!(isNoteOn
    x6)) && (!(isNoteOn x7)) && (!(isNoteOn x9))) = true := by decide +kernel

-- channel_voice_message,is_note_on_message: lines 83-95
example : holds (do
  let x1 := makeRegisteredPerNote 15 10 44 2 (123456 : Word)
  let x2 := makeAssignablePerNote 3 7 64 99 (987654 : Word)
  let x3 := makeRegistered 2 9 0 4 (123456 : Word)
  let x4 := makeAssignable 8 0 4 12 (987654 : Word)
  let x5 := makeRelativeRegistered 2 9 0 4 (4294966062 : Word)
  let x6 := makeRelativeAssignable 8 0 4 12 (111 : Word)
  let x7 := makePerNotePitchBend 11 12 13 (2147483649 : Word)
  let x8 := midi2Message 1 112 2 3 4 2880154539
  return (!(isNoteOn x1)) && (!(isNoteOn x2)) && (!(isNoteOn x3)) && (!(isNoteOn x4)) && (!(isNoteOn x5)) &&
    (!(isNoteOn x6)) && (!(isNoteOn x7)) && (!(isNoteOn x8))) = true := by decide +kernel

-- channel_voice_message,is_note_on_message: lines 97-105
example : holds (do
  let x1 := makeMidi2NoteOff 0 2 67 (4660 : U16) 0 0
  let x2 := makeMidi2NoteOn 4 7 99 (17767 : U16)
  let x3 := makeMidi2NoteOn 13 5 60 (0 : U16)
  let x4 := makeMidi2NoteOnPitch 9 10 127 (40960 : U16) (pitch79OfNote 60)
  let x5 := makeMidi2PolyPressure 14 2 64 (1737075661 : Word)
  let x6 := makeMidi2ControlChange 5 15 7 (2309737967 : Word)
  let x7 := makeMidi2ProgramChangeBank 14 7 0 42
  let x8 := makeMidi2ChannelPressure 8 8 (2882400001 : Word)
  return (!(isNoteOn x1)) && (isNoteOn x2) && (isNoteOn x3) && (isNoteOn x4) && (!(isNoteOn x5)) && (!(isNoteOn x6))
    && (!(isNoteOn x7)) && (!(isNoteOn x8))) = true := by decide +kernel

-- channel_voice_message,is_note_on_message: lines 106-123
example : holds (do
  let x1 := makeMidi2PitchBend 1 13 (2415919103 : Word)
  let x2 := makeUtility 0 0
  let x3 := makeSystem 0 0 0 0
  let x4 := Packet.ofWords [805306368, 0]
  let x5 := Packet.ofWords [1342177280, 0]
  let x6 := Packet.ofWords [1610612736, 0]
  let x7 := Packet.ofWords [1879048192, 0]
  let x8 := Packet.ofWords [2147483648, 0]
  return (!(isNoteOn x1)) && (!(isNoteOn x2)) && (!(isNoteOn x3)) && (!(isNoteOn x4)) && (!(isNoteOn x5)) &&
    (!(isNoteOn x6)) && (!(isNoteOn x7)) && (!(isNoteOn x8))) = true := by decide +kernel

-- channel_voice_message,is_note_on_message: lines 117-130
example : holds (do
  let x1 := Packet.ofWords [2415919104, 0]
  let x2 := Packet.ofWords [2684354560, 0]
  let x3 := Packet.ofWords [2952790016, 0]
  let x4 := Packet.ofWords [3221225472, 0]
  let x5 := Packet.ofWords [3489660928, 0]
  let x6 := Packet.ofWords [3758096384, 0]
  let x7 := Packet.ofWords [4026531840, 0]
  let x8 := makeUtility 23 529
  return (!(isNoteOn x1)) && (!(isNoteOn x2)) && (!(isNoteOn x3)) && (!(isNoteOn x4)) && (!(isNoteOn x5)) &&
    (!(isNoteOn x6)) && (!(isNoteOn x7)) && (!(isNoteOn x8))) = true := by decide +kernel

-- channel_voice_message,is_note_on_message: lines 118-125
example : holds (do
  let x1 := makeSystem 7 23 17 0
  let x2 := Packet.ofWords [924254208, 529]
  let x3 := Packet.ofWords [1461125120, 529]
  let x4 := Packet.ofWords [1729560576, 529]
  let x5 := Packet.ofWords [1997996032, 529]
  let x6 := Packet.ofWords [2266431488, 529]
  let x7 := Packet.ofWords [2534866944, 529]
  let x8 := Packet.ofWords [2803302400, 529]
  return (!(isNoteOn x1)) && (!(isNoteOn x2)) && (!(isNoteOn x3)) && (!(isNoteOn x4)) && (!(isNoteOn x5)) &&
    (!(isNoteOn x6)) && (!(isNoteOn x7)) && (!(isNoteOn x8))) = true := by decide +kernel

-- channel_voice_message,is_note_on_message: lines 117-130
example : holds (do
  let x1 := Packet.ofWords [3071737856, 529]
  let x2 := Packet.ofWords [3340173312, 529]
  let x3 := Packet.ofWords [3608608768, 529]
  let x4 := Packet.ofWords [3877044224, 529]
  let x5 := Packet.ofWords [4145479680, 529]
  let x6 := makeUtility 46 2116
  let x7 := makeSystem 14 46 68 0
  let x8 := Packet.ofWords [1043202048, 2116]
  return (!(isNoteOn x1)) && (!(isNoteOn x2)) && (!(isNoteOn x3)) && (!(isNoteOn x4)) && (!(isNoteOn x5)) &&
    (!(isNoteOn x6)) && (!(isNoteOn x7)) && (!(isNoteOn x8))) = true := by decide +kernel

-- channel_voice_message,is_note_on_message: lines 120-127
example : holds (do
  let x1 := Packet.ofWords [1580072960, 2116]
  let x2 := Packet.ofWords [1848508416, 2116]
  let x3 := Packet.ofWords [2116943872, 2116]
  let x4 := Packet.ofWords [2385379328, 2116]
  let x5 := Packet.ofWords [2653814784, 2116]
  let x6 := Packet.ofWords [2922250240, 2116]
  let x7 := Packet.ofWords [3190685696, 2116]
  let x8 := Packet.ofWords [3459121152, 2116]
  return (!(isNoteOn x1)) && (!(isNoteOn x2)) && (!(isNoteOn x3)) && (!(isNoteOn x4)) && (!(isNoteOn x5)) &&
    (!(isNoteOn x6)) && (!(isNoteOn x7)) && (!(isNoteOn x8))) = true := by decide +kernel

-- channel_voice_message,is_note_on_message: lines 117-130
example : holds (do
  let x1 := Packet.ofWords [3727556608, 2116]
  let x2 := Packet.ofWords [3995992064, 2116]
  let x3 := Packet.ofWords [4264427520, 2116]
  let x4 := makeUtility 69 4761
  let x5 := makeSystem 5 69 153 0
  let x6 := Packet.ofWords [893714432, 4761]
  let x7 := Packet.ofWords [1430585344, 4761]
  let x8 := Packet.ofWords [1699020800, 4761]
  return (!(isNoteOn x1)) && (!(isNoteOn x2)) && (!(isNoteOn x3)) && (!(isNoteOn x4)) && (!(isNoteOn x5)) &&
    (!(isNoteOn x6)) && (!(isNoteOn x7)) && (!(isNoteOn x8))) = true := by decide +kernel

-- channel_voice_message,is_note_on_message: lines 122-129
example : holds (do
  let x1 := Packet.ofWords [1967456256, 4761]
  let x2 := Packet.ofWords [2235891712, 4761]
  let x3 := Packet.ofWords [2504327168, 4761]
  let x4 := Packet.ofWords [2772762624, 4761]
  let x5 := Packet.ofWords [3041198080, 4761]
  let x6 := Packet.ofWords [3309633536, 4761]
  let x7 := Packet.ofWords [3578068992, 4761]
  let x8 := Packet.ofWords [3846504448, 4761]
  return (!(isNoteOn x1)) && (!(isNoteOn x2)) && (!(isNoteOn x3)) && (!(isNoteOn x4)) && (!(isNoteOn x5)) &&
    (!(isNoteOn x6)) && (!(isNoteOn x7)) && (!(isNoteOn x8))) = true := by decide +kernel

-- channel_voice_message,is_note_on_message: lines 117-130
example : holds (do
  let x1 := Packet.ofWords [4114939904, 4761]
  let x2 := makeUtility 92 8464
  let x3 := makeSystem 12 92 16 0
  let x4 := Packet.ofWords [1012662272, 8464]
  let x5 := Packet.ofWords [1549533184, 8464]
  let x6 := Packet.ofWords [1817968640, 8464]
  let x7 := Packet.ofWords [2086404096, 8464]
  let x8 := Packet.ofWords [2354839552, 8464]
  return (!(isNoteOn x1)) && (!(isNoteOn x2)) && (!(isNoteOn x3)) && (!(isNoteOn x4)) && (!(isNoteOn x5)) &&
    (!(isNoteOn x6)) && (!(isNoteOn x7)) && (!(isNoteOn x8))) = true := by decide +kernel

-- channel_voice_message,is_note_on_message: lines 117-130
example : holds (do
  let x1 := Packet.ofWords [2623275008, 8464]
  let x2 := Packet.ofWords [2891710464, 8464]
  let x3 := Packet.ofWords [3160145920, 8464]
  let x4 := Packet.ofWords [3428581376, 8464]
  let x5 := Packet.ofWords [3697016832, 8464]
  let x6 := Packet.ofWords [3965452288, 8464]
  let x7 := Packet.ofWords [4233887744, 8464]
  let x8 := makeUtility 115 13225
  return (!(isNoteOn x1)) && (!(isNoteOn x2)) && (!(isNoteOn x3)) && (!(isNoteOn x4)) && (!(isNoteOn x5)) &&
    (!(isNoteOn x6)) && (!(isNoteOn x7)) && (!(isNoteOn x8))) = true := by decide +kernel

-- channel_voice_message,is_note_on_message: lines 118-125
example : holds (do
  let x1 := makeSystem 3 115 169 0
  let x2 := Packet.ofWords [863174656, 13225]
  let x3 := Packet.ofWords [1400045568, 13225]
  let x4 := Packet.ofWords [1668481024, 13225]
  let x5 := Packet.ofWords [1936916480, 13225]
  let x6 := Packet.ofWords [2205351936, 13225]
  let x7 := Packet.ofWords [2473787392, 13225]
  let x8 := Packet.ofWords [2742222848, 13225]
  return (!(isNoteOn x1)) && (!(isNoteOn x2)) && (!(isNoteOn x3)) && (!(isNoteOn x4)) && (!(isNoteOn x5)) &&
    (!(isNoteOn x6)) && (!(isNoteOn x7)) && (!(isNoteOn x8))) = true := by decide +kernel

-- channel_voice_message,is_note_on_message: lines 126-130
example : holds (do
  let x1 := Packet.ofWords [3010658304, 13225]
  let x2 := Packet.ofWords [3279093760, 13225]
  let x3 := Packet.ofWords [3547529216, 13225]
  let x4 := Packet.ofWords [3815964672, 13225]
  let x5 := Packet.ofWords [4084400128, 13225]
  return (!(isNoteOn x1)) && (!(isNoteOn x2)) && (!(isNoteOn x3)) && (!(isNoteOn x4)) && (!(isNoteOn x5))) = true := by decide +kernel

-- channel_voice_message,is_note_off_message: lines 143-152
example : holds (do
  let x1 := makeMidi1NoteOff 0 2 67 (defaultVelocity)
  let x2 := makeMidi1NoteOn 4 7 99 (velocityOf7 100)
  let x3 := makeMidi1NoteOn 13 5 60 (velocityOf7 0)
  let x4 := makeMidi1PolyPressure 14 2 64 (controllerOf7 77)
  let x5 := makeMidi1ControlChange 5 15 7 (controllerOf7 100)
  let x6 := makeMidi1ProgramChange 14 7 42
  let x7 := makeMidi1ChannelPressure 8 8 (controllerOf7 77)
  let x8 ← pitchBendOf14 8177
  let x9 := makeMidi1PitchBend 1 13 x8
  return (isNoteOff x1) && (!(isNoteOff x2)) && (isNoteOff x3) && (!(isNoteOff x4)) && (!(isNoteOff x5)) &&
    (!(isNoteOff x6)) && (!(isNoteOff x7)) && (!(isNoteOff x9))) = true := by decide +kernel

-- channel_voice_message,is_note_off_message: lines 157-170
example : holds (do
  let x1 := makeRegisteredPerNote 15 10 44 2 (123456 : Word)
  let x2 := makeAssignablePerNote 3 7 64 99 (987654 : Word)
  let x3 := makeRegistered 2 9 0 4 (123456 : Word)
  let x4 := makeAssignable 8 0 4 12 (987654 : Word)
  let x5 := makeRelativeRegistered 2 9 0 4 (4294966062 : Word)
  let x6 := makeRelativeAssignable 8 0 4 12 (111 : Word)
  let x7 := makePerNotePitchBend 11 12 13 (2147483649 : Word)
  let x8 := midi2Message 1 112 2 3 4 2880154539
  return (!(isNoteOff x1)) && (!(isNoteOff x2)) && (!(isNoteOff x3)) && (!(isNoteOff x4)) && (!(isNoteOff x5)) &&
    (!(isNoteOff x6)) && (!(isNoteOff x7)) && (!(isNoteOff x8))) = true := by decide +kernel

-- channel_voice_message,is_note_off_message: lines 172-180
example : holds (do
  let x1 := makeMidi2NoteOff 0 2 67 (4660 : U16) 0 0
  let x2 := makeMidi2NoteOn 4 7 99 (17767 : U16)
  let x3 := makeMidi2NoteOn 13 5 60 (0 : U16)
  let x4 := makeMidi2NoteOnPitch 9 10 127 (40960 : U16) (pitch79OfNote 60)
  let x5 := makeMidi2PolyPressure 14 2 64 (1737075661 : Word)
  let x6 := makeMidi2ControlChange 5 15 7 (2309737967 : Word)
  let x7 := makeMidi2ProgramChangeBank 14 7 0 42
  let x8 := makeMidi2ChannelPressure 8 8 (2882400001 : Word)
  return (isNoteOff x1) && (!(isNoteOff x2)) && (!(isNoteOff x3)) && (!(isNoteOff x4)) && (!(isNoteOff x5)) &&
    (!(isNoteOff x6)) && (!(isNoteOff x7)) && (!(isNoteOff x8))) = true := by decide +kernel

-- channel_voice_message,is_note_off_message: lines 181-198
example : holds (do
  let x1 := makeMidi2PitchBend 1 13 (2415919103 : Word)
  let x2 := makeUtility 0 0
  let x3 := makeSystem 0 0 0 0
  let x4 := Packet.ofWords [805306368, 0]
  let x5 := Packet.ofWords [1342177280, 0]
  let x6 := Packet.ofWords [1610612736, 0]
  let x7 := Packet.ofWords [1879048192, 0]
  let x8 := Packet.ofWords [2147483648, 0]
  return (!(isNoteOff x1)) && (!(isNoteOff x2)) && (!(isNoteOff x3)) && (!(isNoteOff x4)) && (!(isNoteOff x5)) &&
    (!(isNoteOff x6)) && (!(isNoteOff x7)) && (!(isNoteOff x8))) = true := by decide +kernel

-- channel_voice_message,is_note_off_message: lines 192-205
example : holds (do
  let x1 := Packet.ofWords [2415919104, 0]
  let x2 := Packet.ofWords [2684354560, 0]
  let x3 := Packet.ofWords [2952790016, 0]
  let x4 := Packet.ofWords [3221225472, 0]
  let x5 := Packet.ofWords [3489660928, 0]
  let x6 := Packet.ofWords [3758096384, 0]
  let x7 := Packet.ofWords [4026531840, 0]
  let x8 := makeUtility 23 529
  return (!(isNoteOff x1)) && (!(isNoteOff x2)) && (!(isNoteOff x3)) && (!(isNoteOff x4)) && (!(isNoteOff x5)) &&
    (!(isNoteOff x6)) && (!(isNoteOff x7)) && (!(isNoteOff x8))) = true := by decide +kernel

-- channel_voice_message,is_note_off_message: lines 193-200
example : holds (do
  let x1 := makeSystem 7 23 17 0
  let x2 := Packet.ofWords [924254208, 529]
  let x3 := Packet.ofWords [1461125120, 529]
  let x4 := Packet.ofWords [1729560576, 529]
  let x5 := Packet.ofWords [1997996032, 529]
  let x6 := Packet.ofWords [2266431488, 529]
  let x7 := Packet.ofWords [2534866944, 529]
  let x8 := Packet.ofWords [2803302400, 529]
  return (!(isNoteOff x1)) && (!(isNoteOff x2)) && (!(isNoteOff x3)) && (!(isNoteOff x4)) && (!(isNoteOff x5)) &&
    (!(isNoteOff x6)) && (!(isNoteOff x7)) && (!(isNoteOff x8))) = true := by decide +kernel

-- channel_voice_message,is_note_off_message: lines 192-205
example : holds (do
  let x1 := Packet.ofWords [3071737856, 529]
  let x2 := Packet.ofWords [3340173312, 529]
  let x3 := Packet.ofWords [3608608768, 529]
  let x4 := Packet.ofWords [3877044224, 529]
  let x5 := Packet.ofWords [4145479680, 529]
  let x6 := makeUtility 46 2116
  let x7 := makeSystem 14 46 68 0
  let x8 := Packet.ofWords [1043202048, 2116]
  return (!(isNoteOff x1)) && (!(isNoteOff x2)) && (!(isNoteOff x3)) && (!(isNoteOff x4)) && (!(isNoteOff x5)) &&
    (!(isNoteOff x6)) && (!(isNoteOff x7)) && (!(isNoteOff x8))) = true := by decide +kernel

-- channel_voice_message,is_note_off_message: lines 195-202
example : holds (do
  let x1 := Packet.ofWords [1580072960, 2116]
  let x2 := Packet.ofWords [1848508416, 2116]
  let x3 := Packet.ofWords [2116943872, 2116]
  let x4 := Packet.ofWords [2385379328, 2116]
  let x5 := Packet.ofWords [2653814784, 2116]
  let x6 := Packet.ofWords [2922250240, 2116]
  let x7 := Packet.ofWords [3190685696, 2116]
  let x8 := Packet.ofWords [3459121152, 2116]
  return (!(isNoteOff x1)) && (!(isNoteOff x2)) && (!(isNoteOff x3)) && (!(isNoteOff x4)) && (!(isNoteOff x5)) &&
    (!(isNoteOff x6)) && (!(isNoteOff x7)) && (!(isNoteOff x8))) = true := by decide +kernel

-- channel_voice_message,is_note_off_message: lines 192-205
example : holds (do
  let x1 := Packet.ofWords [3727556608, 2116]
  let x2 := Packet.ofWords [3995992064, 2116]
  let x3 := Packet.ofWords [4264427520, 2116]
  let x4 := makeUtility 69 4761
  let x5 := makeSystem 5 69 153 0
  let x6 := Packet.ofWords [893714432, 4761]
  let x7 := Packet.ofWords [1430585344, 4761]
  let x8 := Packet.ofWords [1699020800, 4761]
  return (!(isNoteOff x1)) && (!(isNoteOff x2)) && (!(isNoteOff x3)) && (!(isNoteOff x4)) && (!(isNoteOff x5)) &&
    (!(isNoteOff x6)) && (!(isNoteOff x7)) && (!(isNoteOff x8))) = true := by decide +kernel

-- channel_voice_message,is_note_off_message: lines 197-204
example : holds (do
  let x1 := Packet.ofWords [1967456256, 4761]
  let x2 := Packet.ofWords [2235891712, 4761]
  let x3 := Packet.ofWords [2504327168, 4761]
  let x4 := Packet.ofWords [2772762624, 4761]
  let x5 := Packet.ofWords [3041198080, 4761]
  let x6 := Packet.ofWords [3309633536, 4761]
  let x7 := Packet.ofWords [3578068992, 4761]
  let x8 := Packet.ofWords [3846504448, 4761]
  return (!(isNoteOff x1)) && (!(isNoteOff x2)) && (!(isNoteOff x3)) && (!(isNoteOff x4)) && (!(isNoteOff x5)) &&
    (!(isNoteOff x6)) && (!(isNoteOff x7)) && (!(isNoteOff x8))) = true := by decide +kernel

-- channel_voice_message,is_note_off_message: lines 192-205
example : holds (do
  let x1 := Packet.ofWords [4114939904, 4761]
  let x2 := makeUtility 92 8464
  let x3 := makeSystem 12 92 16 0
  let x4 := Packet.ofWords [1012662272, 8464]
  let x5 := Packet.ofWords [1549533184, 8464]
  let x6 := Packet.ofWords [1817968640, 8464]
  let x7 := Packet.ofWords [2086404096, 8464]
  let x8 := Packet.ofWords [2354839552, 8464]
  return (!(isNoteOff x1)) && (!(isNoteOff x2)) && (!(isNoteOff x3)) && (!(isNoteOff x4)) && (!(isNoteOff x5)) &&
    (!(isNoteOff x6)) && (!(isNoteOff x7)) && (!(isNoteOff x8))) = true := by decide +kernel

-- channel_voice_message,is_note_off_message: lines 192-205
example : holds (do
  let x1 := Packet.ofWords [2623275008, 8464]
  let x2 := Packet.ofWords [2891710464, 8464]
  let x3 := Packet.ofWords [3160145920, 8464]
  let x4 := Packet.ofWords [3428581376, 8464]
  let x5 := Packet.ofWords [3697016832, 8464]
  let x6 := Packet.ofWords [3965452288, 8464]
  let x7 := Packet.ofWords [4233887744, 8464]
  let x8 := makeUtility 115 13225
  return (!(isNoteOff x1)) && (!(isNoteOff x2)) && (!(isNoteOff x3)) && (!(isNoteOff x4)) && (!(isNoteOff x5)) &&
    (!(isNoteOff x6)) && (!(isNoteOff x7)) && (!(isNoteOff x8))) = true := by decide +kernel

-- channel_voice_message,is_note_off_message: lines 193-200
example : holds (do
  let x1 := makeSystem 3 115 169 0
  let x2 := Packet.ofWords [863174656, 13225]
  let x3 := Packet.ofWords [1400045568, 13225]
  let x4 := Packet.ofWords [1668481024, 13225]
  let x5 := Packet.ofWords [1936916480, 13225]
  let x6 := Packet.ofWords [2205351936, 13225]
  let x7 := Packet.ofWords [2473787392, 13225]
  let x8 := Packet.ofWords [2742222848, 13225]
  return (!(isNoteOff x1)) && (!(isNoteOff x2)) && (!(isNoteOff x3)) && (!(isNoteOff x4)) && (!(isNoteOff x5)) &&
    (!(isNoteOff x6)) && (!(isNoteOff x7)) && (!(isNoteOff x8))) = true := by decide +kernel

-- channel_voice_message,is_note_off_message: lines 201-205
example : holds (do
  let x1 := Packet.ofWords [3010658304, 13225]
  let x2 := Packet.ofWords [3279093760, 13225]
  let x3 := Packet.ofWords [3547529216, 13225]
  let x4 := Packet.ofWords [3815964672, 13225]
  let x5 := Packet.ofWords [4084400128, 13225]
  return (!(isNoteOff x1)) && (!(isNoteOff x2)) && (!(isNoteOff x3)) && (!(isNoteOff x4)) && (!(isNoteOff x5))) = true := by decide +kernel

-- channel_voice_message,get_note_nr: lines 218-233
example : holds (do
  let x1 := makeMidi1NoteOff 0 2 67 (defaultVelocity)
  let x2 := makeMidi1NoteOn 13 5 60 (velocityOf7 0)
  let x3 := makeMidi1PolyPressure 14 2 64 (controllerOf7 77)
  let x4 := makeRegisteredPerNote 15 10 44 2 (123456 : Word)
  let x5 := makeAssignablePerNote 3 7 64 99 (987654 : Word)
  let x6 := makePerNotePitchBend 11 12 13 (2147483649 : Word)
  let x7 := makeMidi2NoteOff 0 2 67 (4660 : U16) 0 0
  let x8 := makeMidi2NoteOn 4 7 99 (17767 : U16)
  return decide (((noteNr x1).toNat : Int) = 67) && decide (((noteNr x2).toNat : Int) = 60) && decide (((noteNr
    x3).toNat : Int) = 64) && decide (((noteNr x4).toNat : Int) = 44) && decide (((noteNr x5).toNat : Int) = 64) &&
    decide (((noteNr x6).toNat : Int) = 13) && decide (((noteNr x7).toNat : Int) = 67) && decide (((noteNr x8).toNat :
    Int) = 99)) = true := by decide +kernel

-- channel_voice_message,get_note_nr: lines 234-238
example : holds (do
  let x1 := makeMidi2NoteOn 13 5 60 (0 : U16)
  let x2 := makeMidi2NoteOnPitch 9 10 127 (40960 : U16) (pitch79OfNote 60)
  let x3 := makeMidi2PolyPressure 14 2 64 (1737075661 : Word)
  return decide (((noteNr x1).toNat : Int) = 60) && decide (((noteNr x2).toNat : Int) = 127) && decide (((noteNr
    x3).toNat : Int) = 64)) = true := by decide +kernel

-- channel_voice_message,get_note_pitch: lines 250-266
example : holds (do
  let x1 := makeMidi1NoteOff 0 2 67 (defaultVelocity)
  let x2 := makeMidi1NoteOn 13 5 60 (velocityOf7 0)
  let x3 := makeMidi2NoteOff 0 2 67 (4660 : U16) 0 0
  let x4 := makeMidi2NoteOn 4 7 99 (17767 : U16)
  let x5 := makeMidi2NoteOn 13 5 60 (0 : U16)
  let x6 := makeMidi2NoteOnPitch 9 10 127 (40960 : U16) (pitch79OfNote 60)
  let x7 ← Fp.pitch79Of Fp.single (Fp.ofRat Fp.single (1789 / 20))
  let x8 := makeMidi2NoteOnPitch 9 10 127 (40960 : U16) x7
  return decide ((notePitch x1) = (pitch79OfNote 67)) && decide ((notePitch x2) = (pitch79OfNote 60)) && decide
    ((notePitch x3) = (pitch79OfNote 67)) && decide ((notePitch x4) = (pitch79OfNote 99)) && decide ((notePitch x5) =
    (pitch79OfNote 60)) && decide ((notePitch x6) = (pitch79OfNote 60)) && decide ((notePitch x8) = x7)) = true := by decide +kernel

-- channel_voice_message,get_note_velocity: lines 280-298
example : holds (do
  let x1 := makeMidi1NoteOff 0 2 67 (defaultVelocity)
  let x2 := makeMidi1NoteOn 13 5 60 (velocityOf7 0)
  let x3 := makeMidi1NoteOn 9 12 32 (velocityOf7 44)
  let x4 := makeMidi1NoteOn 5 6 7 (velocityOf7 127)
  let x5 := makeMidi2NoteOff 0 2 67 (4660 : U16) 0 0
  let x6 := makeMidi2NoteOn 4 7 99 (17767 : U16)
  let x7 := makeMidi2NoteOn 13 5 60 (0 : U16)
  let x8 := makeMidi2NoteOnPitch 9 10 127 (40960 : U16) (pitch79OfNote 60)
  return decide ((noteVelocity x1) = (velocityOf7 64)) && decide ((noteVelocity x2) = (velocityOf7 64)) && decide
    ((noteVelocity x3) = (velocityOf7 44)) && decide ((noteVelocity x4) = (velocityOf7 127)) && decide ((noteVelocity
    x5) = (4660 : U16)) && decide ((noteVelocity x6) = (17767 : U16)) && decide ((noteVelocity x7) = (0 : U16)) &&
    decide ((noteVelocity x8) = (40960 : U16))) = true := by decide +kernel

-- channel_voice_message,is_poly_pressure_message: lines 312-322
example : holds (do
  let x1 := makeMidi1NoteOff 0 2 67 (defaultVelocity)
  let x2 := makeMidi1NoteOn 4 7 99 (velocityOf7 100)
  let x3 := makeMidi1NoteOn 13 5 60 (velocityOf7 0)
  let x4 := makeMidi1PolyPressure 14 2 64 (controllerOf7 77)
  let x5 := makeMidi1ControlChange 5 15 7 (controllerOf7 100)
  let x6 := makeMidi1ProgramChange 14 7 42
  let x7 := makeMidi1ChannelPressure 8 8 (controllerOf7 77)
  let x8 ← pitchBendOf14 8177
  let x9 := makeMidi1PitchBend 1 13 x8
  return (!(isPolyPressure x1)) && (!(isPolyPressure x2)) && (!(isPolyPressure x3)) && (isPolyPressure x4) &&
    (!(isPolyPressure x5)) && (!(isPolyPressure x6)) && (!(isPolyPressure x7)) && (!(isPolyPressure x9))) = true := by decide +kernel

-- channel_voice_message,is_poly_pressure_message: lines 327-342
example : holds (do
  let x1 := makeRegisteredPerNote 15 10 44 2 (123456 : Word)
  let x2 := makeAssignablePerNote 3 7 64 99 (987654 : Word)
  let x3 := makeRegistered 2 9 0 4 (123456 : Word)
  let x4 := makeAssignable 8 0 4 12 (987654 : Word)
  let x5 := makeRelativeRegistered 2 9 0 4 (4294966062 : Word)
  let x6 := makeRelativeAssignable 8 0 4 12 (111 : Word)
  let x7 := makePerNotePitchBend 11 12 13 (2147483649 : Word)
  let x8 := midi2Message 1 112 2 3 4 2880154539
  return (!(isPolyPressure x1)) && (!(isPolyPressure x2)) && (!(isPolyPressure x3)) && (!(isPolyPressure x4)) &&
    (!(isPolyPressure x5)) && (!(isPolyPressure x6)) && (!(isPolyPressure x7)) && (!(isPolyPressure x8))) = true := by decide +kernel

-- channel_voice_message,is_poly_pressure_message: lines 344-354
example : holds (do
  let x1 := makeMidi2NoteOff 0 2 67 (4660 : U16) 0 0
  let x2 := makeMidi2NoteOn 4 7 99 (17767 : U16)
  let x3 := makeMidi2NoteOn 13 5 60 (0 : U16)
  let x4 := makeMidi2NoteOnPitch 9 10 127 (40960 : U16) (pitch79OfNote 60)
  let x5 := makeMidi2PolyPressure 14 2 64 (1737075661 : Word)
  let x6 := makeMidi2ControlChange 5 15 7 (2309737967 : Word)
  let x7 := makeMidi2ProgramChangeBank 14 7 0 42
  let x8 := makeMidi2ChannelPressure 8 8 (2882400001 : Word)
  return (!(isPolyPressure x1)) && (!(isPolyPressure x2)) && (!(isPolyPressure x3)) && (!(isPolyPressure x4)) &&
    (isPolyPressure x5) && (!(isPolyPressure x6)) && (!(isPolyPressure x7)) && (!(isPolyPressure x8))) = true := by decide +kernel

-- channel_voice_message,is_poly_pressure_message: lines 356-373
example : holds (do
  let x1 := makeMidi2PitchBend 1 13 (2415919103 : Word)
  let x2 := makeUtility 0 0
  let x3 := makeSystem 0 0 0 0
  let x4 := Packet.ofWords [805306368, 0]
  let x5 := Packet.ofWords [1342177280, 0]
  let x6 := Packet.ofWords [1610612736, 0]
  let x7 := Packet.ofWords [1879048192, 0]
  let x8 := Packet.ofWords [2147483648, 0]
  return (!(isPolyPressure x1)) && (!(isPolyPressure x2)) && (!(isPolyPressure x3)) && (!(isPolyPressure x4)) &&
    (!(isPolyPressure x5)) && (!(isPolyPressure x6)) && (!(isPolyPressure x7)) && (!(isPolyPressure x8))) = true := by decide +kernel

-- channel_voice_message,is_poly_pressure_message: lines 367-380
example : holds (do
  let x1 := Packet.ofWords [2415919104, 0]
  let x2 := Packet.ofWords [2684354560, 0]
  let x3 := Packet.ofWords [2952790016, 0]
  let x4 := Packet.ofWords [3221225472, 0]
  let x5 := Packet.ofWords [3489660928, 0]
  let x6 := Packet.ofWords [3758096384, 0]
  let x7 := Packet.ofWords [4026531840, 0]
  let x8 := makeUtility 23 529
  return (!(isPolyPressure x1)) && (!(isPolyPressure x2)) && (!(isPolyPressure x3)) && (!(isPolyPressure x4)) &&
    (!(isPolyPressure x5)) && (!(isPolyPressure x6)) && (!(isPolyPressure x7)) && (!(isPolyPressure x8))) = true := by decide +kernel

-- channel_voice_message,is_poly_pressure_message: lines 368-375
example : holds (do
  let x1 := makeSystem 7 23 17 0
  let x2 := Packet.ofWords [924254208, 529]
  let x3 := Packet.ofWords [1461125120, 529]
  let x4 := Packet.ofWords [1729560576, 529]
  let x5 := Packet.ofWords [1997996032, 529]
  let x6 := Packet.ofWords [2266431488, 529]
  let x7 := Packet.ofWords [2534866944, 529]
  let x8 := Packet.ofWords [2803302400, 529]
  return (!(isPolyPressure x1)) && (!(isPolyPressure x2)) && (!(isPolyPressure x3)) && (!(isPolyPressure x4)) &&
    (!(isPolyPressure x5)) && (!(isPolyPressure x6)) && (!(isPolyPressure x7)) && (!(isPolyPressure x8))) = true := by decide +kernel

-- channel_voice_message,is_poly_pressure_message: lines 367-380
example : holds (do
  let x1 := Packet.ofWords [3071737856, 529]
  let x2 := Packet.ofWords [3340173312, 529]
  let x3 := Packet.ofWords [3608608768, 529]
  let x4 := Packet.ofWords [3877044224, 529]
  let x5 := Packet.ofWords [4145479680, 529]
  let x6 := makeUtility 46 2116
  let x7 := makeSystem 14 46 68 0
  let x8 := Packet.ofWords [1043202048, 2116]
  return (!(isPolyPressure x1)) && (!(isPolyPressure x2)) && (!(isPolyPressure x3)) && (!(isPolyPressure x4)) &&
    (!(isPolyPressure x5)) && (!(isPolyPressure x6)) && (!(isPolyPressure x7)) && (!(isPolyPressure x8))) = true := by decide +kernel

-- channel_voice_message,is_poly_pressure_message: lines 370-377
example : holds (do
  let x1 := Packet.ofWords [1580072960, 2116]
  let x2 := Packet.ofWords [1848508416, 2116]
  let x3 := Packet.ofWords [2116943872, 2116]
  let x4 := Packet.ofWords [2385379328, 2116]
  let x5 := Packet.ofWords [2653814784, 2116]
  let x6 := Packet.ofWords [2922250240, 2116]
  let x7 := Packet.ofWords [3190685696, 2116]
  let x8 := Packet.ofWords [3459121152, 2116]
  return (!(isPolyPressure x1)) && (!(isPolyPressure x2)) && (!(isPolyPressure x3)) && (!(isPolyPressure x4)) &&
    (!(isPolyPressure x5)) && (!(isPolyPressure x6)) && (!(isPolyPressure x7)) && (!(isPolyPressure x8))) = true := by decide +kernel

-- channel_voice_message,is_poly_pressure_message: lines 367-380
example : holds (do
  let x1 := Packet.ofWords [3727556608, 2116]
  let x2 := Packet.ofWords [3995992064, 2116]
  let x3 := Packet.ofWords [4264427520, 2116]
  let x4 := makeUtility 69 4761
  let x5 := makeSystem 5 69 153 0
  let x6 := Packet.ofWords [893714432, 4761]
  let x7 := Packet.ofWords [1430585344, 4761]
  let x8 := Packet.ofWords [1699020800, 4761]
  return (!(isPolyPressure x1)) && (!(isPolyPressure x2)) && (!(isPolyPressure x3)) && (!(isPolyPressure x4)) &&
    (!(isPolyPressure x5)) && (!(isPolyPressure x6)) && (!(isPolyPressure x7)) && (!(isPolyPressure x8))) = true := by decide +kernel

-- channel_voice_message,is_poly_pressure_message: lines 372-379
example : holds (do
  let x1 := Packet.ofWords [1967456256, 4761]
  let x2 := Packet.ofWords [2235891712, 4761]
  let x3 := Packet.ofWords [2504327168, 4761]
  let x4 := Packet.ofWords [2772762624, 4761]
  let x5 := Packet.ofWords [3041198080, 4761]
  let x6 := Packet.ofWords [3309633536, 4761]
  let x7 := Packet.ofWords [3578068992, 4761]
  let x8 := Packet.ofWords [3846504448, 4761]
  return (!(isPolyPressure x1)) && (!(isPolyPressure x2)) && (!(isPolyPressure x3)) && (!(isPolyPressure x4)) &&
    (!(isPolyPressure x5)) && (!(isPolyPressure x6)) && (!(isPolyPressure x7)) && (!(isPolyPressure x8))) = true := by decide +kernel

-- channel_voice_message,is_poly_pressure_message: lines 367-380
example : holds (do
  let x1 := Packet.ofWords [4114939904, 4761]
  let x2 := makeUtility 92 8464
  let x3 := makeSystem 12 92 16 0
  let x4 := Packet.ofWords [1012662272, 8464]
  let x5 := Packet.ofWords [1549533184, 8464]
  let x6 := Packet.ofWords [1817968640, 8464]
  let x7 := Packet.ofWords [2086404096, 8464]
  let x8 := Packet.ofWords [2354839552, 8464]
  return (!(isPolyPressure x1)) && (!(isPolyPressure x2)) && (!(isPolyPressure x3)) && (!(isPolyPressure x4)) &&
    (!(isPolyPressure x5)) && (!(isPolyPressure x6)) && (!(isPolyPressure x7)) && (!(isPolyPressure x8))) = true := by decide +kernel

-- channel_voice_message,is_poly_pressure_message: lines 367-380
example : holds (do
  let x1 := Packet.ofWords [2623275008, 8464]
  let x2 := Packet.ofWords [2891710464, 8464]
  let x3 := Packet.ofWords [3160145920, 8464]
  let x4 := Packet.ofWords [3428581376, 8464]
  let x5 := Packet.ofWords [3697016832, 8464]
  let x6 := Packet.ofWords [3965452288, 8464]
  let x7 := Packet.ofWords [4233887744, 8464]
  let x8 := makeUtility 115 13225
  return (!(isPolyPressure x1)) && (!(isPolyPressure x2)) && (!(isPolyPressure x3)) && (!(isPolyPressure x4)) &&
    (!(isPolyPressure x5)) && (!(isPolyPressure x6)) && (!(isPolyPressure x7)) && (!(isPolyPressure x8))) = true := by decide +kernel

-- channel_voice_message,is_poly_pressure_message: lines 368-375
example : holds (do
  let x1 := makeSystem 3 115 169 0
  let x2 := Packet.ofWords [863174656, 13225]
  let x3 := Packet.ofWords [1400045568, 13225]
  let x4 := Packet.ofWords [1668481024, 13225]
  let x5 := Packet.ofWords [1936916480, 13225]
  let x6 := Packet.ofWords [2205351936, 13225]
  let x7 := Packet.ofWords [2473787392, 13225]
  let x8 := Packet.ofWords [2742222848, 13225]
  return (!(isPolyPressure x1)) && (!(isPolyPressure x2)) && (!(isPolyPressure x3)) && (!(isPolyPressure x4)) &&
    (!(isPolyPressure x5)) && (!(isPolyPressure x6)) && (!(isPolyPressure x7)) && (!(isPolyPressure x8))) = true := by decide +kernel

-- channel_voice_message,is_poly_pressure_message: lines 376-380
example : holds (do
  let x1 := Packet.ofWords [3010658304, 13225]
  let x2 := Packet.ofWords [3279093760, 13225]
  let x3 := Packet.ofWords [3547529216, 13225]
  let x4 := Packet.ofWords [3815964672, 13225]
  let x5 := Packet.ofWords [4084400128, 13225]
  return (!(isPolyPressure x1)) && (!(isPolyPressure x2)) && (!(isPolyPressure x3)) && (!(isPolyPressure x4)) &&
    (!(isPolyPressure x5))) = true := by decide +kernel

-- channel_voice_message,get_poly_pressure_value: lines 392-407
example : holds (do
  let x1 := makeMidi1PolyPressure 5 15 7 (controllerOf7 38)
  let x2 := makeMidi1PolyPressure 3 8 66 (controllerOf7 77)
  let x3 ← Fp.controllerOf (Fp.ofRat Fp.single (69 / 200))
  let x4 := makeMidi2PolyPressure 1 4 99 x3
  let x5 := makeMidi2PolyPressure 9 0 49 (12345 : Word)
  let x6 := makeMidi2PolyPressure 2 14 8 (controllerOf7 109)
  return decide ((controllerValue x1) = (controllerOf7 38)) && decide ((controllerValue x2) = (controllerOf7 77)) &&
    decide ((controllerValue x4) = x3) && decide ((controllerValue x5) = (12345 : Word)) && decide ((controllerValue
    x6) = (controllerOf7 109))) = true := by decide +kernel

-- channel_voice_message,is_control_change_message: lines 421-431
example : holds (do
  let x1 := makeMidi1NoteOff 0 2 67 (defaultVelocity)
  let x2 := makeMidi1NoteOn 4 7 99 (velocityOf7 100)
  let x3 := makeMidi1NoteOn 13 5 60 (velocityOf7 0)
  let x4 := makeMidi1PolyPressure 14 2 64 (controllerOf7 77)
  let x5 := makeMidi1ControlChange 5 15 7 (controllerOf7 100)
  let x6 := makeMidi1ProgramChange 14 7 42
  let x7 := makeMidi1ChannelPressure 8 8 (controllerOf7 77)
  let x8 ← pitchBendOf14 8177
  let x9 := makeMidi1PitchBend 1 13 x8
  return (!(isControlChange x1)) && (!(isControlChange x2)) && (!(isControlChange x3)) && (!(isControlChange x4)) &&
    (isControlChange x5) && (!(isControlChange x6)) && (!(isControlChange x7)) && (!(isControlChange x9))) = true := by decide +kernel

-- channel_voice_message,is_control_change_message: lines 436-451
example : holds (do
  let x1 := makeRegisteredPerNote 15 10 44 2 (123456 : Word)
  let x2 := makeAssignablePerNote 3 7 64 99 (987654 : Word)
  let x3 := makeRegistered 2 9 0 4 (123456 : Word)
  let x4 := makeAssignable 8 0 4 12 (987654 : Word)
  let x5 := makeRelativeRegistered 2 9 0 4 (4294966062 : Word)
  let x6 := makeRelativeAssignable 8 0 4 12 (111 : Word)
  let x7 := makePerNotePitchBend 11 12 13 (2147483649 : Word)
  let x8 := midi2Message 1 112 2 3 4 2880154539
  return (!(isControlChange x1)) && (!(isControlChange x2)) && (!(isControlChange x3)) && (!(isControlChange x4)) &&
    (!(isControlChange x5)) && (!(isControlChange x6)) && (!(isControlChange x7)) && (!(isControlChange x8))) = true := by decide +kernel

-- channel_voice_message,is_control_change_message: lines 453-463
example : holds (do
  let x1 := makeMidi2NoteOff 0 2 67 (4660 : U16) 0 0
  let x2 := makeMidi2NoteOn 4 7 99 (17767 : U16)
  let x3 := makeMidi2NoteOn 13 5 60 (0 : U16)
  let x4 := makeMidi2NoteOnPitch 9 10 127 (40960 : U16) (pitch79OfNote 60)
  let x5 := makeMidi2PolyPressure 14 2 64 (1737075661 : Word)
  let x6 := makeMidi2ControlChange 5 15 7 (2309737967 : Word)
  let x7 := makeMidi2ProgramChangeBank 14 7 0 42
  let x8 := makeMidi2ChannelPressure 8 8 (2882400001 : Word)
  return (!(isControlChange x1)) && (!(isControlChange x2)) && (!(isControlChange x3)) && (!(isControlChange x4)) &&
    (!(isControlChange x5)) && (isControlChange x6) && (!(isControlChange x7)) && (!(isControlChange x8))) = true := by decide +kernel

-- channel_voice_message,is_control_change_message: lines 465-482
example : holds (do
  let x1 := makeMidi2PitchBend 1 13 (2415919103 : Word)
  let x2 := makeUtility 0 0
  let x3 := makeSystem 0 0 0 0
  let x4 := Packet.ofWords [805306368, 0]
  let x5 := Packet.ofWords [1342177280, 0]
  let x6 := Packet.ofWords [1610612736, 0]
  let x7 := Packet.ofWords [1879048192, 0]
  let x8 := Packet.ofWords [2147483648, 0]
  return (!(isControlChange x1)) && (!(isControlChange x2)) && (!(isControlChange x3)) && (!(isControlChange x4)) &&
    (!(isControlChange x5)) && (!(isControlChange x6)) && (!(isControlChange x7)) && (!(isControlChange x8))) = true := by decide +kernel

-- channel_voice_message,is_control_change_message: lines 476-489
example : holds (do
  let x1 := Packet.ofWords [2415919104, 0]
  let x2 := Packet.ofWords [2684354560, 0]
  let x3 := Packet.ofWords [2952790016, 0]
  let x4 := Packet.ofWords [3221225472, 0]
  let x5 := Packet.ofWords [3489660928, 0]
  let x6 := Packet.ofWords [3758096384, 0]
  let x7 := Packet.ofWords [4026531840, 0]
  let x8 := makeUtility 23 529
  return (!(isControlChange x1)) && (!(isControlChange x2)) && (!(isControlChange x3)) && (!(isControlChange x4)) &&
    (!(isControlChange x5)) && (!(isControlChange x6)) && (!(isControlChange x7)) && (!(isControlChange x8))) = true := by decide +kernel

-- channel_voice_message,is_control_change_message: lines 477-484
example : holds (do
  let x1 := makeSystem 7 23 17 0
  let x2 := Packet.ofWords [924254208, 529]
  let x3 := Packet.ofWords [1461125120, 529]
  let x4 := Packet.ofWords [1729560576, 529]
  let x5 := Packet.ofWords [1997996032, 529]
  let x6 := Packet.ofWords [2266431488, 529]
  let x7 := Packet.ofWords [2534866944, 529]
  let x8 := Packet.ofWords [2803302400, 529]
  return (!(isControlChange x1)) && (!(isControlChange x2)) && (!(isControlChange x3)) && (!(isControlChange x4)) &&
    (!(isControlChange x5)) && (!(isControlChange x6)) && (!(isControlChange x7)) && (!(isControlChange x8))) = true := by decide +kernel

-- channel_voice_message,is_control_change_message: lines 476-489
example : holds (do
  let x1 := Packet.ofWords [3071737856, 529]
  let x2 := Packet.ofWords [3340173312, 529]
  let x3 := Packet.ofWords [3608608768, 529]
  let x4 := Packet.ofWords [3877044224, 529]
  let x5 := Packet.ofWords [4145479680, 529]
  let x6 := makeUtility 46 2116
  let x7 := makeSystem 14 46 68 0
  let x8 := Packet.ofWords [1043202048, 2116]
  return (!(isControlChange x1)) && (!(isControlChange x2)) && (!(isControlChange x3)) && (!(isControlChange x4)) &&
    (!(isControlChange x5)) && (!(isControlChange x6)) && (!(isControlChange x7)) && (!(isControlChange x8))) = true := by decide +kernel

-- channel_voice_message,is_control_change_message: lines 479-486
example : holds (do
  let x1 := Packet.ofWords [1580072960, 2116]
  let x2 := Packet.ofWords [1848508416, 2116]
  let x3 := Packet.ofWords [2116943872, 2116]
  let x4 := Packet.ofWords [2385379328, 2116]
  let x5 := Packet.ofWords [2653814784, 2116]
  let x6 := Packet.ofWords [2922250240, 2116]
  let x7 := Packet.ofWords [3190685696, 2116]
  let x8 := Packet.ofWords [3459121152, 2116]
  return (!(isControlChange x1)) && (!(isControlChange x2)) && (!(isControlChange x3)) && (!(isControlChange x4)) &&
    (!(isControlChange x5)) && (!(isControlChange x6)) && (!(isControlChange x7)) && (!(isControlChange x8))) = true := by decide +kernel

-- channel_voice_message,is_control_change_message: lines 476-489
example : holds (do
  let x1 := Packet.ofWords [3727556608, 2116]
  let x2 := Packet.ofWords [3995992064, 2116]
  let x3 := Packet.ofWords [4264427520, 2116]
  let x4 := makeUtility 69 4761
  let x5 := makeSystem 5 69 153 0
  let x6 := Packet.ofWords [893714432, 4761]
  let x7 := Packet.ofWords [1430585344, 4761]
  let x8 := Packet.ofWords [1699020800, 4761]
  return (!(isControlChange x1)) && (!(isControlChange x2)) && (!(isControlChange x3)) && (!(isControlChange x4)) &&
    (!(isControlChange x5)) && (!(isControlChange x6)) && (!(isControlChange x7)) && (!(isControlChange x8))) = true := by decide +kernel

-- channel_voice_message,is_control_change_message: lines 481-488
example : holds (do
  let x1 := Packet.ofWords [1967456256, 4761]
  let x2 := Packet.ofWords [2235891712, 4761]
  let x3 := Packet.ofWords [2504327168, 4761]
  let x4 := Packet.ofWords [2772762624, 4761]
  let x5 := Packet.ofWords [3041198080, 4761]
  let x6 := Packet.ofWords [3309633536, 4761]
  let x7 := Packet.ofWords [3578068992, 4761]
  let x8 := Packet.ofWords [3846504448, 4761]
  return (!(isControlChange x1)) && (!(isControlChange x2)) && (!(isControlChange x3)) && (!(isControlChange x4)) &&
    (!(isControlChange x5)) && (!(isControlChange x6)) && (!(isControlChange x7)) && (!(isControlChange x8))) = true := by decide +kernel

-- channel_voice_message,is_control_change_message: lines 476-489
example : holds (do
  let x1 := Packet.ofWords [4114939904, 4761]
  let x2 := makeUtility 92 8464
  let x3 := makeSystem 12 92 16 0
  let x4 := Packet.ofWords [1012662272, 8464]
  let x5 := Packet.ofWords [1549533184, 8464]
  let x6 := Packet.ofWords [1817968640, 8464]
  let x7 := Packet.ofWords [2086404096, 8464]
  let x8 := Packet.ofWords [2354839552, 8464]
  return (!(isControlChange x1)) && (!(isControlChange x2)) && (!(isControlChange x3)) && (!(isControlChange x4)) &&
    (!(isControlChange x5)) && (!(isControlChange x6)) && (!(isControlChange x7)) && (!(isControlChange x8))) = true := by decide +kernel

-- channel_voice_message,is_control_change_message: lines 476-489
example : holds (do
  let x1 := Packet.ofWords [2623275008, 8464]
  let x2 := Packet.ofWords [2891710464, 8464]
  let x3 := Packet.ofWords [3160145920, 8464]
  let x4 := Packet.ofWords [3428581376, 8464]
  let x5 := Packet.ofWords [3697016832, 8464]
  let x6 := Packet.ofWords [3965452288, 8464]
  let x7 := Packet.ofWords [4233887744, 8464]
  let x8 := makeUtility 115 13225
  return (!(isControlChange x1)) && (!(isControlChange x2)) && (!(isControlChange x3)) && (!(isControlChange x4)) &&
    (!(isControlChange x5)) && (!(isControlChange x6)) && (!(isControlChange x7)) && (!(isControlChange x8))) = true := by decide +kernel

-- channel_voice_message,is_control_change_message: lines 477-484
example : holds (do
  let x1 := makeSystem 3 115 169 0
  let x2 := Packet.ofWords [863174656, 13225]
  let x3 := Packet.ofWords [1400045568, 13225]
  let x4 := Packet.ofWords [1668481024, 13225]
  let x5 := Packet.ofWords [1936916480, 13225]
  let x6 := Packet.ofWords [2205351936, 13225]
  let x7 := Packet.ofWords [2473787392, 13225]
  let x8 := Packet.ofWords [2742222848, 13225]
  return (!(isControlChange x1)) && (!(isControlChange x2)) && (!(isControlChange x3)) && (!(isControlChange x4)) &&
    (!(isControlChange x5)) && (!(isControlChange x6)) && (!(isControlChange x7)) && (!(isControlChange x8))) = true := by decide +kernel

-- channel_voice_message,is_control_change_message: lines 485-489
example : holds (do
  let x1 := Packet.ofWords [3010658304, 13225]
  let x2 := Packet.ofWords [3279093760, 13225]
  let x3 := Packet.ofWords [3547529216, 13225]
  let x4 := Packet.ofWords [3815964672, 13225]
  let x5 := Packet.ofWords [4084400128, 13225]
  return (!(isControlChange x1)) && (!(isControlChange x2)) && (!(isControlChange x3)) && (!(isControlChange x4)) &&
    (!(isControlChange x5))) = true := by decide +kernel

-- channel_voice_message,get_controller_id: lines 501-510
example : holds (do
  let x1 := makeMidi1ControlChange 5 15 7 (controllerOf7 100)
  let x2 := makeMidi1ControlChange 0 5 66 (controllerOf7 100)
  let x3 := makeMidi2ControlChange 5 15 7 (controllerOf7 100)
  let x4 := makeMidi2ControlChange 0 5 66 (controllerOf7 100)
  return decide (((controllerNr x1).toNat : Int) = 7) && decide (((controllerNr x2).toNat : Int) = 66) && decide
    (((controllerNr x3).toNat : Int) = 7) && decide (((controllerNr x4).toNat : Int) = 66)) = true := by decide +kernel

-- channel_voice_message,get_controller_value: lines 522-533
example : holds (do
  let x1 := makeMidi1ControlChange 5 15 7 (controllerOf7 100)
  let x2 := makeMidi1ControlChange 3 4 13 (controllerOf7 31)
  let x3 := makeMidi2ControlChange 5 15 7 (controllerOf7 100)
  let x4 ← Fp.controllerOf (Fp.ofRat Fp.single (69 / 200))
  let x5 := makeMidi2ControlChange 1 4 99 x4
  let x6 := makeMidi2ControlChange 9 0 49 (12345 : Word)
  return decide ((controllerValue x1) = (controllerOf7 100)) && decide ((controllerValue x2) = (controllerOf7 31)) &&
    decide ((controllerValue x3) = (controllerOf7 100)) && decide ((controllerValue x5) = x4) && decide
    ((controllerValue x6) = (12345 : Word))) = true := by decide +kernel

-- channel_voice_message,is_program_change_message: lines 547-557
example : holds (do
  let x1 := makeMidi1NoteOff 0 2 67 (defaultVelocity)
  let x2 := makeMidi1NoteOn 4 7 99 (velocityOf7 100)
  let x3 := makeMidi1NoteOn 13 5 60 (velocityOf7 0)
  let x4 := makeMidi1PolyPressure 14 2 64 (controllerOf7 77)
  let x5 := makeMidi1ControlChange 5 15 7 (controllerOf7 100)
  let x6 := makeMidi1ProgramChange 14 7 42
  let x7 := makeMidi1ChannelPressure 8 8 (controllerOf7 77)
  let x8 ← pitchBendOf14 8177
  let x9 := makeMidi1PitchBend 1 13 x8
  return (!(isProgramChange x1)) && (!(isProgramChange x2)) && (!(isProgramChange x3)) && (!(isProgramChange x4)) &&
    (!(isProgramChange x5)) && (isProgramChange x6) && (!(isProgramChange x7)) && (!(isProgramChange x9))) = true := by decide +kernel

-- channel_voice_message,is_program_change_message: lines 562-577
example : holds (do
  let x1 := makeRegisteredPerNote 15 10 44 2 (123456 : Word)
  let x2 := makeAssignablePerNote 3 7 64 99 (987654 : Word)
  let x3 := makeRegistered 2 9 0 4 (123456 : Word)
  let x4 := makeAssignable 8 0 4 12 (987654 : Word)
  let x5 := makeRelativeRegistered 2 9 0 4 (4294966062 : Word)
  let x6 := makeRelativeAssignable 8 0 4 12 (111 : Word)
  let x7 := makePerNotePitchBend 11 12 13 (2147483649 : Word)
  let x8 := midi2Message 1 112 2 3 4 2880154539
  return (!(isProgramChange x1)) && (!(isProgramChange x2)) && (!(isProgramChange x3)) && (!(isProgramChange x4)) &&
    (!(isProgramChange x5)) && (!(isProgramChange x6)) && (!(isProgramChange x7)) && (!(isProgramChange x8))) = true := by decide +kernel

-- channel_voice_message,is_program_change_message: lines 579-589
example : holds (do
  let x1 := makeMidi2NoteOff 0 2 67 (4660 : U16) 0 0
  let x2 := makeMidi2NoteOn 4 7 99 (17767 : U16)
  let x3 := makeMidi2NoteOn 13 5 60 (0 : U16)
  let x4 := makeMidi2NoteOnPitch 9 10 127 (40960 : U16) (pitch79OfNote 60)
  let x5 := makeMidi2PolyPressure 14 2 64 (1737075661 : Word)
  let x6 := makeMidi2ControlChange 5 15 7 (2309737967 : Word)
  let x7 := makeMidi2ProgramChangeBank 14 7 0 42
  let x8 := makeMidi2ChannelPressure 8 8 (2882400001 : Word)
  return (!(isProgramChange x1)) && (!(isProgramChange x2)) && (!(isProgramChange x3)) && (!(isProgramChange x4)) &&
    (!(isProgramChange x5)) && (!(isProgramChange x6)) && (isProgramChange x7) && (!(isProgramChange x8))) = true := by decide +kernel

-- channel_voice_message,is_program_change_message: lines 591-608
example : holds (do
  let x1 := makeMidi2PitchBend 1 13 (2415919103 : Word)
  let x2 := makeUtility 0 0
  let x3 := makeSystem 0 0 0 0
  let x4 := Packet.ofWords [805306368, 0]
  let x5 := Packet.ofWords [1342177280, 0]
  let x6 := Packet.ofWords [1610612736, 0]
  let x7 := Packet.ofWords [1879048192, 0]
  let x8 := Packet.ofWords [2147483648, 0]
  return (!(isProgramChange x1)) && (!(isProgramChange x2)) && (!(isProgramChange x3)) && (!(isProgramChange x4)) &&
    (!(isProgramChange x5)) && (!(isProgramChange x6)) && (!(isProgramChange x7)) && (!(isProgramChange x8))) = true := by decide +kernel

-- channel_voice_message,is_program_change_message: lines 602-615
example : holds (do
  let x1 := Packet.ofWords [2415919104, 0]
  let x2 := Packet.ofWords [2684354560, 0]
  let x3 := Packet.ofWords [2952790016, 0]
  let x4 := Packet.ofWords [3221225472, 0]
  let x5 := Packet.ofWords [3489660928, 0]
  let x6 := Packet.ofWords [3758096384, 0]
  let x7 := Packet.ofWords [4026531840, 0]
  let x8 := makeUtility 23 529
  return (!(isProgramChange x1)) && (!(isProgramChange x2)) && (!(isProgramChange x3)) && (!(isProgramChange x4)) &&
    (!(isProgramChange x5)) && (!(isProgramChange x6)) && (!(isProgramChange x7)) && (!(isProgramChange x8))) = true := by decide +kernel

-- channel_voice_message,is_program_change_message: lines 603-610
example : holds (do
  let x1 := makeSystem 7 23 17 0
  let x2 := Packet.ofWords [924254208, 529]
  let x3 := Packet.ofWords [1461125120, 529]
  let x4 := Packet.ofWords [1729560576, 529]
  let x5 := Packet.ofWords [1997996032, 529]
  let x6 := Packet.ofWords [2266431488, 529]
  let x7 := Packet.ofWords [2534866944, 529]
  let x8 := Packet.ofWords [2803302400, 529]
  return (!(isProgramChange x1)) && (!(isProgramChange x2)) && (!(isProgramChange x3)) && (!(isProgramChange x4)) &&
    (!(isProgramChange x5)) && (!(isProgramChange x6)) && (!(isProgramChange x7)) && (!(isProgramChange x8))) = true := by decide +kernel

-- channel_voice_message,is_program_change_message: lines 602-615
example : holds (do
  let x1 := Packet.ofWords [3071737856, 529]
  let x2 := Packet.ofWords [3340173312, 529]
  let x3 := Packet.ofWords [3608608768, 529]
  let x4 := Packet.ofWords [3877044224, 529]
  let x5 := Packet.ofWords [4145479680, 529]
  let x6 := makeUtility 46 2116
  let x7 := makeSystem 14 46 68 0
  let x8 := Packet.ofWords [1043202048, 2116]
  return (!(isProgramChange x1)) && (!(isProgramChange x2)) && (!(isProgramChange x3)) && (!(isProgramChange x4)) &&
    (!(isProgramChange x5)) && (!(isProgramChange x6)) && (!(isProgramChange x7)) && (!(isProgramChange x8))) = true := by decide +kernel

-- channel_voice_message,is_program_change_message: lines 605-612
example : holds (do
  let x1 := Packet.ofWords [1580072960, 2116]
  let x2 := Packet.ofWords [1848508416, 2116]
  let x3 := Packet.ofWords [2116943872, 2116]
  let x4 := Packet.ofWords [2385379328, 2116]
  let x5 := Packet.ofWords [2653814784, 2116]
  let x6 := Packet.ofWords [2922250240, 2116]
  let x7 := Packet.ofWords [3190685696, 2116]
  let x8 := Packet.ofWords [3459121152, 2116]
  return (!(isProgramChange x1)) && (!(isProgramChange x2)) && (!(isProgramChange x3)) && (!(isProgramChange x4)) &&
    (!(isProgramChange x5)) && (!(isProgramChange x6)) && (!(isProgramChange x7)) && (!(isProgramChange x8))) = true := by decide +kernel

-- channel_voice_message,is_program_change_message: lines 602-615
example : holds (do
  let x1 := Packet.ofWords [3727556608, 2116]
  let x2 := Packet.ofWords [3995992064, 2116]
  let x3 := Packet.ofWords [4264427520, 2116]
  let x4 := makeUtility 69 4761
  let x5 := makeSystem 5 69 153 0
  let x6 := Packet.ofWords [893714432, 4761]
  let x7 := Packet.ofWords [1430585344, 4761]
  let x8 := Packet.ofWords [1699020800, 4761]
  return (!(isProgramChange x1)) && (!(isProgramChange x2)) && (!(isProgramChange x3)) && (!(isProgramChange x4)) &&
    (!(isProgramChange x5)) && (!(isProgramChange x6)) && (!(isProgramChange x7)) && (!(isProgramChange x8))) = true := by decide +kernel

-- channel_voice_message,is_program_change_message: lines 607-614
example : holds (do
  let x1 := Packet.ofWords [1967456256, 4761]
  let x2 := Packet.ofWords [2235891712, 4761]
  let x3 := Packet.ofWords [2504327168, 4761]
  let x4 := Packet.ofWords [2772762624, 4761]
  let x5 := Packet.ofWords [3041198080, 4761]
  let x6 := Packet.ofWords [3309633536, 4761]
  let x7 := Packet.ofWords [3578068992, 4761]
  let x8 := Packet.ofWords [3846504448, 4761]
  return (!(isProgramChange x1)) && (!(isProgramChange x2)) && (!(isProgramChange x3)) && (!(isProgramChange x4)) &&
    (!(isProgramChange x5)) && (!(isProgramChange x6)) && (!(isProgramChange x7)) && (!(isProgramChange x8))) = true := by decide +kernel

-- channel_voice_message,is_program_change_message: lines 602-615
example : holds (do
  let x1 := Packet.ofWords [4114939904, 4761]
  let x2 := makeUtility 92 8464
  let x3 := makeSystem 12 92 16 0
  let x4 := Packet.ofWords [1012662272, 8464]
  let x5 := Packet.ofWords [1549533184, 8464]
  let x6 := Packet.ofWords [1817968640, 8464]
  let x7 := Packet.ofWords [2086404096, 8464]
  let x8 := Packet.ofWords [2354839552, 8464]
  return (!(isProgramChange x1)) && (!(isProgramChange x2)) && (!(isProgramChange x3)) && (!(isProgramChange x4)) &&
    (!(isProgramChange x5)) && (!(isProgramChange x6)) && (!(isProgramChange x7)) && (!(isProgramChange x8))) = true := by decide +kernel

-- channel_voice_message,is_program_change_message: lines 602-615
example : holds (do
  let x1 := Packet.ofWords [2623275008, 8464]
  let x2 := Packet.ofWords [2891710464, 8464]
  let x3 := Packet.ofWords [3160145920, 8464]
  let x4 := Packet.ofWords [3428581376, 8464]
  let x5 := Packet.ofWords [3697016832, 8464]
  let x6 := Packet.ofWords [3965452288, 8464]
  let x7 := Packet.ofWords [4233887744, 8464]
  let x8 := makeUtility 115 13225
  return (!(isProgramChange x1)) && (!(isProgramChange x2)) && (!(isProgramChange x3)) && (!(isProgramChange x4)) &&
    (!(isProgramChange x5)) && (!(isProgramChange x6)) && (!(isProgramChange x7)) && (!(isProgramChange x8))) = true := by decide +kernel

-- channel_voice_message,is_program_change_message: lines 603-610
example : holds (do
  let x1 := makeSystem 3 115 169 0
  let x2 := Packet.ofWords [863174656, 13225]
  let x3 := Packet.ofWords [1400045568, 13225]
  let x4 := Packet.ofWords [1668481024, 13225]
  let x5 := Packet.ofWords [1936916480, 13225]
  let x6 := Packet.ofWords [2205351936, 13225]
  let x7 := Packet.ofWords [2473787392, 13225]
  let x8 := Packet.ofWords [2742222848, 13225]
  return (!(isProgramChange x1)) && (!(isProgramChange x2)) && (!(isProgramChange x3)) && (!(isProgramChange x4)) &&
    (!(isProgramChange x5)) && (!(isProgramChange x6)) && (!(isProgramChange x7)) && (!(isProgramChange x8))) = true := by decide +kernel

-- channel_voice_message,is_program_change_message: lines 611-615
example : holds (do
  let x1 := Packet.ofWords [3010658304, 13225]
  let x2 := Packet.ofWords [3279093760, 13225]
  let x3 := Packet.ofWords [3547529216, 13225]
  let x4 := Packet.ofWords [3815964672, 13225]
  let x5 := Packet.ofWords [4084400128, 13225]
  return (!(isProgramChange x1)) && (!(isProgramChange x2)) && (!(isProgramChange x3)) && (!(isProgramChange x4)) &&
    (!(isProgramChange x5))) = true := by decide +kernel

-- channel_voice_message,get_program_value: lines 627-633
example : holds (do
  let x1 := makeMidi1ProgramChange 5 15 99
  let x2 := makeMidi1ProgramChange 3 8 13
  let x3 := makeMidi2ProgramChange 1 4 18
  let x4 := makeMidi2ProgramChange 9 0 44
  return decide (((programValue x1).toNat : Int) = 99) && decide (((programValue x2).toNat : Int) = 13) && decide
    (((programValue x3).toNat : Int) = 18) && decide (((programValue x4).toNat : Int) = 44)) = true := by decide +kernel

-- channel_voice_message,is_channel_pressure_message: lines 645-655
example : holds (do
  let x1 := makeMidi1NoteOff 0 2 67 (defaultVelocity)
  let x2 := makeMidi1NoteOn 4 7 99 (velocityOf7 100)
  let x3 := makeMidi1NoteOn 13 5 60 (velocityOf7 0)
  let x4 := makeMidi1PolyPressure 14 2 64 (controllerOf7 77)
  let x5 := makeMidi1ControlChange 5 15 7 (controllerOf7 100)
  let x6 := makeMidi1ProgramChange 14 7 42
  let x7 := makeMidi1ChannelPressure 8 8 (controllerOf7 77)
  let x8 ← pitchBendOf14 8177
  let x9 := makeMidi1PitchBend 1 13 x8
  return (!(isChannelPressure x1)) && (!(isChannelPressure x2)) && (!(isChannelPressure x3)) && (!(isChannelPressure
    x4)) && (!(isChannelPressure x5)) && (!(isChannelPressure x6)) && (isChannelPressure x7) && (!(isChannelPressure
    x9))) = true := by decide +kernel

-- channel_voice_message,is_channel_pressure_message: lines 660-675
example : holds (do
  let x1 := makeRegisteredPerNote 15 10 44 2 (123456 : Word)
  let x2 := makeAssignablePerNote 3 7 64 99 (987654 : Word)
  let x3 := makeRegistered 2 9 0 4 (123456 : Word)
  let x4 := makeAssignable 8 0 4 12 (987654 : Word)
  let x5 := makeRelativeRegistered 2 9 0 4 (4294966062 : Word)
  let x6 := makeRelativeAssignable 8 0 4 12 (111 : Word)
  let x7 := makePerNotePitchBend 11 12 13 (2147483649 : Word)
  let x8 := midi2Message 1 112 2 3 4 2880154539
  return (!(isChannelPressure x1)) && (!(isChannelPressure x2)) && (!(isChannelPressure x3)) && (!(isChannelPressure
    x4)) && (!(isChannelPressure x5)) && (!(isChannelPressure x6)) && (!(isChannelPressure x7)) &&
    (!(isChannelPressure x8))) = true := by decide +kernel

-- channel_voice_message,is_channel_pressure_message: lines 677-688
example : holds (do
  let x1 := makeMidi2NoteOff 0 2 67 (4660 : U16) 0 0
  let x2 := makeMidi2NoteOn 4 7 99 (17767 : U16)
  let x3 := makeMidi2NoteOn 13 5 60 (0 : U16)
  let x4 := makeMidi2NoteOnPitch 9 10 127 (40960 : U16) (pitch79OfNote 60)
  let x5 := makeMidi2PolyPressure 14 2 64 (1737075661 : Word)
  let x6 := makeMidi2ControlChange 5 15 7 (2309737967 : Word)
  let x7 := makeMidi2ProgramChangeBank 14 7 0 42
  let x8 := makeMidi2ChannelPressure 8 8 (2882400001 : Word)
  return (!(isChannelPressure x1)) && (!(isChannelPressure x2)) && (!(isChannelPressure x3)) && (!(isChannelPressure
    x4)) && (!(isChannelPressure x5)) && (!(isChannelPressure x6)) && (!(isChannelPressure x7)) && (isChannelPressure
    x8)) = true := by decide +kernel

-- channel_voice_message,is_channel_pressure_message: lines 690-707
example : holds (do
  let x1 := makeMidi2PitchBend 1 13 (2415919103 : Word)
  let x2 := makeUtility 0 0
  let x3 := makeSystem 0 0 0 0
  let x4 := Packet.ofWords [805306368, 0]
  let x5 := Packet.ofWords [1342177280, 0]
  let x6 := Packet.ofWords [1610612736, 0]
  let x7 := Packet.ofWords [1879048192, 0]
  let x8 := Packet.ofWords [2147483648, 0]
  return (!(isChannelPressure x1)) && (!(isChannelPressure x2)) && (!(isChannelPressure x3)) && (!(isChannelPressure
    x4)) && (!(isChannelPressure x5)) && (!(isChannelPressure x6)) && (!(isChannelPressure x7)) &&
    (!(isChannelPressure x8))) = true := by decide +kernel

-- channel_voice_message,is_channel_pressure_message: lines 701-714
example : holds (do
  let x1 := Packet.ofWords [2415919104, 0]
  let x2 := Packet.ofWords [2684354560, 0]
  let x3 := Packet.ofWords [2952790016, 0]
  let x4 := Packet.ofWords [3221225472, 0]
  let x5 := Packet.ofWords [3489660928, 0]
  let x6 := Packet.ofWords [3758096384, 0]
  let x7 := Packet.ofWords [4026531840, 0]
  let x8 := makeUtility 23 529
  return (!(isChannelPressure x1)) && (!(isChannelPressure x2)) && (!(isChannelPressure x3)) && (!(isChannelPressure
    x4)) && (!(isChannelPressure x5)) && (!(isChannelPressure x6)) && (!(isChannelPressure x7)) &&
    (!(isChannelPressure x8))) = true := by decide +kernel

-- channel_voice_message,is_channel_pressure_message: lines 702-709
example : holds (do
  let x1 := makeSystem 7 23 17 0
  let x2 := Packet.ofWords [924254208, 529]
  let x3 := Packet.ofWords [1461125120, 529]
  let x4 := Packet.ofWords [1729560576, 529]
  let x5 := Packet.ofWords [1997996032, 529]
  let x6 := Packet.ofWords [2266431488, 529]
  let x7 := Packet.ofWords [2534866944, 529]
  let x8 := Packet.ofWords [2803302400, 529]
  return (!(isChannelPressure x1)) && (!(isChannelPressure x2)) && (!(isChannelPressure x3)) && (!(isChannelPressure
    x4)) && (!(isChannelPressure x5)) && (!(isChannelPressure x6)) && (!(isChannelPressure x7)) &&
    (!(isChannelPressure x8))) = true := by decide +kernel

-- channel_voice_message,is_channel_pressure_message: lines 701-714
example : holds (do
  let x1 := Packet.ofWords [3071737856, 529]
  let x2 := Packet.ofWords [3340173312, 529]
  let x3 := Packet.ofWords [3608608768, 529]
  let x4 := Packet.ofWords [3877044224, 529]
  let x5 := Packet.ofWords [4145479680, 529]
  let x6 := makeUtility 46 2116
  let x7 := makeSystem 14 46 68 0
  let x8 := Packet.ofWords [1043202048, 2116]
  return (!(isChannelPressure x1)) && (!(isChannelPressure x2)) && (!(isChannelPressure x3)) && (!(isChannelPressure
    x4)) && (!(isChannelPressure x5)) && (!(isChannelPressure x6)) && (!(isChannelPressure x7)) &&
    (!(isChannelPressure x8))) = true := by decide +kernel

-- channel_voice_message,is_channel_pressure_message: lines 704-711
example : holds (do
  let x1 := Packet.ofWords [1580072960, 2116]
  let x2 := Packet.ofWords [1848508416, 2116]
  let x3 := Packet.ofWords [2116943872, 2116]
  let x4 := Packet.ofWords [2385379328, 2116]
  let x5 := Packet.ofWords [2653814784, 2116]
  let x6 := Packet.ofWords [2922250240, 2116]
  let x7 := Packet.ofWords [3190685696, 2116]
  let x8 := Packet.ofWords [3459121152, 2116]
  return (!(isChannelPressure x1)) && (!(isChannelPressure x2)) && (!(isChannelPressure x3)) && (!(isChannelPressure
    x4)) && (!(isChannelPressure x5)) && (!(isChannelPressure x6)) && (!(isChannelPressure x7)) &&
    (!(isChannelPressure x8))) = true := by decide +kernel

-- channel_voice_message,is_channel_pressure_message: lines 701-714
example : holds (do
  let x1 := Packet.ofWords [3727556608, 2116]
  let x2 := Packet.ofWords [3995992064, 2116]
  let x3 := Packet.ofWords [4264427520, 2116]
  let x4 := makeUtility 69 4761
  let x5 := makeSystem 5 69 153 0
  let x6 := Packet.ofWords [893714432, 4761]
  let x7 := Packet.ofWords [1430585344, 4761]
  let x8 := Packet.ofWords [1699020800, 4761]
  return (!(isChannelPressure x1)) && (!(isChannelPressure x2)) && (!(isChannelPressure x3)) && (!(isChannelPressure
    x4)) && (!(isChannelPressure x5)) && (!(isChannelPressure x6)) && (!(isChannelPressure x7)) &&
    (!(isChannelPressure x8))) = true := by decide +kernel

-- channel_voice_message,is_channel_pressure_message: lines 706-713
example : holds (do
  let x1 := Packet.ofWords [1967456256, 4761]
  let x2 := Packet.ofWords [2235891712, 4761]
  let x3 := Packet.ofWords [2504327168, 4761]
  let x4 := Packet.ofWords [2772762624, 4761]
  let x5 := Packet.ofWords [3041198080, 4761]
  let x6 := Packet.ofWords [3309633536, 4761]
  let x7 := Packet.ofWords [3578068992, 4761]
  let x8 := Packet.ofWords [3846504448, 4761]
  return (!(isChannelPressure x1)) && (!(isChannelPressure x2)) && (!(isChannelPressure x3)) && (!(isChannelPressure
    x4)) && (!(isChannelPressure x5)) && (!(isChannelPressure x6)) && (!(isChannelPressure x7)) &&
    (!(isChannelPressure x8))) = true := by decide +kernel

-- channel_voice_message,is_channel_pressure_message: lines 701-714
example : holds (do
  let x1 := Packet.ofWords [4114939904, 4761]
  let x2 := makeUtility 92 8464
  let x3 := makeSystem 12 92 16 0
  let x4 := Packet.ofWords [1012662272, 8464]
  let x5 := Packet.ofWords [1549533184, 8464]
  let x6 := Packet.ofWords [1817968640, 8464]
  let x7 := Packet.ofWords [2086404096, 8464]
  let x8 := Packet.ofWords [2354839552, 8464]
  return (!(isChannelPressure x1)) && (!(isChannelPressure x2)) && (!(isChannelPressure x3)) && (!(isChannelPressure
    x4)) && (!(isChannelPressure x5)) && (!(isChannelPressure x6)) && (!(isChannelPressure x7)) &&
    (!(isChannelPressure x8))) = true := by decide +kernel

-- channel_voice_message,is_channel_pressure_message: lines 701-714
example : holds (do
  let x1 := Packet.ofWords [2623275008, 8464]
  let x2 := Packet.ofWords [2891710464, 8464]
  let x3 := Packet.ofWords [3160145920, 8464]
  let x4 := Packet.ofWords [3428581376, 8464]
  let x5 := Packet.ofWords [3697016832, 8464]
  let x6 := Packet.ofWords [3965452288, 8464]
  let x7 := Packet.ofWords [4233887744, 8464]
  let x8 := makeUtility 115 13225
  return (!(isChannelPressure x1)) && (!(isChannelPressure x2)) && (!(isChannelPressure x3)) && (!(isChannelPressure
    x4)) && (!(isChannelPressure x5)) && (!(isChannelPressure x6)) && (!(isChannelPressure x7)) &&
    (!(isChannelPressure x8))) = true := by decide +kernel

-- channel_voice_message,is_channel_pressure_message: lines 702-709
example : holds (do
  let x1 := makeSystem 3 115 169 0
  let x2 := Packet.ofWords [863174656, 13225]
  let x3 := Packet.ofWords [1400045568, 13225]
  let x4 := Packet.ofWords [1668481024, 13225]
  let x5 := Packet.ofWords [1936916480, 13225]
  let x6 := Packet.ofWords [2205351936, 13225]
  let x7 := Packet.ofWords [2473787392, 13225]
  let x8 := Packet.ofWords [2742222848, 13225]
  return (!(isChannelPressure x1)) && (!(isChannelPressure x2)) && (!(isChannelPressure x3)) && (!(isChannelPressure
    x4)) && (!(isChannelPressure x5)) && (!(isChannelPressure x6)) && (!(isChannelPressure x7)) &&
    (!(isChannelPressure x8))) = true := by decide +kernel

-- channel_voice_message,is_channel_pressure_message: lines 710-714
example : holds (do
  let x1 := Packet.ofWords [3010658304, 13225]
  let x2 := Packet.ofWords [3279093760, 13225]
  let x3 := Packet.ofWords [3547529216, 13225]
  let x4 := Packet.ofWords [3815964672, 13225]
  let x5 := Packet.ofWords [4084400128, 13225]
  return (!(isChannelPressure x1)) && (!(isChannelPressure x2)) && (!(isChannelPressure x3)) && (!(isChannelPressure
    x4)) && (!(isChannelPressure x5))) = true := by decide +kernel

-- channel_voice_message,get_channel_pressure_value: lines 726-741
example : holds (do
  let x1 := makeMidi1ChannelPressure 5 15 (controllerOf7 38)
  let x2 := makeMidi1ChannelPressure 3 8 (controllerOf7 77)
  let x3 ← Fp.controllerOf (Fp.ofRat Fp.single (69 / 200))
  let x4 := makeMidi2ChannelPressure 1 4 x3
  let x5 := makeMidi2ChannelPressure 9 0 (12345 : Word)
  let x6 := makeMidi2ChannelPressure 2 14 (controllerOf7 109)
  return decide ((channelPressureValue x1) = (controllerOf7 38)) && decide ((channelPressureValue x2) = (controllerOf7
    77)) && decide ((channelPressureValue x4) = x3) && decide ((channelPressureValue x5) = (12345 : Word)) && decide
    ((channelPressureValue x6) = (controllerOf7 109))) = true := by decide +kernel

-- channel_voice_message,is_channel_pitch_bend_message: lines 755-765
example : holds (do
  let x1 := makeMidi1NoteOff 0 2 67 (defaultVelocity)
  let x2 := makeMidi1NoteOn 4 7 99 (velocityOf7 100)
  let x3 := makeMidi1NoteOn 13 5 60 (velocityOf7 0)
  let x4 := makeMidi1PolyPressure 14 2 64 (controllerOf7 77)
  let x5 := makeMidi1ControlChange 5 15 7 (controllerOf7 100)
  let x6 := makeMidi1ProgramChange 14 7 42
  let x7 := makeMidi1ChannelPressure 8 8 (controllerOf7 77)
  let x8 ← pitchBendOf14 8177
  let x9 := makeMidi1PitchBend 1 13 x8
  return (!(isPitchBend x1)) && (!(isPitchBend x2)) && (!(isPitchBend x3)) && (!(isPitchBend x4)) && (!(isPitchBend
    x5)) && (!(isPitchBend x6)) && (!(isPitchBend x7)) && (isPitchBend x9)) = true := by decide +kernel

-- channel_voice_message,is_channel_pitch_bend_message: lines 771-786
example : holds (do
  let x1 := makeRegisteredPerNote 15 10 44 2 (123456 : Word)
  let x2 := makeAssignablePerNote 3 7 64 99 (987654 : Word)
  let x3 := makeRegistered 2 9 0 4 (123456 : Word)
  let x4 := makeAssignable 8 0 4 12 (987654 : Word)
  let x5 := makeRelativeRegistered 2 9 0 4 (4294966062 : Word)
  let x6 := makeRelativeAssignable 8 0 4 12 (111 : Word)
  let x7 := makePerNotePitchBend 11 12 13 (2147483649 : Word)
  let x8 := midi2Message 1 112 2 3 4 2880154539
  return (!(isPitchBend x1)) && (!(isPitchBend x2)) && (!(isPitchBend x3)) && (!(isPitchBend x4)) && (!(isPitchBend
    x5)) && (!(isPitchBend x6)) && (!(isPitchBend x7)) && (!(isPitchBend x8))) = true := by decide +kernel

-- channel_voice_message,is_channel_pitch_bend_message: lines 788-800
example : holds (do
  let x1 := makeMidi2NoteOff 0 2 67 (4660 : U16) 0 0
  let x2 := makeMidi2NoteOn 4 7 99 (17767 : U16)
  let x3 := makeMidi2NoteOn 13 5 60 (0 : U16)
  let x4 := makeMidi2NoteOnPitch 9 10 127 (40960 : U16) (pitch79OfNote 60)
  let x5 := makeMidi2PolyPressure 14 2 64 (1737075661 : Word)
  let x6 := makeMidi2ControlChange 5 15 7 (2309737967 : Word)
  let x7 := makeMidi2ProgramChangeBank 14 7 0 42
  let x8 := makeMidi2ChannelPressure 8 8 (2882400001 : Word)
  return (!(isPitchBend x1)) && (!(isPitchBend x2)) && (!(isPitchBend x3)) && (!(isPitchBend x4)) && (!(isPitchBend
    x5)) && (!(isPitchBend x6)) && (!(isPitchBend x7)) && (!(isPitchBend x8))) = true := by decide +kernel

-- channel_voice_message,is_channel_pitch_bend_message: lines 802-819
example : holds (do
  let x1 := makeMidi2PitchBend 1 13 (2415919103 : Word)
  let x2 := makeUtility 0 0
  let x3 := makeSystem 0 0 0 0
  let x4 := Packet.ofWords [805306368, 0]
  let x5 := Packet.ofWords [1342177280, 0]
  let x6 := Packet.ofWords [1610612736, 0]
  let x7 := Packet.ofWords [1879048192, 0]
  let x8 := Packet.ofWords [2147483648, 0]
  return (isPitchBend x1) && (!(isPitchBend x2)) && (!(isPitchBend x3)) && (!(isPitchBend x4)) && (!(isPitchBend x5))
    && (!(isPitchBend x6)) && (!(isPitchBend x7)) && (!(isPitchBend x8))) = true := by decide +kernel

-- channel_voice_message,is_channel_pitch_bend_message: lines 813-826
example : holds (do
  let x1 := Packet.ofWords [2415919104, 0]
  let x2 := Packet.ofWords [2684354560, 0]
  let x3 := Packet.ofWords [2952790016, 0]
  let x4 := Packet.ofWords [3221225472, 0]
  let x5 := Packet.ofWords [3489660928, 0]
  let x6 := Packet.ofWords [3758096384, 0]
  let x7 := Packet.ofWords [4026531840, 0]
  let x8 := makeUtility 23 529
  return (!(isPitchBend x1)) && (!(isPitchBend x2)) && (!(isPitchBend x3)) && (!(isPitchBend x4)) && (!(isPitchBend
    x5)) && (!(isPitchBend x6)) && (!(isPitchBend x7)) && (!(isPitchBend x8))) = true := by decide +kernel

-- channel_voice_message,is_channel_pitch_bend_message: lines 814-821
example : holds (do
  let x1 := makeSystem 7 23 17 0
  let x2 := Packet.ofWords [924254208, 529]
  let x3 := Packet.ofWords [1461125120, 529]
  let x4 := Packet.ofWords [1729560576, 529]
  let x5 := Packet.ofWords [1997996032, 529]
  let x6 := Packet.ofWords [2266431488, 529]
  let x7 := Packet.ofWords [2534866944, 529]
  let x8 := Packet.ofWords [2803302400, 529]
  return (!(isPitchBend x1)) && (!(isPitchBend x2)) && (!(isPitchBend x3)) && (!(isPitchBend x4)) && (!(isPitchBend
    x5)) && (!(isPitchBend x6)) && (!(isPitchBend x7)) && (!(isPitchBend x8))) = true := by decide +kernel

-- channel_voice_message,is_channel_pitch_bend_message: lines 813-826
example : holds (do
  let x1 := Packet.ofWords [3071737856, 529]
  let x2 := Packet.ofWords [3340173312, 529]
  let x3 := Packet.ofWords [3608608768, 529]
  let x4 := Packet.ofWords [3877044224, 529]
  let x5 := Packet.ofWords [4145479680, 529]
  let x6 := makeUtility 46 2116
  let x7 := makeSystem 14 46 68 0
  let x8 := Packet.ofWords [1043202048, 2116]
  return (!(isPitchBend x1)) && (!(isPitchBend x2)) && (!(isPitchBend x3)) && (!(isPitchBend x4)) && (!(isPitchBend
    x5)) && (!(isPitchBend x6)) && (!(isPitchBend x7)) && (!(isPitchBend x8))) = true := by decide +kernel

-- channel_voice_message,is_channel_pitch_bend_message: lines 816-823
example : holds (do
  let x1 := Packet.ofWords [1580072960, 2116]
  let x2 := Packet.ofWords [1848508416, 2116]
  let x3 := Packet.ofWords [2116943872, 2116]
  let x4 := Packet.ofWords [2385379328, 2116]
  let x5 := Packet.ofWords [2653814784, 2116]
  let x6 := Packet.ofWords [2922250240, 2116]
  let x7 := Packet.ofWords [3190685696, 2116]
  let x8 := Packet.ofWords [3459121152, 2116]
  return (!(isPitchBend x1)) && (!(isPitchBend x2)) && (!(isPitchBend x3)) && (!(isPitchBend x4)) && (!(isPitchBend
    x5)) && (!(isPitchBend x6)) && (!(isPitchBend x7)) && (!(isPitchBend x8))) = true := by decide +kernel

-- channel_voice_message,is_channel_pitch_bend_message: lines 813-826
example : holds (do
  let x1 := Packet.ofWords [3727556608, 2116]
  let x2 := Packet.ofWords [3995992064, 2116]
  let x3 := Packet.ofWords [4264427520, 2116]
  let x4 := makeUtility 69 4761
  let x5 := makeSystem 5 69 153 0
  let x6 := Packet.ofWords [893714432, 4761]
  let x7 := Packet.ofWords [1430585344, 4761]
  let x8 := Packet.ofWords [1699020800, 4761]
  return (!(isPitchBend x1)) && (!(isPitchBend x2)) && (!(isPitchBend x3)) && (!(isPitchBend x4)) && (!(isPitchBend
    x5)) && (!(isPitchBend x6)) && (!(isPitchBend x7)) && (!(isPitchBend x8))) = true := by decide +kernel

-- channel_voice_message,is_channel_pitch_bend_message: lines 818-825
example : holds (do
  let x1 := Packet.ofWords [1967456256, 4761]
  let x2 := Packet.ofWords [2235891712, 4761]
  let x3 := Packet.ofWords [2504327168, 4761]
  let x4 := Packet.ofWords [2772762624, 4761]
  let x5 := Packet.ofWords [3041198080, 4761]
  let x6 := Packet.ofWords [3309633536, 4761]
  let x7 := Packet.ofWords [3578068992, 4761]
  let x8 := Packet.ofWords [3846504448, 4761]
  return (!(isPitchBend x1)) && (!(isPitchBend x2)) && (!(isPitchBend x3)) && (!(isPitchBend x4)) && (!(isPitchBend
    x5)) && (!(isPitchBend x6)) && (!(isPitchBend x7)) && (!(isPitchBend x8))) = true := by decide +kernel

-- channel_voice_message,is_channel_pitch_bend_message: lines 813-826
example : holds (do
  let x1 := Packet.ofWords [4114939904, 4761]
  let x2 := makeUtility 92 8464
  let x3 := makeSystem 12 92 16 0
  let x4 := Packet.ofWords [1012662272, 8464]
  let x5 := Packet.ofWords [1549533184, 8464]
  let x6 := Packet.ofWords [1817968640, 8464]
  let x7 := Packet.ofWords [2086404096, 8464]
  let x8 := Packet.ofWords [2354839552, 8464]
  return (!(isPitchBend x1)) && (!(isPitchBend x2)) && (!(isPitchBend x3)) && (!(isPitchBend x4)) && (!(isPitchBend
    x5)) && (!(isPitchBend x6)) && (!(isPitchBend x7)) && (!(isPitchBend x8))) = true := by decide +kernel

-- channel_voice_message,is_channel_pitch_bend_message: lines 813-826
example : holds (do
  let x1 := Packet.ofWords [2623275008, 8464]
  let x2 := Packet.ofWords [2891710464, 8464]
  let x3 := Packet.ofWords [3160145920, 8464]
  let x4 := Packet.ofWords [3428581376, 8464]
  let x5 := Packet.ofWords [3697016832, 8464]
  let x6 := Packet.ofWords [3965452288, 8464]
  let x7 := Packet.ofWords [4233887744, 8464]
  let x8 := makeUtility 115 13225
  return (!(isPitchBend x1)) && (!(isPitchBend x2)) && (!(isPitchBend x3)) && (!(isPitchBend x4)) && (!(isPitchBend
    x5)) && (!(isPitchBend x6)) && (!(isPitchBend x7)) && (!(isPitchBend x8))) = true := by decide +kernel

-- channel_voice_message,is_channel_pitch_bend_message: lines 814-821
example : holds (do
  let x1 := makeSystem 3 115 169 0
  let x2 := Packet.ofWords [863174656, 13225]
  let x3 := Packet.ofWords [1400045568, 13225]
  let x4 := Packet.ofWords [1668481024, 13225]
  let x5 := Packet.ofWords [1936916480, 13225]
  let x6 := Packet.ofWords [2205351936, 13225]
  let x7 := Packet.ofWords [2473787392, 13225]
  let x8 := Packet.ofWords [2742222848, 13225]
  return (!(isPitchBend x1)) && (!(isPitchBend x2)) && (!(isPitchBend x3)) && (!(isPitchBend x4)) && (!(isPitchBend
    x5)) && (!(isPitchBend x6)) && (!(isPitchBend x7)) && (!(isPitchBend x8))) = true := by decide +kernel

-- channel_voice_message,is_channel_pitch_bend_message: lines 822-826
example : holds (do
  let x1 := Packet.ofWords [3010658304, 13225]
  let x2 := Packet.ofWords [3279093760, 13225]
  let x3 := Packet.ofWords [3547529216, 13225]
  let x4 := Packet.ofWords [3815964672, 13225]
  let x5 := Packet.ofWords [4084400128, 13225]
  return (!(isPitchBend x1)) && (!(isPitchBend x2)) && (!(isPitchBend x3)) && (!(isPitchBend x4)) && (!(isPitchBend
    x5))) = true := by decide +kernel

-- channel_voice_message,get_channel_pitch_bend_value: lines 838-849
example : holds (do
  let x1 ← pitchBendOf14 12500
  let x2 := makeMidi1PitchBend 5 15 x1
  let x3 ← pitchBendValue x2
  let x4 ← Fp.pitchBendOf Fp.single (Fp.ofRat Fp.single (69 / 200))
  let x5 := makeMidi2PitchBend 1 4 x4
  let x6 ← pitchBendValue x5
  let x7 ← pitchBendOf14 1234
  let x8 := makeMidi2PitchBend 9 0 x7
  let x9 ← pitchBendValue x8
  let x10 := makeMidi2PitchBend 2 14 (2166572391 : Word)
  let x11 ← pitchBendValue x10
  return decide (x3 = x1) && decide (x6 = x4) && decide (x9 = x7) && decide (x11 = (2166572391 : Word))) = true := by decide +kernel

-- channel_voice_message,as_midi1_channel_voice_message: lines 865-884
example : holds (do
  let x1 := makeMidi2NoteOn 4 7 99 (17767 : U16)
  let x2 ← midi2View x1
  let x3 ← valueOf (asMidi1 x2)
  let x4 := makeMidi1NoteOn 4 7 99 (17767 : U16)
  let x5 := makeMidi2NoteOn 13 5 60 (0 : U16)
  let x6 ← midi2View x5
  let x7 ← valueOf (asMidi1 x6)
  let x8 := makeMidi1NoteOn 13 5 60 (velocityOf7 1)
  let x9 := makeMidi2NoteOnPitch 9 10 127 (40960 : U16) (pitch79OfNote 60)
  let x10 ← midi2View x9
  let x11 := makeMidi2NoteOff 3 9 66 (4660 : U16) 0 0
  let x12 ← midi2View x11
  return (asMidi1 x2).isSome && (x3.eqv x4) && (asMidi1 x6).isSome && (x7.eqv x8) && (!(asMidi1 x10).isSome) &&
    (asMidi1 x12).isSome) = true := by decide +kernel

-- channel_voice_message,as_midi1_channel_voice_message: lines 885-904
example : holds (do
  let x1 := makeMidi2NoteOff 3 9 66 (4660 : U16) 0 0
  let x2 ← midi2View x1
  let x3 ← valueOf (asMidi1 x2)
  let x4 := makeMidi1NoteOff 3 9 66 (4660 : U16)
  let x5 := makeMidi2NoteOff 13 5 60 (velocityOf7 0) 0 0
  let x6 ← midi2View x5
  let x7 ← valueOf (asMidi1 x6)
  let x8 := makeMidi1NoteOff 13 5 60 (velocityOf7 0)
  let x9 := makeMidi2NoteOff 9 10 127 (40960 : U16) 4 16
  let x10 ← midi2View x9
  let x11 := makeMidi2PolyPressure 14 2 64 (controllerOf7 77)
  let x12 ← midi2View x11
  return (asMidi1 x2).isSome && (x3.eqv x4) && (asMidi1 x6).isSome && (x7.eqv x8) && (!(asMidi1 x10).isSome) &&
    (asMidi1 x12).isSome) = true := by decide +kernel

-- channel_voice_message,as_midi1_channel_voice_message: lines 905-924
example : holds (do
  let x1 := makeMidi2PolyPressure 14 2 64 (controllerOf7 77)
  let x2 ← midi2View x1
  let x3 ← valueOf (asMidi1 x2)
  let x4 := makeMidi1PolyPressure 14 2 64 (controllerOf7 77)
  let x5 := makeMidi2PolyPressure 14 2 64 (1737075661 : Word)
  let x6 ← midi2View x5
  let x7 ← valueOf (asMidi1 x6)
  let x8 := makeMidi1PolyPressure 14 2 64 (1737075661 : Word)
  let x9 := makeMidi2ControlChange 5 15 7 (2309737967 : Word)
  let x10 ← midi2View x9
  let x11 ← valueOf (asMidi1 x10)
  let x12 := makeMidi1ControlChange 5 15 7 (2309737967 : Word)
  let x13 := makeMidi2ControlChange 9 0 49 (12345 : Word)
  let x14 ← midi2View x13
  return (x3.eqv x4) && (asMidi1 x6).isSome && (x7.eqv x8) && (asMidi1 x10).isSome && (x11.eqv x12) && (asMidi1
    x14).isSome) = true := by decide +kernel

-- channel_voice_message,as_midi1_channel_voice_message: lines 925-936
example : holds (do
  let x1 := makeMidi2ControlChange 9 0 49 (12345 : Word)
  let x2 ← midi2View x1
  let x3 ← valueOf (asMidi1 x2)
  let x4 := makeMidi1ControlChange 9 0 49 (12345 : Word)
  let x5 := makeMidi2ControlChange 9 0 0 (12345 : Word)
  let x6 ← midi2View x5
  let x7 := makeMidi2ControlChange 9 0 6 (12345 : Word)
  let x8 ← midi2View x7
  let x9 := makeMidi2ControlChange 9 0 32 (12345 : Word)
  let x10 ← midi2View x9
  let x11 := makeMidi2ControlChange 9 0 38 (12345 : Word)
  let x12 ← midi2View x11
  let x13 := makeMidi2ControlChange 9 0 88 (12345 : Word)
  let x14 ← midi2View x13
  let x15 := makeMidi2ControlChange 9 0 98 (12345 : Word)
  let x16 ← midi2View x15
  return (asMidi1 x2).isSome && (x3.eqv x4) && (!(asMidi1 x6).isSome) && (!(asMidi1 x8).isSome) && (!(asMidi1
    x10).isSome) && (!(asMidi1 x12).isSome) && (!(asMidi1 x14).isSome) && (!(asMidi1 x16).isSome)) = true := by decide +kernel

-- channel_voice_message,as_midi1_channel_voice_message: lines 945-964
example : holds (do
  let x1 := makeMidi2ProgramChange 14 7 42
  let x2 ← midi2View x1
  let x3 ← valueOf (asMidi1 x2)
  let x4 := makeMidi1ProgramChange 14 7 42
  let x5 := makeMidi2ProgramChange 9 0 44
  let x6 ← midi2View x5
  let x7 ← valueOf (asMidi1 x6)
  let x8 := makeMidi1ProgramChange 9 0 44
  let x9 := makeMidi2ProgramChangeBank 14 7 0 42
  let x10 ← midi2View x9
  let x11 := makeMidi2ChannelPressure 8 8 (2882400001 : Word)
  let x12 ← midi2View x11
  return (asMidi1 x2).isSome && (x3.eqv x4) && (asMidi1 x6).isSome && (x7.eqv x8) && (!(asMidi1 x10).isSome) &&
    (asMidi1 x12).isSome) = true := by decide +kernel

-- channel_voice_message,as_midi1_channel_voice_message: lines 965-987
example : holds (do
  let x1 := makeMidi2ChannelPressure 8 8 (2882400001 : Word)
  let x2 ← midi2View x1
  let x3 ← valueOf (asMidi1 x2)
  let x4 := makeMidi1ChannelPressure 8 8 (2882400001 : Word)
  let x5 := makeMidi2ChannelPressure 2 14 (controllerOf7 109)
  let x6 ← midi2View x5
  let x7 ← valueOf (asMidi1 x6)
  let x8 := makeMidi1ChannelPressure 2 14 (controllerOf7 109)
  let x9 := makeMidi2PitchBend 2 14 (2166572391 : Word)
  let x10 ← midi2View x9
  let x11 ← valueOf (asMidi1 x10)
  let x12 := makeMidi1PitchBend 2 14 (2166572391 : Word)
  return (asMidi1 x2).isSome && (x3.eqv x4) && (asMidi1 x6).isSome && (x7.eqv x8) && (asMidi1 x10).isSome && (x11.eqv
    x12)) = true := by decide +kernel

-- channel_voice_message,as_midi1_channel_voice_message: lines 992-1013
example : holds (do
  let x1 := makeRegisteredPerNote 15 10 44 2 (123456 : Word)
  let x2 ← midi2View x1
  let x3 := makeAssignablePerNote 3 7 64 99 (987654 : Word)
  let x4 ← midi2View x3
  let x5 := makeRegistered 2 9 0 4 (123456 : Word)
  let x6 ← midi2View x5
  let x7 := makeRelativeRegistered 2 9 0 4 (4294966062 : Word)
  let x8 ← midi2View x7
  let x9 := makeRelativeAssignable 8 0 4 12 (111 : Word)
  let x10 ← midi2View x9
  let x11 := makePerNotePitchBend 11 12 13 (2147483649 : Word)
  let x12 ← midi2View x11
  let x13 := makePerNoteManagement 2 7 66 1
  let x14 ← midi2View x13
  return (!(asMidi1 x2).isSome) && (!(asMidi1 x4).isSome) && (!(asMidi1 x6).isSome) && (!(asMidi1 x8).isSome) &&
    (!(asMidi1 x10).isSome) && (!(asMidi1 x12).isSome) && (!(asMidi1 x14).isSome)) = true := by decide +kernel

-- channel_voice_message,as_midi2_channel_voice_message: lines 1026-1063
example : holds (do
  let x1 := makeMidi1NoteOn 4 7 99 (velocityOf7 75)
  let x2 ← midi1View x1
  let x3 ← asMidi2 x2
  let x4 ← valueOf x3
  let x5 := makeMidi2NoteOn 4 7 99 (velocityOf7 75)
  let x6 := makeMidi1NoteOn 13 5 60 (velocityOf7 0)
  let x7 ← midi1View x6
  let x8 ← asMidi2 x7
  let x9 ← valueOf x8
  let x10 := makeMidi2NoteOff 13 5 60 (velocityOf7 64) 0 0
  let x11 := makeMidi1NoteOff 3 9 66 (velocityOf7 112)
  let x12 ← midi1View x11
  let x13 ← asMidi2 x12
  let x14 ← valueOf x13
  let x15 := makeMidi2NoteOff 3 9 66 (velocityOf7 112) 0 0
  let x16 := makeMidi1NoteOff 13 5 60 (velocityOf7 0)
  let x17 ← midi1View x16
  let x18 ← asMidi2 x17
  let x19 ← valueOf x18
  let x20 := makeMidi2NoteOff 13 5 60 (velocityOf7 0) 0 0
  let x21 := makeMidi1PolyPressure 14 2 64 (controllerOf7 77)
  let x22 ← midi1View x21
  let x23 ← asMidi2 x22
  let x24 ← valueOf x23
  let x25 := makeMidi2PolyPressure 14 2 64 (controllerOf7 77)
  let x26 := makeMidi1PolyPressure 14 2 64 (controllerOf7 115)
  let x27 ← midi1View x26
  let x28 ← asMidi2 x27
  let x29 ← valueOf x28
  let x30 := makeMidi2PolyPressure 14 2 64 (controllerOf7 115)
  let x31 := makeMidi1ControlChange 5 15 7 (controllerOf7 19)
  let x32 ← midi1View x31
  let x33 ← asMidi2 x32
  let x34 ← valueOf x33
  let x35 := makeMidi2ControlChange 5 15 7 (controllerOf7 19)
  let x36 := makeMidi1ControlChange 9 0 49 (controllerOf7 65)
  let x37 ← midi1View x36
  let x38 ← asMidi2 x37
  let x39 ← valueOf x38
  let x40 := makeMidi2ControlChange 9 0 49 (controllerOf7 65)
  return (x4.eqv x5) && (x9.eqv x10) && (x14.eqv x15) && (x19.eqv x20) && (x24.eqv x25) && (x29.eqv x30) && (x34.eqv
    x35) && (x39.eqv x40)) = true := by decide +kernel

-- channel_voice_message,as_midi2_channel_voice_message: lines 1079-1090
example : holds (do
  let x1 := makeMidi1ControlChange 9 0 0 (12345 : Word)
  let x2 ← midi1View x1
  let x3 ← asMidi2 x2
  let x4 := makeMidi1ControlChange 9 0 6 (12345 : Word)
  let x5 ← midi1View x4
  let x6 ← asMidi2 x5
  let x7 := makeMidi1ControlChange 9 0 32 (12345 : Word)
  let x8 ← midi1View x7
  let x9 ← asMidi2 x8
  let x10 := makeMidi1ControlChange 9 0 38 (12345 : Word)
  let x11 ← midi1View x10
  let x12 ← asMidi2 x11
  let x13 := makeMidi1ControlChange 9 0 88 (12345 : Word)
  let x14 ← midi1View x13
  let x15 ← asMidi2 x14
  let x16 := makeMidi1ControlChange 9 0 98 (12345 : Word)
  let x17 ← midi1View x16
  let x18 ← asMidi2 x17
  let x19 := makeMidi1ProgramChange 14 7 42
  let x20 ← midi1View x19
  let x21 ← asMidi2 x20
  let x22 ← valueOf x21
  let x23 := makeMidi2ProgramChange 14 7 42
  let x24 := makeMidi1ProgramChange 9 0 44
  let x25 ← midi1View x24
  let x26 ← asMidi2 x25
  let x27 ← valueOf x26
  let x28 := makeMidi2ProgramChange 9 0 44
  return (!x3.isSome) && (!x6.isSome) && (!x9.isSome) && (!x12.isSome) && (!x15.isSome) && (!x18.isSome) && (x22.eqv
    x23) && (x27.eqv x28)) = true := by decide +kernel

-- channel_voice_message,as_midi2_channel_voice_message: lines 1097-1119
example : holds (do
  let x1 := makeMidi1ChannelPressure 8 8 (controllerOf7 81)
  let x2 ← midi1View x1
  let x3 ← asMidi2 x2
  let x4 ← valueOf x3
  let x5 := makeMidi2ChannelPressure 8 8 (controllerOf7 81)
  let x6 := makeMidi1ChannelPressure 2 14 (controllerOf7 109)
  let x7 ← midi1View x6
  let x8 ← asMidi2 x7
  let x9 ← valueOf x8
  let x10 := makeMidi2ChannelPressure 2 14 (controllerOf7 109)
  let x11 ← pitchBendOf14 1234
  let x12 := makeMidi1PitchBend 2 14 x11
  let x13 ← midi1View x12
  let x14 ← asMidi2 x13
  let x15 ← valueOf x14
  let x16 := makeMidi2PitchBend 2 14 x11
  let x17 := makeMidi1 5 0 4 1 2
  let x18 ← midi1View x17
  let x19 ← asMidi2 x18
  return (x4.eqv x5) && (x9.eqv x10) && (x15.eqv x16) && (!x19.isSome)) = true := by decide +kernel

end Midi.Conformance
