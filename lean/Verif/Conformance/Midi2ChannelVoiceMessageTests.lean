import Verif.Conformance.Prelude
import Verif.Model.ByteStream
import Verif.Model.CapabilityInquiry
import Verif.Model.Collector
import Verif.Model.Defaults
import Verif.Model.FlexData
import Verif.Model.Jitter
import Verif.Model.PitchTypes
import Verif.Model.Senders
import Verif.Model.Stream
import Verif.Model.Sysex
import Verif.Model.SysexPackets
import Verif.Model.TextFormat
import Verif.Model.Types
import Verif.Model.UniversalSysex
import Verif.Model.Reentrant

/-!
The expectations of tests/midi2_channel_voice_message_tests.cpp about the model. Generated by tools/conformance.
-/

namespace Midi.Conformance

open Midi

-- midi2_channel_voice_message,constructors: lines 42-51
example : holds (do
  let x1 := midi2Message 4 144 6 44 88 3489660928
  return (isMidi2CV x1) && decide (1150692440 = ((x1.w0).toNat : Int)) && decide (3489660928 = ((x1.w1).toNat : Int))
    && decide (0 = ((x1.w2).toNat : Int)) && decide (0 = ((x1.w3).toNat : Int)) && decide (2 = ((Packet.size x1) :
    Int)) && decide (4 = ((Packet.type x1).toNat : Int)) && decide (4 = ((Packet.group x1).toNat : Int))) = true := by decide +kernel

-- midi2_channel_voice_message,constructors: lines 52-62
example : holds (do
  let x1 := midi2Message 4 144 6 44 88 3489660928
  let x2 ← asMidi2View x1
  let x3 ← midi2View x1
  return decide (150 = ((Packet.status x1).toNat : Int)) && decide (150 = ((Packet.byte2 x1).toNat : Int)) && decide
    (44 = ((Packet.byte3 x1).toNat : Int)) && decide (88 = ((Packet.byte4 x1).toNat : Int)) && x2.isSome && decide (4
    = ((Packet.group x3).toNat : Int)) && decide (144 = ((midi2Status x3).toNat : Int)) && decide (6 = ((midi2Channel
    x3).toNat : Int))) = true := by decide +kernel

-- midi2_channel_voice_message,constructors: lines 63-76
example : holds (do
  let x1 := midi2Message 4 144 6 44 88 3489660928
  let x2 ← midi2View x1
  let x3 := Packet.ofWords [1132624460, 2271560481]
  let x4 ← midi2OfPacket x3
  return decide (44 = ((Packet.byte3 x2).toNat : Int)) && decide (88 = ((Packet.byte4 x2).toNat : Int)) && decide
    (3489660928 = ((midi2Data x2).toNat : Int)) && (isMidi2CV x4) && decide (1132624460 = ((x4.w0).toNat : Int)) &&
    decide (2271560481 = ((x4.w1).toNat : Int)) && decide (0 = ((x4.w2).toNat : Int)) && decide (0 = ((x4.w3).toNat :
    Int))) = true := by decide +kernel

-- midi2_channel_voice_message,constructors: lines 78-86
example : holds (do
  let x1 := Packet.ofWords [1132624460, 2271560481]
  let x2 ← midi2OfPacket x1
  let x3 ← asMidi2View x2
  return decide (2 = ((Packet.size x2) : Int)) && decide (4 = ((Packet.type x2).toNat : Int)) && decide (3 =
    ((Packet.group x2).toNat : Int)) && decide (130 = ((Packet.status x2).toNat : Int)) && decide (130 =
    ((Packet.byte2 x2).toNat : Int)) && decide (122 = ((Packet.byte3 x2).toNat : Int)) && decide (76 = ((Packet.byte4
    x2).toNat : Int)) && x3.isSome) = true := by decide +kernel

-- midi2_channel_voice_message,constructors: lines 89-94
example : holds (do
  let x1 := Packet.ofWords [1132624460, 2271560481]
  let x2 ← midi2OfPacket x1
  let x3 ← midi2View x2
  return decide (3 = ((Packet.group x3).toNat : Int)) && decide (128 = ((midi2Status x3).toNat : Int)) && decide (2 =
    ((midi2Channel x3).toNat : Int)) && decide (122 = ((Packet.byte3 x3).toNat : Int)) && decide (76 = ((Packet.byte4
    x3).toNat : Int)) && decide (2271560481 = ((midi2Data x3).toNat : Int))) = true := by decide +kernel

-- midi2_channel_voice_message,midi2_channel_voice_message_view: lines 108-122
example : holds (do
  let x1 := midi2Message 4 144 6 44 88 3489660928
  let x2 ← asMidi2View x1
  let x3 ← midi2View x1
  let x4 := midi2Message 7 128 5 99 10 2147483649
  let x5 ← asMidi2View x4
  return x2.isSome && decide (4 = ((Packet.group x3).toNat : Int)) && decide (144 = ((midi2Status x3).toNat : Int)) &&
    decide (6 = ((midi2Channel x3).toNat : Int)) && decide (44 = ((Packet.byte3 x3).toNat : Int)) && decide (88 =
    ((Packet.byte4 x3).toNat : Int)) && decide (3489660928 = ((midi2Data x3).toNat : Int)) && x5.isSome) = true := by decide +kernel

-- midi2_channel_voice_message,midi2_channel_voice_message_view: lines 125-136
example : holds (do
  let x1 := midi2Message 7 128 5 99 10 2147483649
  let x2 ← midi2View x1
  let x3 := makeMidi1NoteOn 1 1 70 (velocityOf7 120)
  let x4 ← asMidi2View x3
  return decide (7 = ((Packet.group x2).toNat : Int)) && decide (128 = ((midi2Status x2).toNat : Int)) && decide (5 =
    ((midi2Channel x2).toNat : Int)) && decide (99 = ((Packet.byte3 x2).toNat : Int)) && decide (10 = ((Packet.byte4
    x2).toNat : Int)) && decide (2147483649 = ((midi2Data x2).toNat : Int)) && (!x4.isSome)) = true := by decide +kernel

-- midi2_channel_voice_message,make_midi2_channel_voice_message: lines 149-174
example : holds (do
  let x1 := midi2Message 9 144 5 116 0 305419896
  let x2 := Packet.ofWords [1234531328, 305419896]
  let x3 := midi2Message 4 96 14 67 0 2147537187
  let x4 := Packet.ofWords [1148076800, 2147537187]
  let x5 := midi2Message 12 32 5 4 98 2882400000
  let x6 := Packet.ofWords [1277494370, 2882400000]
  let x7 := midi2Message 0 251 9 0 3 0
  let x8 := Packet.ofWords [1090060291]
  let x9 := midi2Message 0 176 53 69 0 119
  let x10 := Packet.ofWords [1085621504, 119]
  return (x2.eqv x1) && (x4.eqv x3) && (isPerNotePitchBend x3) && (x6.eqv x5) && (isRegistered x5) && (x8.eqv x7) &&
    (x10.eqv x9)) = true := by decide +kernel

-- midi2_channel_voice_message,make_midi2_note_off_message: lines 186-191
example : holds (do
  let x1 := makeMidi2NoteOff 4 9 80 (53539 : U16) 0 0
  let x2 := Packet.ofWords [1149849600, 3508731904]
  let x3 := makeMidi2NoteOff 13 14 20 (53539 : U16) 1 39030
  let x4 := Packet.ofWords [1301156865, 3508770934]
  return (x2.eqv x1) && (x4.eqv x3)) = true := by decide +kernel

-- midi2_channel_voice_message,make_midi2_note_on_message: lines 203-208
example : holds (do
  let x1 := makeMidi2NoteOn 8 4 18 (258 : U16)
  let x2 := Packet.ofWords [1217663488, 16908288]
  let x3 := makeMidi2NoteOnAttribute 7 3 119 (61441 : U16) 3 24885
  let x4 := Packet.ofWords [1200846595, 4026622261]
  return (x2.eqv x1) && (x4.eqv x3)) = true := by decide +kernel

-- midi2_channel_voice_message,make_midi2_poly_pressure_message: lines 220-225
example : holds (do
  let x1 := makeMidi2PolyPressure 0 1 99 (1028733 : Word)
  let x2 := Packet.ofWords [1084318464, 1028733]
  let x3 := makeMidi2PolyPressure 6 9 64 (100000000 : Word)
  let x4 := Packet.ofWords [1185497088, 100000000]
  return (x2.eqv x1) && (x4.eqv x3)) = true := by decide +kernel

-- midi2_channel_voice_message,make_registered_per_note_controller_message: lines 238-249
example : holds (do
  let x1 := makeRegisteredPerNote 15 14 44 77 (860116326 : Word)
  let x2 := Packet.ofWords [1326328909, 860116326]
  let x3 := makeRegisteredPerNote 1 5 51 68 (85 : Word)
  let x4 := Packet.ofWords [1090859844, 85]
  return (x2.eqv x1) && (isRegisteredPerNote x1) && decide (((perNoteControllerIndex x1).toNat : Int) = 77) &&
    (!(isRegisteredPerNotePitch x1)) && (x4.eqv x3) && (isRegisteredPerNote x3) && decide (((perNoteControllerIndex
    x3).toNat : Int) = 68) && (!(isRegisteredPerNotePitch x3))) = true := by decide +kernel

-- midi2_channel_voice_message,make_registered_per_note_controller_message: lines 255-258
example : holds (do
  let x1 := makeRegisteredPerNote 7 4 64 3 (305419896 : Word)
  let x2 := Packet.ofWords [1191460867, 305419896]
  return (x2.eqv x1) && (isRegisteredPerNote x1) && decide (((perNoteControllerIndex x1).toNat : Int) = 3) &&
    (isRegisteredPerNotePitch x1)) = true := by decide +kernel

-- midi2_channel_voice_message,make_assignable_per_note_controller_message: lines 271-278
example : holds (do
  let x1 := makeAssignablePerNote 14 13 18 52 (1146447479 : Word)
  let x2 := Packet.ofWords [1310528052, 1146447479]
  let x3 := makeAssignablePerNote 2 4 49 67 (1979711572 : Word)
  let x4 := Packet.ofWords [1108619587, 1979711572]
  return (x2.eqv x1) && (isAssignablePerNote x1) && decide (((perNoteControllerIndex x1).toNat : Int) = 52) && (x4.eqv
    x3)) = true := by decide +kernel

-- midi2_channel_voice_message,make_per_note_management_message: lines 290-300
example : holds (do
  let x1 := makePerNoteManagement 6 5 4 2
  let x2 := Packet.ofWords [1190462466]
  let x3 := makePerNoteManagement 2 7 66 1
  let x4 := Packet.ofWords [1123500545]
  let x5 := makePerNoteManagement 15 13 96 3
  let x6 := Packet.ofWords [1342005251]
  return (x2.eqv x1) && (x4.eqv x3) && (x6.eqv x5)) = true := by decide +kernel

-- midi2_channel_voice_message,make_midi2_control_change_message: lines 312-317
example : holds (do
  let x1 := makeMidi2ControlChange 9 4 56 (2557891634 : Word)
  let x2 := Packet.ofWords [1236547584, 2557891634]
  let x3 := makeMidi2ControlChange 11 12 197 (3735928559 : Word)
  let x4 := Packet.ofWords [1270629632, 3735928559]
  return (x2.eqv x1) && (x4.eqv x3)) = true := by decide +kernel

-- midi2_channel_voice_message,make_registered_controller_message: lines 329-340
example : holds (do
  let x1 := makeRegistered 3 7 9 69 (2148536336 : Word)
  let x2 := Packet.ofWords [1126631749, 2148536336]
  let x3 := makeRegistered 14 3 197 1 (3735928559 : Word)
  let x4 := Packet.ofWords [1310934273, 3735928559]
  let x5 := makeRegistered 11 12 9 243 (195934910 : Word)
  let x6 := Packet.ofWords [1261177203, 195934910]
  return (x2.eqv x1) && (isRegistered x1) && (x4.eqv x3) && (x6.eqv x5)) = true := by decide +kernel

-- midi2_channel_voice_message,make_assignable_controller_message: lines 352-363
example : holds (do
  let x1 := makeAssignable 3 7 9 69 (2148536336 : Word)
  let x2 := Packet.ofWords [1127680325, 2148536336]
  let x3 := makeAssignable 14 3 197 1 (3735928559 : Word)
  let x4 := Packet.ofWords [1311982849, 3735928559]
  let x5 := makeAssignable 11 12 9 243 (195934910 : Word)
  let x6 := Packet.ofWords [1262225779, 195934910]
  return (x2.eqv x1) && (isAssignable x1) && (x4.eqv x3) && (x6.eqv x5)) = true := by decide +kernel

-- midi2_channel_voice_message,make_relative_registered_controller_message: lines 375-385
example : holds (do
  let x1 := makeRelativeRegistered 3 7 9 69 (4294966774 : Word)
  let x2 := Packet.ofWords [1128728901, 4294966774]
  let x3 := makeRelativeRegistered 14 3 197 1 (1024 : Word)
  let x4 := Packet.ofWords [1313031425, 1024]
  let x5 := makeRelativeRegistered 11 12 9 243 (4294967197 : Word)
  let x6 := Packet.ofWords [1263274355, 4294967197]
  return (x2.eqv x1) && (x4.eqv x3) && (x6.eqv x5)) = true := by decide +kernel

-- midi2_channel_voice_message,make_relative_assignable_controller_message: lines 397-407
example : holds (do
  let x1 := makeRelativeAssignable 3 7 9 69 (4294966774 : Word)
  let x2 := Packet.ofWords [1129777477, 4294966774]
  let x3 := makeRelativeAssignable 14 3 197 1 (1024 : Word)
  let x4 := Packet.ofWords [1314080001, 1024]
  let x5 := makeRelativeAssignable 11 12 9 243 (4294967197 : Word)
  let x6 := Packet.ofWords [1264322931, 4294967197]
  return (x2.eqv x1) && (x4.eqv x3) && (x6.eqv x5)) = true := by decide +kernel

-- midi2_channel_voice_message,make_midi2_program_change_message: lines 419-434
example : holds (do
  let x1 := makeMidi2ProgramChange 14 3 99
  let x2 := Packet.ofWords [1321402368, 1660944384]
  let x3 := makeMidi2ProgramChange 9 11 197
  let x4 := Packet.ofWords [1238040576, 1157627904]
  let x5 := makeMidi2ProgramChangeBank 1 8 5 4660
  let x6 := Packet.ofWords [1103626241, 83895348]
  let x7 := makeMidi2ProgramChangeBank 9 3 127 53790
  let x8 := Packet.ofWords [1237516289, 2130715678]
  return (x2.eqv x1) && (x4.eqv x3) && (x6.eqv x5) && (x8.eqv x7)) = true := by decide +kernel

-- midi2_channel_voice_message,make_midi2_channel_pressure_message: lines 446-451
example : holds (do
  let x1 := makeMidi2ChannelPressure 14 3 (2032613447 : Word)
  let x2 := Packet.ofWords [1322450944, 2032613447]
  let x3 := makeMidi2ChannelPressure 9 11 (29384756 : Word)
  let x4 := Packet.ofWords [1239089152, 29384756]
  return (x2.eqv x1) && (x4.eqv x3)) = true := by decide +kernel

-- midi2_channel_voice_message,make_midi2_pitch_bend_message: lines 463-468
example : holds (do
  let x1 := makeMidi2PitchBend 12 9 (2147483648 : Word)
  let x2 := Packet.ofWords [1290338304, 2147483648]
  let x3 := makeMidi2PitchBend 3 7 (1142056245 : Word)
  let x4 := Packet.ofWords [1139212288, 1142056245]
  return (x2.eqv x1) && (x4.eqv x3)) = true := by decide +kernel

-- midi2_channel_voice_message,make_per_note_pitch_bend_message: lines 481-489
example : holds (do
  let x1 := makePerNotePitchBend 12 9 77 (2147483648 : Word)
  let x2 := Packet.ofWords [1281969408, 2147483648]
  let x3 := makePerNotePitchBend 3 7 148 (1142056245 : Word)
  let x4 := Packet.ofWords [1130861568, 1142056245]
  return (x2.eqv x1) && decide ((perNotePitchBendValue x1) = (2147483648 : Word)) && (x4.eqv x3) && decide
    ((perNotePitchBendValue x3) = (1142056245 : Word))) = true := by decide +kernel

-- midi2_channel_voice_message,is_midi2_type_query_functions: lines 499-511
example : holds (do
  let x1 := makeMidi1NoteOn 1 1 60 (velocityOf7 90)
  let x2 := midi2Message 12 32 5 4 98 2882400000
  return (!(isMidi2CV x1)) && (!(isRegistered x1)) && (!(isAssignable x1)) && (!(isRegisteredPerNote x1)) &&
    (!(isAssignablePerNote x1)) && (!(isPerNotePitchBend x1)) && (isMidi2CV x2) && (isRegistered x2)) = true := by decide +kernel

-- midi2_channel_voice_message,is_midi2_type_query_functions: lines 512-523
example : holds (do
  let x1 := midi2Message 12 32 5 4 98 2882400000
  let x2 := makeAssignable 3 7 9 69 (2148536336 : Word)
  return (!(isAssignable x1)) && (!(isRegisteredPerNote x1)) && (!(isAssignablePerNote x1)) && (!(isPerNotePitchBend
    x1)) && (isMidi2CV x2) && (!(isRegistered x2)) && (isAssignable x2) && (!(isRegisteredPerNote x2))) = true := by decide +kernel

-- midi2_channel_voice_message,is_midi2_type_query_functions: lines 524-535
example : holds (do
  let x1 := makeAssignable 3 7 9 69 (2148536336 : Word)
  let x2 := makeRegisteredPerNote 1 5 51 68 (85 : Word)
  return (!(isAssignablePerNote x1)) && (!(isPerNotePitchBend x1)) && (isMidi2CV x2) && (!(isRegistered x2)) &&
    (!(isAssignable x2)) && (isRegisteredPerNote x2) && decide (((perNoteControllerIndex x2).toNat : Int) = 68) &&
    (!(isAssignablePerNote x2))) = true := by decide +kernel

-- midi2_channel_voice_message,is_midi2_type_query_functions: lines 536-548
example : holds (do
  let x1 := makeRegisteredPerNote 1 5 51 68 (85 : Word)
  let x2 := makeAssignablePerNote 14 13 18 52 (1146447479 : Word)
  return (!(isPerNotePitchBend x1)) && (isMidi2CV x2) && (!(isRegistered x2)) && (!(isAssignable x2)) &&
    (!(isRegisteredPerNote x2)) && (isAssignablePerNote x2) && decide (((perNoteControllerIndex x2).toNat : Int) = 52)
    && (!(isPerNotePitchBend x2))) = true := by decide +kernel

-- midi2_channel_voice_message,is_midi2_type_query_functions: lines 554-559
example : holds (do
  let x1 := midi2Message 4 96 14 67 0 2147537187
  return (isMidi2CV x1) && (!(isRegistered x1)) && (!(isAssignable x1)) && (!(isRegisteredPerNote x1)) &&
    (!(isAssignablePerNote x1)) && (isPerNotePitchBend x1)) = true := by decide +kernel

-- midi2_channel_voice_message,notes_with_attribute: lines 571-579
example : holds (do
  let x1 ← Fp.velocityOf (Fp.ofRat Fp.double (9 / 10))
  let x2 ← Fp.pitch79Of Fp.double (Fp.ofRat Fp.double (659 / 10))
  let x3 := makeMidi2NoteOnPitch 1 1 60 x1 x2
  return (!(isNoteOnWithAttribute x3 0)) && (!(isNoteOnWithAttribute x3 1)) && (isNoteOnWithAttribute x3 3) &&
    (!(isNoteOffWithAttribute x3 0)) && (!(isNoteOffWithAttribute x3 1)) && (!(isNoteOffWithAttribute x3 3)) &&
    (isNoteOnWithPitch79 x3) && decide (((noteAttribute x3).toNat : Int) = 3)) = true := by decide +kernel

-- midi2_channel_voice_message,notes_with_attribute: lines 580-592
example : holds (do
  let x1 ← Fp.velocityOf (Fp.ofRat Fp.double (9 / 10))
  let x2 ← Fp.pitch79Of Fp.double (Fp.ofRat Fp.double (659 / 10))
  let x3 := makeMidi2NoteOnPitch 1 1 60 x1 x2
  let x4 := makeMidi2NoteOnAttribute 5 9 88 (velocityOf7 44) 1 1234
  return decide (((noteAttributeData x3).toNat : Int) = (x2.toNat : Int)) && (!(isNoteOnWithAttribute x4 0)) &&
    (isNoteOnWithAttribute x4 1) && (!(isNoteOnWithAttribute x4 3)) && (!(isNoteOffWithAttribute x4 0)) &&
    (!(isNoteOffWithAttribute x4 1)) && (!(isNoteOffWithAttribute x4 3)) && (!(isNoteOnWithPitch79 x4))) = true := by decide +kernel

-- midi2_channel_voice_message,notes_with_attribute: lines 594-605
example : holds (do
  let x1 ← Fp.velocityOf (Fp.ofRat Fp.double (9 / 10))
  let x2 := makeMidi2NoteOnAttribute 5 9 88 (velocityOf7 44) 1 1234
  let x3 := makeMidi2NoteOff 1 1 60 x1 2 43981
  return decide (((noteAttribute x2).toNat : Int) = 1) && decide (((noteAttributeData x2).toNat : Int) = 1234) &&
    (!(isNoteOnWithAttribute x3 0)) && (!(isNoteOnWithAttribute x3 1)) && (!(isNoteOnWithAttribute x3 3)) &&
    (!(isNoteOnWithAttribute x3 2)) && (!(isNoteOffWithAttribute x3 0)) && (!(isNoteOffWithAttribute x3 1))) = true := by decide +kernel

-- midi2_channel_voice_message,notes_with_attribute: lines 606-618
example : holds (do
  let x1 ← Fp.velocityOf (Fp.ofRat Fp.double (9 / 10))
  let x2 := makeMidi2NoteOff 1 1 60 x1 2 43981
  let x3 := makeMidi2NoteOn 1 1 60 (velocityOf7 90)
  return (isNoteOffWithAttribute x2 2) && (!(isNoteOnWithPitch79 x2)) && decide (((noteAttribute x2).toNat : Int) = 2)
    && decide (((noteAttributeData x2).toNat : Int) = 43981) && (isNoteOnWithAttribute x3 0) &&
    (!(isNoteOnWithAttribute x3 1)) && (!(isNoteOnWithAttribute x3 3)) && (!(isNoteOffWithAttribute x3 0))) = true := by decide +kernel

-- midi2_channel_voice_message,notes_with_attribute: lines 619-630
example : holds (do
  let x1 := makeMidi2NoteOn 1 1 60 (velocityOf7 90)
  let x2 := makeMidi1NoteOn 1 1 60 (velocityOf7 90)
  return (!(isNoteOffWithAttribute x1 1)) && (!(isNoteOffWithAttribute x1 2)) && (!(isNoteOnWithPitch79 x1)) &&
    (!(isNoteOnWithAttribute x2 0)) && (!(isNoteOnWithAttribute x2 1)) && (!(isNoteOnWithAttribute x2 3)) &&
    (!(isNoteOffWithAttribute x2 0)) && (!(isNoteOffWithAttribute x2 1))) = true := by decide +kernel

-- midi2_channel_voice_message,notes_with_attribute: lines 631-643
example : holds (do
  let x1 := makeMidi1NoteOn 1 1 60 (velocityOf7 90)
  let x2 := midi2Message 12 32 5 4 98 2882400000
  return (!(isNoteOffWithAttribute x1 2)) && (!(isNoteOnWithPitch79 x1)) && (!(isNoteOnWithAttribute x2 0)) &&
    (!(isNoteOnWithAttribute x2 1)) && (!(isNoteOnWithAttribute x2 3)) && (!(isNoteOffWithAttribute x2 0)) &&
    (!(isNoteOffWithAttribute x2 1)) && (!(isNoteOffWithAttribute x2 2))) = true := by decide +kernel

-- midi2_channel_voice_message,notes_with_attribute: lines 644-655
example : holds (do
  let x1 := midi2Message 12 32 5 4 98 2882400000
  let x2 := makeAssignable 3 7 9 69 (2148536336 : Word)
  return (!(isNoteOnWithPitch79 x1)) && (!(isNoteOnWithAttribute x2 0)) && (!(isNoteOnWithAttribute x2 1)) &&
    (!(isNoteOnWithAttribute x2 3)) && (!(isNoteOffWithAttribute x2 0)) && (!(isNoteOffWithAttribute x2 1)) &&
    (!(isNoteOffWithAttribute x2 2)) && (!(isNoteOnWithPitch79 x2))) = true := by decide +kernel

-- midi2_channel_voice_message,pitch_bend_sensitivities: lines 670-691
example : holds (do
  let x1 ← pitch725OfNote 5
  let x2 := makeRegistered 0 14 0 0 (x1 : Word)
  let x3 ← Fp.pitch725Of Fp.double (Fp.ofRat Fp.double (13 / 4))
  let x4 := makeRegistered 4 7 0 0 (x3 : Word)
  let x5 ← pitch725OfNote 8
  let x6 := makeRegistered 0 14 0 7 (x5 : Word)
  return (isPitchBendSensitivity x2) && (!(isPerNotePitchBendSensitivity x2)) && decide ((pitchBendSensitivityValue
    x2) = x1) && (isPitchBendSensitivity x4) && (!(isPerNotePitchBendSensitivity x4)) && decide
    ((pitchBendSensitivityValue x4) = x3) && (!(isPitchBendSensitivity x6)) && (isPerNotePitchBendSensitivity x6)) = true := by decide +kernel

-- midi2_channel_voice_message,pitch_bend_sensitivities: lines 692-719
example : holds (do
  let x1 ← pitch725OfNote 8
  let x2 := makeRegistered 0 14 0 7 (x1 : Word)
  let x3 ← Fp.pitch725Of Fp.double (Fp.ofRat Fp.double (1967 / 500))
  let x4 := makeRegistered 4 7 0 7 (x3 : Word)
  let x5 ← pitch725OfNote 2
  let x6 := makeRegistered 0 14 1 0 (x5 : Word)
  let x7 := makeRegistered 0 14 0 2 (controllerOf7 4)
  return decide ((perNotePitchBendSensitivityValue x2) = x1) && (!(isPitchBendSensitivity x4)) &&
    (isPerNotePitchBendSensitivity x4) && decide ((perNotePitchBendSensitivityValue x4) = x3) &&
    (!(isPitchBendSensitivity x6)) && (!(isPerNotePitchBendSensitivity x6)) && (!(isPitchBendSensitivity x7)) &&
    (!(isPerNotePitchBendSensitivity x7))) = true := by decide +kernel

-- midi2_channel_voice_message,pitch_bend_sensitivities: lines 725-726
example : holds (do
  let x1 := makeMidi2ChannelPressure 14 3 (2032613447 : Word)
  return (!(isPitchBendSensitivity x1)) && (!(isPerNotePitchBendSensitivity x1))) = true := by decide +kernel

-- midi2_channel_voice_message,deprecations: lines 748-752
example : holds (do
  let x1 := Packet.ofWords []
  return decide ((if (isRegistered x1) then 1 else 0) = (if (isRegistered x1) then 1 else 0)) && decide ((if
    (isAssignable x1) then 1 else 0) = (if (isAssignable x1) then 1 else 0)) && decide ((if (isRegisteredPerNote x1)
    then 1 else 0) = (if (isRegisteredPerNote x1) then 1 else 0)) && decide ((if (isAssignablePerNote x1) then 1 else
    0) = (if (isAssignablePerNote x1) then 1 else 0)) && decide ((if (isPerNotePitchBend x1) then 1 else 0) = (if
    (isPerNotePitchBend x1) then 1 else 0))) = true := by decide +kernel

end Midi.Conformance
