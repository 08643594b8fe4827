import Verif.Conformance.Prelude
import Verif.Model.ByteStream
import Verif.Model.CapabilityInquiry
import Verif.Model.Collector
import Verif.Model.Defaults
import Verif.Model.FlexData
import Verif.Model.Jitter
import Verif.Model.PitchTypes
import Verif.Model.Senders
import Verif.Model.Stream
import Verif.Model.Sysex
import Verif.Model.SysexPackets
import Verif.Model.TextFormat
import Verif.Model.Types
import Verif.Model.UniversalSysex
import Verif.Model.Reentrant

/-!
The expectations of tests/system_message_tests.cpp about the model. Generated by tools/conformance.
-/

namespace Midi.Conformance

open Midi

-- system_message,constructors: lines 43-52
example : holds (do
  let x1 := systemDefault
  return (isSystemMessage x1) && decide (268435456 = ((x1.w0).toNat : Int)) && decide (0 = ((x1.w1).toNat : Int)) &&
    decide (0 = ((x1.w2).toNat : Int)) && decide (0 = ((x1.w3).toNat : Int)) && decide (1 = ((Packet.size x1) : Int))
    && decide (1 = ((Packet.type x1).toNat : Int)) && decide (0 = ((Packet.status x1).toNat : Int))) = true := by decide +kernel

-- system_message,constructors: lines 53-67
example : holds (do
  let x1 := systemDefault
  let x2 := makeSystem 4 248 0 0
  return decide (0 = ((Packet.group x1).toNat : Int)) && (isSystemMessage x2) && decide (351797248 = ((x2.w0).toNat :
    Int)) && decide (0 = ((x2.w1).toNat : Int)) && decide (0 = ((x2.w2).toNat : Int)) && decide (0 = ((x2.w3).toNat :
    Int)) && decide (1 = ((Packet.size x2) : Int)) && decide (1 = ((Packet.type x2).toNat : Int))) = true := by decide +kernel

-- system_message,constructors: lines 68-82
example : holds (do
  let x1 := makeSystem 4 248 0 0
  let x2 := makeSystem 9 241 70 0
  return decide (248 = ((Packet.status x1).toNat : Int)) && decide (4 = ((Packet.group x1).toNat : Int)) &&
    (isSystemMessage x2) && decide (435242496 = ((x2.w0).toNat : Int)) && decide (0 = ((x2.w1).toNat : Int)) && decide
    (0 = ((x2.w2).toNat : Int)) && decide (0 = ((x2.w3).toNat : Int)) && decide (1 = ((Packet.size x2) : Int))) = true := by decide +kernel

-- system_message,constructors: lines 83-96
example : holds (do
  let x1 := makeSystem 9 241 70 0
  let x2 := makeSystem 12 243 66 0
  return decide (1 = ((Packet.type x1).toNat : Int)) && decide (241 = ((Packet.status x1).toNat : Int)) && decide (9 =
    ((Packet.group x1).toNat : Int)) && (isSystemMessage x2) && decide (485704192 = ((x2.w0).toNat : Int)) && decide
    (0 = ((x2.w1).toNat : Int)) && decide (0 = ((x2.w2).toNat : Int)) && decide (0 = ((x2.w3).toNat : Int))) = true := by decide +kernel

-- system_message,constructors: lines 98-101
example : holds (do
  let x1 := makeSystem 12 243 66 0
  return decide (1 = ((Packet.size x1) : Int)) && decide (1 = ((Packet.type x1).toNat : Int)) && decide (243 =
    ((Packet.status x1).toNat : Int)) && decide (12 = ((Packet.group x1).toNat : Int))) = true := by decide +kernel

-- system_message,system_message_view: lines 113-128
example : holds (do
  let x1 := systemDefault
  let x2 ← asSystemView x1
  let x3 ← systemView x1
  let x4 := makeSystem 5 248 0 0
  return (isSystemMessage x1) && x2.isSome && decide (0 = ((Packet.group x3).toNat : Int)) && decide (0 =
    ((Packet.status x3).toNat : Int)) && decide (0 = ((systemData1 x3).toNat : Int)) && decide (0 = ((systemData2
    x3).toNat : Int)) && decide (0 = ((songPositionOf x3).toNat : Int)) && (isSystemMessage x4)) = true := by decide +kernel

-- system_message,system_message_view: lines 130-145
example : holds (do
  let x1 := makeSystem 5 248 0 0
  let x2 ← asSystemView x1
  let x3 ← systemView x1
  let x4 := makeSystem 11 241 70 0
  let x5 ← asSystemView x4
  return x2.isSome && decide (5 = ((Packet.group x3).toNat : Int)) && decide (248 = ((Packet.status x3).toNat : Int))
    && decide (0 = ((systemData1 x3).toNat : Int)) && decide (0 = ((systemData2 x3).toNat : Int)) && decide (0 =
    ((songPositionOf x3).toNat : Int)) && (isSystemMessage x4) && x5.isSome) = true := by decide +kernel

-- system_message,system_message_view: lines 149-164
example : holds (do
  let x1 := makeSystem 11 241 70 0
  let x2 ← systemView x1
  let x3 := makeSystem 12 243 66 0
  let x4 ← asSystemView x3
  let x5 ← systemView x3
  return decide (11 = ((Packet.group x2).toNat : Int)) && decide (241 = ((Packet.status x2).toNat : Int)) && decide
    (70 = ((systemData1 x2).toNat : Int)) && decide (0 = ((systemData2 x2).toNat : Int)) && decide (0 =
    ((songPositionOf x2).toNat : Int)) && (isSystemMessage x3) && x4.isSome && decide (12 = ((Packet.group x5).toNat :
    Int))) = true := by decide +kernel

-- system_message,system_message_view: lines 165-180
example : holds (do
  let x1 := makeSystem 12 243 66 0
  let x2 ← systemView x1
  let x3 := makeSystem 3 242 52 36
  let x4 ← asSystemView x3
  let x5 ← systemView x3
  return decide (243 = ((Packet.status x2).toNat : Int)) && decide (66 = ((systemData1 x2).toNat : Int)) && decide (0
    = ((systemData2 x2).toNat : Int)) && decide (0 = ((songPositionOf x2).toNat : Int)) && (isSystemMessage x3) &&
    x4.isSome && decide (3 = ((Packet.group x5).toNat : Int)) && decide (242 = ((Packet.status x5).toNat : Int))) = true := by decide +kernel

-- system_message,system_message_view: lines 181-187
example : holds (do
  let x1 := makeSystem 3 242 52 36
  let x2 ← systemView x1
  let x3 := Packet.ofWords [554770995]
  let x4 ← asSystemView x3
  return decide (52 = ((systemData1 x2).toNat : Int)) && decide (36 = ((systemData2 x2).toNat : Int)) && decide (4660
    = ((songPositionOf x2).toNat : Int)) && (!x4.isSome)) = true := by decide +kernel

-- system_message,make_system_message: lines 199-210
example : holds (do
  let x1 := makeSystem 9 242 116 105
  let x2 := Packet.ofWords [435319913]
  let x3 ← asSystemView x1
  let x4 ← systemView x1
  return (x2.eqv x1) && (isSystemMessage x1) && x3.isSome && decide (9 = ((Packet.group x4).toNat : Int)) && decide
    (242 = ((Packet.status x4).toNat : Int)) && decide (116 = ((systemData1 x4).toNat : Int)) && decide (105 =
    ((systemData2 x4).toNat : Int)) && decide (13556 = ((songPositionOf x4).toNat : Int))) = true := by decide +kernel

-- system_message,make_system_message: lines 215-226
example : holds (do
  let x1 := makeSystem 4 241 67 0
  let x2 := Packet.ofWords [351355648]
  let x3 ← asSystemView x1
  let x4 ← systemView x1
  return (x2.eqv x1) && (isSystemMessage x1) && x3.isSome && decide (4 = ((Packet.group x4).toNat : Int)) && decide
    (241 = ((Packet.status x4).toNat : Int)) && decide (67 = ((systemData1 x4).toNat : Int)) && decide (0 =
    ((systemData2 x4).toNat : Int)) && decide (0 = ((songPositionOf x4).toNat : Int))) = true := by decide +kernel

-- system_message,make_system_message: lines 231-242
example : holds (do
  let x1 := makeSystem 12 248 0 0
  let x2 := Packet.ofWords [486014976]
  let x3 ← asSystemView x1
  let x4 ← systemView x1
  return (x2.eqv x1) && (isSystemMessage x1) && x3.isSome && decide (12 = ((Packet.group x4).toNat : Int)) && decide
    (248 = ((Packet.status x4).toNat : Int)) && decide (0 = ((systemData1 x4).toNat : Int)) && decide (0 =
    ((systemData2 x4).toNat : Int)) && decide (0 = ((songPositionOf x4).toNat : Int))) = true := by decide +kernel

-- system_message,make_song_position_message: lines 254-265
example : holds (do
  let x1 := makeSongPosition 3 4660
  let x2 := Packet.ofWords [334640164]
  let x3 ← asSystemView x1
  let x4 ← systemView x1
  return (x2.eqv x1) && (isSystemMessage x1) && x3.isSome && decide (3 = ((Packet.group x4).toNat : Int)) && decide
    (242 = ((Packet.status x4).toNat : Int)) && decide (52 = ((systemData1 x4).toNat : Int)) && decide (36 =
    ((systemData2 x4).toNat : Int)) && decide (4660 = ((songPositionOf x4).toNat : Int))) = true := by decide +kernel

-- system_message,make_song_position_message: lines 270-281
example : holds (do
  let x1 := makeSongPosition 13 64250
  let x2 := Packet.ofWords [502430325]
  let x3 ← asSystemView x1
  let x4 ← systemView x1
  return (x2.eqv x1) && (isSystemMessage x1) && x3.isSome && decide (13 = ((Packet.group x4).toNat : Int)) && decide
    (242 = ((Packet.status x4).toNat : Int)) && decide (122 = ((systemData1 x4).toNat : Int)) && decide (117 =
    ((systemData2 x4).toNat : Int)) && decide (15098 = ((songPositionOf x4).toNat : Int))) = true := by decide +kernel

end Midi.Conformance
