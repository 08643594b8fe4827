import Verif.Conformance.Prelude
import Verif.Model.ByteStream
import Verif.Model.CapabilityInquiry
import Verif.Model.Collector
import Verif.Model.Defaults
import Verif.Model.FlexData
import Verif.Model.Jitter
import Verif.Model.PitchTypes
import Verif.Model.Senders
import Verif.Model.Stream
import Verif.Model.Sysex
import Verif.Model.SysexPackets
import Verif.Model.TextFormat
import Verif.Model.Types
import Verif.Model.UniversalSysex
import Verif.Model.Reentrant

/-!
The expectations of tests/data_message_tests.cpp about the model. Generated by tools/conformance.
-/

namespace Midi.Conformance

open Midi

-- data_message,constructors: lines 36-46
example : holds (do
  let x1 := dataDefault
  let x2 := dataMessage 48
  return decide (3 = ((Packet.type x1).toNat : Int)) && decide (0 = ((Packet.group x1).toNat : Int)) && decide (0 =
    ((Packet.status x1).toNat : Int)) && decide (3 = ((Packet.type x2).toNat : Int)) && decide (0 = ((Packet.group
    x2).toNat : Int)) && decide (48 = ((Packet.status x2).toNat : Int))) = true := by decide +kernel

-- data_message,sysex7_packet_constructors: lines 59-71
example : holds (do
  let x1 := dataDefault
  let x2 ← sysex7Packet 48 9
  return decide (3 = ((Packet.type x1).toNat : Int)) && decide (0 = ((Packet.group x1).toNat : Int)) && decide (0 =
    ((Packet.status x1).toNat : Int)) && decide (0 = ((sysex7Format x1).code.toNat : Int)) && decide (0 =
    ((sysex7PayloadSize x1) : Int)) && decide (3 = ((Packet.type x2).toNat : Int)) && decide (9 = ((Packet.group
    x2).toNat : Int)) && decide (48 = ((Packet.status x2).toNat : Int))) = true := by decide +kernel

-- data_message,sysex7_packet_constructors: lines 72-73
example : holds (do
  let x1 ← sysex7Packet 48 9
  return decide (3 = ((sysex7Format x1).code.toNat : Int)) && decide (0 = ((sysex7PayloadSize x1) : Int))) = true := by decide +kernel

-- data_message,make_sysex7_complete_packet: lines 86-98
example : holds (do
  let x1 ← makeSysex7 .complete 0
  let x2 ← makeSysex7 .complete 5
  return decide (3 = ((Packet.type x1).toNat : Int)) && decide (0 = ((Packet.group x1).toNat : Int)) && decide (0 =
    ((Packet.status x1).toNat : Int)) && decide (0 = ((sysex7Format x1).code.toNat : Int)) && decide (0 =
    ((sysex7PayloadSize x1) : Int)) && decide (3 = ((Packet.type x2).toNat : Int)) && decide (5 = ((Packet.group
    x2).toNat : Int)) && decide (0 = ((Packet.status x2).toNat : Int))) = true := by decide +kernel

-- data_message,make_sysex7_complete_packet: lines 99-100
example : holds (do
  let x1 ← makeSysex7 .complete 5
  return decide (0 = ((sysex7Format x1).code.toNat : Int)) && decide (0 = ((sysex7PayloadSize x1) : Int))) = true := by decide +kernel

-- data_message,make_sysex7_start_packet: lines 113-125
example : holds (do
  let x1 ← makeSysex7 .start 0
  let x2 ← makeSysex7 .start 15
  return decide (3 = ((Packet.type x1).toNat : Int)) && decide (0 = ((Packet.group x1).toNat : Int)) && decide (16 =
    ((Packet.status x1).toNat : Int)) && decide (1 = ((sysex7Format x1).code.toNat : Int)) && decide (0 =
    ((sysex7PayloadSize x1) : Int)) && decide (3 = ((Packet.type x2).toNat : Int)) && decide (15 = ((Packet.group
    x2).toNat : Int)) && decide (16 = ((Packet.status x2).toNat : Int))) = true := by decide +kernel

-- data_message,make_sysex7_start_packet: lines 126-127
example : holds (do
  let x1 ← makeSysex7 .start 15
  return decide (1 = ((sysex7Format x1).code.toNat : Int)) && decide (0 = ((sysex7PayloadSize x1) : Int))) = true := by decide +kernel

-- data_message,make_sysex7_continue_packet: lines 140-152
example : holds (do
  let x1 ← makeSysex7 .cont 0
  let x2 ← makeSysex7 .cont 9
  return decide (3 = ((Packet.type x1).toNat : Int)) && decide (0 = ((Packet.group x1).toNat : Int)) && decide (32 =
    ((Packet.status x1).toNat : Int)) && decide (2 = ((sysex7Format x1).code.toNat : Int)) && decide (0 =
    ((sysex7PayloadSize x1) : Int)) && decide (3 = ((Packet.type x2).toNat : Int)) && decide (9 = ((Packet.group
    x2).toNat : Int)) && decide (32 = ((Packet.status x2).toNat : Int))) = true := by decide +kernel

-- data_message,make_sysex7_continue_packet: lines 153-154
example : holds (do
  let x1 ← makeSysex7 .cont 9
  return decide (2 = ((sysex7Format x1).code.toNat : Int)) && decide (0 = ((sysex7PayloadSize x1) : Int))) = true := by decide +kernel

-- data_message,make_sysex7_end_packet: lines 167-179
example : holds (do
  let x1 ← makeSysex7 .fin 0
  let x2 ← makeSysex7 .fin 1
  return decide (3 = ((Packet.type x1).toNat : Int)) && decide (0 = ((Packet.group x1).toNat : Int)) && decide (48 =
    ((Packet.status x1).toNat : Int)) && decide (3 = ((sysex7Format x1).code.toNat : Int)) && decide (0 =
    ((sysex7PayloadSize x1) : Int)) && decide (3 = ((Packet.type x2).toNat : Int)) && decide (1 = ((Packet.group
    x2).toNat : Int)) && decide (48 = ((Packet.status x2).toNat : Int))) = true := by decide +kernel

-- data_message,make_sysex7_end_packet: lines 180-181
example : holds (do
  let x1 ← makeSysex7 .fin 1
  return decide (3 = ((sysex7Format x1).code.toNat : Int)) && decide (0 = ((sysex7PayloadSize x1) : Int))) = true := by decide +kernel

-- data_message,sysex7_packet_format: lines 193-208
example : holds (do
  let x1 ← makeSysex7 .complete 0
  let x2 ← makeSysex7 .start 0
  let x3 ← makeSysex7 .cont 0
  let x4 ← makeSysex7 .fin 0
  return decide (0 = ((sysex7Format x1).code.toNat : Int)) && decide (1 = ((sysex7Format x2).code.toNat : Int)) &&
    decide (2 = ((sysex7Format x3).code.toNat : Int)) && decide (3 = ((sysex7Format x4).code.toNat : Int))) = true := by decide +kernel

-- data_message,sysex7_payload_size: lines 220-239
example : holds (do
  let x1 ← makeSysex7 .complete 0
  let x2 ← Packet.setByte x1 1 3
  let x3 ← Packet.setByte x2 1 6
  let x4 ← Packet.setByte x3 1 8
  let x5 ← Packet.setByte x4 1 0
  return decide (0 = ((sysex7PayloadSize x1) : Int)) && decide (3 = ((sysex7PayloadSize x2) : Int)) && decide (6 =
    ((sysex7PayloadSize x3) : Int)) && decide (8 = ((sysex7PayloadSize x4) : Int)) && decide (0 = ((sysex7PayloadSize
    x5) : Int))) = true := by decide +kernel

-- data_message,sysex7_set_payload_size: lines 251-272
example : holds (do
  let x1 ← makeSysex7 .complete 0
  let x2 ← sysex7SetPayloadSize x1 6
  let x3 ← makeSysex7 .start 0
  let x4 ← sysex7SetPayloadSize x3 3
  let x5 ← makeSysex7 .cont 0
  let x6 ← sysex7SetPayloadSize x5 0
  return decide (0 = ((sysex7PayloadSize x1) : Int)) && decide (6 = ((Packet.status x2).toNat : Int)) && decide (6 =
    ((sysex7PayloadSize x2) : Int)) && decide (0 = ((sysex7PayloadSize x3) : Int)) && decide (19 = ((Packet.status
    x4).toNat : Int)) && decide (3 = ((sysex7PayloadSize x4) : Int)) && decide (0 = ((sysex7PayloadSize x5) : Int)) &&
    decide (32 = ((Packet.status x6).toNat : Int))) = true := by decide +kernel

-- data_message,sysex7_set_payload_size: line 273
example : holds (do
  let x1 ← makeSysex7 .cont 0
  let x2 ← sysex7SetPayloadSize x1 0
  return decide (0 = ((sysex7PayloadSize x2) : Int))) = true := by decide +kernel

-- data_message,sysex7_payload_byte: lines 293-298
example : holds (do
  let x1 ← makeSysex7 .complete 0
  let x2 ← sysex7SetPayloadSize x1 6
  let x3 ← Packet.setByte x2 2 17
  let x4 ← Packet.setByte x3 3 34
  let x5 ← Packet.setByte x4 4 51
  let x6 ← Packet.setByte x5 5 68
  let x7 ← Packet.setByte x6 6 85
  let x8 ← Packet.setByte x7 7 102
  let x9 ← sysex7PayloadByte x8 0
  let x10 ← sysex7PayloadByte x8 1
  let x11 ← sysex7PayloadByte x8 2
  let x12 ← sysex7PayloadByte x8 3
  let x13 ← sysex7PayloadByte x8 4
  let x14 ← sysex7PayloadByte x8 5
  return decide (17 = (x9.toNat : Int)) && decide (34 = (x10.toNat : Int)) && decide (51 = (x11.toNat : Int)) &&
    decide (68 = (x12.toNat : Int)) && decide (85 = (x13.toNat : Int)) && decide (102 = (x14.toNat : Int))) = true := by decide +kernel

-- data_message,sysex7_add_payload_byte: lines 309-323
example : holds (do
  let x1 ← makeSysex7 .cont 0
  let x2 ← sysex7AddPayloadByte x1 18
  let x3 ← Packet.getByte x2 2
  let x4 ← sysex7PayloadByte x2 0
  let x5 ← sysex7AddPayloadByte x2 122
  let x6 ← Packet.getByte x5 3
  let x7 ← sysex7PayloadByte x5 1
  return decide (0 = ((sysex7PayloadSize x1) : Int)) && decide (18 = (x3.toNat : Int)) && decide (18 = (x4.toNat :
    Int)) && decide (1 = ((sysex7PayloadSize x2) : Int)) && decide (33 = ((Packet.status x2).toNat : Int)) && decide
    (122 = (x6.toNat : Int)) && decide (122 = (x7.toNat : Int))) = true := by decide +kernel

-- data_message,sysex7_add_payload_byte: lines 324-339
example : holds (do
  let x1 ← makeSysex7 .cont 0
  let x2 ← sysex7AddPayloadByte x1 18
  let x3 ← sysex7AddPayloadByte x2 122
  let x4 ← sysex7AddPayloadByte x3 91
  let x5 ← Packet.getByte x4 4
  let x6 ← sysex7PayloadByte x4 2
  let x7 ← sysex7AddPayloadByte x4 42
  let x8 ← Packet.getByte x7 5
  let x9 ← sysex7PayloadByte x7 3
  return decide (2 = ((sysex7PayloadSize x3) : Int)) && decide (34 = ((Packet.status x3).toNat : Int)) && decide (91 =
    (x5.toNat : Int)) && decide (91 = (x6.toNat : Int)) && decide (3 = ((sysex7PayloadSize x4) : Int)) && decide (35 =
    ((Packet.status x4).toNat : Int)) && decide (42 = (x8.toNat : Int)) && decide (42 = (x9.toNat : Int))) = true := by decide +kernel

-- data_message,sysex7_add_payload_byte: lines 340-356
example : holds (do
  let x1 ← makeSysex7 .cont 0
  let x2 ← sysex7AddPayloadByte x1 18
  let x3 ← sysex7AddPayloadByte x2 122
  let x4 ← sysex7AddPayloadByte x3 91
  let x5 ← sysex7AddPayloadByte x4 42
  let x6 ← sysex7AddPayloadByte x5 99
  let x7 ← Packet.getByte x6 6
  let x8 ← sysex7PayloadByte x6 4
  let x9 ← sysex7AddPayloadByte x6 246
  let x10 ← Packet.getByte x9 7
  let x11 ← sysex7PayloadByte x9 5
  return decide (4 = ((sysex7PayloadSize x5) : Int)) && decide (36 = ((Packet.status x5).toNat : Int)) && decide (99 =
    (x7.toNat : Int)) && decide (99 = (x8.toNat : Int)) && decide (5 = ((sysex7PayloadSize x6) : Int)) && decide (37 =
    ((Packet.status x6).toNat : Int)) && decide (118 = (x10.toNat : Int)) && decide (118 = (x11.toNat : Int))) = true := by decide +kernel

-- data_message,sysex7_add_payload_byte: lines 357-358
example : holds (do
  let x1 ← makeSysex7 .cont 0
  let x2 ← sysex7AddPayloadByte x1 18
  let x3 ← sysex7AddPayloadByte x2 122
  let x4 ← sysex7AddPayloadByte x3 91
  let x5 ← sysex7AddPayloadByte x4 42
  let x6 ← sysex7AddPayloadByte x5 99
  let x7 ← sysex7AddPayloadByte x6 246
  return decide (6 = ((sysex7PayloadSize x7) : Int)) && decide (38 = ((Packet.status x7).toNat : Int))) = true := by decide +kernel

-- data_message,sysex7_set_payload_byte: lines 372-391
example : holds (do
  let x1 ← makeSysex7 .complete 0
  let x2 ← sysex7SetPayloadByte x1 0 18
  let x3 ← Packet.getByte x2 2
  let x4 ← sysex7PayloadByte x2 0
  let x5 ← sysex7SetPayloadByte x2 5 122
  let x6 ← Packet.getByte x5 7
  let x7 ← sysex7PayloadByte x5 5
  let x8 ← sysex7SetPayloadByte x5 4 91
  let x9 ← Packet.getByte x8 6
  let x10 ← sysex7PayloadByte x8 4
  let x11 ← sysex7SetPayloadByte x8 1 42
  let x12 ← Packet.getByte x11 3
  let x13 ← sysex7PayloadByte x11 1
  return decide (18 = (x3.toNat : Int)) && decide (18 = (x4.toNat : Int)) && decide (122 = (x6.toNat : Int)) && decide
    (122 = (x7.toNat : Int)) && decide (91 = (x9.toNat : Int)) && decide (91 = (x10.toNat : Int)) && decide (42 =
    (x12.toNat : Int)) && decide (42 = (x13.toNat : Int))) = true := by decide +kernel

-- data_message,sysex7_set_payload_byte: lines 396-404
example : holds (do
  let x1 ← makeSysex7 .complete 0
  let x2 ← sysex7SetPayloadByte x1 0 18
  let x3 ← sysex7SetPayloadByte x2 5 122
  let x4 ← sysex7SetPayloadByte x3 4 91
  let x5 ← sysex7SetPayloadByte x4 1 42
  let x6 ← sysex7SetPayloadByte x5 3 99
  let x7 ← Packet.getByte x6 5
  let x8 ← sysex7PayloadByte x6 3
  let x9 ← sysex7SetPayloadByte x6 2 246
  let x10 ← Packet.getByte x9 4
  let x11 ← sysex7PayloadByte x9 2
  return decide (99 = (x7.toNat : Int)) && decide (99 = (x8.toNat : Int)) && decide (118 = (x10.toNat : Int)) &&
    decide (118 = (x11.toNat : Int))) = true := by decide +kernel

-- data_message,sysex7_packet_view: lines 416-425
example : holds (do
  let x1 := Packet.ofWords [923928069, 67305985]
  let x2 ← asSysex7View x1
  let x3 ← sysex7View x1
  let x4 ← sysex7PayloadByte x3 0
  let x5 ← sysex7PayloadByte x3 1
  return (isSysex7Packet x1) && x2.isSome && decide (7 = ((Packet.group x3).toNat : Int)) && decide (16 =
    ((sysex7ViewStatus x3).toNat : Int)) && decide (1 = ((sysex7Format x3).code.toNat : Int)) && decide (2 =
    ((sysex7PayloadSize x3) : Int)) && decide (6 = (x4.toNat : Int)) && decide (5 = (x5.toNat : Int))) = true := by decide +kernel

-- data_message,sysex7_packet_view: lines 426-439
example : holds (do
  let x1 := Packet.ofWords [923928069, 67305985]
  let x2 ← sysex7View x1
  let x3 ← sysex7PayloadByte x2 2
  let x4 ← sysex7PayloadByte x2 3
  let x5 ← sysex7PayloadByte x2 4
  let x6 ← sysex7PayloadByte x2 5
  let x7 := Packet.ofWords [1042682420, 1450741931]
  let x8 ← asSysex7View x7
  let x9 ← sysex7View x7
  return decide (4 = (x3.toNat : Int)) && decide (3 = (x4.toNat : Int)) && decide (2 = (x5.toNat : Int)) && decide (1
    = (x6.toNat : Int)) && (isSysex7Packet x7) && x8.isSome && decide (14 = ((Packet.group x9).toNat : Int)) && decide
    (32 = ((sysex7ViewStatus x9).toNat : Int))) = true := by decide +kernel

-- data_message,sysex7_packet_view: lines 440-447
example : holds (do
  let x1 := Packet.ofWords [1042682420, 1450741931]
  let x2 ← sysex7View x1
  let x3 ← sysex7PayloadByte x2 0
  let x4 ← sysex7PayloadByte x2 1
  let x5 ← sysex7PayloadByte x2 2
  let x6 ← sysex7PayloadByte x2 3
  let x7 ← sysex7PayloadByte x2 4
  let x8 ← sysex7PayloadByte x2 5
  return decide (2 = ((sysex7Format x2).code.toNat : Int)) && decide (6 = ((sysex7PayloadSize x2) : Int)) && decide
    (18 = (x3.toNat : Int)) && decide (52 = (x4.toNat : Int)) && decide (86 = (x5.toNat : Int)) && decide (120 =
    (x6.toNat : Int)) && decide (144 = (x7.toNat : Int)) && decide (171 = (x8.toNat : Int))) = true := by decide +kernel

-- data_message,sysex7_packet_view: lines 454-461
example : holds (do
  let x1 := Packet.ofWords [923928069, 67305985]
  let x2 ← sysex7View x1
  let x3 ← sysex7PayloadByte x2 0
  let x4 ← sysex7PayloadByte x2 1
  let x5 ← sysex7PayloadByte x2 2
  let x6 ← sysex7PayloadByte x2 3
  return decide (7 = ((Packet.group x2).toNat : Int)) && decide (16 = ((sysex7ViewStatus x2).toNat : Int)) && decide
    (1 = ((sysex7Format x2).code.toNat : Int)) && decide (2 = ((sysex7PayloadSize x2) : Int)) && decide (6 = (x3.toNat
    : Int)) && decide (5 = (x4.toNat : Int)) && decide (4 = (x5.toNat : Int)) && decide (3 = (x6.toNat : Int))) = true := by decide +kernel

-- data_message,sysex7_packet_view: lines 462-463
example : holds (do
  let x1 := Packet.ofWords [923928069, 67305985]
  let x2 ← sysex7View x1
  let x3 ← sysex7PayloadByte x2 4
  let x4 ← sysex7PayloadByte x2 5
  return decide (2 = (x3.toNat : Int)) && decide (1 = (x4.toNat : Int))) = true := by decide +kernel

-- data_message,is_data_message: lines 473-481
example : holds (do
  let x1 := Packet.ofWords [822149120, 0]
  let x2 := Packet.ofWords [1058275328, 0]
  let x3 := Packet.ofWords [858128384, 0]
  let x4 := Packet.ofWords [864550912, 0]
  let x5 := Packet.ofWords [16777216]
  let x6 := Packet.ofWords [422711808]
  let x7 := Packet.ofWords [647054463]
  let x8 := Packet.ofWords [1082675296, 305397760]
  return (isDataMessage x1) && (isDataMessage x2) && (isDataMessage x3) && (isDataMessage x4) && (!(isDataMessage x5))
    && (!(isDataMessage x6)) && (!(isDataMessage x7)) && (!(isDataMessage x8))) = true := by decide +kernel

-- data_message,is_data_message: line 482
example : holds (do
  let x1 := Packet.ofWords [24333, 1, 2, 3]
  return (!(isDataMessage x1))) = true := by decide +kernel

-- data_message,is_sysex7_packet: lines 491-499
example : holds (do
  let x1 := Packet.ofWords [822149120, 0]
  let x2 := Packet.ofWords [1058275328, 0]
  let x3 := Packet.ofWords [858128384, 0]
  let x4 := Packet.ofWords [859045888, 0]
  let x5 := Packet.ofWords [822542336, 0]
  let x6 := Packet.ofWords [1058996224, 0]
  let x7 := Packet.ofWords [858324992, 0]
  let x8 := Packet.ofWords [859570176, 0]
  return (isSysex7Packet x1) && (isSysex7Packet x2) && (isSysex7Packet x3) && (isSysex7Packet x4) && (!(isSysex7Packet
    x5)) && (!(isSysex7Packet x6)) && (!(isSysex7Packet x7)) && (!(isSysex7Packet x8))) = true := by decide +kernel

-- data_message,is_sysex7_packet: lines 501-508
example : holds (do
  let x1 := Packet.ofWords [63275008, 0]
  let x2 := Packet.ofWords [60784640, 0]
  let x3 := Packet.ofWords [51773440, 0]
  let x4 := Packet.ofWords [54984704, 0]
  let x5 := Packet.ofWords [50855936, 0]
  let x6 := Packet.ofWords [63504384, 0]
  let x7 := Packet.ofWords [61472768, 0]
  let x8 := Packet.ofWords [54198272, 0]
  return (!(isSysex7Packet x1)) && (!(isSysex7Packet x2)) && (!(isSysex7Packet x3)) && (!(isSysex7Packet x4)) &&
    (!(isSysex7Packet x5)) && (!(isSysex7Packet x6)) && (!(isSysex7Packet x7)) && (!(isSysex7Packet x8))) = true := by decide +kernel

-- data_message,is_sysex7_packet: lines 509-516
example : holds (do
  let x1 := Packet.ofWords [63766528, 0]
  let x2 := Packet.ofWords [66977792, 0]
  let x3 := Packet.ofWords [16777216]
  let x4 := Packet.ofWords [422711808]
  let x5 := Packet.ofWords [647054463]
  let x6 := Packet.ofWords [1082675296, 305397760]
  let x7 := Packet.ofWords [24333, 1, 2, 3]
  return (!(isSysex7Packet x1)) && (!(isSysex7Packet x2)) && (!(isSysex7Packet x3)) && (!(isSysex7Packet x4)) &&
    (!(isSysex7Packet x5)) && (!(isSysex7Packet x6)) && (!(isSysex7Packet x7))) = true := by decide +kernel

end Midi.Conformance
