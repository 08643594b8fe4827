import Verif.Conformance.Prelude
import Verif.Model.ByteStream
import Verif.Model.CapabilityInquiry
import Verif.Model.Collector
import Verif.Model.Defaults
import Verif.Model.FlexData
import Verif.Model.Jitter
import Verif.Model.PitchTypes
import Verif.Model.Senders
import Verif.Model.Stream
import Verif.Model.Sysex
import Verif.Model.SysexPackets
import Verif.Model.TextFormat
import Verif.Model.Types
import Verif.Model.UniversalSysex
import Verif.Model.Reentrant

/-!
The expectations of tests/extended_data_message_tests.cpp about the model. Generated by tools/conformance.
-/

namespace Midi.Conformance

open Midi

-- extended_data_message,constructors: lines 36-46
example : holds (do
  let x1 := extendedDataDefault
  let x2 := extendedDataMessage 49
  return decide (5 = ((Packet.type x1).toNat : Int)) && decide (0 = ((Packet.group x1).toNat : Int)) && decide (0 =
    ((Packet.status x1).toNat : Int)) && decide (5 = ((Packet.type x2).toNat : Int)) && decide (0 = ((Packet.group
    x2).toNat : Int)) && decide (49 = ((Packet.status x2).toNat : Int))) = true := by decide +kernel

-- extended_data_message,is_extended_data_message: lines 56-64
example : holds (do
  let x1 := Packet.ofWords [1359020032, 1, 2, 3]
  let x2 := Packet.ofWords [1595146240, 4, 5, 6]
  let x3 := Packet.ofWords [1394999296, 7, 8, 9]
  let x4 := Packet.ofWords [1401421824, 10, 11, 12]
  let x5 := Packet.ofWords [16777216]
  let x6 := Packet.ofWords [422711808]
  let x7 := Packet.ofWords [647054463]
  let x8 := Packet.ofWords [1082675296, 305397760]
  return (isExtendedDataMessage x1) && (isExtendedDataMessage x2) && (isExtendedDataMessage x3) &&
    (isExtendedDataMessage x4) && (!(isExtendedDataMessage x5)) && (!(isExtendedDataMessage x6)) &&
    (!(isExtendedDataMessage x7)) && (!(isExtendedDataMessage x8))) = true := by decide +kernel

-- extended_data_message,is_extended_data_message: line 65
example : holds (do
  let x1 := Packet.ofWords [16141, 1, 2, 3]
  return (!(isExtendedDataMessage x1))) = true := by decide +kernel

-- extended_data_message,sysex8_packet_constructors: lines 77-85
example : holds (do
  let x1 := sysex8Default
  return decide (5 = ((Packet.type x1).toNat : Int)) && decide (0 = ((Packet.group x1).toNat : Int)) && decide (1 =
    ((Packet.status x1).toNat : Int)) && decide (0 = ((sysex8Format x1).code.toNat : Int)) && decide (1342242816 =
    ((x1.w0).toNat : Int)) && decide (0 = ((x1.w1).toNat : Int)) && decide (0 = ((x1.w2).toNat : Int)) && decide (0 =
    ((x1.w3).toNat : Int))) = true := by decide +kernel

-- extended_data_message,sysex8_packet_constructors: lines 87-100
example : holds (do
  let x1 := sysex8Default
  let x2 := sysex8Packet 48 172 12
  return (isExtendedDataMessage x1) && decide (5 = ((Packet.type x2).toNat : Int)) && decide (12 = ((Packet.group
    x2).toNat : Int)) && decide (49 = ((Packet.status x2).toNat : Int)) && decide (3 = ((sysex8Format x2).code.toNat :
    Int)) && decide (1546759168 = ((x2.w0).toNat : Int)) && decide (0 = ((x2.w1).toNat : Int)) && decide (0 =
    ((x2.w2).toNat : Int))) = true := by decide +kernel

-- extended_data_message,sysex8_packet_constructors: lines 101-103
example : holds (do
  let x1 := sysex8Packet 48 172 12
  return decide (0 = ((x1.w3).toNat : Int)) && (isExtendedDataMessage x1)) = true := by decide +kernel

-- extended_data_message,is_sysex8_packet: lines 113-120
example : holds (do
  let x1 := Packet.ofWords [1359020032, 0, 1, 2]
  let x2 := Packet.ofWords [1595146240, 0, 1, 2]
  let x3 := Packet.ofWords [1394999296, 0, 1, 2]
  let x4 := Packet.ofWords [1395916800, 0, 1, 2]
  let x5 := Packet.ofWords [1359413248, 0, 1, 2]
  let x6 := Packet.ofWords [1395195904, 0, 1, 2]
  let x7 := Packet.ofWords [1396441088, 0, 1, 2]
  let x8 := Packet.ofWords [1396572160, 0, 1, 2]
  return (isSysex8Packet x1) && (isSysex8Packet x2) && (isSysex8Packet x3) && (isSysex8Packet x4) && (isSysex8Packet
    x5) && (isSysex8Packet x6) && (isSysex8Packet x7) && (isSysex8Packet x8)) = true := by decide +kernel

-- extended_data_message,is_sysex8_packet: lines 122-131
example : holds (do
  let x1 := sysex8Default
  let x2 := sysex8Packet 32 39 5
  let x3 := Packet.ofWords [1595867136, 0, 1, 2]
  let x4 := Packet.ofWords [96829440, 0, 1, 2]
  let x5 := Packet.ofWords [94339072, 0, 1, 2]
  let x6 := Packet.ofWords [85327872, 0, 1, 2]
  let x7 := Packet.ofWords [88539136, 0, 1, 2]
  let x8 := Packet.ofWords [84410368, 0, 1, 2]
  return (isSysex8Packet x1) && (isSysex8Packet x2) && (!(isSysex8Packet x3)) && (!(isSysex8Packet x4)) &&
    (!(isSysex8Packet x5)) && (!(isSysex8Packet x6)) && (!(isSysex8Packet x7)) && (!(isSysex8Packet x8))) = true := by decide +kernel

-- extended_data_message,is_sysex8_packet: lines 132-140
example : holds (do
  let x1 := Packet.ofWords [97058816, 0, 1, 2]
  let x2 := Packet.ofWords [95027200, 0, 1, 2]
  let x3 := Packet.ofWords [87752704, 0, 1, 2]
  let x4 := Packet.ofWords [97320960, 0, 1, 2]
  let x5 := Packet.ofWords [100532224, 0, 1, 2]
  let x6 := Packet.ofWords [16777216]
  let x7 := Packet.ofWords [422711808]
  let x8 := Packet.ofWords [647054463]
  return (!(isSysex8Packet x1)) && (!(isSysex8Packet x2)) && (!(isSysex8Packet x3)) && (!(isSysex8Packet x4)) &&
    (!(isSysex8Packet x5)) && (!(isSysex8Packet x6)) && (!(isSysex8Packet x7)) && (!(isSysex8Packet x8))) = true := by decide +kernel

-- extended_data_message,is_sysex8_packet: lines 141-142
example : holds (do
  let x1 := Packet.ofWords [1082675296, 305397760]
  let x2 := Packet.ofWords [24333, 1, 2, 3]
  return (!(isSysex8Packet x1)) && (!(isSysex8Packet x2))) = true := by decide +kernel

-- extended_data_message,sysex8_packet_format: lines 153-168
example : holds (do
  let x1 := makeSysex8 .complete 0 0
  let x2 := makeSysex8 .start 0 0
  let x3 := makeSysex8 .cont 0 0
  let x4 := makeSysex8 .fin 0 0
  return decide (0 = ((sysex8Format x1).code.toNat : Int)) && decide (1 = ((sysex8Format x2).code.toNat : Int)) &&
    decide (2 = ((sysex8Format x3).code.toNat : Int)) && decide (3 = ((sysex8Format x4).code.toNat : Int))) = true := by decide +kernel

-- extended_data_message,sysex8_packet_stream_id: lines 180-185
example : holds (do
  let x1 := makeSysex8 .complete 0 0
  let x2 ← sysex8StreamId x1
  let x3 ← Packet.setByte x1 2 99
  let x4 ← sysex8StreamId x3
  return decide (0 = (x2.toNat : Int)) && decide (1342268160 = ((x3.w0).toNat : Int)) && decide (99 = (x4.toNat :
    Int))) = true := by decide +kernel

-- extended_data_message,sysex8_packet_set_stream_id: lines 197-202
example : holds (do
  let x1 := makeSysex8 .cont 44 0
  let x2 ← sysex8StreamId x1
  let x3 ← sysex8SetStreamId x1 244
  let x4 ← sysex8StreamId x3
  return decide (44 = (x2.toNat : Int)) && decide (1344402432 = ((x3.w0).toNat : Int)) && decide (244 = (x4.toNat :
    Int))) = true := by decide +kernel

-- extended_data_message,sysex8_packet_payload_size: lines 214-236
example : holds (do
  let x1 := makeSysex8 .complete 0 0
  let x2 ← Packet.setByte x1 1 3
  let x3 ← Packet.setByte x2 1 22
  let x4 ← Packet.setByte x3 1 40
  let x5 ← Packet.setByte x4 1 62
  return decide (0 = ((sysex8PayloadSize x1) : Int)) && decide (1342373888 = ((x2.w0).toNat : Int)) && decide (2 =
    ((sysex8PayloadSize x2) : Int)) && decide (1343619072 = ((x3.w0).toNat : Int)) && decide (5 = ((sysex8PayloadSize
    x3) : Int)) && decide (1344798720 = ((x4.w0).toNat : Int)) && decide (7 = ((sysex8PayloadSize x4) : Int)) &&
    decide (1346240512 = ((x5.w0).toNat : Int))) = true := by decide +kernel

-- extended_data_message,sysex8_packet_payload_size: line 237
example : holds (do
  let x1 := makeSysex8 .complete 0 0
  let x2 ← Packet.setByte x1 1 3
  let x3 ← Packet.setByte x2 1 22
  let x4 ← Packet.setByte x3 1 40
  let x5 ← Packet.setByte x4 1 62
  return decide (13 = ((sysex8PayloadSize x5) : Int))) = true := by decide +kernel

-- extended_data_message,sysex8_packet_set_payload_size: lines 249-270
example : holds (do
  let x1 := makeSysex8 .complete 0 0
  let x2 ← sysex8SetPayloadSize x1 6
  let x3 := makeSysex8 .start 1 0
  let x4 ← sysex8SetPayloadSize x3 3
  let x5 := makeSysex8 .cont 170 0
  let x6 ← sysex8SetPayloadSize x5 12
  return decide (0 = ((sysex8PayloadSize x1) : Int)) && decide (1342636032 = ((x2.w0).toNat : Int)) && decide (6 =
    ((sysex8PayloadSize x2) : Int)) && decide (0 = ((sysex8PayloadSize x3) : Int)) && decide (1343488256 =
    ((x4.w0).toNat : Int)) && decide (3 = ((sysex8PayloadSize x4) : Int)) && decide (0 = ((sysex8PayloadSize x5) :
    Int)) && decide (1345169920 = ((x6.w0).toNat : Int))) = true := by decide +kernel

-- extended_data_message,sysex8_packet_set_payload_size: line 271
example : holds (do
  let x1 := makeSysex8 .cont 170 0
  let x2 ← sysex8SetPayloadSize x1 12
  return decide (12 = ((sysex8PayloadSize x2) : Int))) = true := by decide +kernel

-- extended_data_message,sysex8_packet_payload_byte: lines 298-305
example : holds (do
  let x1 := makeSysex8 .complete 99 0
  let x2 ← sysex8SetPayloadSize x1 13
  let x3 ← Packet.setByte x2 3 17
  let x4 ← Packet.setByte x3 4 34
  let x5 ← Packet.setByte x4 5 51
  let x6 ← Packet.setByte x5 6 68
  let x7 ← Packet.setByte x6 7 85
  let x8 ← Packet.setByte x7 8 102
  let x9 ← Packet.setByte x8 9 119
  let x10 ← Packet.setByte x9 10 136
  let x11 ← Packet.setByte x10 11 153
  let x12 ← Packet.setByte x11 12 170
  let x13 ← Packet.setByte x12 13 187
  let x14 ← Packet.setByte x13 14 204
  let x15 ← Packet.setByte x14 15 221
  let x16 ← sysex8PayloadByte x15 0
  let x17 ← sysex8PayloadByte x15 1
  let x18 ← sysex8PayloadByte x15 2
  let x19 ← sysex8PayloadByte x15 3
  let x20 ← sysex8PayloadByte x15 4
  let x21 ← sysex8PayloadByte x15 5
  let x22 ← sysex8PayloadByte x15 6
  let x23 ← sysex8PayloadByte x15 7
  return decide (17 = (x16.toNat : Int)) && decide (34 = (x17.toNat : Int)) && decide (51 = (x18.toNat : Int)) &&
    decide (68 = (x19.toNat : Int)) && decide (85 = (x20.toNat : Int)) && decide (102 = (x21.toNat : Int)) && decide
    (119 = (x22.toNat : Int)) && decide (136 = (x23.toNat : Int))) = true := by decide +kernel

-- extended_data_message,sysex8_packet_payload_byte: lines 306-310
example : holds (do
  let x1 := makeSysex8 .complete 99 0
  let x2 ← sysex8SetPayloadSize x1 13
  let x3 ← Packet.setByte x2 3 17
  let x4 ← Packet.setByte x3 4 34
  let x5 ← Packet.setByte x4 5 51
  let x6 ← Packet.setByte x5 6 68
  let x7 ← Packet.setByte x6 7 85
  let x8 ← Packet.setByte x7 8 102
  let x9 ← Packet.setByte x8 9 119
  let x10 ← Packet.setByte x9 10 136
  let x11 ← Packet.setByte x10 11 153
  let x12 ← Packet.setByte x11 12 170
  let x13 ← Packet.setByte x12 13 187
  let x14 ← Packet.setByte x13 14 204
  let x15 ← Packet.setByte x14 15 221
  let x16 ← sysex8PayloadByte x15 8
  let x17 ← sysex8PayloadByte x15 9
  let x18 ← sysex8PayloadByte x15 10
  let x19 ← sysex8PayloadByte x15 11
  let x20 ← sysex8PayloadByte x15 12
  return decide (153 = (x16.toNat : Int)) && decide (170 = (x17.toNat : Int)) && decide (187 = (x18.toNat : Int)) &&
    decide (204 = (x19.toNat : Int)) && decide (221 = (x20.toNat : Int))) = true := by decide +kernel

-- extended_data_message,sysex8_packet_set_payload_byte: lines 323-342
example : holds (do
  let x1 := makeSysex8 .complete 0 0
  let x2 ← sysex8SetPayloadByte x1 0 18
  let x3 ← Packet.getByte x2 3
  let x4 ← sysex8PayloadByte x2 0
  let x5 ← sysex8SetPayloadByte x2 5 122
  let x6 ← Packet.getByte x5 8
  let x7 ← sysex8PayloadByte x5 5
  let x8 ← sysex8SetPayloadByte x5 4 91
  let x9 ← Packet.getByte x8 7
  let x10 ← sysex8PayloadByte x8 4
  let x11 ← sysex8SetPayloadByte x8 1 42
  let x12 ← Packet.getByte x11 4
  let x13 ← sysex8PayloadByte x11 1
  return decide (18 = (x3.toNat : Int)) && decide (18 = (x4.toNat : Int)) && decide (122 = (x6.toNat : Int)) && decide
    (122 = (x7.toNat : Int)) && decide (91 = (x9.toNat : Int)) && decide (91 = (x10.toNat : Int)) && decide (42 =
    (x12.toNat : Int)) && decide (42 = (x13.toNat : Int))) = true := by decide +kernel

-- extended_data_message,sysex8_packet_set_payload_byte: lines 347-354
example : holds (do
  let x1 := makeSysex8 .complete 0 0
  let x2 ← sysex8SetPayloadByte x1 0 18
  let x3 ← sysex8SetPayloadByte x2 5 122
  let x4 ← sysex8SetPayloadByte x3 4 91
  let x5 ← sysex8SetPayloadByte x4 1 42
  let x6 ← sysex8SetPayloadByte x5 3 99
  let x7 ← Packet.getByte x6 6
  let x8 ← sysex8PayloadByte x6 3
  let x9 ← sysex8SetPayloadByte x6 2 246
  let x10 ← Packet.getByte x9 5
  let x11 ← sysex8PayloadByte x9 2
  return decide (99 = (x7.toNat : Int)) && decide (99 = (x8.toNat : Int)) && decide (246 = (x10.toNat : Int)) &&
    decide (246 = (x11.toNat : Int))) = true := by decide +kernel

-- extended_data_message,sysex8_packet_add_payload_byte: lines 366-377
example : holds (do
  let x1 := makeSysex8 .cont 62 0
  let x2 ← sysex8AddPayloadByte x1 18
  let x3 ← Packet.getByte x2 3
  let x4 ← sysex8PayloadByte x2 0
  return decide (0 = ((sysex8PayloadSize x1) : Int)) && decide (18 = (x3.toNat : Int)) && decide (18 = (x4.toNat :
    Int)) && decide (1 = ((sysex8PayloadSize x2) : Int)) && decide (1344421394 = ((x2.w0).toNat : Int)) && decide (0 =
    ((x2.w1).toNat : Int)) && decide (0 = ((x2.w2).toNat : Int)) && decide (0 = ((x2.w3).toNat : Int))) = true := by decide +kernel

-- extended_data_message,sysex8_packet_add_payload_byte: lines 382-394
example : holds (do
  let x1 := makeSysex8 .cont 62 0
  let x2 ← sysex8AddPayloadByte x1 18
  let x3 ← sysex8AddPayloadByte x2 122
  let x4 ← Packet.getByte x3 4
  let x5 ← sysex8PayloadByte x3 1
  let x6 ← sysex8AddPayloadByte x3 91
  let x7 ← Packet.getByte x6 5
  return decide (122 = (x4.toNat : Int)) && decide (122 = (x5.toNat : Int)) && decide (2 = ((sysex8PayloadSize x3) :
    Int)) && decide (1344486930 = ((x3.w0).toNat : Int)) && decide (2046820352 = ((x3.w1).toNat : Int)) && decide (0 =
    ((x3.w2).toNat : Int)) && decide (0 = ((x3.w3).toNat : Int)) && decide (91 = (x7.toNat : Int))) = true := by decide +kernel

-- extended_data_message,sysex8_packet_add_payload_byte: lines 395-407
example : holds (do
  let x1 := makeSysex8 .cont 62 0
  let x2 ← sysex8AddPayloadByte x1 18
  let x3 ← sysex8AddPayloadByte x2 122
  let x4 ← sysex8AddPayloadByte x3 91
  let x5 ← sysex8PayloadByte x4 2
  let x6 ← sysex8AddPayloadByte x4 42
  let x7 ← Packet.getByte x6 6
  let x8 ← sysex8PayloadByte x6 3
  return decide (91 = (x5.toNat : Int)) && decide (3 = ((sysex8PayloadSize x4) : Int)) && decide (1344552466 =
    ((x4.w0).toNat : Int)) && decide (2052784128 = ((x4.w1).toNat : Int)) && decide (0 = ((x4.w2).toNat : Int)) &&
    decide (0 = ((x4.w3).toNat : Int)) && decide (42 = (x7.toNat : Int)) && decide (42 = (x8.toNat : Int))) = true := by decide +kernel

-- extended_data_message,sysex8_packet_add_payload_byte: lines 408-420
example : holds (do
  let x1 := makeSysex8 .cont 62 0
  let x2 ← sysex8AddPayloadByte x1 18
  let x3 ← sysex8AddPayloadByte x2 122
  let x4 ← sysex8AddPayloadByte x3 91
  let x5 ← sysex8AddPayloadByte x4 42
  let x6 ← sysex8AddPayloadByte x5 99
  let x7 ← Packet.getByte x6 7
  let x8 ← sysex8PayloadByte x6 4
  return decide (4 = ((sysex8PayloadSize x5) : Int)) && decide (1344618002 = ((x5.w0).toNat : Int)) && decide
    (2052794880 = ((x5.w1).toNat : Int)) && decide (0 = ((x5.w2).toNat : Int)) && decide (0 = ((x5.w3).toNat : Int))
    && decide (99 = (x7.toNat : Int)) && decide (99 = (x8.toNat : Int)) && decide (5 = ((sysex8PayloadSize x6) : Int))) = true := by decide +kernel

-- extended_data_message,sysex8_packet_add_payload_byte: lines 422-434
example : holds (do
  let x1 := makeSysex8 .cont 62 0
  let x2 ← sysex8AddPayloadByte x1 18
  let x3 ← sysex8AddPayloadByte x2 122
  let x4 ← sysex8AddPayloadByte x3 91
  let x5 ← sysex8AddPayloadByte x4 42
  let x6 ← sysex8AddPayloadByte x5 99
  let x7 ← sysex8AddPayloadByte x6 246
  let x8 ← Packet.getByte x7 8
  let x9 ← sysex8PayloadByte x7 5
  return decide (1344683538 = ((x6.w0).toNat : Int)) && decide (2052794979 = ((x6.w1).toNat : Int)) && decide (0 =
    ((x6.w2).toNat : Int)) && decide (0 = ((x6.w3).toNat : Int)) && decide (246 = (x8.toNat : Int)) && decide (246 =
    (x9.toNat : Int)) && decide (6 = ((sysex8PayloadSize x7) : Int)) && decide (1344749074 = ((x7.w0).toNat : Int))) = true := by decide +kernel

-- extended_data_message,sysex8_packet_add_payload_byte: lines 435-447
example : holds (do
  let x1 := makeSysex8 .cont 62 0
  let x2 ← sysex8AddPayloadByte x1 18
  let x3 ← sysex8AddPayloadByte x2 122
  let x4 ← sysex8AddPayloadByte x3 91
  let x5 ← sysex8AddPayloadByte x4 42
  let x6 ← sysex8AddPayloadByte x5 99
  let x7 ← sysex8AddPayloadByte x6 246
  let x8 ← sysex8AddPayloadByte x7 175
  let x9 ← Packet.getByte x8 9
  let x10 ← sysex8PayloadByte x8 6
  return decide (2052794979 = ((x7.w1).toNat : Int)) && decide (4127195136 = ((x7.w2).toNat : Int)) && decide (0 =
    ((x7.w3).toNat : Int)) && decide (175 = (x9.toNat : Int)) && decide (175 = (x10.toNat : Int)) && decide (7 =
    ((sysex8PayloadSize x8) : Int)) && decide (1344814610 = ((x8.w0).toNat : Int)) && decide (2052794979 =
    ((x8.w1).toNat : Int))) = true := by decide +kernel

-- extended_data_message,sysex8_packet_add_payload_byte: lines 448-460
example : holds (do
  let x1 := makeSysex8 .cont 62 0
  let x2 ← sysex8AddPayloadByte x1 18
  let x3 ← sysex8AddPayloadByte x2 122
  let x4 ← sysex8AddPayloadByte x3 91
  let x5 ← sysex8AddPayloadByte x4 42
  let x6 ← sysex8AddPayloadByte x5 99
  let x7 ← sysex8AddPayloadByte x6 246
  let x8 ← sysex8AddPayloadByte x7 175
  let x9 ← sysex8AddPayloadByte x8 52
  let x10 ← Packet.getByte x9 10
  let x11 ← sysex8PayloadByte x9 7
  return decide (4138663936 = ((x8.w2).toNat : Int)) && decide (0 = ((x8.w3).toNat : Int)) && decide (52 = (x10.toNat
    : Int)) && decide (52 = (x11.toNat : Int)) && decide (8 = ((sysex8PayloadSize x9) : Int)) && decide (1344880146 =
    ((x9.w0).toNat : Int)) && decide (2052794979 = ((x9.w1).toNat : Int)) && decide (4138677248 = ((x9.w2).toNat :
    Int))) = true := by decide +kernel

-- extended_data_message,sysex8_packet_add_payload_byte: lines 461-473
example : holds (do
  let x1 := makeSysex8 .cont 62 0
  let x2 ← sysex8AddPayloadByte x1 18
  let x3 ← sysex8AddPayloadByte x2 122
  let x4 ← sysex8AddPayloadByte x3 91
  let x5 ← sysex8AddPayloadByte x4 42
  let x6 ← sysex8AddPayloadByte x5 99
  let x7 ← sysex8AddPayloadByte x6 246
  let x8 ← sysex8AddPayloadByte x7 175
  let x9 ← sysex8AddPayloadByte x8 52
  let x10 ← sysex8AddPayloadByte x9 78
  let x11 ← Packet.getByte x10 11
  let x12 ← sysex8PayloadByte x10 8
  return decide (0 = ((x9.w3).toNat : Int)) && decide (78 = (x11.toNat : Int)) && decide (78 = (x12.toNat : Int)) &&
    decide (9 = ((sysex8PayloadSize x10) : Int)) && decide (1344945682 = ((x10.w0).toNat : Int)) && decide (2052794979
    = ((x10.w1).toNat : Int)) && decide (4138677326 = ((x10.w2).toNat : Int)) && decide (0 = ((x10.w3).toNat : Int))) = true := by decide +kernel

-- extended_data_message,sysex8_packet_add_payload_byte: lines 478-485
example : holds (do
  let x1 := makeSysex8 .cont 62 0
  let x2 ← sysex8AddPayloadByte x1 18
  let x3 ← sysex8AddPayloadByte x2 122
  let x4 ← sysex8AddPayloadByte x3 91
  let x5 ← sysex8AddPayloadByte x4 42
  let x6 ← sysex8AddPayloadByte x5 99
  let x7 ← sysex8AddPayloadByte x6 246
  let x8 ← sysex8AddPayloadByte x7 175
  let x9 ← sysex8AddPayloadByte x8 52
  let x10 ← sysex8AddPayloadByte x9 78
  let x11 ← sysex8AddPayloadByte x10 60
  let x12 ← Packet.getByte x11 12
  let x13 ← sysex8PayloadByte x11 9
  return decide (60 = (x12.toNat : Int)) && decide (60 = (x13.toNat : Int)) && decide (10 = ((sysex8PayloadSize x11) :
    Int)) && decide (1345011218 = ((x11.w0).toNat : Int)) && decide (2052794979 = ((x11.w1).toNat : Int)) && decide
    (4138677326 = ((x11.w2).toNat : Int)) && decide (1006632960 = ((x11.w3).toNat : Int))) = true := by decide +kernel

-- extended_data_message,sysex8_packet_view: lines 497-506
example : holds (do
  let x1 := Packet.ofWords [1460881677, 472595017, 1483175557, 2493756097]
  let x2 ← asSysex8View x1
  let x3 ← sysex8View x1
  let x4 ← sysex8StreamId x3
  let x5 ← sysex8PayloadByte x3 0
  let x6 ← sysex8PayloadByte x3 1
  return (isSysex8Packet x1) && x2.isSome && decide (7 = ((Packet.group x3).toNat : Int)) && decide (1 =
    ((sysex8Format x3).code.toNat : Int)) && decide (73 = (x4.toNat : Int)) && decide (2 = ((sysex8PayloadSize x3) :
    Int)) && decide (13 = (x5.toNat : Int)) && decide (28 = (x6.toNat : Int))) = true := by decide +kernel

-- extended_data_message,sysex8_packet_view: lines 507-514
example : holds (do
  let x1 := Packet.ofWords [1460881677, 472595017, 1483175557, 2493756097]
  let x2 ← sysex8View x1
  let x3 ← sysex8PayloadByte x2 2
  let x4 ← sysex8PayloadByte x2 3
  let x5 ← sysex8PayloadByte x2 4
  let x6 ← sysex8PayloadByte x2 5
  let x7 ← sysex8PayloadByte x2 6
  let x8 ← sysex8PayloadByte x2 7
  let x9 ← sysex8PayloadByte x2 8
  let x10 ← sysex8PayloadByte x2 9
  return decide (43 = (x3.toNat : Int)) && decide (58 = (x4.toNat : Int)) && decide (73 = (x5.toNat : Int)) && decide
    (88 = (x6.toNat : Int)) && decide (103 = (x7.toNat : Int)) && decide (118 = (x8.toNat : Int)) && decide (133 =
    (x9.toNat : Int)) && decide (148 = (x10.toNat : Int))) = true := by decide +kernel

-- extended_data_message,sysex8_packet_view: lines 515-528
example : holds (do
  let x1 := Packet.ofWords [1460881677, 472595017, 1483175557, 2493756097]
  let x2 ← sysex8View x1
  let x3 ← sysex8PayloadByte x2 10
  let x4 ← sysex8PayloadByte x2 11
  let x5 ← sysex8PayloadByte x2 12
  let x6 := Packet.ofWords [1579664402, 878082192, 2868903936]
  let x7 ← asSysex8View x6
  let x8 ← sysex8View x6
  let x9 ← sysex8StreamId x8
  return decide (163 = (x3.toNat : Int)) && decide (178 = (x4.toNat : Int)) && decide (193 = (x5.toNat : Int)) &&
    (isSysex8Packet x6) && x7.isSome && decide (14 = ((Packet.group x8).toNat : Int)) && decide (2 = ((sysex8Format
    x8).code.toNat : Int)) && decide (196 = (x9.toNat : Int))) = true := by decide +kernel

-- extended_data_message,sysex8_packet_view: lines 529-542
example : holds (do
  let x1 := Packet.ofWords [1579664402, 878082192, 2868903936]
  let x2 ← sysex8View x1
  let x3 ← sysex8PayloadByte x2 0
  let x4 ← sysex8PayloadByte x2 1
  let x5 ← sysex8PayloadByte x2 2
  let x6 ← sysex8PayloadByte x2 3
  let x7 ← sysex8PayloadByte x2 4
  let x8 ← sysex8PayloadByte x2 5
  let x9 := Packet.ofWords [1460798981, 67305985]
  let x10 ← sysex8View x9
  return decide (6 = ((sysex8PayloadSize x2) : Int)) && decide (18 = (x3.toNat : Int)) && decide (52 = (x4.toNat :
    Int)) && decide (86 = (x5.toNat : Int)) && decide (120 = (x6.toNat : Int)) && decide (144 = (x7.toNat : Int)) &&
    decide (171 = (x8.toNat : Int)) && decide (7 = ((Packet.group x10).toNat : Int))) = true := by decide +kernel

-- extended_data_message,sysex8_packet_view: lines 543-550
example : holds (do
  let x1 := Packet.ofWords [1460798981, 67305985]
  let x2 ← sysex8View x1
  let x3 ← sysex8StreamId x2
  let x4 ← sysex8PayloadByte x2 0
  let x5 ← sysex8PayloadByte x2 1
  let x6 ← sysex8PayloadByte x2 2
  let x7 ← sysex8PayloadByte x2 3
  let x8 ← sysex8PayloadByte x2 4
  return decide (1 = ((sysex8Format x2).code.toNat : Int)) && decide (6 = (x3.toNat : Int)) && decide (1 =
    ((sysex8PayloadSize x2) : Int)) && decide (5 = (x4.toNat : Int)) && decide (4 = (x5.toNat : Int)) && decide (3 =
    (x6.toNat : Int)) && decide (2 = (x7.toNat : Int)) && decide (1 = (x8.toNat : Int))) = true := by decide +kernel

-- extended_data_message,sysex8_packet_view: lines 554-561
example : holds (do
  let x1 := Packet.ofWords [0]
  let x2 ← asSysex8View x1
  let x3 := Packet.ofWords [305419896]
  let x4 ← asSysex8View x3
  let x5 := Packet.ofWords [591751049]
  let x6 ← asSysex8View x5
  let x7 := Packet.ofWords [878082202]
  let x8 ← asSysex8View x7
  let x9 := Packet.ofWords [1164413355]
  let x10 ← asSysex8View x9
  let x11 := Packet.ofWords [1737075661]
  let x12 ← asSysex8View x11
  let x13 := Packet.ofWords [2023406814]
  let x14 ← asSysex8View x13
  let x15 := Packet.ofWords [2309737967]
  let x16 ← asSysex8View x15
  return (!x2.isSome) && (!x4.isSome) && (!x6.isSome) && (!x8.isSome) && (!x10.isSome) && (!x12.isSome) &&
    (!x14.isSome) && (!x16.isSome)) = true := by decide +kernel

-- extended_data_message,sysex8_packet_view: lines 562-568
example : holds (do
  let x1 := Packet.ofWords [2596069104]
  let x2 ← asSysex8View x1
  let x3 := Packet.ofWords [2882400001]
  let x4 ← asSysex8View x3
  let x5 := Packet.ofWords [3168727058]
  let x6 ← asSysex8View x5
  let x7 := Packet.ofWords [3454992675]
  let x8 ← asSysex8View x7
  let x9 := Packet.ofWords [3740275252]
  let x10 ← asSysex8View x9
  let x11 := Packet.ofWords [4009829189]
  let x12 ← asSysex8View x11
  let x13 := Packet.ofWords [4027724886]
  let x14 ← asSysex8View x13
  return (!x2.isSome) && (!x4.isSome) && (!x6.isSome) && (!x8.isSome) && (!x10.isSome) && (!x12.isSome) &&
    (!x14.isSome)) = true := by decide +kernel

-- extended_data_message,make_sysex8_complete_packet: lines 581-594
example : holds (do
  let x1 := makeSysex8 .complete 99 0
  let x2 ← sysex8StreamId x1
  let x3 := makeSysex8 .complete 7 5
  return decide (5 = ((Packet.type x1).toNat : Int)) && decide (0 = ((Packet.group x1).toNat : Int)) && decide (1 =
    ((Packet.status x1).toNat : Int)) && decide (99 = (x2.toNat : Int)) && decide (0 = ((sysex8PayloadSize x1) : Int))
    && (isExtendedDataMessage x1) && (isSysex8Packet x1) && decide (5 = ((Packet.type x3).toNat : Int))) = true := by decide +kernel

-- extended_data_message,make_sysex8_complete_packet: lines 595-601
example : holds (do
  let x1 := makeSysex8 .complete 7 5
  let x2 ← sysex8StreamId x1
  return decide (5 = ((Packet.group x1).toNat : Int)) && decide (1 = ((Packet.status x1).toNat : Int)) && decide (7 =
    (x2.toNat : Int)) && decide (0 = ((sysex8PayloadSize x1) : Int)) && (isExtendedDataMessage x1) && (isSysex8Packet
    x1)) = true := by decide +kernel

-- extended_data_message,make_sysex8_start_packet: lines 614-627
example : holds (do
  let x1 := makeSysex8 .start 32 0
  let x2 ← sysex8StreamId x1
  let x3 := makeSysex8 .start 240 15
  return decide (5 = ((Packet.type x1).toNat : Int)) && decide (0 = ((Packet.group x1).toNat : Int)) && decide (17 =
    ((Packet.status x1).toNat : Int)) && decide (32 = (x2.toNat : Int)) && decide (0 = ((sysex8PayloadSize x1) : Int))
    && (isExtendedDataMessage x1) && (isSysex8Packet x1) && decide (5 = ((Packet.type x3).toNat : Int))) = true := by decide +kernel

-- extended_data_message,make_sysex8_start_packet: lines 628-634
example : holds (do
  let x1 := makeSysex8 .start 240 15
  let x2 ← sysex8StreamId x1
  return decide (15 = ((Packet.group x1).toNat : Int)) && decide (17 = ((Packet.status x1).toNat : Int)) && decide
    (240 = (x2.toNat : Int)) && decide (0 = ((sysex8PayloadSize x1) : Int)) && (isExtendedDataMessage x1) &&
    (isSysex8Packet x1)) = true := by decide +kernel

-- extended_data_message,make_sysex8_continue_packet: lines 647-660
example : holds (do
  let x1 := makeSysex8 .cont 77 0
  let x2 ← sysex8StreamId x1
  let x3 := makeSysex8 .cont 0 9
  return decide (5 = ((Packet.type x1).toNat : Int)) && decide (0 = ((Packet.group x1).toNat : Int)) && decide (33 =
    ((Packet.status x1).toNat : Int)) && decide (77 = (x2.toNat : Int)) && decide (0 = ((sysex8PayloadSize x1) : Int))
    && (isExtendedDataMessage x1) && (isSysex8Packet x1) && decide (5 = ((Packet.type x3).toNat : Int))) = true := by decide +kernel

-- extended_data_message,make_sysex8_continue_packet: lines 661-667
example : holds (do
  let x1 := makeSysex8 .cont 0 9
  let x2 ← sysex8StreamId x1
  return decide (9 = ((Packet.group x1).toNat : Int)) && decide (33 = ((Packet.status x1).toNat : Int)) && decide (0 =
    (x2.toNat : Int)) && decide (0 = ((sysex8PayloadSize x1) : Int)) && (isExtendedDataMessage x1) && (isSysex8Packet
    x1)) = true := by decide +kernel

-- extended_data_message,make_sysex8_end_packet: lines 680-693
example : holds (do
  let x1 := makeSysex8 .fin 255 0
  let x2 ← sysex8StreamId x1
  let x3 := makeSysex8 .fin 24 1
  return decide (5 = ((Packet.type x1).toNat : Int)) && decide (0 = ((Packet.group x1).toNat : Int)) && decide (49 =
    ((Packet.status x1).toNat : Int)) && decide (255 = (x2.toNat : Int)) && decide (0 = ((sysex8PayloadSize x1) :
    Int)) && (isExtendedDataMessage x1) && (isSysex8Packet x1) && decide (5 = ((Packet.type x3).toNat : Int))) = true := by decide +kernel

-- extended_data_message,make_sysex8_end_packet: lines 694-700
example : holds (do
  let x1 := makeSysex8 .fin 24 1
  let x2 ← sysex8StreamId x1
  return decide (1 = ((Packet.group x1).toNat : Int)) && decide (49 = ((Packet.status x1).toNat : Int)) && decide (24
    = (x2.toNat : Int)) && decide (0 = ((sysex8PayloadSize x1) : Int)) && (isExtendedDataMessage x1) &&
    (isSysex8Packet x1)) = true := by decide +kernel

end Midi.Conformance
