import Verif.Conformance.Prelude
import Verif.Model.ByteStream
import Verif.Model.CapabilityInquiry
import Verif.Model.Collector
import Verif.Model.Defaults
import Verif.Model.FlexData
import Verif.Model.Jitter
import Verif.Model.PitchTypes
import Verif.Model.Senders
import Verif.Model.Stream
import Verif.Model.Sysex
import Verif.Model.SysexPackets
import Verif.Model.TextFormat
import Verif.Model.Types
import Verif.Model.UniversalSysex
import Verif.Model.Reentrant

/-!
The expectations of tests/flex_data_message_tests.cpp about the model. Generated by tools/conformance.
-/

namespace Midi.Conformance

open Midi

-- flex_data_message,constructors: lines 39-46
example : holds (do
  let x1 := flexDefault 0
  let x2 ← Packet.channel x1
  return decide (13 = ((Packet.type x1).toNat : Int)) && decide (0 = ((Packet.group x1).toNat : Int)) && decide (0 =
    ((flexFormat x1).code.toNat : Int)) && decide (0 = ((flexAddressCode x1).toNat : Int)) && decide (0 = (x2.toNat :
    Int)) && decide (0 = ((flexStatusBank x1).toNat : Int)) && decide (0 = ((flexStatus x1).toNat : Int)) && decide (0
    = ((x1.w1).toNat : Int))) = true := by decide +kernel

-- flex_data_message,constructors: lines 47-59
example : holds (do
  let x1 := flexDefault 0
  let x2 := flexDefault 4
  let x3 ← Packet.channel x2
  return decide (0 = ((x1.w2).toNat : Int)) && decide (0 = ((x1.w3).toNat : Int)) && decide (13 = ((Packet.type
    x2).toNat : Int)) && decide (4 = ((Packet.group x2).toNat : Int)) && decide (0 = ((flexFormat x2).code.toNat :
    Int)) && decide (0 = ((flexAddressCode x2).toNat : Int)) && decide (0 = (x3.toNat : Int)) && decide (0 =
    ((flexStatusBank x2).toNat : Int))) = true := by decide +kernel

-- flex_data_message,constructors: lines 60-75
example : holds (do
  let x1 := flexDefault 4
  let x2 ← flexMessage 9 .cont .channel 10 2 6 305419896 2596069104 2844222787
  return decide (0 = ((flexStatus x1).toNat : Int)) && decide (0 = ((x1.w1).toNat : Int)) && decide (0 =
    ((x1.w2).toNat : Int)) && decide (0 = ((x1.w3).toNat : Int)) && decide (13 = ((Packet.type x2).toNat : Int)) &&
    decide (9 = ((Packet.group x2).toNat : Int)) && decide (2 = ((flexFormat x2).code.toNat : Int)) && decide (0 =
    ((flexAddressCode x2).toNat : Int))) = true := by decide +kernel

-- flex_data_message,constructors: lines 76-89
example : holds (do
  let x1 ← flexMessage 9 .cont .channel 10 2 6 305419896 2596069104 2844222787
  let x2 ← Packet.channel x1
  let x3 ← flexMessage 15 .fin .group 0 9 8 7 6 5
  return decide (10 = (x2.toNat : Int)) && decide (2 = ((flexStatusBank x1).toNat : Int)) && decide (6 = ((flexStatus
    x1).toNat : Int)) && decide (305419896 = ((x1.w1).toNat : Int)) && decide (2596069104 = ((x1.w2).toNat : Int)) &&
    decide (2844222787 = ((x1.w3).toNat : Int)) && decide (13 = ((Packet.type x3).toNat : Int)) && decide (15 =
    ((Packet.group x3).toNat : Int))) = true := by decide +kernel

-- flex_data_message,constructors: lines 90-97
example : holds (do
  let x1 ← flexMessage 15 .fin .group 0 9 8 7 6 5
  let x2 ← Packet.channel x1
  return decide (3 = ((flexFormat x1).code.toNat : Int)) && decide (1 = ((flexAddressCode x1).toNat : Int)) && decide
    (0 = (x2.toNat : Int)) && decide (9 = ((flexStatusBank x1).toNat : Int)) && decide (8 = ((flexStatus x1).toNat :
    Int)) && decide (7 = ((x1.w1).toNat : Int)) && decide (6 = ((x1.w2).toNat : Int)) && decide (5 = ((x1.w3).toNat :
    Int))) = true := by decide +kernel

-- flex_data_message,is_flex_data_message: lines 107-115
example : holds (do
  let x1 := Packet.ofWords [3506503680, 1, 2, 3]
  let x2 := Packet.ofWords [3742629888, 4, 5, 6]
  let x3 := Packet.ofWords [3542482944, 7, 8, 9]
  let x4 := Packet.ofWords [3548905472, 10, 11, 12]
  let x5 := Packet.ofWords [16777216]
  let x6 := Packet.ofWords [422711808]
  let x7 := Packet.ofWords [647054463]
  let x8 := Packet.ofWords [1082675296, 305397760]
  return (isFlexDataMessage x1) && (isFlexDataMessage x2) && (isFlexDataMessage x3) && (isFlexDataMessage x4) &&
    (!(isFlexDataMessage x5)) && (!(isFlexDataMessage x6)) && (!(isFlexDataMessage x7)) && (!(isFlexDataMessage x8))) = true := by decide +kernel

-- flex_data_message,is_flex_data_message: lines 116-117
example : holds (do
  let x1 := Packet.ofWords [1057816576, 1, 2, 3]
  let x2 := Packet.ofWords [1394999296, 7, 8, 9]
  return (!(isFlexDataMessage x1)) && (!(isFlexDataMessage x2))) = true := by decide +kernel

-- flex_data_message,flex_data_message_view: lines 131-139
example : holds (do
  let x1 ← flexMessage 9 .cont .channel 10 2 6 305419896 2596069104 2844222787
  let x2 ← flexView x1
  let x3 ← asFlexData x1
  return x3.isSome && decide (9 = ((flexGroup x2).toNat : Int)) && decide (2 = ((flexFormat x2).code.toNat : Int)) &&
    decide (0 = ((flexAddressCode x2).toNat : Int)) && decide (10 = ((flexChannel x2).toNat : Int)) && decide (2 =
    ((flexStatusBank x2).toNat : Int)) && decide (6 = ((flexStatus x2).toNat : Int)) && decide (305419896 = ((flexData
    x2).1.toNat : Int))) = true := by decide +kernel

-- flex_data_message,flex_data_message_view: lines 140-156
example : holds (do
  let x1 ← flexMessage 9 .cont .channel 10 2 6 305419896 2596069104 2844222787
  let x2 ← flexView x1
  let x3 ← flexMessage 4 .fin .group 0 2 3 10 11 12
  let x4 ← flexView x3
  let x5 ← asFlexData x3
  return decide (2596069104 = ((flexData x2).2.1.toNat : Int)) && decide (2844222787 = ((flexData x2).2.2.toNat :
    Int)) && x5.isSome && decide (3 = ((flexFormat x4).code.toNat : Int)) && decide (1 = ((flexAddressCode x4).toNat :
    Int)) && decide (0 = ((flexChannel x4).toNat : Int)) && decide (2 = ((flexStatusBank x4).toNat : Int)) && decide
    (3 = ((flexStatus x4).toNat : Int))) = true := by decide +kernel

-- flex_data_message,flex_data_message_view: lines 157-173
example : holds (do
  let x1 ← flexMessage 4 .fin .group 0 2 3 10 11 12
  let x2 ← flexView x1
  let x3 ← flexMessage 1 .cont .channel 4 5 6 7 8 9
  let x4 ← flexView x3
  let x5 ← asFlexData x3
  return decide (10 = ((flexData x2).1.toNat : Int)) && decide (11 = ((flexData x2).2.1.toNat : Int)) && decide (12 =
    ((flexData x2).2.2.toNat : Int)) && x5.isSome && decide (2 = ((flexFormat x4).code.toNat : Int)) && decide (0 =
    ((flexAddressCode x4).toNat : Int)) && decide (4 = ((flexChannel x4).toNat : Int)) && decide (5 = ((flexStatusBank
    x4).toNat : Int))) = true := by decide +kernel

-- flex_data_message,flex_data_message_view: lines 174-190
example : holds (do
  let x1 ← flexMessage 1 .cont .channel 4 5 6 7 8 9
  let x2 ← flexView x1
  let x3 ← flexMessage 1 .complete .channel 12 1 7 1952805748 1952807028 0
  let x4 ← flexView x3
  let x5 ← asFlexData x3
  return decide (6 = ((flexStatus x2).toNat : Int)) && decide (7 = ((flexData x2).1.toNat : Int)) && decide (8 =
    ((flexData x2).2.1.toNat : Int)) && decide (9 = ((flexData x2).2.2.toNat : Int)) && x5.isSome && decide (0 =
    ((flexFormat x4).code.toNat : Int)) && decide (0 = ((flexAddressCode x4).toNat : Int)) && decide (12 =
    ((flexChannel x4).toNat : Int))) = true := by decide +kernel

-- flex_data_message,flex_data_message_view: lines 191-202
example : holds (do
  let x1 ← flexMessage 1 .complete .channel 12 1 7 1952805748 1952807028 0
  let x2 ← flexView x1
  let x3 ← flexPayloadAsString x2
  let x4 := Packet.ofWords []
  let x5 ← asFlexData x4
  return decide (1 = ((flexStatusBank x2).toNat : Int)) && decide (7 = ((flexStatus x2).toNat : Int)) && decide
    (1952805748 = ((flexData x2).1.toNat : Int)) && decide (1952807028 = ((flexData x2).2.1.toNat : Int)) && decide (0
    = ((flexData x2).2.2.toNat : Int)) && decide (x3 = [116, 101, 115, 116, 116, 101, 120, 116]) && (!x5.isSome)) = true := by decide +kernel

-- flex_data_message,make_flex_data_message: lines 216-223
example : holds (do
  let x1 ← makeFlexData 4 .fin .channel 6 2 3 10 11 12
  let x2 ← Packet.channel x1
  return (isFlexDataMessage x1) && decide (4 = ((Packet.group x1).toNat : Int)) && decide (3 = ((flexFormat
    x1).code.toNat : Int)) && decide (0 = ((flexAddressCode x1).toNat : Int)) && decide (6 = (x2.toNat : Int)) &&
    decide (2 = ((flexStatusBank x1).toNat : Int)) && decide (3 = ((flexStatus x1).toNat : Int)) && decide (10 =
    ((x1.w1).toNat : Int))) = true := by decide +kernel

-- flex_data_message,make_flex_data_message: lines 224-236
example : holds (do
  let x1 ← makeFlexData 4 .fin .channel 6 2 3 10 11 12
  let x2 ← makeFlexData 1 .start .channel 4 5 6 7 8 9
  let x3 ← Packet.channel x2
  return decide (11 = ((x1.w2).toNat : Int)) && decide (12 = ((x1.w3).toNat : Int)) && (isFlexDataMessage x2) &&
    decide (1 = ((Packet.group x2).toNat : Int)) && decide (1 = ((flexFormat x2).code.toNat : Int)) && decide (0 =
    ((flexAddressCode x2).toNat : Int)) && decide (4 = (x3.toNat : Int)) && decide (5 = ((flexStatusBank x2).toNat :
    Int))) = true := by decide +kernel

-- flex_data_message,make_flex_data_message: lines 237-240
example : holds (do
  let x1 ← makeFlexData 1 .start .channel 4 5 6 7 8 9
  return decide (6 = ((flexStatus x1).toNat : Int)) && decide (7 = ((x1.w1).toNat : Int)) && decide (8 =
    ((x1.w2).toNat : Int)) && decide (9 = ((x1.w3).toNat : Int))) = true := by decide +kernel

-- flex_data_message,make_flex_data_text_message: lines 254-261
example : holds (do
  let x1 ← makeFlexText 1 .complete .channel 12 1 7 [116, 101, 115, 116, 116, 101, 120, 116]
  let x2 ← Packet.channel x1
  return (isFlexDataMessage x1) && decide (1 = ((Packet.group x1).toNat : Int)) && decide (0 = ((flexFormat
    x1).code.toNat : Int)) && decide (0 = ((flexAddressCode x1).toNat : Int)) && decide (12 = (x2.toNat : Int)) &&
    decide (1 = ((flexStatusBank x1).toNat : Int)) && decide (7 = ((flexStatus x1).toNat : Int)) && decide (1952805748
    = ((x1.w1).toNat : Int))) = true := by decide +kernel

-- flex_data_message,make_flex_data_text_message: lines 262-277
example : holds (do
  let x1 ← makeFlexText 1 .complete .channel 12 1 7 [116, 101, 115, 116, 116, 101, 120, 116]
  let x2 ← flexPayloadAsString x1
  let x3 ← makeFlexText 5 .start .group 0 2 4 [84, 104, 105, 115, 32, 105, 115, 32, 97, 32, 109, 117]
  let x4 ← Packet.channel x3
  return decide (1952807028 = ((x1.w2).toNat : Int)) && decide (0 = ((x1.w3).toNat : Int)) && decide (x2 = [116, 101,
    115, 116, 116, 101, 120, 116]) && (isFlexDataMessage x3) && decide (5 = ((Packet.group x3).toNat : Int)) && decide
    (1 = ((flexFormat x3).code.toNat : Int)) && decide (1 = ((flexAddressCode x3).toNat : Int)) && decide (0 =
    (x4.toNat : Int))) = true := by decide +kernel

-- flex_data_message,make_flex_data_text_message: lines 278-292
example : holds (do
  let x1 ← makeFlexText 5 .start .group 0 2 4 [84, 104, 105, 115, 32, 105, 115, 32, 97, 32, 109, 117]
  let x2 ← flexPayloadAsString x1
  let x3 ← makeFlexText 5 .cont .group 0 2 4 [108, 116, 105, 45, 112, 97, 99, 107, 101, 116, 32, 99]
  return decide (2 = ((flexStatusBank x1).toNat : Int)) && decide (4 = ((flexStatus x1).toNat : Int)) && decide
    (1416128883 = ((x1.w1).toNat : Int)) && decide (543781664 = ((x1.w2).toNat : Int)) && decide (1629515125 =
    ((x1.w3).toNat : Int)) && decide (x2 = [84, 104, 105, 115, 32, 105, 115, 32, 97, 32, 109, 117]) &&
    (isFlexDataMessage x3) && decide (5 = ((Packet.group x3).toNat : Int))) = true := by decide +kernel

-- flex_data_message,make_flex_data_text_message: lines 293-300
example : holds (do
  let x1 ← makeFlexText 5 .cont .group 0 2 4 [108, 116, 105, 45, 112, 97, 99, 107, 101, 116, 32, 99]
  let x2 ← Packet.channel x1
  return decide (2 = ((flexFormat x1).code.toNat : Int)) && decide (1 = ((flexAddressCode x1).toNat : Int)) && decide
    (0 = (x2.toNat : Int)) && decide (2 = ((flexStatusBank x1).toNat : Int)) && decide (4 = ((flexStatus x1).toNat :
    Int)) && decide (1819568429 = ((x1.w1).toNat : Int)) && decide (1885430635 = ((x1.w2).toNat : Int)) && decide
    (1702109283 = ((x1.w3).toNat : Int))) = true := by decide +kernel

-- flex_data_message,make_flex_data_text_message: lines 301-315
example : holds (do
  let x1 ← makeFlexText 5 .cont .group 0 2 4 [108, 116, 105, 45, 112, 97, 99, 107, 101, 116, 32, 99]
  let x2 ← flexPayloadAsString x1
  let x3 ← makeFlexText 5 .cont .group 0 2 4 [111, 112, 121, 114, 105, 103, 104, 116, 32, 110, 111, 116]
  let x4 ← Packet.channel x3
  return decide (x2 = [108, 116, 105, 45, 112, 97, 99, 107, 101, 116, 32, 99]) && (isFlexDataMessage x3) && decide (5
    = ((Packet.group x3).toNat : Int)) && decide (2 = ((flexFormat x3).code.toNat : Int)) && decide (1 =
    ((flexAddressCode x3).toNat : Int)) && decide (0 = (x4.toNat : Int)) && decide (2 = ((flexStatusBank x3).toNat :
    Int)) && decide (4 = ((flexStatus x3).toNat : Int))) = true := by decide +kernel

-- flex_data_message,make_flex_data_text_message: lines 316-330
example : holds (do
  let x1 ← makeFlexText 5 .cont .group 0 2 4 [111, 112, 121, 114, 105, 103, 104, 116, 32, 110, 111, 116]
  let x2 ← flexPayloadAsString x1
  let x3 ← makeFlexText 5 .fin .group 0 2 4 [105, 99, 101]
  return decide (1869642098 = ((x1.w1).toNat : Int)) && decide (1768384628 = ((x1.w2).toNat : Int)) && decide
    (544108404 = ((x1.w3).toNat : Int)) && decide (x2 = [111, 112, 121, 114, 105, 103, 104, 116, 32, 110, 111, 116])
    && (isFlexDataMessage x3) && decide (5 = ((Packet.group x3).toNat : Int)) && decide (3 = ((flexFormat
    x3).code.toNat : Int)) && decide (1 = ((flexAddressCode x3).toNat : Int))) = true := by decide +kernel

-- flex_data_message,make_flex_data_text_message: lines 331-341
example : holds (do
  let x1 ← makeFlexText 5 .start .group 0 2 4 [84, 104, 105, 115, 32, 105, 115, 32, 97, 32, 109, 117]
  let x2 ← flexPayloadAsString x1
  let x3 ← makeFlexText 5 .cont .group 0 2 4 [108, 116, 105, 45, 112, 97, 99, 107, 101, 116, 32, 99]
  let x4 ← flexPayloadAsString x3
  let x5 ← makeFlexText 5 .cont .group 0 2 4 [111, 112, 121, 114, 105, 103, 104, 116, 32, 110, 111, 116]
  let x6 ← flexPayloadAsString x5
  let x7 ← makeFlexText 5 .fin .group 0 2 4 [105, 99, 101]
  let x8 ← Packet.channel x7
  let x9 ← flexPayloadAsString x7
  return decide (0 = (x8.toNat : Int)) && decide (2 = ((flexStatusBank x7).toNat : Int)) && decide (4 = ((flexStatus
    x7).toNat : Int)) && decide (1768121600 = ((x7.w1).toNat : Int)) && decide (0 = ((x7.w2).toNat : Int)) && decide
    (0 = ((x7.w3).toNat : Int)) && decide (x9 = [105, 99, 101]) && decide ((((([] ++ x2) ++ x4) ++ x6) ++ x9) = [84,
    104, 105, 115, 32, 105, 115, 32, 97, 32, 109, 117, 108, 116, 105, 45, 112, 97, 99, 107, 101, 116, 32, 99, 111,
    112, 121, 114, 105, 103, 104, 116, 32, 110, 111, 116, 105, 99, 101])) = true := by decide +kernel

-- flex_data_message,make_set_tempo_message: lines 353-360
example : holds (do
  let x1 ← makeSetTempo 13 305419896
  let x2 ← Packet.channel x1
  return (isFlexDataMessage x1) && decide (13 = ((Packet.group x1).toNat : Int)) && decide (0 = ((flexFormat
    x1).code.toNat : Int)) && decide (1 = ((flexAddressCode x1).toNat : Int)) && decide (0 = (x2.toNat : Int)) &&
    decide (0 = ((flexStatusBank x1).toNat : Int)) && decide (0 = ((flexStatus x1).toNat : Int)) && decide (305419896
    = ((x1.w1).toNat : Int))) = true := by decide +kernel

-- flex_data_message,make_set_tempo_message: lines 361-373
example : holds (do
  let x1 ← makeSetTempo 13 305419896
  let x2 ← makeSetTempo 2 50000000
  let x3 ← Packet.channel x2
  return decide (0 = ((x1.w2).toNat : Int)) && decide (0 = ((x1.w3).toNat : Int)) && (isFlexDataMessage x2) && decide
    (2 = ((Packet.group x2).toNat : Int)) && decide (0 = ((flexFormat x2).code.toNat : Int)) && decide (1 =
    ((flexAddressCode x2).toNat : Int)) && decide (0 = (x3.toNat : Int)) && decide (0 = ((flexStatusBank x2).toNat :
    Int))) = true := by decide +kernel

-- flex_data_message,make_set_tempo_message: lines 374-377
example : holds (do
  let x1 ← makeSetTempo 2 50000000
  return decide (0 = ((flexStatus x1).toNat : Int)) && decide (50000000 = ((x1.w1).toNat : Int)) && decide (0 =
    ((x1.w2).toNat : Int)) && decide (0 = ((x1.w3).toNat : Int))) = true := by decide +kernel

-- flex_data_message,make_set_time_signature_message: lines 390-397
example : holds (do
  let x1 ← makeSetTimeSignature 7 3 4 8
  let x2 ← Packet.channel x1
  return (isFlexDataMessage x1) && decide (7 = ((Packet.group x1).toNat : Int)) && decide (0 = ((flexFormat
    x1).code.toNat : Int)) && decide (1 = ((flexAddressCode x1).toNat : Int)) && decide (0 = (x2.toNat : Int)) &&
    decide (0 = ((flexStatusBank x1).toNat : Int)) && decide (1 = ((flexStatus x1).toNat : Int)) && decide (50595840 =
    ((x1.w1).toNat : Int))) = true := by decide +kernel

-- flex_data_message,make_set_time_signature_message: lines 398-410
example : holds (do
  let x1 ← makeSetTimeSignature 7 3 4 8
  let x2 ← makeSetTimeSignature 4 16 8 32
  let x3 ← Packet.channel x2
  return decide (0 = ((x1.w2).toNat : Int)) && decide (0 = ((x1.w3).toNat : Int)) && (isFlexDataMessage x2) && decide
    (4 = ((Packet.group x2).toNat : Int)) && decide (0 = ((flexFormat x2).code.toNat : Int)) && decide (1 =
    ((flexAddressCode x2).toNat : Int)) && decide (0 = (x3.toNat : Int)) && decide (0 = ((flexStatusBank x2).toNat :
    Int))) = true := by decide +kernel

-- flex_data_message,make_set_time_signature_message: lines 411-414
example : holds (do
  let x1 ← makeSetTimeSignature 4 16 8 32
  return decide (1 = ((flexStatus x1).toNat : Int)) && decide (268967936 = ((x1.w1).toNat : Int)) && decide (0 =
    ((x1.w2).toNat : Int)) && decide (0 = ((x1.w3).toNat : Int))) = true := by decide +kernel

-- flex_data_message,make_set_metronome_message: lines 427-434
example : holds (do
  let x1 ← makeSetMetronome 1 24 4 0 0 0 0
  let x2 ← Packet.channel x1
  return (isFlexDataMessage x1) && decide (1 = ((Packet.group x1).toNat : Int)) && decide (0 = ((flexFormat
    x1).code.toNat : Int)) && decide (1 = ((flexAddressCode x1).toNat : Int)) && decide (0 = (x2.toNat : Int)) &&
    decide (0 = ((flexStatusBank x1).toNat : Int)) && decide (2 = ((flexStatus x1).toNat : Int)) && decide (402915328
    = ((x1.w1).toNat : Int))) = true := by decide +kernel

-- flex_data_message,make_set_metronome_message: lines 435-447
example : holds (do
  let x1 ← makeSetMetronome 1 24 4 0 0 0 0
  let x2 ← makeSetMetronome 10 1 2 3 4 5 6
  let x3 ← Packet.channel x2
  return decide (0 = ((x1.w2).toNat : Int)) && decide (0 = ((x1.w3).toNat : Int)) && (isFlexDataMessage x2) && decide
    (10 = ((Packet.group x2).toNat : Int)) && decide (0 = ((flexFormat x2).code.toNat : Int)) && decide (1 =
    ((flexAddressCode x2).toNat : Int)) && decide (0 = (x3.toNat : Int)) && decide (0 = ((flexStatusBank x2).toNat :
    Int))) = true := by decide +kernel

-- flex_data_message,make_set_metronome_message: lines 448-451
example : holds (do
  let x1 ← makeSetMetronome 10 1 2 3 4 5 6
  return decide (2 = ((flexStatus x1).toNat : Int)) && decide (16909060 = ((x1.w1).toNat : Int)) && decide (84279296 =
    ((x1.w2).toNat : Int)) && decide (0 = ((x1.w3).toNat : Int))) = true := by decide +kernel

-- flex_data_message,make_set_key_signature_message: lines 464-471
example : holds (do
  let x1 ← makeSetKeySignature 5 .channel 5 251 3
  let x2 ← Packet.channel x1
  return (isFlexDataMessage x1) && decide (5 = ((Packet.group x1).toNat : Int)) && decide (0 = ((flexFormat
    x1).code.toNat : Int)) && decide (0 = ((flexAddressCode x1).toNat : Int)) && decide (5 = (x2.toNat : Int)) &&
    decide (0 = ((flexStatusBank x1).toNat : Int)) && decide (5 = ((flexStatus x1).toNat : Int)) && decide (3003121664
    = ((x1.w1).toNat : Int))) = true := by decide +kernel

-- flex_data_message,make_set_key_signature_message: lines 472-484
example : holds (do
  let x1 ← makeSetKeySignature 5 .channel 5 251 3
  let x2 ← makeSetKeySignature 12 .group 0 7 2
  let x3 ← Packet.channel x2
  return decide (0 = ((x1.w2).toNat : Int)) && decide (0 = ((x1.w3).toNat : Int)) && (isFlexDataMessage x2) && decide
    (12 = ((Packet.group x2).toNat : Int)) && decide (0 = ((flexFormat x2).code.toNat : Int)) && decide (1 =
    ((flexAddressCode x2).toNat : Int)) && decide (0 = (x3.toNat : Int)) && decide (0 = ((flexStatusBank x2).toNat :
    Int))) = true := by decide +kernel

-- flex_data_message,make_set_key_signature_message: lines 485-488
example : holds (do
  let x1 ← makeSetKeySignature 12 .group 0 7 2
  return decide (5 = ((flexStatus x1).toNat : Int)) && decide (1912602624 = ((x1.w1).toNat : Int)) && decide (0 =
    ((x1.w2).toNat : Int)) && decide (0 = ((x1.w3).toNat : Int))) = true := by decide +kernel

-- flex_data_message,make_set_chord_message: lines 501-508
example : holds (do
  let x1 ← makeSetChord 6 .channel 12 305419896 2596069104 558065031
  let x2 ← Packet.channel x1
  return (isFlexDataMessage x1) && decide (6 = ((Packet.group x1).toNat : Int)) && decide (0 = ((flexFormat
    x1).code.toNat : Int)) && decide (0 = ((flexAddressCode x1).toNat : Int)) && decide (12 = (x2.toNat : Int)) &&
    decide (0 = ((flexStatusBank x1).toNat : Int)) && decide (6 = ((flexStatus x1).toNat : Int)) && decide (305419896
    = ((x1.w1).toNat : Int))) = true := by decide +kernel

-- flex_data_message,make_set_chord_message: lines 509-521
example : holds (do
  let x1 ← makeSetChord 6 .channel 12 305419896 2596069104 558065031
  let x2 ← makeSetChord 6 .channel 12 558065031 2596069104 305419896
  let x3 ← Packet.channel x2
  return decide (2596069104 = ((x1.w2).toNat : Int)) && decide (558065031 = ((x1.w3).toNat : Int)) &&
    (isFlexDataMessage x2) && decide (6 = ((Packet.group x2).toNat : Int)) && decide (0 = ((flexFormat x2).code.toNat
    : Int)) && decide (0 = ((flexAddressCode x2).toNat : Int)) && decide (12 = (x3.toNat : Int)) && decide (0 =
    ((flexStatusBank x2).toNat : Int))) = true := by decide +kernel

-- flex_data_message,make_set_chord_message: lines 522-525
example : holds (do
  let x1 ← makeSetChord 6 .channel 12 558065031 2596069104 305419896
  return decide (6 = ((flexStatus x1).toNat : Int)) && decide (558065031 = ((x1.w1).toNat : Int)) && decide
    (2596069104 = ((x1.w2).toNat : Int)) && decide (305419896 = ((x1.w3).toNat : Int))) = true := by decide +kernel

end Midi.Conformance
