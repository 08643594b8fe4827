import Verif.Conformance.Prelude
import Verif.Model.ByteStream
import Verif.Model.CapabilityInquiry
import Verif.Model.Collector
import Verif.Model.Defaults
import Verif.Model.FlexData
import Verif.Model.Jitter
import Verif.Model.PitchTypes
import Verif.Model.Senders
import Verif.Model.Stream
import Verif.Model.Sysex
import Verif.Model.SysexPackets
import Verif.Model.TextFormat
import Verif.Model.Types
import Verif.Model.UniversalSysex
import Verif.Model.Reentrant

/-!
The expectations of tests/universal_packet_tests.cpp about the model. Generated by tools/conformance.
-/

namespace Midi.Conformance

open Midi

-- universal_midi_packet,constructors: lines 24-32
example : holds (do
  let x1 := Packet.ofWords []
  return decide (0 = ((x1.w0).toNat : Int)) && decide (0 = ((x1.w1).toNat : Int)) && decide (0 = ((x1.w2).toNat :
    Int)) && decide (0 = ((x1.w3).toNat : Int)) && decide (1 = ((Packet.size x1) : Int)) && decide (0 = ((Packet.type
    x1).toNat : Int)) && decide (0 = ((Packet.group x1).toNat : Int)) && decide (0 = ((Packet.status x1).toNat : Int))) = true := by decide +kernel

-- universal_midi_packet,constructors: lines 33-45
example : holds (do
  let x1 := Packet.ofWords []
  let x2 := Packet.ofWords [305419896]
  return decide (0 = ((Packet.status x1).toNat : Int)) && decide (0 = ((Packet.byte2 x1).toNat : Int)) && decide (0 =
    ((Packet.byte3 x1).toNat : Int)) && decide (0 = ((Packet.byte4 x1).toNat : Int)) && decide (305419896 =
    ((x2.w0).toNat : Int)) && decide (0 = ((x2.w1).toNat : Int)) && decide (0 = ((x2.w2).toNat : Int)) && decide (0 =
    ((x2.w3).toNat : Int))) = true := by decide +kernel

-- universal_midi_packet,constructors: lines 51-63
example : holds (do
  let x1 := Packet.ofWords [1933467]
  let x2 := Packet.ofWords [553665895, 341391530]
  return decide (1933467 = ((x1.w0).toNat : Int)) && decide (0 = ((x1.w1).toNat : Int)) && decide (0 = ((x1.w2).toNat
    : Int)) && decide (0 = ((x1.w3).toNat : Int)) && decide (553665895 = ((x2.w0).toNat : Int)) && decide (341391530 =
    ((x2.w1).toNat : Int)) && decide (0 = ((x2.w2).toNat : Int)) && decide (0 = ((x2.w3).toNat : Int))) = true := by decide +kernel

-- universal_midi_packet,constructors: lines 69-81
example : holds (do
  let x1 := Packet.ofWords [3157600400, 2636792924, 77777]
  let x2 := Packet.ofWords [1420545519, 305419896, 2880289470, 3452816845]
  return decide (3157600400 = ((x1.w0).toNat : Int)) && decide (2636792924 = ((x1.w1).toNat : Int)) && decide (77777 =
    ((x1.w2).toNat : Int)) && decide (0 = ((x1.w3).toNat : Int)) && decide (1420545519 = ((x2.w0).toNat : Int)) &&
    decide (305419896 = ((x2.w1).toNat : Int)) && decide (2880289470 = ((x2.w2).toNat : Int)) && decide (3452816845 =
    ((x2.w3).toNat : Int))) = true := by decide +kernel

-- universal_midi_packet,equality: lines 99-107
example : holds (do
  let x1 := Packet.ofWords []
  let x2 := Packet.ofWords [305419896]
  let x3 := Packet.ofWords [1933467]
  let x4 := Packet.ofWords [822101351, 341391530]
  return (x1.eqv x1) && (x1.neqv x2) && (x1.neqv x3) && (x1.neqv x4) && (x2.neqv x1) && (x2.eqv x2) && (x2.neqv x3)) = true := by decide +kernel

-- universal_midi_packet,equality: lines 108-117
example : holds (do
  let x1 := Packet.ofWords []
  let x2 := Packet.ofWords [305419896]
  let x3 := Packet.ofWords [1933467]
  let x4 := Packet.ofWords [822101351, 341391530]
  return (x2.neqv x4) && (x2.eqv x2) && (x3.neqv x1) && (x3.neqv x2) && (x3.eqv x3) && (x3.neqv x4) && (x4.neqv x1)) = true := by decide +kernel

-- universal_midi_packet,equality: lines 118-126
example : holds (do
  let x1 := Packet.ofWords []
  let x2 := Packet.ofWords [305419896]
  let x3 := Packet.ofWords [1933467]
  let x4 := Packet.ofWords [822101351, 341391530]
  return (x4.neqv x2) && (x4.neqv x3) && (x4.eqv x4) && (x2.neqv x1) && (x2.eqv x2) && (x2.neqv x3) && (x2.neqv x4)) = true := by decide +kernel

-- universal_midi_packet,equality: lines 127-144
example : holds (do
  let x1 := Packet.ofWords [305419896]
  let x2 := Packet.ofWords [305419896, 1000]
  let x3 := Packet.ofWords [305419896, 1001]
  let x4 := Packet.ofWords [305419895, 1000]
  return (x1.eqv x1) && (x2.eqv x2) && (x2.eqv x3) && (x2.neqv x4) && (x3.eqv x2) && (x3.eqv x3) && (x3.neqv x4) &&
    (x4.neqv x2)) = true := by decide +kernel

-- universal_midi_packet,equality: lines 145-159
example : holds (do
  let x1 := Packet.ofWords [305419896, 1001]
  let x2 := Packet.ofWords [305419895, 1000]
  let x3 := Packet.ofWords [822101351, 341391530, 2939]
  let x4 := Packet.ofWords [822101351, 341391530, 55]
  let x5 := Packet.ofWords [822101352, 341391530, 2939]
  let x6 := Packet.ofWords [822101351, 1496885778, 2939]
  return (x2.eqv x2) && (x2.neqv x1) && (x3.eqv x3) && (x3.eqv x4) && (x3.neqv x5) && (x3.neqv x6) && (x4.eqv x3) &&
    (x4.eqv x4)) = true := by decide +kernel

-- universal_midi_packet,equality: lines 160-169
example : holds (do
  let x1 := Packet.ofWords [822101351, 341391530, 2939]
  let x2 := Packet.ofWords [822101351, 341391530, 55]
  let x3 := Packet.ofWords [822101352, 341391530, 2939]
  let x4 := Packet.ofWords [822101351, 1496885778, 2939]
  return (x2.neqv x3) && (x2.neqv x4) && (x3.neqv x1) && (x3.neqv x2) && (x3.eqv x3) && (x3.neqv x4) && (x4.neqv x1)
    && (x4.neqv x2)) = true := by decide +kernel

-- universal_midi_packet,equality: lines 170-185
example : holds (do
  let x1 := Packet.ofWords [822101352, 341391530, 2939]
  let x2 := Packet.ofWords [822101351, 1496885778, 2939]
  let x3 := Packet.ofWords [3123992184, 99, 55, 42]
  let x4 := Packet.ofWords [3123992184, 99, 55, 43]
  let x5 := Packet.ofWords [3123992185, 99, 55, 42]
  let x6 := Packet.ofWords [3123992184, 98, 55, 42]
  let x7 := Packet.ofWords [3123992184, 99, 56, 42]
  return (x2.neqv x1) && (x2.eqv x2) && (x3.eqv x3) && (x3.eqv x4) && (x3.neqv x5) && (x3.neqv x6) && (x3.neqv x7) &&
    (x4.eqv x3)) = true := by decide +kernel

-- universal_midi_packet,equality: lines 186-194
example : holds (do
  let x1 := Packet.ofWords [3123992184, 99, 55, 42]
  let x2 := Packet.ofWords [3123992184, 99, 55, 43]
  let x3 := Packet.ofWords [3123992185, 99, 55, 42]
  let x4 := Packet.ofWords [3123992184, 98, 55, 42]
  let x5 := Packet.ofWords [3123992184, 99, 56, 42]
  return (x2.eqv x2) && (x2.neqv x3) && (x2.neqv x4) && (x2.neqv x5) && (x3.neqv x1) && (x3.neqv x2) && (x3.eqv x3) &&
    (x3.neqv x4)) = true := by decide +kernel

-- universal_midi_packet,equality: lines 195-204
example : holds (do
  let x1 := Packet.ofWords [3123992184, 99, 55, 42]
  let x2 := Packet.ofWords [3123992184, 99, 55, 43]
  let x3 := Packet.ofWords [3123992185, 99, 55, 42]
  let x4 := Packet.ofWords [3123992184, 98, 55, 42]
  let x5 := Packet.ofWords [3123992184, 99, 56, 42]
  return (x3.neqv x5) && (x4.neqv x1) && (x4.neqv x2) && (x4.neqv x3) && (x4.eqv x4) && (x4.neqv x5) && (x5.neqv x1)
    && (x5.neqv x2)) = true := by decide +kernel

-- universal_midi_packet,equality: lines 205-207
example : holds (do
  let x1 := Packet.ofWords [3123992185, 99, 55, 42]
  let x2 := Packet.ofWords [3123992184, 98, 55, 42]
  let x3 := Packet.ofWords [3123992184, 99, 56, 42]
  return (x3.neqv x1) && (x3.neqv x2) && (x3.eqv x3)) = true := by decide +kernel

-- universal_midi_packet,type: lines 218-239
example : holds (do
  let x1 := Packet.ofWords [18813492]
  let x2 := Packet.ofWords [368124741]
  let x3 := Packet.ofWords [750749541]
  let x4 := Packet.ofWords [875659011, 305419896]
  let x5 := Packet.ofWords [1100183432, 2165391488]
  let x6 := Packet.ofWords [1502836616, 286331153, 572662306, 572662306]
  let x7 ← Packet.setType x1 2
  let x8 ← Packet.setType x6 4
  return decide (0 = ((Packet.type x1).toNat : Int)) && decide (1 = ((Packet.type x2).toNat : Int)) && decide (2 =
    ((Packet.type x3).toNat : Int)) && decide (3 = ((Packet.type x4).toNat : Int)) && decide (4 = ((Packet.type
    x5).toNat : Int)) && decide (5 = ((Packet.type x6).toNat : Int)) && decide (2 = ((Packet.type x7).toNat : Int)) &&
    decide (4 = ((Packet.type x8).toNat : Int))) = true := by decide +kernel

-- universal_midi_packet,size: lines 249-258
example : holds (do
  let x1 := Packet.ofWords [18813492]
  let x2 := Packet.ofWords [368124741]
  let x3 := Packet.ofWords [750749541]
  let x4 := Packet.ofWords [875659011, 305419896]
  let x5 := Packet.ofWords [1100183432, 2165391488]
  let x6 := Packet.ofWords [1502836616, 286331153, 572662306, 572662306]
  let x7 := Packet.ofWords [1610612736]
  let x8 := Packet.ofWords [1879048192]
  return decide (1 = ((Packet.size x1) : Int)) && decide (1 = ((Packet.size x2) : Int)) && decide (1 = ((Packet.size
    x3) : Int)) && decide (2 = ((Packet.size x4) : Int)) && decide (2 = ((Packet.size x5) : Int)) && decide (4 =
    ((Packet.size x6) : Int)) && decide (1 = ((Packet.size x7) : Int)) && decide (1 = ((Packet.size x8) : Int))) = true := by decide +kernel

-- universal_midi_packet,size: lines 259-266
example : holds (do
  let x1 := Packet.ofWords [2147483648]
  let x2 := Packet.ofWords [2415919104]
  let x3 := Packet.ofWords [2684354560]
  let x4 := Packet.ofWords [2952790016]
  let x5 := Packet.ofWords [3221225472]
  let x6 := Packet.ofWords [3489660928]
  let x7 := Packet.ofWords [3758096384]
  let x8 := Packet.ofWords [4026531840]
  return decide (2 = ((Packet.size x1) : Int)) && decide (2 = ((Packet.size x2) : Int)) && decide (2 = ((Packet.size
    x3) : Int)) && decide (3 = ((Packet.size x4) : Int)) && decide (3 = ((Packet.size x5) : Int)) && decide (4 =
    ((Packet.size x6) : Int)) && decide (4 = ((Packet.size x7) : Int)) && decide (4 = ((Packet.size x8) : Int))) = true := by decide +kernel

-- universal_midi_packet,group: lines 276-297
example : holds (do
  let x1 := Packet.ofWords [18813492]
  let x2 := Packet.ofWords [368124741]
  let x3 := Packet.ofWords [750749541]
  let x4 := Packet.ofWords [875659011, 305419896]
  let x5 := Packet.ofWords [1100183432, 2165391488]
  let x6 := Packet.ofWords [1502836616, 286331153, 572662306, 572662306]
  let x7 ← Packet.setGroup x2 4
  let x8 ← Packet.setGroup x4 15
  return decide (1 = ((Packet.group x1).toNat : Int)) && decide (5 = ((Packet.group x2).toNat : Int)) && decide (12 =
    ((Packet.group x3).toNat : Int)) && decide (4 = ((Packet.group x4).toNat : Int)) && decide (1 = ((Packet.group
    x5).toNat : Int)) && decide (9 = ((Packet.group x6).toNat : Int)) && decide (4 = ((Packet.group x7).toNat : Int))
    && decide (15 = ((Packet.group x8).toNat : Int))) = true := by decide +kernel

-- universal_midi_packet,status: lines 307-328
example : holds (do
  let x1 := Packet.ofWords [18813492]
  let x2 := Packet.ofWords [368124741]
  let x3 := Packet.ofWords [750749541]
  let x4 := Packet.ofWords [875659011, 305419896]
  let x5 := Packet.ofWords [1100183432, 2165391488]
  let x6 := Packet.ofWords [1503295368, 286331153, 572662306, 572662306]
  let x7 ← Packet.setByte x3 1 171
  let x8 ← Packet.setByte x5 1 1
  return decide (31 = ((Packet.status x1).toNat : Int)) && decide (241 = ((Packet.status x2).toNat : Int)) && decide
    (191 = ((Packet.status x3).toNat : Int)) && decide (49 = ((Packet.status x4).toNat : Int)) && decide (147 =
    ((Packet.status x5).toNat : Int)) && decide (154 = ((Packet.status x6).toNat : Int)) && decide (171 =
    ((Packet.status x7).toNat : Int)) && decide (1 = ((Packet.status x8).toNat : Int))) = true := by decide +kernel

-- universal_midi_packet,bytes: lines 339-347
example : holds (do
  let x1 := Packet.ofWords [1503295368, 1335206520, 875659011, 18813492]
  let x2 ← Packet.getByte x1 0
  let x3 ← Packet.getByte x1 1
  let x4 ← Packet.getByte x1 2
  let x5 ← Packet.getByte x1 3
  let x6 ← Packet.getByte x1 4
  return decide (89 = (x2.toNat : Int)) && decide (154 = (x3.toNat : Int)) && decide (154 = ((Packet.byte2 x1).toNat :
    Int)) && decide (119 = (x4.toNat : Int)) && decide (119 = ((Packet.byte3 x1).toNat : Int)) && decide (136 =
    (x5.toNat : Int)) && decide (136 = ((Packet.byte4 x1).toNat : Int)) && decide (79 = (x6.toNat : Int))) = true := by decide +kernel

-- universal_midi_packet,bytes: lines 348-357
example : holds (do
  let x1 := Packet.ofWords [1503295368, 1335206520, 875659011, 18813492]
  let x2 ← Packet.getByte x1 5
  let x3 ← Packet.getByte x1 6
  let x4 ← Packet.getByte x1 7
  let x5 ← Packet.getByte x1 8
  let x6 ← Packet.getByte x1 9
  let x7 ← Packet.getByte x1 10
  let x8 ← Packet.getByte x1 11
  let x9 ← Packet.getByte x1 12
  return decide (149 = (x2.toNat : Int)) && decide (162 = (x3.toNat : Int)) && decide (120 = (x4.toNat : Int)) &&
    decide (52 = (x5.toNat : Int)) && decide (49 = (x6.toNat : Int)) && decide (127 = (x7.toNat : Int)) && decide (3 =
    (x8.toNat : Int)) && decide (1 = (x9.toNat : Int))) = true := by decide +kernel

-- universal_midi_packet,bytes: lines 358-371
example : holds (do
  let x1 := Packet.ofWords [1503295368, 1335206520, 875659011, 18813492]
  let x2 ← Packet.getByte x1 0
  let x3 ← Packet.getByte x1 13
  let x4 ← Packet.getByte x1 14
  let x5 ← Packet.getByte x1 15
  let x6 ← Packet.getByte7 x1 0
  let x7 ← Packet.setByte x1 0 1
  let x8 ← Packet.getByte x7 0
  let x9 ← Packet.setByte7 x7 0 128
  let x10 ← Packet.getByte x9 0
  let x11 ← Packet.getByte x9 1
  let x12 ← Packet.getByte7 x9 1
  let x13 ← Packet.setByte x9 1 2
  let x14 ← Packet.getByte x13 1
  return decide (31 = (x3.toNat : Int)) && decide (18 = (x4.toNat : Int)) && decide (52 = (x5.toNat : Int)) && decide
    (((x2 &&& 127).toNat : Int) = (x6.toNat : Int)) && decide (1 = (x8.toNat : Int)) && decide (0 = (x10.toNat : Int))
    && decide (((x11 &&& 127).toNat : Int) = (x12.toNat : Int)) && decide (2 = (x14.toNat : Int))) = true := by decide +kernel

-- universal_midi_packet,bytes: lines 365-371
example : holds (do
  let x1 := Packet.ofWords [1503295368, 1335206520, 875659011, 18813492]
  let x2 ← Packet.setByte x1 0 1
  let x3 ← Packet.setByte7 x2 0 128
  let x4 ← Packet.setByte x3 1 2
  let x5 ← Packet.setByte7 x4 1 129
  let x6 ← Packet.getByte x5 1
  let x7 ← Packet.getByte x5 2
  let x8 ← Packet.getByte7 x5 2
  let x9 ← Packet.setByte x5 2 3
  let x10 ← Packet.getByte x9 2
  let x11 ← Packet.setByte7 x9 2 130
  let x12 ← Packet.getByte x11 2
  let x13 ← Packet.getByte x11 4
  let x14 ← Packet.getByte7 x11 4
  let x15 ← Packet.setByte x11 4 5
  let x16 ← Packet.getByte x15 4
  let x17 ← Packet.setByte7 x15 4 132
  let x18 ← Packet.getByte x17 4
  let x19 ← Packet.getByte x17 5
  let x20 ← Packet.getByte7 x17 5
  return decide (1 = (x6.toNat : Int)) && decide (((x7 &&& 127).toNat : Int) = (x8.toNat : Int)) && decide (3 =
    (x10.toNat : Int)) && decide (2 = (x12.toNat : Int)) && decide (((x13 &&& 127).toNat : Int) = (x14.toNat : Int))
    && decide (5 = (x16.toNat : Int)) && decide (4 = (x18.toNat : Int)) && decide (((x19 &&& 127).toNat : Int) =
    (x20.toNat : Int))) = true := by decide +kernel

-- universal_midi_packet,bytes: lines 365-371
example : holds (do
  let x1 := Packet.ofWords [1503295368, 1335206520, 875659011, 18813492]
  let x2 ← Packet.setByte x1 0 1
  let x3 ← Packet.setByte7 x2 0 128
  let x4 ← Packet.setByte x3 1 2
  let x5 ← Packet.setByte7 x4 1 129
  let x6 ← Packet.setByte x5 2 3
  let x7 ← Packet.setByte7 x6 2 130
  let x8 ← Packet.setByte x7 4 5
  let x9 ← Packet.setByte7 x8 4 132
  let x10 ← Packet.setByte x9 5 6
  let x11 ← Packet.getByte x10 5
  let x12 ← Packet.setByte7 x10 5 133
  let x13 ← Packet.getByte x12 5
  let x14 ← Packet.getByte x12 6
  let x15 ← Packet.getByte7 x12 6
  let x16 ← Packet.setByte x12 6 7
  let x17 ← Packet.getByte x16 6
  let x18 ← Packet.setByte7 x16 6 134
  let x19 ← Packet.getByte x18 6
  return decide (6 = (x11.toNat : Int)) && decide (5 = (x13.toNat : Int)) && decide (((x14 &&& 127).toNat : Int) =
    (x15.toNat : Int)) && decide (7 = (x17.toNat : Int)) && decide (6 = (x19.toNat : Int))) = true := by decide +kernel

-- universal_midi_packet,channel: lines 383-400
example : holds (do
  let x1 := Packet.ofWords [18813492]
  let x2 := Packet.ofWords [368124741]
  let x3 := Packet.ofWords [750749541]
  let x4 ← Packet.channel x3
  let x5 := Packet.ofWords [875659011, 305419896]
  let x6 := Packet.ofWords [1100183432, 2165391488]
  let x7 ← Packet.channel x6
  let x8 := Packet.ofWords [1503295368, 286331153, 572662306, 572662306]
  return (!(Packet.hasChannel x1)) && (!(Packet.hasChannel x2)) && (Packet.hasChannel x3) && decide (15 = (x4.toNat :
    Int)) && (!(Packet.hasChannel x5)) && (Packet.hasChannel x6) && decide (3 = (x7.toNat : Int)) &&
    (!(Packet.hasChannel x8))) = true := by decide +kernel

-- universal_midi_packet,channel: lines 403-414
example : holds (do
  let x1 := Packet.ofWords [750749541]
  let x2 := Packet.ofWords [1100183432, 2165391488]
  let x3 ← Packet.setByte x1 1 17
  let x4 ← Packet.channel x3
  let x5 ← Packet.setByte x2 1 222
  let x6 ← Packet.channel x5
  let x7 := Packet.ofWords [1610612736]
  let x8 := Packet.ofWords [1879048192]
  let x9 := Packet.ofWords [2147483648]
  let x10 := Packet.ofWords [2415919104]
  let x11 := Packet.ofWords [2684354560]
  let x12 := Packet.ofWords [2952790016]
  return decide (1 = (x4.toNat : Int)) && decide (14 = (x6.toNat : Int)) && (!(Packet.hasChannel x7)) &&
    (!(Packet.hasChannel x8)) && (!(Packet.hasChannel x9)) && (!(Packet.hasChannel x10)) && (!(Packet.hasChannel x11))
    && (!(Packet.hasChannel x12))) = true := by decide +kernel

-- universal_midi_packet,channel: lines 415-418
example : holds (do
  let x1 := Packet.ofWords [3221225472]
  let x2 := Packet.ofWords [3489660928]
  let x3 := Packet.ofWords [3758096384]
  let x4 := Packet.ofWords [4026531840]
  return (!(Packet.hasChannel x1)) && (Packet.hasChannel x2) && (!(Packet.hasChannel x3)) && (!(Packet.hasChannel x4))) = true := by decide +kernel

-- universal_midi_packet,reset: lines 431-434
example : holds (do
  let x1 := Packet.ofWords [1343370326, 2023406814, 4275878552, 1985229328]
  let x2 := Packet.reset x1
  return decide (0 = ((x2.w0).toNat : Int)) && decide (0 = ((x2.w1).toNat : Int)) && decide (0 = ((x2.w2).toNat :
    Int)) && decide (0 = ((x2.w3).toNat : Int))) = true := by decide +kernel

-- universal_midi_packet,is_utility_message: lines 450-453
example : holds (do
  let x1 := Packet.ofWords [0]
  let x2 := Packet.ofWords [268435456]
  let x3 := Packet.ofWords [536870912]
  let x4 := Packet.ofWords [1073741824]
  let x5 := Packet.ofWords [1342177280]
  let x6 := Packet.ofWords [1610612736]
  let x7 := Packet.ofWords [2147483648]
  return (Packet.isUtility x1) && (!(Packet.isUtility x2)) && (!(Packet.isUtility x3)) && (!(Packet.isUtility x4)) &&
    (!(Packet.isUtility x5)) && (!(Packet.isUtility x6)) && (!(Packet.isUtility x7))) = true := by decide +kernel

-- universal_midi_packet,is_system_message: lines 472-475
example : holds (do
  let x1 := Packet.ofWords [0]
  let x2 := Packet.ofWords [268435456]
  let x3 := Packet.ofWords [536870912]
  let x4 := Packet.ofWords [1073741824]
  let x5 := Packet.ofWords [1342177280]
  let x6 := Packet.ofWords [1610612736]
  let x7 := Packet.ofWords [2147483648]
  return (!(Packet.isSystem x1)) && (Packet.isSystem x2) && (!(Packet.isSystem x3)) && (!(Packet.isSystem x4)) &&
    (!(Packet.isSystem x5)) && (!(Packet.isSystem x6)) && (!(Packet.isSystem x7))) = true := by decide +kernel

-- universal_midi_packet,is_channel_voice_message: lines 495-498
example : holds (do
  let x1 := Packet.ofWords [0]
  let x2 := Packet.ofWords [268435456]
  let x3 := Packet.ofWords [536870912]
  let x4 := Packet.ofWords [1073741824]
  let x5 := Packet.ofWords [1342177280]
  let x6 := Packet.ofWords [1610612736]
  let x7 := Packet.ofWords [2147483648]
  let x8 := Packet.ofWords [2415919104]
  return (!(Packet.isChannelVoice x1)) && (!(Packet.isChannelVoice x2)) && (Packet.isChannelVoice x3) &&
    (Packet.isChannelVoice x4) && (!(Packet.isChannelVoice x5)) && (!(Packet.isChannelVoice x6)) &&
    (!(Packet.isChannelVoice x7)) && (!(Packet.isChannelVoice x8))) = true := by decide +kernel

-- universal_midi_packet,is_data_message: lines 518-521
example : holds (do
  let x1 := Packet.ofWords [0]
  let x2 := Packet.ofWords [268435456]
  let x3 := Packet.ofWords [536870912]
  let x4 := Packet.ofWords [1073741824]
  let x5 := Packet.ofWords [1342177280]
  let x6 := Packet.ofWords [1610612736]
  let x7 := Packet.ofWords [2147483648]
  return (!(Packet.isData x1)) && (!(Packet.isData x2)) && (!(Packet.isData x3)) && (!(Packet.isData x4)) &&
    (Packet.isData x5) && (!(Packet.isData x6)) && (!(Packet.isData x7))) = true := by decide +kernel

-- universal_midi_packet,is_midi1_protocol_message: line 574
example : holds (do
  let x1 := Packet.ofWords [0]
  let x2 := Packet.ofWords [1507328]
  let x3 := Packet.ofWords [3014656]
  let x4 := Packet.ofWords [4521984]
  let x5 := Packet.ofWords [6029312]
  let x6 := Packet.ofWords [7536640]
  return (!(Packet.isMidi1Protocol x1)) && (!(Packet.isMidi1Protocol x2)) && (!(Packet.isMidi1Protocol x3)) &&
    (!(Packet.isMidi1Protocol x4)) && (!(Packet.isMidi1Protocol x5)) && (!(Packet.isMidi1Protocol x6))) = true := by decide +kernel

end Midi.Conformance
