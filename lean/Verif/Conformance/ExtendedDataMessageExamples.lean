import Verif.Conformance.Prelude
import Verif.Model.ByteStream
import Verif.Model.CapabilityInquiry
import Verif.Model.Collector
import Verif.Model.Defaults
import Verif.Model.FlexData
import Verif.Model.Jitter
import Verif.Model.PitchTypes
import Verif.Model.Senders
import Verif.Model.Stream
import Verif.Model.Sysex
import Verif.Model.SysexPackets
import Verif.Model.TextFormat
import Verif.Model.Types
import Verif.Model.UniversalSysex
import Verif.Model.Reentrant

/-!
The assertions in docs/extended_data_message.examples.cpp about the model. Generated by tools/conformance.
-/

namespace Midi.Conformance

open Midi

-- docs,sysex8_message_examples: lines 16-44
example : holds (do
  let x1 := makeSysex8 .complete 1 4
  let x2 ← sysex8AddPayloadByte x1 255
  let x3 ← sysex8AddPayloadByte x2 241
  let x4 ← sysex8AddPayloadByte x3 242
  let x5 ← asSysex8View x4
  let x6 ← valueOf x5
  let x7 ← sysex8PayloadByte x6 0
  let x8 ← sysex8PayloadByte x6 1
  let x9 ← sysex8PayloadByte x6 2
  let x10 := makeSysex8 .start 2 7
  let x11 ← sysex8AddPayloadByte x10 200
  let x12 ← sysex8AddPayloadByte x11 201
  let x13 ← sysex8AddPayloadByte x12 202
  let x14 ← sysex8AddPayloadByte x13 203
  let x15 ← sysex8AddPayloadByte x14 204
  let x16 ← sysex8AddPayloadByte x15 205
  let x17 ← sysex8AddPayloadByte x16 206
  let x18 ← sysex8AddPayloadByte x17 207
  let x19 ← sysex8AddPayloadByte x18 208
  let x20 ← sysex8AddPayloadByte x19 209
  let x21 ← sysex8AddPayloadByte x20 210
  let x22 ← sysex8AddPayloadByte x21 211
  let x23 ← sysex8AddPayloadByte x22 212
  let x24 ← sysex8View x23
  return (isExtendedDataMessage x4) && x5.isSome && decide (((sysex8PayloadSize x6) : Int) = 3) && decide ((x7.toNat :
    Int) = 255) && decide ((x8.toNat : Int) = 241) && decide ((x9.toNat : Int) = 242) && (isSysex8Packet x23) &&
    decide (((sysex8PayloadSize x24) : Int) = 13)) = true := by decide +kernel

-- docs,sysex8_message_examples: lines 45-55
example : holds (do
  let x1 := makeSysex8 .start 2 7
  let x2 := makeSysex8 .cont 2 7
  let x3 := makeSysex8 .fin 2 7
  let x4 ← sysex8AddPayloadByte x1 200
  let x5 ← sysex8AddPayloadByte x4 201
  let x6 ← sysex8AddPayloadByte x5 202
  let x7 ← sysex8AddPayloadByte x6 203
  let x8 ← sysex8AddPayloadByte x7 204
  let x9 ← sysex8AddPayloadByte x8 205
  let x10 ← sysex8AddPayloadByte x9 206
  let x11 ← sysex8AddPayloadByte x10 207
  let x12 ← sysex8AddPayloadByte x11 208
  let x13 ← sysex8AddPayloadByte x12 209
  let x14 ← sysex8AddPayloadByte x13 210
  let x15 ← sysex8AddPayloadByte x14 211
  let x16 ← sysex8AddPayloadByte x15 212
  let x17 ← sysex8AddPayloadByte x2 213
  let x18 ← sysex8AddPayloadByte x17 214
  let x19 ← sysex8AddPayloadByte x18 215
  let x20 ← sysex8AddPayloadByte x19 216
  let x21 ← sysex8AddPayloadByte x20 217
  let x22 ← sysex8AddPayloadByte x21 218
  let x23 ← sysex8AddPayloadByte x22 219
  let x24 ← sysex8AddPayloadByte x23 220
  let x25 ← sysex8AddPayloadByte x24 221
  let x26 ← sysex8AddPayloadByte x25 222
  let x27 ← sysex8AddPayloadByte x26 223
  let x28 ← sysex8AddPayloadByte x27 224
  let x29 ← sysex8AddPayloadByte x28 225
  let x30 ← sysex8AddPayloadByte x3 226
  let x31 ← sysex8AddPayloadByte x30 227
  let x32 ← sysex8AddPayloadByte x31 228
  let x33 ← sysex8AddPayloadByte x32 229
  let x34 ← sysex8View x16
  let x35 ← sysex8PayloadByte x34 12
  let x36 ← sysex8View x29
  let x37 ← sysex8PayloadByte x36 7
  let x38 ← sysex8View x33
  let x39 ← sysex8PayloadByte x38 3
  return decide ((x35.toNat : Int) = 212) && (isSysex8Packet x29) && decide (((sysex8PayloadSize x36) : Int) = 13) &&
    decide ((x37.toNat : Int) = 220) && decide (((sysex8PayloadSize x38) : Int) = 4) && decide ((x39.toNat : Int) =
    229)) = true := by decide +kernel

end Midi.Conformance
