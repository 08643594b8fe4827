import Verif.Conformance.Prelude
import Verif.Model.ByteStream
import Verif.Model.CapabilityInquiry
import Verif.Model.Collector
import Verif.Model.Defaults
import Verif.Model.FlexData
import Verif.Model.Jitter
import Verif.Model.PitchTypes
import Verif.Model.Senders
import Verif.Model.Stream
import Verif.Model.Sysex
import Verif.Model.SysexPackets
import Verif.Model.TextFormat
import Verif.Model.Types
import Verif.Model.UniversalSysex
import Verif.Model.Reentrant

/-!
The assertions in docs/data_message.examples.cpp about the model. Generated by tools/conformance.
-/

namespace Midi.Conformance

open Midi

-- docs,sysex7_message_examples: lines 14-39
example : holds (do
  let x1 ← makeSysex7 .complete 4
  let x2 ← sysex7AddPayloadByte x1 125
  let x3 ← sysex7AddPayloadByte x2 1
  let x4 ← sysex7AddPayloadByte x3 2
  let x5 ← asSysex7View x4
  let x6 ← valueOf x5
  let x7 ← sysex7PayloadByte x6 0
  let x8 ← sysex7PayloadByte x6 1
  let x9 ← sysex7PayloadByte x6 2
  let x10 ← makeSysex7 .start 7
  let x11 ← sysex7AddPayloadByte x10 125
  let x12 ← sysex7AddPayloadByte x11 1
  let x13 ← sysex7AddPayloadByte x12 2
  let x14 ← sysex7AddPayloadByte x13 3
  let x15 ← sysex7AddPayloadByte x14 4
  let x16 ← sysex7AddPayloadByte x15 5
  let x17 ← sysex7View x16
  return (isDataMessage x4) && x5.isSome && decide (((sysex7PayloadSize x6) : Int) = 3) && decide ((x7.toNat : Int) =
    125) && decide ((x8.toNat : Int) = 1) && decide ((x9.toNat : Int) = 2) && (isSysex7Packet x16) && decide
    (((sysex7PayloadSize x17) : Int) = 6)) = true := by decide +kernel

-- docs,sysex7_message_examples: lines 40-50
example : holds (do
  let x1 ← makeSysex7 .start 7
  let x2 ← makeSysex7 .cont 7
  let x3 ← makeSysex7 .fin 7
  let x4 ← sysex7AddPayloadByte x1 125
  let x5 ← sysex7AddPayloadByte x4 1
  let x6 ← sysex7AddPayloadByte x5 2
  let x7 ← sysex7AddPayloadByte x6 3
  let x8 ← sysex7AddPayloadByte x7 4
  let x9 ← sysex7AddPayloadByte x8 5
  let x10 ← sysex7AddPayloadByte x2 6
  let x11 ← sysex7AddPayloadByte x10 7
  let x12 ← sysex7AddPayloadByte x11 8
  let x13 ← sysex7AddPayloadByte x12 9
  let x14 ← sysex7AddPayloadByte x13 10
  let x15 ← sysex7AddPayloadByte x14 11
  let x16 ← sysex7AddPayloadByte x3 12
  let x17 ← sysex7AddPayloadByte x16 13
  let x18 ← sysex7AddPayloadByte x17 14
  let x19 ← sysex7AddPayloadByte x18 15
  let x20 ← sysex7View x9
  let x21 ← sysex7PayloadByte x20 5
  let x22 ← sysex7View x15
  let x23 ← sysex7PayloadByte x22 3
  let x24 ← sysex7View x19
  let x25 ← sysex7PayloadByte x24 3
  return decide ((x21.toNat : Int) = 5) && (isSysex7Packet x15) && decide (((sysex7PayloadSize x22) : Int) = 6) &&
    decide ((x23.toNat : Int) = 9) && decide (((sysex7PayloadSize x24) : Int) = 4) && decide ((x25.toNat : Int) = 15)) = true := by decide +kernel

end Midi.Conformance
