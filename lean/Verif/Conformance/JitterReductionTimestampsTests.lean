import Verif.Conformance.Prelude
import Verif.Model.ByteStream
import Verif.Model.CapabilityInquiry
import Verif.Model.Collector
import Verif.Model.Defaults
import Verif.Model.FlexData
import Verif.Model.Jitter
import Verif.Model.PitchTypes
import Verif.Model.Senders
import Verif.Model.Stream
import Verif.Model.Sysex
import Verif.Model.SysexPackets
import Verif.Model.TextFormat
import Verif.Model.Types
import Verif.Model.UniversalSysex
import Verif.Model.Reentrant

/-!
The expectations of tests/jitter_reduction_timestamps_tests.cpp about the model. Generated by tools/conformance.
-/

namespace Midi.Conformance

open Midi

-- jr_timestamps,jr_timestamp_t_constructor: lines 45-54
example : holds (do
  return decide (0 = ((0 : U16).toNat : Int)) && decide (55 = ((55 : U16).toNat : Int)) && decide (17283 = ((17283 :
    U16).toNat : Int)) && decide (65535 = ((65535 : U16).toNat : Int))) = true := by decide +kernel

-- jr_timestamps,jr_timestamp_t_equality: lines 68-76
example : holds (do
  return (!decide ((55 : U16) = (17283 : U16))) && !decide ((55 : U16) = (17283 : U16)) && (!decide ((17283 : U16) =
    (55 : U16))) && !decide ((17283 : U16) = (55 : U16)) && (!decide ((17283 : U16) = (65535 : U16))) && !decide
    ((17283 : U16) = (65535 : U16)) && (!decide ((65535 : U16) = (17283 : U16))) && !decide ((65535 : U16) = (17283 :
    U16))) = true := by decide +kernel

-- jr_timestamps,jr_timestamp_t_equality: lines 78-86
example : holds (do
  return (!decide ((65535 : U16) = (55 : U16))) && !decide ((65535 : U16) = (55 : U16)) && (!decide ((55 : U16) =
    (65535 : U16))) && !decide ((55 : U16) = (65535 : U16))) = true := by decide +kernel

-- jr_timestamps,jr_timestamp_t_equality: lines 88-96
example : holds (do
  return (!decide ((17283 : U16) = (55 : U16))) && !decide ((17283 : U16) = (55 : U16)) && (!decide ((55 : U16) =
    (17283 : U16))) && !decide ((55 : U16) = (17283 : U16)) && decide ((55 : U16) = (55 : U16)) && (!!decide ((55 :
    U16) = (55 : U16)))) = true := by decide +kernel

-- jr_timestamps,jr_timestamp_t_minus: lines 115-128
example : holds (do
  return decide (17228 = (Jr.ticksBetween (17283 : U16) (55 : U16))) && decide (48252 = (Jr.ticksBetween (65535 : U16)
    (17283 : U16))) && decide (56 = (Jr.ticksBetween (55 : U16) (65535 : U16))) && decide (0 = (Jr.ticksBetween (55 :
    U16) (55 : U16))) && decide (48308 = (Jr.ticksBetween (55 : U16) (17283 : U16))) && decide (17284 =
    (Jr.ticksBetween (17283 : U16) (65535 : U16))) && decide (65480 = (Jr.ticksBetween (65535 : U16) (55 : U16)))) = true := by decide +kernel

-- jr_timestamps,jr_clock_message: lines 169-199
example : holds (do
  let x1 ← Jr.makeClock 0
  let x2 ← Jr.setTimestamp x1 (77 : U16)
  let x3 ← Jr.timestamp x2
  return decide (1 = ((Packet.size x1) : Int)) && decide (0 = ((Packet.type x1).toNat : Int)) && decide (16 =
    ((Packet.byte2 x1).toNat : Int)) && decide (0 = ((Packet.byte3 x1).toNat : Int)) && decide (0 = ((Packet.byte4
    x1).toNat : Int)) && decide (77 = (x3.toNat : Int)) && decide (0 = ((Packet.byte3 x2).toNat : Int)) && decide (77
    = ((Packet.byte4 x2).toNat : Int))) = true := by decide +kernel

-- jr_timestamps,jr_clock_message: lines 202-205
example : holds (do
  let x1 ← Jr.makeClock 0
  let x2 ← Jr.setTimestamp x1 (77 : U16)
  let x3 ← Jr.setTimestamp x2 (62452 : U16)
  let x4 ← Jr.timestamp x3
  return decide ((62452 : U16) = x4) && decide (243 = ((Packet.byte3 x3).toNat : Int)) && decide (244 = ((Packet.byte4
    x3).toNat : Int))) = true := by decide +kernel

-- jr_timestamps,jr_timestamp_message: lines 219-250
example : holds (do
  let x1 ← Jr.makeTimestamp 0
  let x2 ← Jr.setTimestamp x1 (18334 : U16)
  let x3 ← Jr.timestamp x2
  return decide (1 = ((Packet.size x1) : Int)) && decide (0 = ((Packet.type x1).toNat : Int)) && decide (32 =
    ((Packet.byte2 x1).toNat : Int)) && decide (0 = ((Packet.byte3 x1).toNat : Int)) && decide (0 = ((Packet.byte4
    x1).toNat : Int)) && decide (18334 = (x3.toNat : Int)) && decide (71 = ((Packet.byte3 x2).toNat : Int)) && decide
    (158 = ((Packet.byte4 x2).toNat : Int))) = true := by decide +kernel

-- jr_timestamps,jr_timestamp_message: lines 253-256
example : holds (do
  let x1 ← Jr.makeTimestamp 0
  let x2 ← Jr.setTimestamp x1 (18334 : U16)
  let x3 ← Jr.setTimestamp x2 (43981 : U16)
  let x4 ← Jr.timestamp x3
  return decide ((43981 : U16) = x4) && decide (171 = ((Packet.byte3 x3).toNat : Int)) && decide (205 = ((Packet.byte4
    x3).toNat : Int))) = true := by decide +kernel

end Midi.Conformance
