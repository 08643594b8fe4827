import Verif.Conformance.Prelude
import Verif.Model.ByteStream
import Verif.Model.CapabilityInquiry
import Verif.Model.Collector
import Verif.Model.Defaults
import Verif.Model.FlexData
import Verif.Model.Jitter
import Verif.Model.PitchTypes
import Verif.Model.Senders
import Verif.Model.Stream
import Verif.Model.Sysex
import Verif.Model.SysexPackets
import Verif.Model.TextFormat
import Verif.Model.Types
import Verif.Model.UniversalSysex
import Verif.Model.Reentrant

/-!
The expectations of tests/utility_message_tests.cpp about the model. Generated by tools/conformance.
-/

namespace Midi.Conformance

open Midi

-- utility_message,constructors: lines 21-34
example : holds (do
  let x1 := utilityDefault
  let x2 := makeUtility 16 0
  return decide (0 = ((x1.w0).toNat : Int)) && decide (0 = ((x1.w1).toNat : Int)) && decide (0 = ((x1.w2).toNat :
    Int)) && decide (0 = ((x1.w3).toNat : Int)) && decide (1 = ((Packet.size x1) : Int)) && decide (0 = ((Packet.type
    x1).toNat : Int)) && decide (0 = ((Packet.status x1).toNat : Int)) && decide (1048576 = ((x2.w0).toNat : Int))) = true := by decide +kernel

-- utility_message,constructors: lines 35-48
example : holds (do
  let x1 := makeUtility 16 0
  let x2 := makeUtility 32 43981
  return decide (0 = ((x1.w1).toNat : Int)) && decide (0 = ((x1.w2).toNat : Int)) && decide (0 = ((x1.w3).toNat :
    Int)) && decide (1 = ((Packet.size x1) : Int)) && decide (0 = ((Packet.type x1).toNat : Int)) && decide (16 =
    ((Packet.status x1).toNat : Int)) && decide (2141133 = ((x2.w0).toNat : Int)) && decide (0 = ((x2.w1).toNat :
    Int))) = true := by decide +kernel

-- utility_message,constructors: lines 49-54
example : holds (do
  let x1 := makeUtility 32 43981
  return decide (0 = ((x1.w2).toNat : Int)) && decide (0 = ((x1.w3).toNat : Int)) && decide (1 = ((Packet.size x1) :
    Int)) && decide (0 = ((Packet.type x1).toNat : Int)) && decide (32 = ((Packet.status x1).toNat : Int))) = true := by decide +kernel

-- utility_message,view: lines 68-85
example : holds (do
  let x1 := utilityDefault
  let x2 ← utilityView x1
  let x3 := makeUtility 16 0
  let x4 ← utilityView x3
  let x5 := makeUtility 32 43981
  let x6 ← utilityView x5
  return decide (0 = ((utilityStatus x2).toNat : Int)) && decide (0 = ((utilityPayload x2).toNat : Int)) && decide (16
    = ((utilityStatus x4).toNat : Int)) && decide (0 = ((utilityPayload x4).toNat : Int)) && decide (32 =
    ((utilityStatus x6).toNat : Int)) && decide (43981 = ((utilityPayload x6).toNat : Int))) = true := by decide +kernel

-- utility_message,make_utility_message: lines 97-112
example : holds (do
  let x1 := makeUtility 16 62617
  let x2 := Packet.ofWords [1111193]
  let x3 ← utilityView x1
  let x4 := makeUtility 32 6092
  let x5 := Packet.ofWords [2103244]
  let x6 ← utilityView x4
  return (x2.eqv x1) && decide (16 = ((utilityStatus x3).toNat : Int)) && decide (62617 = ((utilityPayload x3).toNat :
    Int)) && (x5.eqv x4) && decide (32 = ((utilityStatus x6).toNat : Int)) && decide (6092 = ((utilityPayload
    x6).toNat : Int))) = true := by decide +kernel

-- utility_message,utility_message_view: lines 124-129
example : holds (do
  let x1 := makeUtility 16 62617
  let x2 := Packet.ofWords [1111193]
  let x3 ← utilityView x1
  return (x2.eqv x1) && decide (16 = ((utilityStatus x3).toNat : Int)) && decide (62617 = ((utilityPayload x3).toNat :
    Int))) = true := by decide +kernel

end Midi.Conformance
