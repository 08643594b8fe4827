import Verif.Conformance.Prelude
import Verif.Model.ByteStream
import Verif.Model.CapabilityInquiry
import Verif.Model.Collector
import Verif.Model.Defaults
import Verif.Model.FlexData
import Verif.Model.Jitter
import Verif.Model.PitchTypes
import Verif.Model.Senders
import Verif.Model.Stream
import Verif.Model.Sysex
import Verif.Model.SysexPackets
import Verif.Model.TextFormat
import Verif.Model.Types
import Verif.Model.UniversalSysex
import Verif.Model.Reentrant

/-!
The expectations of tests/capability_inquiry_tests.cpp about the model. Generated by tools/conformance.
-/

namespace Midi.Conformance

open Midi

-- capability_inquiry,is_capability_inquiry_message: lines 46-76
example : holds (do
  let x1 := (⟨8257536, [127, 13, 1, 0, 120, 86, 52, 18, 127, 127, 127, 127]⟩ : Sysex)
  let x2 ← CI.View.validate x1
  let x3 ← UniversalSysex.deviceIdOf x1
  let x4 ← UniversalSysex.typeOf x1
  let x5 ← UniversalSysex.subtypeOf x1
  let x6 := (⟨8257536, [127, 13, 1, 0, 120, 86, 52, 18, 127, 127, 127]⟩ : Sysex)
  let x7 ← CI.View.validate x6
  let x8 := (⟨8257536, [127, 3, 1, 0, 120, 86, 52, 18]⟩ : Sysex)
  let x9 ← CI.View.validate x8
  let x10 := (⟨8257536, [127, 13, 1, 120, 86, 52, 18]⟩ : Sysex)
  let x11 ← CI.View.validate x10
  let x12 := (⟨8457, [4, 5, 6, 7, 8, 9, 10, 11, 12, 13, 14, 247]⟩ : Sysex)
  let x13 ← CI.View.validate x12
  return x2 && decide (127 = (x3.toNat : Int)) && decide (32269 = (x4.toNat : Int)) && decide (1 = (x5.toNat : Int))
    && (!x7) && (!x9) && (!x11) && (!x13)) = true := by decide +kernel

-- capability_inquiry,capability_inquiry_view: lines 88-99
example : holds (do
  let x1 := (⟨8257536, [127, 13, 1, 0, 120, 86, 52, 18, 127, 127, 127, 127]⟩ : Sysex)
  let x2 ← CI.View.validate x1
  let x3 ← UniversalSysex.deviceIdOf x1
  let x4 ← UniversalSysex.typeOf x1
  let x5 ← UniversalSysex.subtypeOf x1
  let x6 ← CI.asView CI.View.validate x1
  let x7 ← valueOf x6
  let x8 ← CI.View.messageVersion x7
  let x9 ← CI.View.sourceMuid x7
  let x10 ← CI.View.destinationMuid x7
  return x2 && decide (127 = (x3.toNat : Int)) && decide (32269 = (x4.toNat : Int)) && decide (1 = (x5.toNat : Int))
    && x6.isSome && decide (0 = (x8.toNat : Int)) && decide (38611832 = (x9.toNat : Int)) && decide (268435455 =
    (x10.toNat : Int))) = true := by decide +kernel

-- capability_inquiry,capability_inquiry_view: lines 106-125
example : holds (do
  let x1 := (⟨8257536, [127, 13, 1, 0, 120, 86, 52, 18, 127, 127, 127]⟩ : Sysex)
  let x2 ← CI.asView CI.View.validate x1
  let x3 := (⟨8257536, [127, 3, 1, 0, 120, 86, 52, 18]⟩ : Sysex)
  let x4 ← CI.asView CI.View.validate x3
  let x5 := (⟨8257536, [127, 13, 1, 120, 86, 52, 18]⟩ : Sysex)
  let x6 ← CI.asView CI.View.validate x5
  let x7 := (⟨8457, [4, 5, 6, 7, 8, 9, 10, 11, 12, 13, 14, 247]⟩ : Sysex)
  let x8 ← CI.asView CI.View.validate x7
  return (!x2.isSome) && (!x4.isSome) && (!x6.isSome) && (!x8.isSome)) = true := by decide +kernel

-- capability_inquiry,message_constructor: lines 138-148
example : holds (do
  let x1 ← CI.makeMessage 26 124147012 268435455 8
  let x2 ← CI.View.validate x1
  let x3 ← UniversalSysex.Message.deviceId x1
  let x4 ← UniversalSysex.Message.type x1
  let x5 ← UniversalSysex.Message.subtype x1
  let x6 ← CI.Message.messageVersion x1
  let x7 ← CI.Message.sourceMuid x1
  let x8 ← CI.Message.destinationMuid x1
  return x2 && decide (8 = (x3.toNat : Int)) && decide (32269 = (x4.toNat : Int)) && decide (26 = (x5.toNat : Int)) &&
    decide (2 = (x6.toNat : Int)) && decide (124147012 = (x7.toNat : Int)) && decide (268435455 = (x8.toNat : Int)) &&
    decide (12 = (x1.data.length : Int))) = true := by decide +kernel

-- capability_inquiry,message_constructor: lines 160-180
example : holds (do
  let x1 ← CI.makeWithPayload 4 19922 788 6
  let x2 ← UniversalSysex.Message.deviceId x1
  let x3 ← UniversalSysex.Message.type x1
  let x4 ← UniversalSysex.Message.subtype x1
  let x5 ← CI.Message.messageVersion x1
  let x6 ← CI.Message.sourceMuid x1
  let x7 ← CI.Message.destinationMuid x1
  return decide (6 = (x2.toNat : Int)) && decide (32269 = (x3.toNat : Int)) && decide (4 = (x4.toNat : Int)) && decide
    (2 = (x5.toNat : Int)) && decide (19922 = (x6.toNat : Int)) && decide (788 = (x7.toNat : Int)) && decide (12 =
    (x1.data.length : Int))) = true := by decide +kernel

-- capability_inquiry,message_constructor: lines 181-194
example : holds (do
  let x1 ← CI.makeWithPayload 4 19922 788 6
  let x2 ← UniversalSysex.Message.type x1
  let x3 ← UniversalSysex.Message.subtype x1
  let x4 ← CI.Message.messageVersion x1
  let x5 ← CI.Message.sourceMuid x1
  let x6 ← CI.Message.destinationMuid x1
  let x7 ← Sysex.addData x1 (List.take 4 [1, 2, 3, 4])
  return decide (32269 = (x2.toNat : Int)) && decide (4 = (x3.toNat : Int)) && decide (2 = (x4.toNat : Int)) && decide
    (19922 = (x5.toNat : Int)) && decide (788 = (x6.toNat : Int)) && decide (12 = (x1.data.length : Int)) && decide
    (16 = (x7.data.length : Int))) = true := by decide +kernel

-- capability_inquiry,message_version: lines 208-234
example : holds (do
  let x1 := (⟨8257536, [127, 13, 1, 0, 120, 86, 52, 18, 127, 127, 127, 127]⟩ : Sysex)
  let x2 ← CI.View.validate x1
  let x3 ← CI.makeView x1
  let x4 ← CI.View.messageVersion x3
  let x5 := (⟨8257536, [127, 13, 1, 5, 120, 86, 52, 18, 34, 51, 68, 85]⟩ : Sysex)
  let x6 ← CI.View.validate x5
  let x7 ← CI.makeView x5
  let x8 ← CI.View.messageVersion x7
  let x9 := (⟨8257536, [127, 13, 1, 119, 120, 86, 52, 18, 1, 2, 3, 4]⟩ : Sysex)
  let x10 ← CI.View.validate x9
  let x11 ← CI.makeView x9
  let x12 ← CI.View.messageVersion x11
  return x2 && decide (0 = (x4.toNat : Int)) && x6 && decide (5 = (x8.toNat : Int)) && x10 && decide (119 = (x12.toNat
    : Int))) = true := by decide +kernel

-- capability_inquiry,message_muids: lines 246-274
example : holds (do
  let x1 := (⟨8257536, [127, 13, 1, 0, 120, 86, 52, 18, 68, 51, 34, 17]⟩ : Sysex)
  let x2 ← CI.View.validate x1
  let x3 ← CI.makeView x1
  let x4 ← CI.View.sourceMuid x3
  let x5 ← CI.View.destinationMuid x3
  let x6 := (⟨8257536, [127, 13, 1, 0, 68, 51, 34, 17, 69, 86, 71, 56]⟩ : Sysex)
  let x7 ← CI.View.validate x6
  let x8 ← CI.makeView x6
  let x9 ← CI.View.sourceMuid x8
  let x10 ← CI.View.destinationMuid x8
  let x11 := (⟨8257536, [127, 13, 1, 0, 69, 86, 71, 56, 68, 51, 34, 17]⟩ : Sysex)
  let x12 ← CI.View.validate x11
  let x13 ← CI.makeView x11
  let x14 ← CI.View.sourceMuid x13
  return x2 && decide (38611832 = (x4.toNat : Int)) && decide (36215236 = (x5.toNat : Int)) && x7 && decide (36215236
    = (x9.toNat : Int)) && decide (118614853 = (x10.toNat : Int)) && x12 && decide (118614853 = (x14.toNat : Int))) = true := by decide +kernel

-- capability_inquiry,message_muids: lines 275-288
example : holds (do
  let x1 := (⟨8257536, [127, 13, 1, 0, 69, 86, 71, 56, 68, 51, 34, 17]⟩ : Sysex)
  let x2 ← CI.makeView x1
  let x3 ← CI.View.destinationMuid x2
  let x4 ← CI.makeMessage 51 19088743 268435455 127
  let x5 ← CI.Message.sourceMuid x4
  let x6 ← CI.Message.destinationMuid x4
  let x7 ← CI.Message.setSourceMuid x4 249346712
  let x8 ← CI.Message.sourceMuid x7
  let x9 ← CI.Message.setDestinationMuid x7 142042709
  let x10 ← CI.Message.destinationMuid x9
  return decide (36215236 = (x3.toNat : Int)) && decide (19088743 = (x5.toNat : Int)) && decide (268435455 = (x6.toNat
    : Int)) && decide (249346712 = (x8.toNat : Int)) && decide (142042709 = (x10.toNat : Int))) = true := by decide +kernel

-- capability_inquiry,discovery_message_view: lines 303-314
example : holds (do
  let x1 := (⟨8257536, [127, 13, 112, 1, 68, 51, 34, 17, 119, 85, 51, 17, 0, 33, 9, 0, 48, 25, 0, 0, 0, 4, 0, 32, 0,
    8, 0, 0]⟩ : Sysex)
  let x2 ← CI.View.validate x1
  let x3 ← CI.DiscoveryInquiryView.validate x1
  let x4 ← CI.asView CI.DiscoveryInquiryView.validate x1
  let x5 ← CI.makeView x1
  let x6 ← UniversalSysex.View.deviceId x5
  let x7 ← UniversalSysex.View.type x5
  let x8 ← UniversalSysex.View.subtype x5
  let x9 ← CI.View.messageVersion x5
  let x10 ← CI.View.sourceMuid x5
  return x2 && x3 && x4.isSome && decide (127 = (x6.toNat : Int)) && decide (32269 = (x7.toNat : Int)) && decide (112
    = (x8.toNat : Int)) && decide (1 = (x9.toNat : Int)) && decide (36215236 = (x10.toNat : Int))) = true := by decide +kernel

-- capability_inquiry,discovery_message_view: lines 315-325
example : holds (do
  let x1 := (⟨8257536, [127, 13, 112, 1, 68, 51, 34, 17, 119, 85, 51, 17, 0, 33, 9, 0, 48, 25, 0, 0, 0, 4, 0, 32, 0,
    8, 0, 0]⟩ : Sysex)
  let x2 ← CI.makeView x1
  let x3 ← CI.View.destinationMuid x2
  let x4 ← CI.Discovery.identity x2
  let x5 ← CI.Discovery.categories x2
  let x6 ← CI.Discovery.maximumMessageSize x2
  let x7 ← CI.Discovery.outputPathId x2
  return decide (36498167 = (x3.toNat : Int)) && decide (8457 = (x4.manufacturer.toNat : Int)) && decide (6144 =
    (x4.family.toNat : Int)) && decide (25 = (x4.model.toNat : Int)) && decide (65536 = (x4.revision.toNat : Int)) &&
    decide (32 = (x5.toNat : Int)) && decide (1024 = (x6.toNat : Int)) && decide (0 = (x7.toNat : Int))) = true := by decide +kernel

-- capability_inquiry,discovery_message_view: lines 335-346
example : holds (do
  let x1 := (⟨8257536, [127, 13, 113, 2, 68, 51, 34, 17, 119, 85, 51, 17, 0, 33, 9, 0, 48, 25, 0, 0, 0, 1, 0, 32, 0,
    8, 0, 0, 20, 12]⟩ : Sysex)
  let x2 ← CI.View.validate x1
  let x3 ← CI.DiscoveryReplyView.validate x1
  let x4 ← CI.asView CI.DiscoveryReplyView.validate x1
  let x5 ← CI.makeView x1
  let x6 ← UniversalSysex.View.deviceId x5
  let x7 ← UniversalSysex.View.type x5
  let x8 ← UniversalSysex.View.subtype x5
  let x9 ← CI.View.messageVersion x5
  let x10 ← CI.View.sourceMuid x5
  return x2 && x3 && x4.isSome && decide (127 = (x6.toNat : Int)) && decide (32269 = (x7.toNat : Int)) && decide (113
    = (x8.toNat : Int)) && decide (2 = (x9.toNat : Int)) && decide (36215236 = (x10.toNat : Int))) = true := by decide +kernel

-- capability_inquiry,discovery_message_view: lines 347-357
example : holds (do
  let x1 := (⟨8257536, [127, 13, 113, 2, 68, 51, 34, 17, 119, 85, 51, 17, 0, 33, 9, 0, 48, 25, 0, 0, 0, 1, 0, 32, 0,
    8, 0, 0, 20, 12]⟩ : Sysex)
  let x2 ← CI.makeView x1
  let x3 ← CI.View.destinationMuid x2
  let x4 ← CI.Discovery.identity x2
  let x5 ← CI.Discovery.categories x2
  let x6 ← CI.Discovery.maximumMessageSize x2
  let x7 ← CI.Discovery.outputPathId x2
  return decide (36498167 = (x3.toNat : Int)) && decide (8457 = (x4.manufacturer.toNat : Int)) && decide (6144 =
    (x4.family.toNat : Int)) && decide (25 = (x4.model.toNat : Int)) && decide (16384 = (x4.revision.toNat : Int)) &&
    decide (32 = (x5.toNat : Int)) && decide (1024 = (x6.toNat : Int)) && decide (20 = (x7.toNat : Int))) = true := by decide +kernel

-- capability_inquiry,discovery_message_view: lines 358-391
example : holds (do
  let x1 := (⟨8257536, [127, 13, 113, 2, 68, 51, 34, 17, 119, 85, 51, 17, 0, 33, 9, 0, 48, 25, 0, 0, 0, 1, 0, 32, 0,
    8, 0, 0, 20, 12]⟩ : Sysex)
  let x2 ← CI.makeView x1
  let x3 ← CI.DiscoveryReplyView.functionBlock x2
  let x4 := (⟨8257536, [127, 12, 112, 1, 68, 51, 34, 17, 119, 85, 51, 17, 0, 33, 9, 0, 24, 25, 0, 0, 0, 1, 0, 32, 0,
    8, 0, 0]⟩ : Sysex)
  let x5 ← CI.DiscoveryInquiryView.validate x4
  let x6 := (⟨8257536, [127, 13, 116, 1, 68, 51, 34, 17, 119, 85, 51, 17, 0, 33, 9, 0, 24, 25, 0, 0, 0, 1, 0, 32, 0,
    8, 0, 0]⟩ : Sysex)
  let x7 ← CI.DiscoveryReplyView.validate x6
  let x8 := (⟨8257536, [127, 13, 112, 1, 68, 51, 34, 17, 119, 85, 51, 17, 0, 33, 9, 0, 24, 25, 0, 0, 0, 1, 0, 32, 0,
    8, 0]⟩ : Sysex)
  let x9 ← CI.DiscoveryInquiryView.validate x8
  let x10 := (⟨8257536, [127, 13, 113, 2, 68, 51, 34, 17, 119, 85, 51, 17, 0, 33, 9, 0, 24, 25, 0, 0, 0, 1, 0, 32, 0,
    8, 0, 0]⟩ : Sysex)
  let x11 ← CI.DiscoveryReplyView.validate x10
  return decide (12 = (x3.toNat : Int)) && (!x5) && (!x7) && (!x9) && (!x11)) = true := by decide +kernel

-- capability_inquiry,make_discovery_message_v1: lines 406-418
example : holds (do
  let x1 ← CI.Discovery.makeMessageV1 113 37966949 74565 (⟨8457, 5936, 49, 65541⟩ : DeviceIdentity) 12 766
  let x2 ← CI.View.validate x1
  let x3 ← CI.DiscoveryReplyView.validate x1
  let x4 ← CI.makeView x1
  let x5 ← UniversalSysex.View.deviceId x4
  let x6 ← UniversalSysex.View.type x4
  let x7 ← UniversalSysex.View.subtype x4
  let x8 ← CI.View.messageVersion x4
  let x9 ← CI.View.sourceMuid x4
  return decide (28 = (x1.data.length : Int)) && x2 && x3 && decide (127 = (x5.toNat : Int)) && decide (32269 =
    (x6.toNat : Int)) && decide (113 = (x7.toNat : Int)) && decide (1 = (x8.toNat : Int)) && decide (37966949 =
    (x9.toNat : Int))) = true := by decide +kernel

-- capability_inquiry,make_discovery_message_v1: lines 419-426
example : holds (do
  let x1 ← CI.Discovery.makeMessageV1 113 37966949 74565 (⟨8457, 5936, 49, 65541⟩ : DeviceIdentity) 12 766
  let x2 ← CI.makeView x1
  let x3 ← CI.View.destinationMuid x2
  let x4 ← CI.Discovery.identity x2
  let x5 ← CI.Discovery.categories x2
  let x6 ← CI.Discovery.maximumMessageSize x2
  return decide (74565 = (x3.toNat : Int)) && decide (0 = (if (⟨8457, 5936, 49, 65541⟩ : DeviceIdentity) = x4 then 0
    else 1)) && decide (12 = (x5.toNat : Int)) && decide (766 = (x6.toNat : Int))) = true := by decide +kernel

-- capability_inquiry,discovery_inquiry_view: lines 443-454
example : holds (do
  let x1 := (⟨8257536, [127, 13, 112, 1, 68, 51, 34, 17, 127, 127, 127, 127, 0, 33, 9, 0, 48, 25, 0, 0, 0, 4, 0, 32,
    0, 8, 0, 0]⟩ : Sysex)
  let x2 ← CI.View.validate x1
  let x3 ← CI.DiscoveryInquiryView.validate x1
  let x4 ← CI.asView CI.DiscoveryInquiryView.validate x1
  let x5 ← CI.makeView x1
  let x6 ← UniversalSysex.View.deviceId x5
  let x7 ← UniversalSysex.View.type x5
  let x8 ← UniversalSysex.View.subtype x5
  let x9 ← CI.View.messageVersion x5
  let x10 ← CI.View.sourceMuid x5
  return x2 && x3 && x4.isSome && decide (127 = (x6.toNat : Int)) && decide (32269 = (x7.toNat : Int)) && decide (112
    = (x8.toNat : Int)) && decide (1 = (x9.toNat : Int)) && decide (36215236 = (x10.toNat : Int))) = true := by decide +kernel

-- capability_inquiry,discovery_inquiry_view: lines 455-465
example : holds (do
  let x1 := (⟨8257536, [127, 13, 112, 1, 68, 51, 34, 17, 127, 127, 127, 127, 0, 33, 9, 0, 48, 25, 0, 0, 0, 4, 0, 32,
    0, 8, 0, 0]⟩ : Sysex)
  let x2 ← CI.makeView x1
  let x3 ← CI.View.destinationMuid x2
  let x4 ← CI.Discovery.identity x2
  let x5 ← CI.Discovery.categories x2
  let x6 ← CI.Discovery.maximumMessageSize x2
  let x7 ← CI.Discovery.outputPathId x2
  return decide (268435455 = (x3.toNat : Int)) && decide (8457 = (x4.manufacturer.toNat : Int)) && decide (6144 =
    (x4.family.toNat : Int)) && decide (25 = (x4.model.toNat : Int)) && decide (65536 = (x4.revision.toNat : Int)) &&
    decide (32 = (x5.toNat : Int)) && decide (1024 = (x6.toNat : Int)) && decide (0 = (x7.toNat : Int))) = true := by decide +kernel

-- capability_inquiry,discovery_inquiry_view: lines 473-484
example : holds (do
  let x1 := (⟨8257536, [127, 13, 112, 2, 68, 51, 34, 17, 127, 127, 127, 127, 0, 33, 9, 0, 48, 25, 0, 0, 0, 1, 0, 32,
    0, 8, 0, 0, 17]⟩ : Sysex)
  let x2 ← CI.View.validate x1
  let x3 ← CI.DiscoveryInquiryView.validate x1
  let x4 ← CI.makeView x1
  let x5 ← UniversalSysex.View.deviceId x4
  let x6 ← UniversalSysex.View.type x4
  let x7 ← UniversalSysex.View.subtype x4
  let x8 ← CI.View.messageVersion x4
  let x9 ← CI.View.sourceMuid x4
  let x10 ← CI.View.destinationMuid x4
  return x2 && x3 && decide (127 = (x5.toNat : Int)) && decide (32269 = (x6.toNat : Int)) && decide (112 = (x7.toNat :
    Int)) && decide (2 = (x8.toNat : Int)) && decide (36215236 = (x9.toNat : Int)) && decide (268435455 = (x10.toNat :
    Int))) = true := by decide +kernel

-- capability_inquiry,discovery_inquiry_view: lines 487-503
example : holds (do
  let x1 := (⟨8257536, [127, 13, 112, 2, 68, 51, 34, 17, 127, 127, 127, 127, 0, 33, 9, 0, 48, 25, 0, 0, 0, 1, 0, 32,
    0, 8, 0, 0, 17]⟩ : Sysex)
  let x2 ← CI.makeView x1
  let x3 ← CI.Discovery.identity x2
  let x4 ← CI.Discovery.categories x2
  let x5 ← CI.Discovery.maximumMessageSize x2
  let x6 ← CI.Discovery.outputPathId x2
  let x7 := (⟨8257536, [127, 13, 113, 1, 68, 51, 34, 17, 127, 127, 127, 127, 0, 33, 9, 0, 24, 25, 0, 0, 0, 1, 0, 32,
    0, 8, 0, 0]⟩ : Sysex)
  let x8 ← CI.DiscoveryInquiryView.validate x7
  return decide (8457 = (x3.manufacturer.toNat : Int)) && decide (6144 = (x3.family.toNat : Int)) && decide (25 =
    (x3.model.toNat : Int)) && decide (16384 = (x3.revision.toNat : Int)) && decide (32 = (x4.toNat : Int)) && decide
    (1024 = (x5.toNat : Int)) && decide (17 = (x6.toNat : Int)) && (!x8)) = true := by decide +kernel

-- capability_inquiry,discovery_inquiry: lines 519-531
example : holds (do
  let x1 ← CI.makeDiscoveryInquiry 37966949 (⟨8457, 5936, 49, 65541⟩ : DeviceIdentity) 12 766 0
  let x2 ← CI.View.validate x1
  let x3 ← CI.DiscoveryInquiryView.validate x1
  let x4 ← CI.asView CI.DiscoveryInquiryView.validate x1
  let x5 ← CI.makeView x1
  let x6 ← UniversalSysex.View.deviceId x5
  let x7 ← UniversalSysex.View.type x5
  let x8 ← UniversalSysex.View.subtype x5
  let x9 ← CI.View.messageVersion x5
  return decide (29 = (x1.data.length : Int)) && x2 && x3 && x4.isSome && decide (127 = (x6.toNat : Int)) && decide
    (32269 = (x7.toNat : Int)) && decide (112 = (x8.toNat : Int)) && decide (2 = (x9.toNat : Int))) = true := by decide +kernel

-- capability_inquiry,discovery_inquiry: lines 532-541
example : holds (do
  let x1 ← CI.makeDiscoveryInquiry 37966949 (⟨8457, 5936, 49, 65541⟩ : DeviceIdentity) 12 766 0
  let x2 ← CI.makeView x1
  let x3 ← CI.View.sourceMuid x2
  let x4 ← CI.View.destinationMuid x2
  let x5 ← CI.Discovery.identity x2
  let x6 ← CI.Discovery.categories x2
  let x7 ← CI.Discovery.maximumMessageSize x2
  let x8 ← CI.Discovery.outputPathId x2
  return decide (37966949 = (x3.toNat : Int)) && decide (268435455 = (x4.toNat : Int)) && decide (0 = (if (⟨8457,
    5936, 49, 65541⟩ : DeviceIdentity) = x5 then 0 else 1)) && decide (12 = (x6.toNat : Int)) && decide (766 =
    (x7.toNat : Int)) && decide (0 = (x8.toNat : Int))) = true := by decide +kernel

-- capability_inquiry,make_discovery_inquiry_v1: lines 557-568
example : holds (do
  let x1 ← CI.makeDiscoveryInquiryV1 37966949 (⟨8457, 5936, 49, 65541⟩ : DeviceIdentity) 12 766
  let x2 ← CI.View.validate x1
  let x3 ← CI.DiscoveryInquiryView.validate x1
  let x4 ← CI.makeView x1
  let x5 ← UniversalSysex.View.deviceId x4
  let x6 ← UniversalSysex.View.type x4
  let x7 ← UniversalSysex.View.subtype x4
  let x8 ← CI.View.messageVersion x4
  let x9 ← CI.View.sourceMuid x4
  let x10 ← CI.View.destinationMuid x4
  return x2 && x3 && decide (127 = (x5.toNat : Int)) && decide (32269 = (x6.toNat : Int)) && decide (112 = (x7.toNat :
    Int)) && decide (1 = (x8.toNat : Int)) && decide (37966949 = (x9.toNat : Int)) && decide (268435455 = (x10.toNat :
    Int))) = true := by decide +kernel

-- capability_inquiry,make_discovery_inquiry_v1: lines 572-575
example : holds (do
  let x1 ← CI.makeDiscoveryInquiryV1 37966949 (⟨8457, 5936, 49, 65541⟩ : DeviceIdentity) 12 766
  let x2 ← CI.makeView x1
  let x3 ← CI.Discovery.identity x2
  let x4 ← CI.Discovery.categories x2
  let x5 ← CI.Discovery.maximumMessageSize x2
  return decide (0 = (if (⟨8457, 5936, 49, 65541⟩ : DeviceIdentity) = x3 then 0 else 1)) && decide (12 = (x4.toNat :
    Int)) && decide (766 = (x5.toNat : Int))) = true := by decide +kernel

-- capability_inquiry,discovery_reply_view: lines 592-603
example : holds (do
  let x1 := (⟨8257536, [127, 13, 113, 1, 119, 85, 51, 17, 68, 51, 34, 17, 0, 33, 9, 1, 24, 25, 4, 1, 2, 4, 8, 32, 0,
    8, 0, 0]⟩ : Sysex)
  let x2 ← CI.View.validate x1
  let x3 ← CI.DiscoveryReplyView.validate x1
  let x4 ← CI.asView CI.DiscoveryReplyView.validate x1
  let x5 ← CI.makeView x1
  let x6 ← UniversalSysex.View.deviceId x5
  let x7 ← UniversalSysex.View.type x5
  let x8 ← UniversalSysex.View.subtype x5
  let x9 ← CI.View.messageVersion x5
  let x10 ← CI.View.sourceMuid x5
  return x2 && x3 && x4.isSome && decide (127 = (x6.toNat : Int)) && decide (32269 = (x7.toNat : Int)) && decide (113
    = (x8.toNat : Int)) && decide (1 = (x9.toNat : Int)) && decide (36498167 = (x10.toNat : Int))) = true := by decide +kernel

-- capability_inquiry,discovery_reply_view: lines 604-614
example : holds (do
  let x1 := (⟨8257536, [127, 13, 113, 1, 119, 85, 51, 17, 68, 51, 34, 17, 0, 33, 9, 1, 24, 25, 4, 1, 2, 4, 8, 32, 0,
    8, 0, 0]⟩ : Sysex)
  let x2 ← CI.makeView x1
  let x3 ← CI.View.destinationMuid x2
  let x4 ← CI.Discovery.identity x2
  let x5 ← CI.Discovery.categories x2
  let x6 ← CI.Discovery.maximumMessageSize x2
  let x7 ← CI.Discovery.outputPathId x2
  return decide (36215236 = (x3.toNat : Int)) && decide (8457 = (x4.manufacturer.toNat : Int)) && decide (3073 =
    (x4.family.toNat : Int)) && decide (537 = (x4.model.toNat : Int)) && decide (16843009 = (x4.revision.toNat : Int))
    && decide (32 = (x5.toNat : Int)) && decide (1024 = (x6.toNat : Int)) && decide (0 = (x7.toNat : Int))) = true := by decide +kernel

-- capability_inquiry,discovery_reply_view: lines 615-633
example : holds (do
  let x1 := (⟨8257536, [127, 13, 113, 1, 119, 85, 51, 17, 68, 51, 34, 17, 0, 33, 9, 1, 24, 25, 4, 1, 2, 4, 8, 32, 0,
    8, 0, 0]⟩ : Sysex)
  let x2 ← CI.makeView x1
  let x3 ← CI.DiscoveryReplyView.functionBlock x2
  let x4 := (⟨8257536, [127, 13, 113, 2, 119, 85, 51, 17, 68, 51, 34, 17, 0, 33, 9, 16, 48, 25, 0, 0, 0, 2, 0, 32, 0,
    8, 0, 0, 119, 2]⟩ : Sysex)
  let x5 ← CI.View.validate x4
  let x6 ← CI.DiscoveryReplyView.validate x4
  let x7 ← CI.asView CI.DiscoveryReplyView.validate x4
  let x8 ← CI.makeView x4
  let x9 ← UniversalSysex.View.deviceId x8
  let x10 ← UniversalSysex.View.type x8
  let x11 ← UniversalSysex.View.subtype x8
  let x12 ← CI.View.messageVersion x8
  return decide (127 = (x3.toNat : Int)) && x5 && x6 && x7.isSome && decide (127 = (x9.toNat : Int)) && decide (32269
    = (x10.toNat : Int)) && decide (113 = (x11.toNat : Int)) && decide (2 = (x12.toNat : Int))) = true := by decide +kernel

-- capability_inquiry,discovery_reply_view: lines 634-644
example : holds (do
  let x1 := (⟨8257536, [127, 13, 113, 2, 119, 85, 51, 17, 68, 51, 34, 17, 0, 33, 9, 16, 48, 25, 0, 0, 0, 2, 0, 32, 0,
    8, 0, 0, 119, 2]⟩ : Sysex)
  let x2 ← CI.makeView x1
  let x3 ← CI.View.sourceMuid x2
  let x4 ← CI.View.destinationMuid x2
  let x5 ← CI.Discovery.identity x2
  let x6 ← CI.Discovery.categories x2
  let x7 ← CI.Discovery.maximumMessageSize x2
  return decide (36498167 = (x3.toNat : Int)) && decide (36215236 = (x4.toNat : Int)) && decide (8457 =
    (x5.manufacturer.toNat : Int)) && decide (6160 = (x5.family.toNat : Int)) && decide (25 = (x5.model.toNat : Int))
    && decide (32768 = (x5.revision.toNat : Int)) && decide (32 = (x6.toNat : Int)) && decide (1024 = (x7.toNat :
    Int))) = true := by decide +kernel

-- capability_inquiry,discovery_reply_view: lines 645-656
example : holds (do
  let x1 := (⟨8257536, [127, 13, 113, 2, 119, 85, 51, 17, 68, 51, 34, 17, 0, 33, 9, 16, 48, 25, 0, 0, 0, 2, 0, 32, 0,
    8, 0, 0, 119, 2]⟩ : Sysex)
  let x2 ← CI.makeView x1
  let x3 ← CI.Discovery.outputPathId x2
  let x4 ← CI.DiscoveryReplyView.functionBlock x2
  let x5 := (⟨8257536, [127, 13, 112, 1, 119, 85, 51, 17, 68, 51, 34, 17, 0, 33, 9, 0, 24, 25, 0, 0, 0, 1, 0, 32, 0,
    8, 0, 0, 1, 2]⟩ : Sysex)
  let x6 ← CI.DiscoveryReplyView.validate x5
  let x7 ← CI.asView CI.DiscoveryReplyView.validate x5
  return decide (119 = (x3.toNat : Int)) && decide (2 = (x4.toNat : Int)) && (!x6) && (!x7.isSome)) = true := by decide +kernel

-- capability_inquiry,discovery_reply: lines 672-684
example : holds (do
  let x1 ← CI.makeDiscoveryReply 54809958 37966949 (⟨8457, 5936, 61, 65541⟩ : DeviceIdentity) 1 256 84 127
  let x2 ← CI.View.validate x1
  let x3 ← CI.DiscoveryReplyView.validate x1
  let x4 ← CI.asView CI.DiscoveryReplyView.validate x1
  let x5 ← CI.makeView x1
  let x6 ← UniversalSysex.View.deviceId x5
  let x7 ← UniversalSysex.View.type x5
  let x8 ← UniversalSysex.View.subtype x5
  let x9 ← CI.View.messageVersion x5
  return decide (30 = (x1.data.length : Int)) && x2 && x3 && x4.isSome && decide (127 = (x6.toNat : Int)) && decide
    (32269 = (x7.toNat : Int)) && decide (113 = (x8.toNat : Int)) && decide (2 = (x9.toNat : Int))) = true := by decide +kernel

-- capability_inquiry,discovery_reply: lines 688-695
example : holds (do
  let x1 ← CI.makeDiscoveryReply 54809958 37966949 (⟨8457, 5936, 61, 65541⟩ : DeviceIdentity) 1 256 84 127
  let x2 ← CI.makeView x1
  let x3 ← CI.Discovery.identity x2
  let x4 ← CI.View.sourceMuid x2
  let x5 ← CI.View.destinationMuid x2
  let x6 ← CI.Discovery.categories x2
  let x7 ← CI.Discovery.maximumMessageSize x2
  let x8 ← CI.Discovery.outputPathId x2
  return decide (0 = (if (⟨8457, 5936, 61, 65541⟩ : DeviceIdentity) = x3 then 0 else 1)) && decide (54809958 =
    (x4.toNat : Int)) && decide (37966949 = (x5.toNat : Int)) && decide (1 = (x6.toNat : Int)) && decide (256 =
    (x7.toNat : Int)) && decide (84 = (x8.toNat : Int))) = true := by decide +kernel

-- capability_inquiry,make_discovery_reply_v1: lines 711-725
example : holds (do
  let x1 ← CI.makeDiscoveryReplyV1 54809958 37966949 (⟨8457, 5936, 61, 65541⟩ : DeviceIdentity) 1 256
  let x2 ← CI.View.validate x1
  let x3 ← CI.DiscoveryReplyView.validate x1
  let x4 ← CI.makeView x1
  let x5 ← UniversalSysex.View.deviceId x4
  let x6 ← UniversalSysex.View.type x4
  let x7 ← UniversalSysex.View.subtype x4
  let x8 ← CI.View.messageVersion x4
  let x9 ← CI.Discovery.identity x4
  return decide (28 = (x1.data.length : Int)) && x2 && x3 && decide (127 = (x5.toNat : Int)) && decide (32269 =
    (x6.toNat : Int)) && decide (113 = (x7.toNat : Int)) && decide (1 = (x8.toNat : Int)) && decide (0 = (if (⟨8457,
    5936, 61, 65541⟩ : DeviceIdentity) = x9 then 0 else 1))) = true := by decide +kernel

-- capability_inquiry,make_discovery_reply_v1: lines 727-732
example : holds (do
  let x1 ← CI.makeDiscoveryReplyV1 54809958 37966949 (⟨8457, 5936, 61, 65541⟩ : DeviceIdentity) 1 256
  let x2 ← CI.makeView x1
  let x3 ← CI.View.sourceMuid x2
  let x4 ← CI.View.destinationMuid x2
  let x5 ← CI.Discovery.categories x2
  let x6 ← CI.Discovery.maximumMessageSize x2
  let x7 ← CI.Discovery.outputPathId x2
  return decide (54809958 = (x3.toNat : Int)) && decide (37966949 = (x4.toNat : Int)) && decide (1 = (x5.toNat : Int))
    && decide (256 = (x6.toNat : Int)) && decide (0 = (x7.toNat : Int))) = true := by decide +kernel

-- capability_inquiry,endpoint_information_inquiry_view: lines 748-759
example : holds (do
  let x1 := (⟨8257536, [127, 13, 114, 2, 119, 85, 51, 17, 68, 51, 34, 17, 0]⟩ : Sysex)
  let x2 ← CI.View.validate x1
  let x3 ← CI.EndpointInformationInquiryView.validate x1
  let x4 ← CI.asView CI.EndpointInformationInquiryView.validate x1
  let x5 ← CI.makeView x1
  let x6 ← UniversalSysex.View.deviceId x5
  let x7 ← UniversalSysex.View.type x5
  let x8 ← UniversalSysex.View.subtype x5
  let x9 ← CI.View.messageVersion x5
  let x10 ← CI.View.sourceMuid x5
  return x2 && x3 && x4.isSome && decide (127 = (x6.toNat : Int)) && decide (32269 = (x7.toNat : Int)) && decide (114
    = (x8.toNat : Int)) && decide (2 = (x9.toNat : Int)) && decide (36498167 = (x10.toNat : Int))) = true := by decide +kernel

-- capability_inquiry,endpoint_information_inquiry_view: lines 760-779
example : holds (do
  let x1 := (⟨8257536, [127, 13, 114, 2, 119, 85, 51, 17, 68, 51, 34, 17, 0]⟩ : Sysex)
  let x2 ← CI.makeView x1
  let x3 ← CI.View.destinationMuid x2
  let x4 ← CI.EndpointInformationInquiryView.status x2
  let x5 := (⟨8257536, [127, 13, 115, 2, 119, 85, 51, 17, 68, 51, 34, 17, 0]⟩ : Sysex)
  let x6 ← CI.EndpointInformationInquiryView.validate x5
  let x7 ← CI.asView CI.EndpointInformationInquiryView.validate x5
  let x8 := (⟨8257536, [127, 13, 114, 2, 119, 85, 51, 17, 68, 51, 34, 17]⟩ : Sysex)
  let x9 ← CI.EndpointInformationInquiryView.validate x8
  let x10 ← CI.asView CI.EndpointInformationInquiryView.validate x8
  return decide (36215236 = (x3.toNat : Int)) && decide (0 = (x4.toNat : Int)) && (!x6) && (!x7.isSome) && (!x9) &&
    (!x10.isSome)) = true := by decide +kernel

-- capability_inquiry,make_endpoint_information_inquiry: lines 794-806
example : holds (do
  let x1 ← CI.makeEndpointInformationInquiry 54809958 37966949 34
  let x2 ← CI.View.validate x1
  let x3 ← CI.EndpointInformationInquiryView.validate x1
  let x4 ← CI.makeView x1
  let x5 ← UniversalSysex.View.deviceId x4
  let x6 ← UniversalSysex.View.type x4
  let x7 ← UniversalSysex.View.subtype x4
  let x8 ← CI.View.messageVersion x4
  let x9 ← CI.View.sourceMuid x4
  return x2 && x3 && decide (13 = (x1.data.length : Int)) && decide (127 = (x5.toNat : Int)) && decide (32269 =
    (x6.toNat : Int)) && decide (114 = (x7.toNat : Int)) && decide (2 = (x8.toNat : Int)) && decide (54809958 =
    (x9.toNat : Int))) = true := by decide +kernel

-- capability_inquiry,make_endpoint_information_inquiry: lines 807-809
example : holds (do
  let x1 ← CI.makeEndpointInformationInquiry 54809958 37966949 34
  let x2 ← CI.makeView x1
  let x3 ← CI.View.destinationMuid x2
  let x4 ← CI.EndpointInformationInquiryView.status x2
  return decide (37966949 = (x3.toNat : Int)) && decide (34 = (x4.toNat : Int))) = true := by decide +kernel

-- capability_inquiry,endpoint_information_reply_view: lines 826-837
example : holds (do
  let x1 := (⟨8257536, [127, 13, 115, 2, 119, 85, 51, 17, 68, 51, 34, 17, 0, 5, 0, 113, 98, 83, 68, 53]⟩ : Sysex)
  let x2 ← CI.View.validate x1
  let x3 ← CI.EndpointInformationReplyView.validate x1
  let x4 ← CI.asView CI.EndpointInformationReplyView.validate x1
  let x5 ← CI.makeView x1
  let x6 ← UniversalSysex.View.deviceId x5
  let x7 ← UniversalSysex.View.type x5
  let x8 ← UniversalSysex.View.subtype x5
  let x9 ← CI.View.messageVersion x5
  let x10 ← CI.View.sourceMuid x5
  return x2 && x3 && x4.isSome && decide (127 = (x6.toNat : Int)) && decide (32269 = (x7.toNat : Int)) && decide (115
    = (x8.toNat : Int)) && decide (2 = (x9.toNat : Int)) && decide (36498167 = (x10.toNat : Int))) = true := by decide +kernel

-- capability_inquiry,endpoint_information_reply_view: lines 838-847
example : holds (do
  let x1 := (⟨8257536, [127, 13, 115, 2, 119, 85, 51, 17, 68, 51, 34, 17, 0, 5, 0, 113, 98, 83, 68, 53]⟩ : Sysex)
  let x2 ← CI.makeView x1
  let x3 ← CI.View.destinationMuid x2
  let x4 ← CI.EndpointInformationReplyView.status x2
  let x5 ← CI.EndpointInformationReplyView.dataLength x2
  let x6 ← CI.EndpointInformationReplyView.data x2
  let x7 ← index x6 0
  let x8 ← index x6 1
  let x9 ← index x6 2
  let x10 ← index x6 3
  let x11 ← index x6 4
  return decide (36215236 = (x3.toNat : Int)) && decide (0 = (x4.toNat : Int)) && decide (5 = (x5.toNat : Int)) &&
    decide (113 = (x7.toNat : Int)) && decide (98 = (x8.toNat : Int)) && decide (83 = (x9.toNat : Int)) && decide (68
    = (x10.toNat : Int)) && decide (53 = (x11.toNat : Int))) = true := by decide +kernel

-- capability_inquiry,endpoint_information_reply_view: lines 856-857
example : holds (do
  let x1 := (⟨8257536, [127, 13, 117, 2, 119, 85, 51, 17, 68, 51, 34, 17, 0, 5, 0, 113, 98, 83, 68, 53]⟩ : Sysex)
  let x2 ← CI.EndpointInformationReplyView.validate x1
  let x3 ← CI.asView CI.EndpointInformationReplyView.validate x1
  return (!x2) && (!x3.isSome)) = true := by decide +kernel

-- capability_inquiry,make_endpoint_information_reply: lines 896-908
example : holds (do
  let x1 ← CI.makeEndpointInformationReply 54809958 37966949 8 (List.take 9 [9, 8, 7, 6, 5, 4, 3, 2, 1])
  let x2 ← CI.View.validate x1
  let x3 ← CI.EndpointInformationReplyView.validate x1
  let x4 ← CI.asView CI.EndpointInformationReplyView.validate x1
  let x5 ← CI.makeView x1
  let x6 ← UniversalSysex.View.deviceId x5
  let x7 ← UniversalSysex.View.type x5
  let x8 ← UniversalSysex.View.subtype x5
  let x9 ← CI.View.messageVersion x5
  return decide (24 = (x1.data.length : Int)) && x2 && x3 && x4.isSome && decide (127 = (x6.toNat : Int)) && decide
    (32269 = (x7.toNat : Int)) && decide (115 = (x8.toNat : Int)) && decide (2 = (x9.toNat : Int))) = true := by decide +kernel

-- capability_inquiry,make_endpoint_information_reply: lines 910-916
example : holds (do
  let x1 ← CI.makeEndpointInformationReply 54809958 37966949 8 (List.take 9 [9, 8, 7, 6, 5, 4, 3, 2, 1])
  let x2 ← CI.makeView x1
  let x3 ← CI.View.sourceMuid x2
  let x4 ← CI.View.destinationMuid x2
  let x5 ← CI.EndpointInformationReplyView.status x2
  let x6 ← CI.EndpointInformationReplyView.dataLength x2
  let x7 ← CI.EndpointInformationReplyView.data x2
  return decide (54809958 = (x3.toNat : Int)) && decide (37966949 = (x4.toNat : Int)) && decide (8 = (x5.toNat : Int))
    && decide (9 = (x6.toNat : Int)) && decide ((List.take x6.toNat x7) = [9, 8, 7, 6, 5, 4, 3, 2, 1])) = true := by decide +kernel

-- capability_inquiry,invalidate_muid: lines 933-945
example : holds (do
  let x1 ← CI.makeInvalidateMuid 37966949 162254319
  let x2 ← CI.View.validate x1
  let x3 ← CI.InvalidateMuidView.validate x1
  let x4 ← CI.asView CI.InvalidateMuidView.validate x1
  let x5 ← CI.makeView x1
  let x6 ← UniversalSysex.View.deviceId x5
  let x7 ← UniversalSysex.View.type x5
  let x8 ← UniversalSysex.View.subtype x5
  let x9 ← CI.View.messageVersion x5
  return decide (16 = (x1.data.length : Int)) && x2 && x3 && x4.isSome && decide (127 = (x6.toNat : Int)) && decide
    (32269 = (x7.toNat : Int)) && decide (126 = (x8.toNat : Int)) && decide (2 = (x9.toNat : Int))) = true := by decide +kernel

-- capability_inquiry,invalidate_muid: lines 946-948
example : holds (do
  let x1 ← CI.makeInvalidateMuid 37966949 162254319
  let x2 ← CI.makeView x1
  let x3 ← CI.View.sourceMuid x2
  let x4 ← CI.View.destinationMuid x2
  let x5 ← CI.InvalidateMuidView.targetMuid x2
  return decide (37966949 = (x3.toNat : Int)) && decide (268435455 = (x4.toNat : Int)) && decide (162254319 =
    (x5.toNat : Int))) = true := by decide +kernel

-- capability_inquiry,ack_view: lines 965-976
example : holds (do
  let x1 := (⟨8257536, [9, 13, 125, 2, 69, 86, 71, 56, 68, 51, 34, 17, 69, 16, 10, 1, 1, 0, 0, 0, 7, 0, 84, 105, 109,
    101, 111, 117, 116]⟩ : Sysex)
  let x2 ← CI.View.validate x1
  let x3 ← CI.AckView.validate x1
  let x4 ← CI.asView CI.AckView.validate x1
  let x5 ← CI.makeView x1
  let x6 ← UniversalSysex.View.deviceId x5
  let x7 ← UniversalSysex.View.type x5
  let x8 ← UniversalSysex.View.subtype x5
  let x9 ← CI.View.messageVersion x5
  let x10 ← CI.View.sourceMuid x5
  return x2 && x3 && x4.isSome && decide (9 = (x6.toNat : Int)) && decide (32269 = (x7.toNat : Int)) && decide (125 =
    (x8.toNat : Int)) && decide (2 = (x9.toNat : Int)) && decide (118614853 = (x10.toNat : Int))) = true := by decide +kernel

-- capability_inquiry,ack_view: lines 977-986
example : holds (do
  let x1 := (⟨8257536, [9, 13, 125, 2, 69, 86, 71, 56, 68, 51, 34, 17, 69, 16, 10, 1, 1, 0, 0, 0, 7, 0, 84, 105, 109,
    101, 111, 117, 116]⟩ : Sysex)
  let x2 ← CI.makeView x1
  let x3 ← CI.View.destinationMuid x2
  let x4 ← CI.Nack.transaction x2
  let x5 ← CI.Nack.statusCode x2
  let x6 ← CI.Nack.statusData x2
  let x7 ← CI.Nack.details x2
  let x8 ← index x7 0
  let x9 ← index x7 1
  let x10 ← index x7 2
  let x11 ← index x7 3
  return decide (36215236 = (x3.toNat : Int)) && decide (69 = (x4.toNat : Int)) && decide (16 = (x5.toNat : Int)) &&
    decide (10 = (x6.toNat : Int)) && decide (1 = (x8.toNat : Int)) && decide (1 = (x9.toNat : Int)) && decide (0 =
    (x10.toNat : Int)) && decide (0 = (x11.toNat : Int))) = true := by decide +kernel

-- capability_inquiry,ack_view: lines 987-1005
example : holds (do
  let x1 := (⟨8257536, [9, 13, 125, 2, 69, 86, 71, 56, 68, 51, 34, 17, 69, 16, 10, 1, 1, 0, 0, 0, 7, 0, 84, 105, 109,
    101, 111, 117, 116]⟩ : Sysex)
  let x2 ← CI.makeView x1
  let x3 ← CI.Nack.details x2
  let x4 ← index x3 4
  let x5 ← CI.Nack.messageLength x2
  let x6 ← CI.Nack.message x2
  let x7 := (⟨8257536, [126, 13, 125, 2, 119, 85, 51, 17, 68, 51, 34, 17, 34, 0, 0, 0, 0, 0, 0, 0, 0, 0]⟩ : Sysex)
  let x8 ← CI.View.validate x7
  let x9 ← CI.AckView.validate x7
  let x10 ← CI.asView CI.AckView.validate x7
  let x11 ← CI.makeView x7
  let x12 ← UniversalSysex.View.deviceId x11
  let x13 ← UniversalSysex.View.type x11
  return decide (0 = (x4.toNat : Int)) && decide (7 = (x5.toNat : Int)) && decide (x6 = [84, 105, 109, 101, 111, 117,
    116]) && x8 && x9 && x10.isSome && decide (126 = (x12.toNat : Int)) && decide (32269 = (x13.toNat : Int))) = true := by decide +kernel

-- capability_inquiry,ack_view: lines 1006-1016
example : holds (do
  let x1 := (⟨8257536, [126, 13, 125, 2, 119, 85, 51, 17, 68, 51, 34, 17, 34, 0, 0, 0, 0, 0, 0, 0, 0, 0]⟩ : Sysex)
  let x2 ← CI.makeView x1
  let x3 ← UniversalSysex.View.subtype x2
  let x4 ← CI.View.messageVersion x2
  let x5 ← CI.View.sourceMuid x2
  let x6 ← CI.View.destinationMuid x2
  let x7 ← CI.Nack.transaction x2
  let x8 ← CI.Nack.statusCode x2
  let x9 ← CI.Nack.statusData x2
  let x10 ← CI.Nack.details x2
  let x11 ← index x10 0
  return decide (125 = (x3.toNat : Int)) && decide (2 = (x4.toNat : Int)) && decide (36498167 = (x5.toNat : Int)) &&
    decide (36215236 = (x6.toNat : Int)) && decide (34 = (x7.toNat : Int)) && decide (0 = (x8.toNat : Int)) && decide
    (0 = (x9.toNat : Int)) && decide (0 = (x11.toNat : Int))) = true := by decide +kernel

-- capability_inquiry,ack_view: lines 1017-1041
example : holds (do
  let x1 := (⟨8257536, [126, 13, 125, 2, 119, 85, 51, 17, 68, 51, 34, 17, 34, 0, 0, 0, 0, 0, 0, 0, 0, 0]⟩ : Sysex)
  let x2 ← CI.makeView x1
  let x3 ← CI.Nack.details x2
  let x4 ← index x3 1
  let x5 ← index x3 2
  let x6 ← index x3 3
  let x7 ← index x3 4
  let x8 ← CI.Nack.messageLength x2
  let x9 := (⟨8257536, [126, 13, 126, 2, 119, 85, 51, 17, 68, 51, 34, 17, 34, 0, 0, 0, 0, 0, 0, 0, 0, 0]⟩ : Sysex)
  let x10 ← CI.AckView.validate x9
  let x11 ← CI.asView CI.AckView.validate x9
  let x12 := (⟨8257536, [9, 13, 125, 2, 69, 86, 71, 56, 68, 51, 34, 17, 69, 16, 10, 1, 1, 0, 0, 0, 7, 0, 79, 111, 112,
    115]⟩ : Sysex)
  let x13 ← CI.AckView.validate x12
  return decide (0 = (x4.toNat : Int)) && decide (0 = (x5.toNat : Int)) && decide (0 = (x6.toNat : Int)) && decide (0
    = (x7.toNat : Int)) && decide (0 = (x8.toNat : Int)) && (!x10) && (!x11.isSome) && (!x13)) = true := by decide +kernel

-- capability_inquiry,ack_view: line 1042
example : holds (do
  let x1 := (⟨8257536, [9, 13, 125, 2, 69, 86, 71, 56, 68, 51, 34, 17, 69, 16, 10, 1, 1, 0, 0, 0, 7, 0, 79, 111, 112,
    115]⟩ : Sysex)
  let x2 ← CI.asView CI.AckView.validate x1
  return (!x2.isSome)) = true := by decide +kernel

-- capability_inquiry,make_ack_message: lines 1069-1080
example : holds (do
  let x1 ← CI.makeAck 37966949 19088743 4 54 16 20 ⟨5, 4, 3, 2, 1⟩ [65, 32, 109, 101, 115, 115, 97, 103, 101, 32, 116,
    101, 120, 116]
  let x2 ← CI.View.validate x1
  let x3 ← CI.AckView.validate x1
  let x4 ← CI.asView CI.AckView.validate x1
  let x5 ← CI.makeView x1
  let x6 ← UniversalSysex.View.deviceId x5
  let x7 ← UniversalSysex.View.type x5
  let x8 ← UniversalSysex.View.subtype x5
  let x9 ← CI.View.messageVersion x5
  let x10 ← CI.View.sourceMuid x5
  return x2 && x3 && x4.isSome && decide (4 = (x6.toNat : Int)) && decide (32269 = (x7.toNat : Int)) && decide (125 =
    (x8.toNat : Int)) && decide (2 = (x9.toNat : Int)) && decide (37966949 = (x10.toNat : Int))) = true := by decide +kernel

-- capability_inquiry,make_ack_message: lines 1081-1090
example : holds (do
  let x1 ← CI.makeAck 37966949 19088743 4 54 16 20 ⟨5, 4, 3, 2, 1⟩ [65, 32, 109, 101, 115, 115, 97, 103, 101, 32, 116,
    101, 120, 116]
  let x2 ← CI.makeView x1
  let x3 ← CI.View.destinationMuid x2
  let x4 ← CI.Nack.transaction x2
  let x5 ← CI.Nack.statusCode x2
  let x6 ← CI.Nack.statusData x2
  let x7 ← CI.Nack.details x2
  let x8 ← CI.Nack.messageLength x2
  let x9 ← CI.Nack.message x2
  return decide (19088743 = (x3.toNat : Int)) && decide (54 = (x4.toNat : Int)) && decide (16 = (x5.toNat : Int)) &&
    decide (20 = (x6.toNat : Int)) && decide (0 = (if List.take 5 [5, 4, 3, 2, 1] = List.take 5 x7 then 0 else 1)) &&
    decide (14 = (x8.toNat : Int)) && decide (x9 = [65, 32, 109, 101, 115, 115, 97, 103, 101, 32, 116, 101, 120, 116])) = true := by decide +kernel

-- capability_inquiry,nak_view: lines 1107-1118
example : holds (do
  let x1 := (⟨8257536, [9, 13, 127, 2, 69, 86, 71, 56, 68, 51, 34, 17, 69, 16, 10, 1, 1, 0, 0, 0, 7, 0, 84, 105, 109,
    101, 111, 117, 116]⟩ : Sysex)
  let x2 ← CI.View.validate x1
  let x3 ← CI.NakView.validate x1
  let x4 ← CI.asView CI.NakView.validate x1
  let x5 ← CI.makeView x1
  let x6 ← UniversalSysex.View.deviceId x5
  let x7 ← UniversalSysex.View.type x5
  let x8 ← UniversalSysex.View.subtype x5
  let x9 ← CI.View.messageVersion x5
  let x10 ← CI.View.sourceMuid x5
  return x2 && x3 && x4.isSome && decide (9 = (x6.toNat : Int)) && decide (32269 = (x7.toNat : Int)) && decide (127 =
    (x8.toNat : Int)) && decide (2 = (x9.toNat : Int)) && decide (118614853 = (x10.toNat : Int))) = true := by decide +kernel

-- capability_inquiry,nak_view: lines 1119-1128
example : holds (do
  let x1 := (⟨8257536, [9, 13, 127, 2, 69, 86, 71, 56, 68, 51, 34, 17, 69, 16, 10, 1, 1, 0, 0, 0, 7, 0, 84, 105, 109,
    101, 111, 117, 116]⟩ : Sysex)
  let x2 ← CI.makeView x1
  let x3 ← CI.View.destinationMuid x2
  let x4 ← CI.Nack.transaction x2
  let x5 ← CI.Nack.statusCode x2
  let x6 ← CI.Nack.statusData x2
  let x7 ← CI.Nack.details x2
  let x8 ← index x7 0
  let x9 ← index x7 1
  let x10 ← index x7 2
  let x11 ← index x7 3
  return decide (36215236 = (x3.toNat : Int)) && decide (69 = (x4.toNat : Int)) && decide (16 = (x5.toNat : Int)) &&
    decide (10 = (x6.toNat : Int)) && decide (1 = (x8.toNat : Int)) && decide (1 = (x9.toNat : Int)) && decide (0 =
    (x10.toNat : Int)) && decide (0 = (x11.toNat : Int))) = true := by decide +kernel

-- capability_inquiry,nak_view: lines 1129-1147
example : holds (do
  let x1 := (⟨8257536, [9, 13, 127, 2, 69, 86, 71, 56, 68, 51, 34, 17, 69, 16, 10, 1, 1, 0, 0, 0, 7, 0, 84, 105, 109,
    101, 111, 117, 116]⟩ : Sysex)
  let x2 ← CI.makeView x1
  let x3 ← CI.Nack.details x2
  let x4 ← index x3 4
  let x5 ← CI.Nack.messageLength x2
  let x6 ← CI.Nack.message x2
  let x7 := (⟨8257536, [126, 13, 127, 2, 119, 85, 51, 17, 68, 51, 34, 17, 34, 0, 0, 0, 0, 0, 0, 0, 0, 0]⟩ : Sysex)
  let x8 ← CI.View.validate x7
  let x9 ← CI.NakView.validate x7
  let x10 ← CI.asView CI.NakView.validate x7
  let x11 ← CI.makeView x7
  let x12 ← UniversalSysex.View.deviceId x11
  let x13 ← UniversalSysex.View.type x11
  return decide (0 = (x4.toNat : Int)) && decide (7 = (x5.toNat : Int)) && decide (x6 = [84, 105, 109, 101, 111, 117,
    116]) && x8 && x9 && x10.isSome && decide (126 = (x12.toNat : Int)) && decide (32269 = (x13.toNat : Int))) = true := by decide +kernel

-- capability_inquiry,nak_view: lines 1148-1158
example : holds (do
  let x1 := (⟨8257536, [126, 13, 127, 2, 119, 85, 51, 17, 68, 51, 34, 17, 34, 0, 0, 0, 0, 0, 0, 0, 0, 0]⟩ : Sysex)
  let x2 ← CI.makeView x1
  let x3 ← UniversalSysex.View.subtype x2
  let x4 ← CI.View.messageVersion x2
  let x5 ← CI.View.sourceMuid x2
  let x6 ← CI.View.destinationMuid x2
  let x7 ← CI.Nack.transaction x2
  let x8 ← CI.Nack.statusCode x2
  let x9 ← CI.Nack.statusData x2
  let x10 ← CI.Nack.details x2
  let x11 ← index x10 0
  return decide (127 = (x3.toNat : Int)) && decide (2 = (x4.toNat : Int)) && decide (36498167 = (x5.toNat : Int)) &&
    decide (36215236 = (x6.toNat : Int)) && decide (34 = (x7.toNat : Int)) && decide (0 = (x8.toNat : Int)) && decide
    (0 = (x9.toNat : Int)) && decide (0 = (x11.toNat : Int))) = true := by decide +kernel

-- capability_inquiry,nak_view: lines 1159-1182
example : holds (do
  let x1 := (⟨8257536, [126, 13, 127, 2, 119, 85, 51, 17, 68, 51, 34, 17, 34, 0, 0, 0, 0, 0, 0, 0, 0, 0]⟩ : Sysex)
  let x2 ← CI.makeView x1
  let x3 ← CI.Nack.details x2
  let x4 ← index x3 1
  let x5 ← index x3 2
  let x6 ← index x3 3
  let x7 ← index x3 4
  let x8 ← CI.Nack.messageLength x2
  let x9 := (⟨8257536, [126, 13, 127, 1, 119, 85, 51, 17, 68, 51, 34, 17]⟩ : Sysex)
  let x10 ← CI.NakView.validate x9
  let x11 ← CI.asView CI.NakView.validate x9
  let x12 := (⟨8257536, [126, 13, 126, 2, 119, 85, 51, 17, 68, 51, 34, 17, 34, 0, 0, 0, 0, 0, 0, 0, 0, 0]⟩ : Sysex)
  let x13 ← CI.NakView.validate x12
  return decide (0 = (x4.toNat : Int)) && decide (0 = (x5.toNat : Int)) && decide (0 = (x6.toNat : Int)) && decide (0
    = (x7.toNat : Int)) && decide (0 = (x8.toNat : Int)) && (!x10) && (!x11.isSome) && (!x13)) = true := by decide +kernel

-- capability_inquiry,nak_view: lines 1183-1193
example : holds (do
  let x1 := (⟨8257536, [126, 13, 126, 2, 119, 85, 51, 17, 68, 51, 34, 17, 34, 0, 0, 0, 0, 0, 0, 0, 0, 0]⟩ : Sysex)
  let x2 ← CI.asView CI.NakView.validate x1
  let x3 := (⟨8257536, [9, 13, 127, 2, 69, 86, 71, 56, 68, 51, 34, 17, 69, 16, 10, 1, 1, 0, 0, 0, 7, 0, 79, 111, 112,
    115]⟩ : Sysex)
  let x4 ← CI.NakView.validate x3
  let x5 ← CI.asView CI.NakView.validate x3
  return (!x2.isSome) && (!x4) && (!x5.isSome)) = true := by decide +kernel

-- capability_inquiry,make_nak_message_v1: lines 1208-1220
example : holds (do
  let x1 ← CI.makeNakV1 37966949 19088743 8
  let x2 ← CI.View.validate x1
  let x3 ← CI.asView CI.View.validate x1
  let x4 ← CI.makeView x1
  let x5 ← UniversalSysex.View.type x4
  let x6 ← UniversalSysex.View.subtype x4
  let x7 ← CI.View.messageVersion x4
  let x8 ← CI.View.sourceMuid x4
  return x2 && x3.isSome && decide (12 = (x1.data.length : Int)) && decide (32269 = (x5.toNat : Int)) && decide (127 =
    (x6.toNat : Int)) && decide (1 = (x7.toNat : Int)) && decide (37966949 = (x8.toNat : Int))) = true := by decide +kernel

-- capability_inquiry,make_nak_message_v1: lines 1221-1246
example : holds (do
  let x1 ← CI.makeNakV1 37966949 19088743 8
  let x2 ← CI.makeView x1
  let x3 ← CI.View.destinationMuid x2
  let x4 ← UniversalSysex.View.deviceId x2
  let x5 ← CI.makeDiscoveryReplyV1 54809958 37966949 (⟨8457, 5936, 61, 65541⟩ : DeviceIdentity) 1 256
  let x6 ← CI.makeView x5
  let x7 ← CI.makeNakV1For x6
  let x8 ← CI.View.validate x7
  let x9 ← CI.asView CI.View.validate x7
  let x10 ← CI.makeView x7
  let x11 ← UniversalSysex.View.type x10
  let x12 ← UniversalSysex.View.subtype x10
  return decide (19088743 = (x3.toNat : Int)) && decide (8 = (x4.toNat : Int)) && x8 && x9.isSome && decide (12 =
    (x7.data.length : Int)) && decide (32269 = (x11.toNat : Int)) && decide (127 = (x12.toNat : Int))) = true := by decide +kernel

-- capability_inquiry,make_nak_message_v1: lines 1248-1252
example : holds (do
  let x1 ← CI.makeDiscoveryReplyV1 54809958 37966949 (⟨8457, 5936, 61, 65541⟩ : DeviceIdentity) 1 256
  let x2 ← CI.makeView x1
  let x3 ← CI.makeNakV1For x2
  let x4 ← CI.makeView x3
  let x5 ← CI.View.messageVersion x4
  let x6 ← CI.View.sourceMuid x4
  let x7 ← CI.View.destinationMuid x4
  let x8 ← UniversalSysex.View.deviceId x4
  return decide (1 = (x5.toNat : Int)) && decide (37966949 = (x6.toNat : Int)) && decide (54809958 = (x7.toNat : Int))
    && decide (127 = (x8.toNat : Int))) = true := by decide +kernel

-- capability_inquiry,make_nak_message: lines 1281-1292
example : holds (do
  let x1 ← CI.makeNak 37966949 19088743 4 54 16 20 ⟨5, 4, 3, 2, 1⟩ [65, 32, 109, 101, 115, 115, 97, 103, 101, 32, 116,
    101, 120, 116]
  let x2 ← CI.View.validate x1
  let x3 ← CI.NakView.validate x1
  let x4 ← CI.asView CI.NakView.validate x1
  let x5 ← CI.makeView x1
  let x6 ← UniversalSysex.View.deviceId x5
  let x7 ← UniversalSysex.View.type x5
  let x8 ← UniversalSysex.View.subtype x5
  let x9 ← CI.View.messageVersion x5
  let x10 ← CI.View.sourceMuid x5
  return x2 && x3 && x4.isSome && decide (4 = (x6.toNat : Int)) && decide (32269 = (x7.toNat : Int)) && decide (127 =
    (x8.toNat : Int)) && decide (2 = (x9.toNat : Int)) && decide (37966949 = (x10.toNat : Int))) = true := by decide +kernel

-- capability_inquiry,make_nak_message: lines 1293-1315
example : holds (do
  let x1 ← CI.makeNak 37966949 19088743 4 54 16 20 ⟨5, 4, 3, 2, 1⟩ [65, 32, 109, 101, 115, 115, 97, 103, 101, 32, 116,
    101, 120, 116]
  let x2 ← CI.makeView x1
  let x3 ← CI.View.destinationMuid x2
  let x4 ← CI.Nack.transaction x2
  let x5 ← CI.Nack.statusCode x2
  let x6 ← CI.Nack.statusData x2
  let x7 ← CI.Nack.details x2
  let x8 ← CI.Nack.messageLength x2
  let x9 ← CI.Nack.message x2
  let x10 ← CI.makeNotify 43862066 92193834 (42) 0 9
  let x11 ← CI.makeView x10
  let x12 ← CI.makeNakFor x11 88 15 ⟨5, 4, 3, 2, 1⟩ [87, 104, 97, 116, 63, 33, 63]
  let x13 ← CI.View.validate x12
  return decide (19088743 = (x3.toNat : Int)) && decide (54 = (x4.toNat : Int)) && decide (16 = (x5.toNat : Int)) &&
    decide (20 = (x6.toNat : Int)) && decide (0 = (if List.take 5 [5, 4, 3, 2, 1] = List.take 5 x7 then 0 else 1)) &&
    decide (14 = (x8.toNat : Int)) && decide (x9 = [65, 32, 109, 101, 115, 115, 97, 103, 101, 32, 116, 101, 120, 116])
    && x13) = true := by decide +kernel

-- capability_inquiry,make_nak_message: lines 1316-1327
example : holds (do
  let x1 ← CI.makeNotify 43862066 92193834 (42) 0 9
  let x2 ← CI.makeView x1
  let x3 ← CI.makeNakFor x2 88 15 ⟨5, 4, 3, 2, 1⟩ [87, 104, 97, 116, 63, 33, 63]
  let x4 ← CI.NakView.validate x3
  let x5 ← CI.asView CI.NakView.validate x3
  let x6 ← CI.makeView x3
  let x7 ← UniversalSysex.View.deviceId x6
  let x8 ← UniversalSysex.View.type x6
  let x9 ← UniversalSysex.View.subtype x6
  let x10 ← CI.View.messageVersion x6
  let x11 ← CI.View.sourceMuid x6
  let x12 ← CI.View.destinationMuid x6
  return x4 && x5.isSome && decide (9 = (x7.toNat : Int)) && decide (32269 = (x8.toNat : Int)) && decide (127 =
    (x9.toNat : Int)) && decide (2 = (x10.toNat : Int)) && decide (92193834 = (x11.toNat : Int)) && decide (43862066 =
    (x12.toNat : Int))) = true := by decide +kernel

-- capability_inquiry,make_nak_message: lines 1329-1336
example : holds (do
  let x1 ← CI.makeNotify 43862066 92193834 (42) 0 9
  let x2 ← CI.makeView x1
  let x3 ← CI.makeNakFor x2 88 15 ⟨5, 4, 3, 2, 1⟩ [87, 104, 97, 116, 63, 33, 63]
  let x4 ← CI.makeView x3
  let x5 ← CI.Nack.transaction x4
  let x6 ← CI.Nack.statusCode x4
  let x7 ← CI.Nack.statusData x4
  let x8 ← CI.Nack.details x4
  let x9 ← CI.Nack.messageLength x4
  let x10 ← CI.Nack.message x4
  return decide (63 = (x5.toNat : Int)) && decide (88 = (x6.toNat : Int)) && decide (15 = (x7.toNat : Int)) && decide
    (0 = (if List.take 5 [5, 4, 3, 2, 1] = List.take 5 x8 then 0 else 1)) && decide (7 = (x9.toNat : Int)) && decide
    (x10 = [87, 104, 97, 116, 63, 33, 63])) = true := by decide +kernel

end Midi.Conformance
