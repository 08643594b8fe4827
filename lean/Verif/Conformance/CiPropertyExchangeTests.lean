import Verif.Conformance.Prelude
import Verif.Model.ByteStream
import Verif.Model.CapabilityInquiry
import Verif.Model.Collector
import Verif.Model.Defaults
import Verif.Model.FlexData
import Verif.Model.Jitter
import Verif.Model.PitchTypes
import Verif.Model.Senders
import Verif.Model.Stream
import Verif.Model.Sysex
import Verif.Model.SysexPackets
import Verif.Model.TextFormat
import Verif.Model.Types
import Verif.Model.UniversalSysex
import Verif.Model.Reentrant

/-!
The expectations of tests/ci_property_exchange_tests.cpp about the model. Generated by tools/conformance.
-/

namespace Midi.Conformance

open Midi

-- ci_property_exchange,property_exchange_capabilities_view: lines 48-58
example : holds (do
  let x1 := (⟨8257536, [127, 13, 48, 1, 120, 86, 52, 18, 119, 85, 51, 17, 2]⟩ : Sysex)
  let x2 ← CI.PropertyExchangeCapabilitiesView.validate x1
  let x3 ← CI.asView CI.PropertyExchangeCapabilitiesView.validate x1
  let x4 ← CI.makeView x1
  let x5 ← UniversalSysex.View.deviceId x4
  let x6 ← UniversalSysex.View.type x4
  let x7 ← UniversalSysex.View.subtype x4
  let x8 ← CI.View.messageVersion x4
  let x9 ← CI.View.sourceMuid x4
  let x10 ← CI.View.destinationMuid x4
  return x2 && x3.isSome && decide (127 = (x5.toNat : Int)) && decide (32269 = (x6.toNat : Int)) && decide (48 =
    (x7.toNat : Int)) && decide (1 = (x8.toNat : Int)) && decide (38611832 = (x9.toNat : Int)) && decide (36498167 =
    (x10.toNat : Int))) = true := by decide +kernel

-- ci_property_exchange,property_exchange_capabilities_view: lines 60-76
example : holds (do
  let x1 := (⟨8257536, [127, 13, 48, 1, 120, 86, 52, 18, 119, 85, 51, 17, 2]⟩ : Sysex)
  let x2 ← CI.makeView x1
  let x3 ← CI.PropertyExchangeCapabilitiesView.maxRequests x2
  let x4 ← CI.PropertyExchangeCapabilitiesView.versionMajor x2
  let x5 ← CI.PropertyExchangeCapabilitiesView.versionMinor x2
  let x6 := (⟨8257536, [127, 13, 49, 2, 120, 86, 52, 18, 119, 85, 51, 17, 3, 1, 2]⟩ : Sysex)
  let x7 ← CI.PropertyExchangeCapabilitiesView.validate x6
  let x8 ← CI.asView CI.PropertyExchangeCapabilitiesView.validate x6
  let x9 ← CI.makeView x6
  let x10 ← UniversalSysex.View.deviceId x9
  let x11 ← UniversalSysex.View.type x9
  let x12 ← UniversalSysex.View.subtype x9
  return decide (2 = (x3.toNat : Int)) && decide (0 = (x4.toNat : Int)) && decide (0 = (x5.toNat : Int)) && x7 &&
    x8.isSome && decide (127 = (x10.toNat : Int)) && decide (32269 = (x11.toNat : Int)) && decide (49 = (x12.toNat :
    Int))) = true := by decide +kernel

-- ci_property_exchange,property_exchange_capabilities_view: lines 77-92
example : holds (do
  let x1 := (⟨8257536, [127, 13, 49, 2, 120, 86, 52, 18, 119, 85, 51, 17, 3, 1, 2]⟩ : Sysex)
  let x2 ← CI.makeView x1
  let x3 ← CI.View.messageVersion x2
  let x4 ← CI.View.sourceMuid x2
  let x5 ← CI.View.destinationMuid x2
  let x6 ← CI.PropertyExchangeCapabilitiesView.maxRequests x2
  let x7 ← CI.PropertyExchangeCapabilitiesView.versionMajor x2
  let x8 ← CI.PropertyExchangeCapabilitiesView.versionMinor x2
  let x9 := (⟨8257536, [127, 13, 49, 2, 120, 86, 52, 18, 119, 85, 51, 17, 2]⟩ : Sysex)
  let x10 ← CI.PropertyExchangeCapabilitiesView.validate x9
  let x11 ← CI.asView CI.PropertyExchangeCapabilitiesView.validate x9
  return decide (2 = (x3.toNat : Int)) && decide (38611832 = (x4.toNat : Int)) && decide (36498167 = (x5.toNat : Int))
    && decide (3 = (x6.toNat : Int)) && decide (1 = (x7.toNat : Int)) && decide (2 = (x8.toNat : Int)) && (!x10) &&
    (!x11.isSome)) = true := by decide +kernel

-- ci_property_exchange,property_exchange_capabilities_view: lines 100-127
example : holds (do
  let x1 := (⟨8257536, [127, 14, 48, 1, 120, 86, 52, 18, 119, 85, 51, 17, 2]⟩ : Sysex)
  let x2 ← CI.PropertyExchangeCapabilitiesView.validate x1
  let x3 ← CI.asView CI.PropertyExchangeCapabilitiesView.validate x1
  let x4 := (⟨8257536, [127, 13, 33, 0, 120, 86, 52, 18, 119, 85, 51, 17, 2]⟩ : Sysex)
  let x5 ← CI.PropertyExchangeCapabilitiesView.validate x4
  let x6 ← CI.asView CI.PropertyExchangeCapabilitiesView.validate x4
  let x7 := (⟨8257536, [127, 13, 48, 1, 120, 86, 52, 18, 119, 85, 51, 17]⟩ : Sysex)
  let x8 ← CI.PropertyExchangeCapabilitiesView.validate x7
  let x9 ← CI.asView CI.PropertyExchangeCapabilitiesView.validate x7
  let x10 := (⟨8257536, [127, 13, 49, 1, 120, 86, 52, 18, 119, 85, 51, 17]⟩ : Sysex)
  let x11 ← CI.PropertyExchangeCapabilitiesView.validate x10
  let x12 ← CI.asView CI.PropertyExchangeCapabilitiesView.validate x10
  return (!x2) && (!x3.isSome) && (!x5) && (!x6.isSome) && (!x8) && (!x9.isSome) && (!x11) && (!x12.isSome)) = true := by decide +kernel

-- ci_property_exchange,property_exchange_capabilities_view: lines 135-144
example : holds (do
  let x1 := (⟨8257536, [127, 13, 48, 1, 120, 86, 52, 18, 119, 85, 51, 17, 2, 1, 0]⟩ : Sysex)
  let x2 ← CI.PropertyExchangeCapabilitiesView.validate x1
  let x3 ← CI.asView CI.PropertyExchangeCapabilitiesView.validate x1
  let x4 := (⟨8257536, [127, 13, 49, 1, 120, 86, 52, 18, 119, 85, 51, 17, 3, 4, 5]⟩ : Sysex)
  let x5 ← CI.PropertyExchangeCapabilitiesView.validate x4
  let x6 ← CI.asView CI.PropertyExchangeCapabilitiesView.validate x4
  return x2 && x3.isSome && x5 && x6.isSome) = true := by decide +kernel

-- ci_property_exchange,make_property_exchange_capabilities_inquiry: lines 158-170
example : holds (do
  let x1 ← CI.makePeCapabilitiesInquiry 19088743 267242409 3 5
  let x2 ← CI.PropertyExchangeCapabilitiesView.validate x1
  let x3 ← CI.asView CI.PropertyExchangeCapabilitiesView.validate x1
  let x4 ← CI.makeView x1
  let x5 ← UniversalSysex.View.deviceId x4
  let x6 ← UniversalSysex.View.type x4
  let x7 ← UniversalSysex.View.subtype x4
  let x8 ← CI.View.messageVersion x4
  let x9 ← CI.View.sourceMuid x4
  return decide (15 = (x1.data.length : Int)) && x2 && x3.isSome && decide (5 = (x5.toNat : Int)) && decide (32269 =
    (x6.toNat : Int)) && decide (48 = (x7.toNat : Int)) && decide (2 = (x8.toNat : Int)) && decide (19088743 =
    (x9.toNat : Int))) = true := by decide +kernel

-- ci_property_exchange,make_property_exchange_capabilities_inquiry: lines 171-191
example : holds (do
  let x1 ← CI.makePeCapabilitiesInquiry 19088743 267242409 3 5
  let x2 ← CI.makeView x1
  let x3 ← CI.View.destinationMuid x2
  let x4 ← CI.PropertyExchangeCapabilitiesView.maxRequests x2
  let x5 ← CI.PropertyExchangeCapabilitiesView.versionMajor x2
  let x6 ← CI.PropertyExchangeCapabilitiesView.versionMinor x2
  let x7 ← CI.makePeCapabilitiesInquiry 8741650 1193046 1 127
  let x8 ← CI.PropertyExchangeCapabilitiesView.validate x7
  let x9 ← CI.asView CI.PropertyExchangeCapabilitiesView.validate x7
  let x10 ← CI.makeView x7
  let x11 ← UniversalSysex.View.deviceId x10
  return decide (267242409 = (x3.toNat : Int)) && decide (3 = (x4.toNat : Int)) && decide (0 = (x5.toNat : Int)) &&
    decide (0 = (x6.toNat : Int)) && decide (15 = (x7.data.length : Int)) && x8 && x9.isSome && decide (127 =
    (x11.toNat : Int))) = true := by decide +kernel

-- ci_property_exchange,make_property_exchange_capabilities_inquiry: lines 192-201
example : holds (do
  let x1 ← CI.makePeCapabilitiesInquiry 8741650 1193046 1 127
  let x2 ← CI.makeView x1
  let x3 ← UniversalSysex.View.type x2
  let x4 ← UniversalSysex.View.subtype x2
  let x5 ← CI.View.messageVersion x2
  let x6 ← CI.View.sourceMuid x2
  let x7 ← CI.View.destinationMuid x2
  let x8 ← CI.PropertyExchangeCapabilitiesView.maxRequests x2
  let x9 ← CI.PropertyExchangeCapabilitiesView.versionMajor x2
  let x10 ← CI.PropertyExchangeCapabilitiesView.versionMinor x2
  return decide (32269 = (x3.toNat : Int)) && decide (48 = (x4.toNat : Int)) && decide (2 = (x5.toNat : Int)) &&
    decide (8741650 = (x6.toNat : Int)) && decide (1193046 = (x7.toNat : Int)) && decide (1 = (x8.toNat : Int)) &&
    decide (0 = (x9.toNat : Int)) && decide (0 = (x10.toNat : Int))) = true := by decide +kernel

-- ci_property_exchange,make_property_exchange_capabilities_inquiry: lines 210-222
example : holds (do
  let x1 ← CI.makePeCapabilitiesInquiry 19088743 159736594 7 127
  let x2 ← CI.PropertyExchangeCapabilitiesView.validate x1
  let x3 ← CI.asView CI.PropertyExchangeCapabilitiesView.validate x1
  let x4 ← CI.makeView x1
  let x5 ← UniversalSysex.View.deviceId x4
  let x6 ← UniversalSysex.View.type x4
  let x7 ← UniversalSysex.View.subtype x4
  let x8 ← CI.View.messageVersion x4
  let x9 ← CI.View.sourceMuid x4
  return decide (15 = (x1.data.length : Int)) && x2 && x3.isSome && decide (127 = (x5.toNat : Int)) && decide (32269 =
    (x6.toNat : Int)) && decide (48 = (x7.toNat : Int)) && decide (2 = (x8.toNat : Int)) && decide (19088743 =
    (x9.toNat : Int))) = true := by decide +kernel

-- ci_property_exchange,make_property_exchange_capabilities_inquiry: lines 223-227
example : holds (do
  let x1 ← CI.makePeCapabilitiesInquiry 19088743 159736594 7 127
  let x2 ← CI.makeView x1
  let x3 ← CI.View.destinationMuid x2
  let x4 ← CI.PropertyExchangeCapabilitiesView.maxRequests x2
  let x5 ← CI.PropertyExchangeCapabilitiesView.versionMajor x2
  let x6 ← CI.PropertyExchangeCapabilitiesView.versionMinor x2
  return decide (159736594 = (x3.toNat : Int)) && decide (7 = (x4.toNat : Int)) && decide (0 = (x5.toNat : Int)) &&
    decide (0 = (x6.toNat : Int))) = true := by decide +kernel

-- ci_property_exchange,reply_capabilities: lines 243-254
example : holds (do
  let x1 ← CI.makePeCapabilitiesReply 19088743 180150000 12 8
  let x2 ← CI.PropertyExchangeCapabilitiesView.validate x1
  let x3 ← CI.asView CI.PropertyExchangeCapabilitiesView.validate x1
  let x4 ← CI.makeView x1
  let x5 ← UniversalSysex.View.deviceId x4
  let x6 ← UniversalSysex.View.type x4
  let x7 ← UniversalSysex.View.subtype x4
  let x8 ← CI.View.messageVersion x4
  let x9 ← CI.View.sourceMuid x4
  return decide (15 = (x1.data.length : Int)) && x2 && x3.isSome && decide (8 = (x5.toNat : Int)) && decide (32269 =
    (x6.toNat : Int)) && decide (49 = (x7.toNat : Int)) && decide (2 = (x8.toNat : Int)) && decide (19088743 =
    (x9.toNat : Int))) = true := by decide +kernel

-- ci_property_exchange,reply_capabilities: lines 255-275
example : holds (do
  let x1 ← CI.makePeCapabilitiesReply 19088743 180150000 12 8
  let x2 ← CI.makeView x1
  let x3 ← CI.View.destinationMuid x2
  let x4 ← CI.PropertyExchangeCapabilitiesView.maxRequests x2
  let x5 ← CI.PropertyExchangeCapabilitiesView.versionMajor x2
  let x6 ← CI.PropertyExchangeCapabilitiesView.versionMinor x2
  let x7 ← CI.makePeCapabilitiesReply 7693121 3745815 1 127
  let x8 ← CI.PropertyExchangeCapabilitiesView.validate x7
  let x9 ← CI.asView CI.PropertyExchangeCapabilitiesView.validate x7
  let x10 ← CI.makeView x7
  let x11 ← UniversalSysex.View.deviceId x10
  return decide (180150000 = (x3.toNat : Int)) && decide (12 = (x4.toNat : Int)) && decide (0 = (x5.toNat : Int)) &&
    decide (0 = (x6.toNat : Int)) && decide (15 = (x7.data.length : Int)) && x8 && x9.isSome && decide (127 =
    (x11.toNat : Int))) = true := by decide +kernel

-- ci_property_exchange,reply_capabilities: lines 276-285
example : holds (do
  let x1 ← CI.makePeCapabilitiesReply 7693121 3745815 1 127
  let x2 ← CI.makeView x1
  let x3 ← UniversalSysex.View.type x2
  let x4 ← UniversalSysex.View.subtype x2
  let x5 ← CI.View.messageVersion x2
  let x6 ← CI.View.sourceMuid x2
  let x7 ← CI.View.destinationMuid x2
  let x8 ← CI.PropertyExchangeCapabilitiesView.maxRequests x2
  let x9 ← CI.PropertyExchangeCapabilitiesView.versionMajor x2
  let x10 ← CI.PropertyExchangeCapabilitiesView.versionMinor x2
  return decide (32269 = (x3.toNat : Int)) && decide (49 = (x4.toNat : Int)) && decide (2 = (x5.toNat : Int)) &&
    decide (7693121 = (x6.toNat : Int)) && decide (3745815 = (x7.toNat : Int)) && decide (1 = (x8.toNat : Int)) &&
    decide (0 = (x9.toNat : Int)) && decide (0 = (x10.toNat : Int))) = true := by decide +kernel

-- ci_property_exchange,reply_capabilities: lines 294-306
example : holds (do
  let x1 ← CI.makePeCapabilitiesReply 19088743 59933055 7 127
  let x2 ← CI.PropertyExchangeCapabilitiesView.validate x1
  let x3 ← CI.asView CI.PropertyExchangeCapabilitiesView.validate x1
  let x4 ← CI.makeView x1
  let x5 ← UniversalSysex.View.deviceId x4
  let x6 ← UniversalSysex.View.type x4
  let x7 ← UniversalSysex.View.subtype x4
  let x8 ← CI.View.messageVersion x4
  let x9 ← CI.View.sourceMuid x4
  return decide (15 = (x1.data.length : Int)) && x2 && x3.isSome && decide (127 = (x5.toNat : Int)) && decide (32269 =
    (x6.toNat : Int)) && decide (49 = (x7.toNat : Int)) && decide (2 = (x8.toNat : Int)) && decide (19088743 =
    (x9.toNat : Int))) = true := by decide +kernel

-- ci_property_exchange,reply_capabilities: lines 307-311
example : holds (do
  let x1 ← CI.makePeCapabilitiesReply 19088743 59933055 7 127
  let x2 ← CI.makeView x1
  let x3 ← CI.View.destinationMuid x2
  let x4 ← CI.PropertyExchangeCapabilitiesView.maxRequests x2
  let x5 ← CI.PropertyExchangeCapabilitiesView.versionMajor x2
  let x6 ← CI.PropertyExchangeCapabilitiesView.versionMinor x2
  return decide (59933055 = (x3.toNat : Int)) && decide (7 = (x4.toNat : Int)) && decide (0 = (x5.toNat : Int)) &&
    decide (0 = (x6.toNat : Int))) = true := by decide +kernel

-- ci_property_exchange,property_data_message_view: lines 328-339
example : holds (do
  let x1 := (⟨8257536, [10, 13, 52, 5, 120, 86, 52, 18, 18, 52, 86, 120, 0, 8, 0, 1, 2, 3, 4, 5, 6, 7, 8, 1, 0, 1, 0,
    0, 0]⟩ : Sysex)
  let x2 ← CI.PropertyDataView.validate x1
  let x3 ← CI.asView CI.PropertyDataView.validate x1
  let x4 ← CI.makeView x1
  let x5 ← UniversalSysex.View.deviceId x4
  let x6 ← UniversalSysex.View.type x4
  let x7 ← UniversalSysex.View.subtype x4
  let x8 ← CI.View.messageVersion x4
  let x9 ← CI.View.sourceMuid x4
  let x10 ← CI.View.destinationMuid x4
  return x2 && x3.isSome && decide (10 = (x5.toNat : Int)) && decide (32269 = (x6.toNat : Int)) && decide (52 =
    (x7.toNat : Int)) && decide (5 = (x8.toNat : Int)) && decide (38611832 = (x9.toNat : Int)) && decide (253073938 =
    (x10.toNat : Int))) = true := by decide +kernel

-- ci_property_exchange,property_data_message_view: lines 341-352
example : holds (do
  let x1 := (⟨8257536, [10, 13, 52, 5, 120, 86, 52, 18, 18, 52, 86, 120, 0, 8, 0, 1, 2, 3, 4, 5, 6, 7, 8, 1, 0, 1, 0,
    0, 0]⟩ : Sysex)
  let x2 ← CI.makeView x1
  let x3 ← CI.PropertyDataView.requestId x2
  let x4 ← CI.PropertyDataView.headerSize x2
  let x5 ← CI.PropertyDataView.header x2
  let x6 ← CI.PropertyDataView.numberOfChunks x2
  let x7 ← CI.PropertyDataView.numberOfThisChunk x2
  let x8 ← CI.PropertyDataView.chunkSize x2
  let x9 ← CI.PropertyDataView.chunk x2
  return decide (0 = (x3.toNat : Int)) && decide (8 = (x4 : Int)) && decide (x5.length = x4) && decide (0 = (if
    List.take x4 x5 = List.take x4 (x1.data.drop 15) then 0 else 1)) && decide (1 = (x6.toNat : Int)) && decide (1 =
    (x7.toNat : Int)) && decide (0 = (x8 : Int)) && decide (x9.length = x8)) = true := by decide +kernel

-- ci_property_exchange,property_data_message_view: lines 362-381
example : holds (do
  let x1 := (⟨8257536, [10, 13, 52, 5, 120, 86, 52, 18, 18, 52, 86, 120, 0, 8, 0, 1, 2, 3, 4, 5, 6, 7, 8, 1, 0, 1, 0,
    0, 0, 1, 0, 1, 0]⟩ : Sysex)
  let x2 ← CI.PropertyDataView.validate x1
  let x3 ← CI.asView CI.PropertyDataView.validate x1
  let x4 := (⟨8257536, [10, 13, 55, 1, 119, 85, 51, 17, 18, 52, 86, 120, 4, 16, 0, 1, 2, 3, 4, 5, 6, 7, 8, 0, 16, 32,
    48, 64, 80, 96, 112, 16, 0, 1, 0, 1, 0, 51]⟩ : Sysex)
  let x5 ← CI.PropertyDataView.validate x4
  let x6 ← CI.asView CI.PropertyDataView.validate x4
  let x7 ← CI.makeView x4
  let x8 ← UniversalSysex.View.deviceId x7
  let x9 ← UniversalSysex.View.type x7
  let x10 ← UniversalSysex.View.subtype x7
  let x11 ← CI.View.messageVersion x7
  return x2 && x3.isSome && x5 && x6.isSome && decide (10 = (x8.toNat : Int)) && decide (32269 = (x9.toNat : Int)) &&
    decide (55 = (x10.toNat : Int)) && decide (1 = (x11.toNat : Int))) = true := by decide +kernel

-- ci_property_exchange,property_data_message_view: lines 382-393
example : holds (do
  let x1 := (⟨8257536, [10, 13, 55, 1, 119, 85, 51, 17, 18, 52, 86, 120, 4, 16, 0, 1, 2, 3, 4, 5, 6, 7, 8, 0, 16, 32,
    48, 64, 80, 96, 112, 16, 0, 1, 0, 1, 0, 51]⟩ : Sysex)
  let x2 ← CI.makeView x1
  let x3 ← CI.View.sourceMuid x2
  let x4 ← CI.View.destinationMuid x2
  let x5 ← CI.PropertyDataView.requestId x2
  let x6 ← CI.PropertyDataView.headerSize x2
  let x7 ← CI.PropertyDataView.header x2
  let x8 ← CI.PropertyDataView.numberOfChunks x2
  let x9 ← CI.PropertyDataView.numberOfThisChunk x2
  return decide (36498167 = (x3.toNat : Int)) && decide (253073938 = (x4.toNat : Int)) && decide (4 = (x5.toNat :
    Int)) && decide (16 = (x6 : Int)) && decide (x7.length = x6) && decide (0 = (if List.take x6 x7 = List.take x6
    (x1.data.drop 15) then 0 else 1)) && decide (16 = (x8.toNat : Int)) && decide (1 = (x9.toNat : Int))) = true := by decide +kernel

-- ci_property_exchange,property_data_message_view: lines 395-413
example : holds (do
  let x1 := (⟨8257536, [10, 13, 55, 1, 119, 85, 51, 17, 18, 52, 86, 120, 4, 16, 0, 1, 2, 3, 4, 5, 6, 7, 8, 0, 16, 32,
    48, 64, 80, 96, 112, 16, 0, 1, 0, 1, 0, 51]⟩ : Sysex)
  let x2 ← CI.makeView x1
  let x3 ← CI.PropertyDataView.chunkSize x2
  let x4 ← CI.PropertyDataView.chunk x2
  let x5 ← index x4 0
  let x6 := (⟨8257536, [127, 13, 63, 17, 119, 85, 51, 17, 18, 52, 86, 120, 30, 16, 0, 1, 2, 3, 4, 5, 6, 7, 8, 0, 16,
    32, 48, 64, 80, 96, 112, 0, 0, 0, 0, 0, 0]⟩ : Sysex)
  let x7 ← CI.PropertyDataView.validate x6
  let x8 ← CI.asView CI.PropertyDataView.validate x6
  let x9 ← CI.makeView x6
  let x10 ← UniversalSysex.View.deviceId x9
  let x11 ← UniversalSysex.View.type x9
  let x12 ← UniversalSysex.View.subtype x9
  return decide (1 = (x3 : Int)) && decide (x4.length = x3) && decide (51 = (x5.toNat : Int)) && x7 && x8.isSome &&
    decide (127 = (x10.toNat : Int)) && decide (32269 = (x11.toNat : Int)) && decide (63 = (x12.toNat : Int))) = true := by decide +kernel

-- ci_property_exchange,property_data_message_view: lines 415-426
example : holds (do
  let x1 := (⟨8257536, [127, 13, 63, 17, 119, 85, 51, 17, 18, 52, 86, 120, 30, 16, 0, 1, 2, 3, 4, 5, 6, 7, 8, 0, 16,
    32, 48, 64, 80, 96, 112, 0, 0, 0, 0, 0, 0]⟩ : Sysex)
  let x2 ← CI.makeView x1
  let x3 ← CI.View.messageVersion x2
  let x4 ← CI.View.sourceMuid x2
  let x5 ← CI.View.destinationMuid x2
  let x6 ← CI.PropertyDataView.requestId x2
  let x7 ← CI.PropertyDataView.headerSize x2
  let x8 ← CI.PropertyDataView.header x2
  let x9 ← CI.PropertyDataView.numberOfChunks x2
  return decide (17 = (x3.toNat : Int)) && decide (36498167 = (x4.toNat : Int)) && decide (253073938 = (x5.toNat :
    Int)) && decide (30 = (x6.toNat : Int)) && decide (16 = (x7 : Int)) && decide (x8.length = x7) && decide (0 = (if
    List.take x7 x8 = List.take x7 (x1.data.drop 15) then 0 else 1)) && decide (0 = (x9.toNat : Int))) = true := by decide +kernel

-- ci_property_exchange,property_data_message_view: lines 427-458
example : holds (do
  let x1 := (⟨8257536, [127, 13, 63, 17, 119, 85, 51, 17, 18, 52, 86, 120, 30, 16, 0, 1, 2, 3, 4, 5, 6, 7, 8, 0, 16,
    32, 48, 64, 80, 96, 112, 0, 0, 0, 0, 0, 0]⟩ : Sysex)
  let x2 ← CI.makeView x1
  let x3 ← CI.PropertyDataView.numberOfThisChunk x2
  let x4 ← CI.PropertyDataView.chunkSize x2
  let x5 ← CI.PropertyDataView.chunk x2
  let x6 := (⟨8257536, [10, 13, 54, 5, 120, 86, 52, 18, 18, 52, 86, 120, 4, 0, 1, 1, 2, 3, 4, 5, 6, 7, 8, 0, 2, 0, 1,
    0, 0]⟩ : Sysex)
  let x7 ← CI.PropertyDataView.validate x6
  let x8 ← CI.asView CI.PropertyDataView.validate x6
  let x9 := (⟨8257536, [10, 13, 55, 0, 119, 85, 52, 17, 18, 52, 86, 120, 4, 18, 52, 1, 2, 3, 4, 5, 6, 7, 8, 0, 16, 32,
    48, 64, 80, 96, 112, 18, 52, 1, 35, 86, 4]⟩ : Sysex)
  let x10 ← CI.PropertyDataView.validate x9
  let x11 ← CI.asView CI.PropertyDataView.validate x9
  let x12 := (⟨8257536, [127, 13, 60, 17, 119, 85, 56, 17, 18, 52, 86, 120, 4, 16, 0, 1, 2, 3, 4, 5, 6, 7, 8, 0, 16,
    32, 48, 64, 80, 96, 112, 2, 0, 1, 0, 0, 0]⟩ : Sysex)
  let x13 ← CI.PropertyDataView.validate x12
  return decide (0 = (x3.toNat : Int)) && decide (0 = (x4 : Int)) && decide (x5.length = x4) && (!x7) && (!x8.isSome)
    && (!x10) && (!x11.isSome) && (!x13)) = true := by decide +kernel

-- ci_property_exchange,property_data_message_view: line 459
example : holds (do
  let x1 := (⟨8257536, [127, 13, 60, 17, 119, 85, 56, 17, 18, 52, 86, 120, 4, 16, 0, 1, 2, 3, 4, 5, 6, 7, 8, 0, 16,
    32, 48, 64, 80, 96, 112, 2, 0, 1, 0, 0, 0]⟩ : Sysex)
  let x2 ← CI.asView CI.PropertyDataView.validate x1
  return (!x2.isSome)) = true := by decide +kernel

-- ci_property_exchange,property_data_message_from_carray: lines 474-486
example : holds (do
  let x1 ← CI.makePropertyData 52 19088743 65261 { null := false, bytes := (List.take 8 [1, 2, 3, 4, 5, 6, 7, 8]) } 1
    1 { null := true, bytes := [] } 5 10
  let x2 ← CI.PropertyDataView.validate x1
  let x3 ← CI.asView CI.PropertyDataView.validate x1
  let x4 ← CI.makeView x1
  let x5 ← UniversalSysex.View.deviceId x4
  let x6 ← UniversalSysex.View.type x4
  let x7 ← UniversalSysex.View.subtype x4
  let x8 ← CI.View.messageVersion x4
  let x9 ← CI.View.sourceMuid x4
  return decide (29 = (x1.data.length : Int)) && x2 && x3.isSome && decide (10 = (x5.toNat : Int)) && decide (32269 =
    (x6.toNat : Int)) && decide (52 = (x7.toNat : Int)) && decide (2 = (x8.toNat : Int)) && decide (19088743 =
    (x9.toNat : Int))) = true := by decide +kernel

-- ci_property_exchange,property_data_message_from_carray: lines 487-499
example : holds (do
  let x1 ← CI.makePropertyData 52 19088743 65261 { null := false, bytes := (List.take 8 [1, 2, 3, 4, 5, 6, 7, 8]) } 1
    1 { null := true, bytes := [] } 5 10
  let x2 ← CI.makeView x1
  let x3 ← CI.View.destinationMuid x2
  let x4 ← CI.PropertyDataView.requestId x2
  let x5 ← CI.PropertyDataView.headerSize x2
  let x6 ← CI.PropertyDataView.header x2
  let x7 ← CI.PropertyDataView.numberOfChunks x2
  let x8 ← CI.PropertyDataView.numberOfThisChunk x2
  let x9 ← CI.PropertyDataView.chunkSize x2
  return decide (65261 = (x3.toNat : Int)) && decide (5 = (x4.toNat : Int)) && decide (8 = (x5 : Int)) && decide
    (x6.length = x5) && decide (0 = (if List.take x5 x6 = List.take x5 [1, 2, 3, 4, 5, 6, 7, 8] then 0 else 1)) &&
    decide (1 = (x7.toNat : Int)) && decide (1 = (x8.toNat : Int)) && decide (0 = (x9 : Int))) = true := by decide +kernel

-- ci_property_exchange,property_data_message_from_carray: lines 500-520
example : holds (do
  let x1 ← CI.makePropertyData 52 19088743 65261 { null := false, bytes := (List.take 8 [1, 2, 3, 4, 5, 6, 7, 8]) } 1
    1 { null := true, bytes := [] } 5 10
  let x2 ← CI.makeView x1
  let x3 ← CI.PropertyDataView.chunkSize x2
  let x4 ← CI.PropertyDataView.chunk x2
  let x5 ← CI.makePropertyData 55 20141431 253073938 { null := true, bytes := [] } 16 4 { null := false, bytes :=
    (List.take 16 [1, 2, 3, 4, 5, 6, 7, 8, 0, 16, 32, 48, 64, 80, 96, 112]) } 10 127
  let x6 ← CI.PropertyDataView.validate x5
  let x7 ← CI.asView CI.PropertyDataView.validate x5
  let x8 ← CI.makeView x5
  let x9 ← UniversalSysex.View.deviceId x8
  let x10 ← UniversalSysex.View.type x8
  let x11 ← UniversalSysex.View.subtype x8
  let x12 ← CI.View.messageVersion x8
  return decide (x4.length = x3) && decide (37 = (x5.data.length : Int)) && x6 && x7.isSome && decide (127 = (x9.toNat
    : Int)) && decide (32269 = (x10.toNat : Int)) && decide (55 = (x11.toNat : Int)) && decide (2 = (x12.toNat : Int))) = true := by decide +kernel

-- ci_property_exchange,property_data_message_from_carray: lines 521-532
example : holds (do
  let x1 ← CI.makePropertyData 55 20141431 253073938 { null := true, bytes := [] } 16 4 { null := false, bytes :=
    (List.take 16 [1, 2, 3, 4, 5, 6, 7, 8, 0, 16, 32, 48, 64, 80, 96, 112]) } 10 127
  let x2 ← CI.makeView x1
  let x3 ← CI.View.sourceMuid x2
  let x4 ← CI.View.destinationMuid x2
  let x5 ← CI.PropertyDataView.requestId x2
  let x6 ← CI.PropertyDataView.headerSize x2
  let x7 ← CI.PropertyDataView.header x2
  let x8 ← CI.PropertyDataView.numberOfChunks x2
  let x9 ← CI.PropertyDataView.numberOfThisChunk x2
  let x10 ← CI.PropertyDataView.chunkSize x2
  return decide (20141431 = (x3.toNat : Int)) && decide (253073938 = (x4.toNat : Int)) && decide (10 = (x5.toNat :
    Int)) && decide (0 = (x6 : Int)) && decide (x7.length = x6) && decide (16 = (x8.toNat : Int)) && decide (4 =
    (x9.toNat : Int)) && decide (16 = (x10 : Int))) = true := by decide +kernel

-- ci_property_exchange,property_data_message_from_carray: lines 533-553
example : holds (do
  let x1 ← CI.makePropertyData 55 20141431 253073938 { null := true, bytes := [] } 16 4 { null := false, bytes :=
    (List.take 16 [1, 2, 3, 4, 5, 6, 7, 8, 0, 16, 32, 48, 64, 80, 96, 112]) } 10 127
  let x2 ← CI.makeView x1
  let x3 ← CI.PropertyDataView.chunkSize x2
  let x4 ← CI.PropertyDataView.chunk x2
  let x5 ← CI.makePropertyData 63 20141431 253073938 { null := true, bytes := [] } 256 128 { null := false, bytes :=
    (List.take 21 [1, 2, 3, 4, 5, 6, 7, 8, 0, 16, 32, 48, 64, 80, 96, 112, 119, 85, 51, 17, 25]) } 0 127
  let x6 ← CI.PropertyDataView.validate x5
  let x7 ← CI.asView CI.PropertyDataView.validate x5
  let x8 ← CI.makeView x5
  let x9 ← UniversalSysex.View.deviceId x8
  let x10 ← UniversalSysex.View.type x8
  let x11 ← UniversalSysex.View.subtype x8
  return decide (x4.length = x3) && decide (0 = (if List.take x3 x4 = List.take x3 [1, 2, 3, 4, 5, 6, 7, 8, 0, 16, 32,
    48, 64, 80, 96, 112] then 0 else 1)) && decide (42 = (x5.data.length : Int)) && x6 && x7.isSome && decide (127 =
    (x9.toNat : Int)) && decide (32269 = (x10.toNat : Int)) && decide (63 = (x11.toNat : Int))) = true := by decide +kernel

-- ci_property_exchange,property_data_message_from_carray: lines 555-565
example : holds (do
  let x1 ← CI.makePropertyData 63 20141431 253073938 { null := true, bytes := [] } 256 128 { null := false, bytes :=
    (List.take 21 [1, 2, 3, 4, 5, 6, 7, 8, 0, 16, 32, 48, 64, 80, 96, 112, 119, 85, 51, 17, 25]) } 0 127
  let x2 ← CI.makeView x1
  let x3 ← CI.View.messageVersion x2
  let x4 ← CI.View.sourceMuid x2
  let x5 ← CI.View.destinationMuid x2
  let x6 ← CI.PropertyDataView.requestId x2
  let x7 ← CI.PropertyDataView.headerSize x2
  let x8 ← CI.PropertyDataView.header x2
  let x9 ← CI.PropertyDataView.numberOfChunks x2
  let x10 ← CI.PropertyDataView.numberOfThisChunk x2
  return decide (2 = (x3.toNat : Int)) && decide (20141431 = (x4.toNat : Int)) && decide (253073938 = (x5.toNat :
    Int)) && decide (0 = (x6.toNat : Int)) && decide (0 = (x7 : Int)) && decide (x8.length = x7) && decide (256 =
    (x9.toNat : Int)) && decide (128 = (x10.toNat : Int))) = true := by decide +kernel

-- ci_property_exchange,property_data_message_from_carray: lines 567-583
example : holds (do
  let x1 ← CI.makePropertyData 63 20141431 253073938 { null := true, bytes := [] } 256 128 { null := false, bytes :=
    (List.take 21 [1, 2, 3, 4, 5, 6, 7, 8, 0, 16, 32, 48, 64, 80, 96, 112, 119, 85, 51, 17, 25]) } 0 127
  let x2 ← CI.makeView x1
  let x3 ← CI.PropertyDataView.chunkSize x2
  let x4 ← CI.PropertyDataView.chunk x2
  let x5 ← CI.makePropertyData 52 20141431 253073938 { null := true, bytes := [] } 0 0 { null := true, bytes := [] } 0
    127
  let x6 ← CI.PropertyDataView.validate x5
  let x7 ← CI.asView CI.PropertyDataView.validate x5
  let x8 ← CI.makeView x5
  let x9 ← UniversalSysex.View.deviceId x8
  let x10 ← UniversalSysex.View.type x8
  return decide (21 = (x3 : Int)) && decide (x4.length = x3) && decide (0 = (if List.take x3 x4 = List.take x3 [1, 2,
    3, 4, 5, 6, 7, 8, 0, 16, 32, 48, 64, 80, 96, 112, 119, 85, 51, 17, 25] then 0 else 1)) && decide (21 =
    (x5.data.length : Int)) && x6 && x7.isSome && decide (127 = (x9.toNat : Int)) && decide (32269 = (x10.toNat :
    Int))) = true := by decide +kernel

-- ci_property_exchange,property_data_message_from_carray: lines 584-595
example : holds (do
  let x1 ← CI.makePropertyData 52 20141431 253073938 { null := true, bytes := [] } 0 0 { null := true, bytes := [] } 0
    127
  let x2 ← CI.makeView x1
  let x3 ← UniversalSysex.View.subtype x2
  let x4 ← CI.View.messageVersion x2
  let x5 ← CI.View.sourceMuid x2
  let x6 ← CI.View.destinationMuid x2
  let x7 ← CI.PropertyDataView.requestId x2
  let x8 ← CI.PropertyDataView.headerSize x2
  let x9 ← CI.PropertyDataView.header x2
  let x10 ← CI.PropertyDataView.numberOfChunks x2
  return decide (52 = (x3.toNat : Int)) && decide (2 = (x4.toNat : Int)) && decide (20141431 = (x5.toNat : Int)) &&
    decide (253073938 = (x6.toNat : Int)) && decide (0 = (x7.toNat : Int)) && decide (0 = (x8 : Int)) && x9.isEmpty &&
    decide (0 = (x10.toNat : Int))) = true := by decide +kernel

-- ci_property_exchange,property_data_message_from_carray: lines 596-610
example : holds (do
  let x1 ← CI.makePropertyData 52 20141431 253073938 { null := true, bytes := [] } 0 0 { null := true, bytes := [] } 0
    127
  let x2 ← CI.makeView x1
  let x3 ← CI.PropertyDataView.numberOfThisChunk x2
  let x4 ← CI.PropertyDataView.chunkSize x2
  let x5 ← CI.PropertyDataView.chunk x2
  let x6 ← CI.makePropertyData 60 18036055 53827345 { null := false, bytes := (List.take 16 [1, 2, 3, 4, 5, 6, 7, 8,
    0, 16, 32, 48, 64, 80, 96, 112]) } 16 4 { null := true, bytes := [] } 10 127
  let x7 ← CI.PropertyDataView.validate x6
  let x8 ← CI.asView CI.PropertyDataView.validate x6
  return decide (0 = (x3.toNat : Int)) && decide (0 = (x4 : Int)) && x5.isEmpty && (!x7) && (!x8.isSome)) = true := by decide +kernel

-- ci_property_exchange,make_rjson: lines 623-661
example : holds (do
  let x1 ← CI.makeRjsonOptions [114, 101, 115, 111, 117, 114, 99, 101] [80, 114, 111, 103, 114, 97, 109, 76, 105, 115,
    116] [([97], [98]), ([99], [100]), ([48, 48], [49, 49])]
  let x2 ← CI.makeRjsonOptions [114, 101, 115, 111, 117, 114, 99, 101] [86, 101, 110, 100, 111, 114, 82, 101, 115,
    111, 117, 114, 99, 101] [([100, 101, 108, 116, 97], [45, 49, 48])]
  return decide ((CI.makeRjson [97] [98]) = [123, 34, 97, 34, 58, 34, 98, 34, 125]) && decide ((CI.makeRjsonInt [110,
    117, 109, 98, 101, 114] (5)) = [123, 34, 110, 117, 109, 98, 101, 114, 34, 58, 53, 125]) && decide ((CI.makeRjson
    [114, 101, 115, 111, 117, 114, 99, 101] [80, 114, 111, 103, 114, 97, 109, 76, 105, 115, 116]) = [123, 34, 114,
    101, 115, 111, 117, 114, 99, 101, 34, 58, 34, 80, 114, 111, 103, 114, 97, 109, 76, 105, 115, 116, 34, 125]) &&
    decide ((CI.makeRjson [115, 115, 106, 106, 101, 101] [106, 51, 55, 115, 106, 102]) = [123, 34, 115, 115, 106, 106,
    101, 101, 34, 58, 34, 106, 51, 55, 115, 106, 102, 34, 125]) && decide ((CI.makeRjsonInt [115, 116, 97, 116, 117,
    115] (12345)) = [123, 34, 115, 116, 97, 116, 117, 115, 34, 58, 49, 50, 51, 52, 53, 125]) && decide (x1 = [123, 34,
    114, 101, 115, 111, 117, 114, 99, 101, 34, 58, 34, 80, 114, 111, 103, 114, 97, 109, 76, 105, 115, 116, 34, 44, 34,
    97, 34, 58, 34, 98, 34, 44, 34, 99, 34, 58, 34, 100, 34, 44, 34, 48, 48, 34, 58, 49, 49, 125]) && decide (x2 =
    [123, 34, 114, 101, 115, 111, 117, 114, 99, 101, 34, 58, 34, 86, 101, 110, 100, 111, 114, 82, 101, 115, 111, 117,
    114, 99, 101, 34, 44, 34, 100, 101, 108, 116, 97, 34, 58, 45, 49, 48, 125])) = true := by decide +kernel

-- ci_property_exchange,get_property_data_inquiry: lines 676-687
example : holds (do
  let x1 := (⟨8257536, [10, 13, 52, 5, 120, 86, 52, 18, 119, 85, 51, 17, 3, 8, 0, 1, 2, 3, 4, 5, 6, 7, 8, 0, 0, 0, 0,
    0, 0]⟩ : Sysex)
  let x2 ← CI.GetPropertyDataView.validate x1
  let x3 ← CI.asView CI.GetPropertyDataView.validate x1
  let x4 ← CI.makeView x1
  let x5 ← UniversalSysex.View.deviceId x4
  let x6 ← UniversalSysex.View.type x4
  let x7 ← UniversalSysex.View.subtype x4
  let x8 ← CI.View.messageVersion x4
  let x9 ← CI.View.sourceMuid x4
  let x10 ← CI.View.destinationMuid x4
  return x2 && x3.isSome && decide (10 = (x5.toNat : Int)) && decide (32269 = (x6.toNat : Int)) && decide (52 =
    (x7.toNat : Int)) && decide (5 = (x8.toNat : Int)) && decide (38611832 = (x9.toNat : Int)) && decide (36498167 =
    (x10.toNat : Int))) = true := by decide +kernel

-- ci_property_exchange,get_property_data_inquiry: lines 689-708
example : holds (do
  let x1 := (⟨8257536, [10, 13, 52, 5, 120, 86, 52, 18, 119, 85, 51, 17, 3, 8, 0, 1, 2, 3, 4, 5, 6, 7, 8, 0, 0, 0, 0,
    0, 0]⟩ : Sysex)
  let x2 ← CI.makeView x1
  let x3 ← CI.PropertyDataView.requestId x2
  let x4 ← CI.PropertyDataView.headerSize x2
  let x5 ← CI.PropertyDataView.header x2
  let x6 ← CI.PropertyDataView.numberOfChunks x2
  let x7 ← CI.PropertyDataView.numberOfThisChunk x2
  let x8 := (⟨8257536, [10, 13, 52, 5, 120, 86, 52, 18, 119, 85, 51, 17, 3, 8, 0, 1, 2, 3, 4, 5, 6, 7, 8, 0, 0, 0, 0,
    0, 0, 0, 0, 0, 0]⟩ : Sysex)
  let x9 ← CI.GetPropertyDataView.validate x8
  let x10 ← CI.asView CI.GetPropertyDataView.validate x8
  return decide (3 = (x3.toNat : Int)) && decide (8 = (x4 : Int)) && decide (x5.length = x4) && decide (0 = (if
    List.take x4 x5 = List.take x4 (x1.data.drop 15) then 0 else 1)) && decide (0 = (x6.toNat : Int)) && decide (0 =
    (x7.toNat : Int)) && x9 && x10.isSome) = true := by decide +kernel

-- ci_property_exchange,get_property_data_inquiry: lines 716-737
example : holds (do
  let x1 := (⟨8257536, [10, 13, 53, 0, 120, 86, 52, 18, 119, 85, 51, 17, 3, 0, 8, 0, 1, 2, 3, 4, 5, 6, 7, 8, 1, 0, 1,
    0, 0, 0]⟩ : Sysex)
  let x2 ← CI.GetPropertyDataView.validate x1
  let x3 ← CI.asView CI.GetPropertyDataView.validate x1
  let x4 ← CI.makeGetInquiry 19088743 70459921 [82, 101, 115, 111, 117, 114, 99, 101, 76, 105, 115, 116] 17 10
  let x5 ← CI.GetPropertyDataView.validate x4
  let x6 ← CI.asView CI.GetPropertyDataView.validate x4
  let x7 ← CI.makeView x4
  let x8 ← UniversalSysex.View.deviceId x7
  let x9 ← UniversalSysex.View.type x7
  let x10 ← UniversalSysex.View.subtype x7
  return (!x2) && (!x3.isSome) && decide (48 = (x4.data.length : Int)) && x5 && x6.isSome && decide (10 = (x8.toNat :
    Int)) && decide (32269 = (x9.toNat : Int)) && decide (52 = (x10.toNat : Int))) = true := by decide +kernel

-- ci_property_exchange,get_property_data_inquiry: lines 739-751
example : holds (do
  let x1 ← CI.makeGetInquiry 19088743 70459921 [82, 101, 115, 111, 117, 114, 99, 101, 76, 105, 115, 116] 17 10
  let x2 ← CI.makeView x1
  let x3 ← CI.View.messageVersion x2
  let x4 ← CI.View.sourceMuid x2
  let x5 ← CI.View.destinationMuid x2
  let x6 ← CI.PropertyDataView.requestId x2
  let x7 ← CI.PropertyDataView.headerSize x2
  let x8 ← CI.PropertyDataView.header x2
  let x9 ← CI.PropertyDataView.numberOfChunks x2
  return decide (2 = (x3.toNat : Int)) && decide (19088743 = (x4.toNat : Int)) && decide (70459921 = (x5.toNat : Int))
    && decide (17 = (x6.toNat : Int)) && decide (27 = (x7 : Int)) && decide (x8.length = x7) && decide (0 = (if
    List.take x7 x8 = List.take x7 [123, 34, 114, 101, 115, 111, 117, 114, 99, 101, 34, 58, 34, 82, 101, 115, 111,
    117, 114, 99, 101, 76, 105, 115, 116, 34, 125] then 0 else 1)) && decide (1 = (x9.toNat : Int))) = true := by decide +kernel

-- ci_property_exchange,get_property_data_inquiry: lines 752-775
example : holds (do
  let x1 ← CI.makeGetInquiry 19088743 70459921 [82, 101, 115, 111, 117, 114, 99, 101, 76, 105, 115, 116] 17 10
  let x2 ← CI.makeView x1
  let x3 ← CI.PropertyDataView.numberOfThisChunk x2
  let x4 ← CI.makeGetInquiry 18044279 16962 [80, 114, 111, 103, 114, 97, 109, 76, 105, 115, 116] 0 127
  let x5 ← CI.GetPropertyDataView.validate x4
  let x6 ← CI.asView CI.GetPropertyDataView.validate x4
  let x7 ← CI.makeView x4
  let x8 ← UniversalSysex.View.deviceId x7
  let x9 ← UniversalSysex.View.type x7
  let x10 ← UniversalSysex.View.subtype x7
  let x11 ← CI.View.messageVersion x7
  return decide (1 = (x3.toNat : Int)) && decide (47 = (x4.data.length : Int)) && x5 && x6.isSome && decide (127 =
    (x8.toNat : Int)) && decide (32269 = (x9.toNat : Int)) && decide (52 = (x10.toNat : Int)) && decide (2 =
    (x11.toNat : Int))) = true := by decide +kernel

-- ci_property_exchange,get_property_data_inquiry: lines 776-788
example : holds (do
  let x1 ← CI.makeGetInquiry 18044279 16962 [80, 114, 111, 103, 114, 97, 109, 76, 105, 115, 116] 0 127
  let x2 ← CI.makeView x1
  let x3 ← CI.View.sourceMuid x2
  let x4 ← CI.View.destinationMuid x2
  let x5 ← CI.PropertyDataView.requestId x2
  let x6 ← CI.PropertyDataView.headerSize x2
  let x7 ← CI.PropertyDataView.header x2
  let x8 ← CI.PropertyDataView.numberOfChunks x2
  let x9 ← CI.PropertyDataView.numberOfThisChunk x2
  return decide (18044279 = (x3.toNat : Int)) && decide (16962 = (x4.toNat : Int)) && decide (0 = (x5.toNat : Int)) &&
    decide (26 = (x6 : Int)) && decide (x7.length = x6) && decide (0 = (if List.take x6 x7 = List.take x6 [123, 34,
    114, 101, 115, 111, 117, 114, 99, 101, 34, 58, 34, 80, 114, 111, 103, 114, 97, 109, 76, 105, 115, 116, 34, 125]
    then 0 else 1)) && decide (1 = (x8.toNat : Int)) && decide (1 = (x9.toNat : Int))) = true := by decide +kernel

-- ci_property_exchange,get_property_data_reply: lines 806-817
example : holds (do
  let x1 := (⟨8257536, [10, 13, 53, 5, 120, 86, 52, 18, 119, 85, 51, 17, 121, 8, 0, 1, 2, 3, 4, 5, 6, 7, 8, 1, 0, 1,
    0, 10, 0, 16, 32, 48, 64, 80, 96, 112, 128, 31, 46]⟩ : Sysex)
  let x2 ← CI.GetPropertyDataView.validate x1
  let x3 ← CI.asView CI.GetPropertyDataView.validate x1
  let x4 ← CI.makeView x1
  let x5 ← UniversalSysex.View.deviceId x4
  let x6 ← UniversalSysex.View.type x4
  let x7 ← UniversalSysex.View.subtype x4
  let x8 ← CI.View.messageVersion x4
  let x9 ← CI.View.sourceMuid x4
  let x10 ← CI.View.destinationMuid x4
  return x2 && x3.isSome && decide (10 = (x5.toNat : Int)) && decide (32269 = (x6.toNat : Int)) && decide (53 =
    (x7.toNat : Int)) && decide (5 = (x8.toNat : Int)) && decide (38611832 = (x9.toNat : Int)) && decide (36498167 =
    (x10.toNat : Int))) = true := by decide +kernel

-- ci_property_exchange,get_property_data_reply: lines 819-830
example : holds (do
  let x1 := (⟨8257536, [10, 13, 53, 5, 120, 86, 52, 18, 119, 85, 51, 17, 121, 8, 0, 1, 2, 3, 4, 5, 6, 7, 8, 1, 0, 1,
    0, 10, 0, 16, 32, 48, 64, 80, 96, 112, 128, 31, 46]⟩ : Sysex)
  let x2 ← CI.makeView x1
  let x3 ← CI.PropertyDataView.requestId x2
  let x4 ← CI.PropertyDataView.headerSize x2
  let x5 ← CI.PropertyDataView.header x2
  let x6 ← CI.PropertyDataView.numberOfChunks x2
  let x7 ← CI.PropertyDataView.numberOfThisChunk x2
  let x8 ← CI.PropertyDataView.chunkSize x2
  let x9 ← CI.PropertyDataView.chunk x2
  return decide (121 = (x3.toNat : Int)) && decide (8 = (x4 : Int)) && decide (x5.length = x4) && decide (0 = (if
    List.take x4 x5 = List.take x4 (x1.data.drop 15) then 0 else 1)) && decide (1 = (x6.toNat : Int)) && decide (1 =
    (x7.toNat : Int)) && decide (10 = (x8 : Int)) && decide (x9.length = x8)) = true := by decide +kernel

-- ci_property_exchange,get_property_data_reply: lines 832-867
example : holds (do
  let x1 := (⟨8257536, [10, 13, 53, 5, 120, 86, 52, 18, 119, 85, 51, 17, 121, 8, 0, 1, 2, 3, 4, 5, 6, 7, 8, 1, 0, 1,
    0, 10, 0, 16, 32, 48, 64, 80, 96, 112, 128, 31, 46]⟩ : Sysex)
  let x2 ← CI.makeView x1
  let x3 ← CI.PropertyDataView.chunkSize x2
  let x4 ← CI.PropertyDataView.chunk x2
  let x5 := (⟨8257536, [10, 13, 53, 5, 120, 86, 52, 18, 119, 85, 51, 17, 121, 8, 0, 1, 2, 3, 4, 5, 6, 7, 8, 1, 0, 1,
    0, 10, 0, 16, 32, 48, 64, 80, 96, 112, 128, 31, 46, 17]⟩ : Sysex)
  let x6 ← CI.GetPropertyDataView.validate x5
  let x7 ← CI.asView CI.GetPropertyDataView.validate x5
  let x8 := (⟨8257536, [10, 13, 54, 0, 120, 86, 52, 18, 119, 85, 51, 17, 121, 8, 0, 1, 2, 3, 4, 5, 6, 7, 8, 1, 0, 1,
    0, 0, 0]⟩ : Sysex)
  let x9 ← CI.GetPropertyDataView.validate x8
  let x10 ← CI.asView CI.GetPropertyDataView.validate x8
  let x11 ← CI.makeGetReplyStatus 19088743 19088744 (200) 1 1 { null := false, bytes := (List.take 8 [1, 2, 3, 4, 5,
    6, 7, 8]) } 12 10
  let x12 ← CI.GetPropertyDataView.validate x11
  let x13 ← CI.asView CI.GetPropertyDataView.validate x11
  return decide (0 = (if List.take x3 x4 = List.take x3 (x1.data.drop 29) then 0 else 1)) && x6 && x7.isSome && (!x9)
    && (!x10.isSome) && decide (43 = (x11.data.length : Int)) && x12 && x13.isSome) = true := by decide +kernel

-- ci_property_exchange,get_property_data_reply: lines 871-881
example : holds (do
  let x1 ← CI.makeGetReplyStatus 19088743 19088744 (200) 1 1 { null := false, bytes := (List.take 8 [1, 2, 3, 4, 5, 6,
    7, 8]) } 12 10
  let x2 ← CI.makeView x1
  let x3 ← UniversalSysex.View.deviceId x2
  let x4 ← UniversalSysex.View.type x2
  let x5 ← UniversalSysex.View.subtype x2
  let x6 ← CI.View.messageVersion x2
  let x7 ← CI.View.sourceMuid x2
  let x8 ← CI.View.destinationMuid x2
  let x9 ← CI.PropertyDataView.requestId x2
  let x10 ← CI.PropertyDataView.headerSize x2
  return decide (10 = (x3.toNat : Int)) && decide (32269 = (x4.toNat : Int)) && decide (53 = (x5.toNat : Int)) &&
    decide (2 = (x6.toNat : Int)) && decide (19088743 = (x7.toNat : Int)) && decide (19088744 = (x8.toNat : Int)) &&
    decide (12 = (x9.toNat : Int)) && decide (14 = (x10 : Int))) = true := by decide +kernel

-- ci_property_exchange,get_property_data_reply: lines 882-910
example : holds (do
  let x1 ← CI.makeGetReplyStatus 19088743 19088744 (200) 1 1 { null := false, bytes := (List.take 8 [1, 2, 3, 4, 5, 6,
    7, 8]) } 12 10
  let x2 ← CI.makeView x1
  let x3 ← CI.PropertyDataView.headerSize x2
  let x4 ← CI.PropertyDataView.header x2
  let x5 ← CI.PropertyDataView.numberOfChunks x2
  let x6 ← CI.PropertyDataView.numberOfThisChunk x2
  let x7 ← CI.PropertyDataView.chunkSize x2
  let x8 ← CI.PropertyDataView.chunk x2
  let x9 ← CI.makeGetReplyChunk 18036087 268086192 0 128 { null := false, bytes := [1, 2, 3, 4, 5, 6, 7, 8, 0, 16, 32,
    48, 64, 80, 96, 112, 119, 85, 51, 17, 25] } 0 127
  return decide (x4.length = x3) && decide (0 = (if List.take x3 x4 = List.take x3 [123, 34, 115, 116, 97, 116, 117,
    115, 34, 58, 50, 48, 48, 125] then 0 else 1)) && decide (1 = (x5.toNat : Int)) && decide (1 = (x6.toNat : Int)) &&
    decide (8 = (x7 : Int)) && decide (x8.length = x7) && decide (0 = (if List.take x7 x8 = List.take x7 [1, 2, 3, 4,
    5, 6, 7, 8] then 0 else 1)) && decide (42 = (x9.data.length : Int))) = true := by decide +kernel

-- ci_property_exchange,get_property_data_reply: lines 912-923
example : holds (do
  let x1 ← CI.makeGetReplyChunk 18036087 268086192 0 128 { null := false, bytes := [1, 2, 3, 4, 5, 6, 7, 8, 0, 16, 32,
    48, 64, 80, 96, 112, 119, 85, 51, 17, 25] } 0 127
  let x2 ← CI.GetPropertyDataView.validate x1
  let x3 ← CI.asView CI.GetPropertyDataView.validate x1
  let x4 ← CI.makeView x1
  let x5 ← UniversalSysex.View.deviceId x4
  let x6 ← UniversalSysex.View.type x4
  let x7 ← UniversalSysex.View.subtype x4
  let x8 ← CI.View.messageVersion x4
  let x9 ← CI.View.sourceMuid x4
  let x10 ← CI.View.destinationMuid x4
  return x2 && x3.isSome && decide (127 = (x5.toNat : Int)) && decide (32269 = (x6.toNat : Int)) && decide (53 =
    (x7.toNat : Int)) && decide (2 = (x8.toNat : Int)) && decide (18036087 = (x9.toNat : Int)) && decide (268086192 =
    (x10.toNat : Int))) = true := by decide +kernel

-- ci_property_exchange,get_property_data_reply: lines 925-936
example : holds (do
  let x1 ← CI.makeGetReplyChunk 18036087 268086192 0 128 { null := false, bytes := [1, 2, 3, 4, 5, 6, 7, 8, 0, 16, 32,
    48, 64, 80, 96, 112, 119, 85, 51, 17, 25] } 0 127
  let x2 ← CI.makeView x1
  let x3 ← CI.PropertyDataView.requestId x2
  let x4 ← CI.PropertyDataView.headerSize x2
  let x5 ← CI.PropertyDataView.header x2
  let x6 ← CI.PropertyDataView.numberOfChunks x2
  let x7 ← CI.PropertyDataView.numberOfThisChunk x2
  let x8 ← CI.PropertyDataView.chunkSize x2
  let x9 ← CI.PropertyDataView.chunk x2
  return decide (0 = (x3.toNat : Int)) && decide (0 = (x4 : Int)) && decide (x5.length = x4) && decide (0 = (x6.toNat
    : Int)) && decide (128 = (x7.toNat : Int)) && decide (21 = (x8 : Int)) && decide (x9.length = x8) && decide (0 =
    (if List.take x8 x9 = List.take x8 [1, 2, 3, 4, 5, 6, 7, 8, 0, 16, 32, 48, 64, 80, 96, 112, 119, 85, 51, 17, 25]
    then 0 else 1))) = true := by decide +kernel

-- ci_property_exchange,get_property_data_reply: lines 948-960
example : holds (do
  let x1 ← CI.makeGetReplyStatus 18036055 7 (404) 0 0 { null := true, bytes := [] } 0 127
  let x2 ← CI.GetPropertyDataView.validate x1
  let x3 ← CI.asView CI.GetPropertyDataView.validate x1
  let x4 ← CI.makeView x1
  let x5 ← UniversalSysex.View.deviceId x4
  let x6 ← UniversalSysex.View.type x4
  let x7 ← UniversalSysex.View.subtype x4
  let x8 ← CI.View.messageVersion x4
  let x9 ← CI.View.sourceMuid x4
  return decide (35 = (x1.data.length : Int)) && x2 && x3.isSome && decide (127 = (x5.toNat : Int)) && decide (32269 =
    (x6.toNat : Int)) && decide (53 = (x7.toNat : Int)) && decide (2 = (x8.toNat : Int)) && decide (18036055 =
    (x9.toNat : Int))) = true := by decide +kernel

-- ci_property_exchange,get_property_data_reply: lines 961-973
example : holds (do
  let x1 ← CI.makeGetReplyStatus 18036055 7 (404) 0 0 { null := true, bytes := [] } 0 127
  let x2 ← CI.makeView x1
  let x3 ← CI.View.destinationMuid x2
  let x4 ← CI.PropertyDataView.requestId x2
  let x5 ← CI.PropertyDataView.headerSize x2
  let x6 ← CI.PropertyDataView.header x2
  let x7 ← CI.PropertyDataView.numberOfChunks x2
  let x8 ← CI.PropertyDataView.numberOfThisChunk x2
  let x9 ← CI.PropertyDataView.chunkSize x2
  return decide (7 = (x3.toNat : Int)) && decide (0 = (x4.toNat : Int)) && decide (14 = (x5 : Int)) && decide
    (x6.length = 14) && decide (0 = (if List.take x5 x6 = List.take x5 [123, 34, 115, 116, 97, 116, 117, 115, 34, 58,
    52, 48, 52, 125] then 0 else 1)) && decide (0 = (x7.toNat : Int)) && decide (0 = (x8.toNat : Int)) && decide (0 =
    (x9 : Int))) = true := by decide +kernel

-- ci_property_exchange,get_property_data_reply: lines 974-1007
example : holds (do
  let x1 ← CI.makeGetReplyStatus 18036055 7 (404) 0 0 { null := true, bytes := [] } 0 127
  let x2 ← CI.makeView x1
  let x3 ← CI.PropertyDataView.chunkSize x2
  let x4 ← CI.PropertyDataView.chunk x2
  let x5 ← CI.makeRjsonIntOptions [115, 116, 97, 116, 117, 115] (200) [([116, 111, 116, 97, 108, 67, 111, 117, 110,
    116], [49, 49])]
  let x6 ← CI.makeGetReplyHeader 18036055 7 { null := false, bytes := x5 } 0 0 { null := true, bytes := [] } 0 127
  let x7 ← CI.GetPropertyDataView.validate x6
  let x8 ← CI.asView CI.GetPropertyDataView.validate x6
  let x9 ← CI.makeView x6
  let x10 ← UniversalSysex.View.deviceId x9
  let x11 ← UniversalSysex.View.type x9
  let x12 ← UniversalSysex.View.subtype x9
  let x13 ← CI.View.messageVersion x9
  return decide (x4.length = x3) && decide (51 = (x6.data.length : Int)) && x7 && x8.isSome && decide (127 =
    (x10.toNat : Int)) && decide (32269 = (x11.toNat : Int)) && decide (53 = (x12.toNat : Int)) && decide (2 =
    (x13.toNat : Int))) = true := by decide +kernel

-- ci_property_exchange,get_property_data_reply: lines 1008-1019
example : holds (do
  let x1 ← CI.makeRjsonIntOptions [115, 116, 97, 116, 117, 115] (200) [([116, 111, 116, 97, 108, 67, 111, 117, 110,
    116], [49, 49])]
  let x2 ← CI.makeGetReplyHeader 18036055 7 { null := false, bytes := x1 } 0 0 { null := true, bytes := [] } 0 127
  let x3 ← CI.makeView x2
  let x4 ← CI.View.sourceMuid x3
  let x5 ← CI.View.destinationMuid x3
  let x6 ← CI.PropertyDataView.requestId x3
  let x7 ← CI.PropertyDataView.headerSize x3
  let x8 ← CI.PropertyDataView.header x3
  let x9 ← CI.PropertyDataView.numberOfChunks x3
  let x10 ← CI.PropertyDataView.numberOfThisChunk x3
  return decide (18036055 = (x4.toNat : Int)) && decide (7 = (x5.toNat : Int)) && decide (0 = (x6.toNat : Int)) &&
    decide (30 = (x7 : Int)) && decide (x8.length = 30) && decide (0 = (if List.take x7 x8 = List.take x7 [123, 34,
    115, 116, 97, 116, 117, 115, 34, 58, 50, 48, 48, 44, 34, 116, 111, 116, 97, 108, 67, 111, 117, 110, 116, 34, 58,
    49, 49, 125] then 0 else 1)) && decide (0 = (x9.toNat : Int)) && decide (0 = (x10.toNat : Int))) = true := by decide +kernel

-- ci_property_exchange,get_property_data_reply: lines 1021-1022
example : holds (do
  let x1 ← CI.makeRjsonIntOptions [115, 116, 97, 116, 117, 115] (200) [([116, 111, 116, 97, 108, 67, 111, 117, 110,
    116], [49, 49])]
  let x2 ← CI.makeGetReplyHeader 18036055 7 { null := false, bytes := x1 } 0 0 { null := true, bytes := [] } 0 127
  let x3 ← CI.makeView x2
  let x4 ← CI.PropertyDataView.chunkSize x3
  let x5 ← CI.PropertyDataView.chunk x3
  return decide (0 = (x4 : Int)) && decide (x5.length = x4)) = true := by decide +kernel

-- ci_property_exchange,set_property_data_inquiry: lines 1039-1050
example : holds (do
  let x1 := (⟨8257536, [10, 13, 54, 5, 120, 86, 52, 18, 119, 85, 51, 17, 127, 8, 0, 1, 2, 3, 4, 5, 6, 7, 8, 1, 0, 1,
    0, 0, 0]⟩ : Sysex)
  let x2 ← CI.SetPropertyDataView.validate x1
  let x3 ← CI.asView CI.SetPropertyDataView.validate x1
  let x4 ← CI.makeView x1
  let x5 ← UniversalSysex.View.deviceId x4
  let x6 ← UniversalSysex.View.type x4
  let x7 ← UniversalSysex.View.subtype x4
  let x8 ← CI.View.messageVersion x4
  let x9 ← CI.View.sourceMuid x4
  let x10 ← CI.View.destinationMuid x4
  return x2 && x3.isSome && decide (10 = (x5.toNat : Int)) && decide (32269 = (x6.toNat : Int)) && decide (54 =
    (x7.toNat : Int)) && decide (5 = (x8.toNat : Int)) && decide (38611832 = (x9.toNat : Int)) && decide (36498167 =
    (x10.toNat : Int))) = true := by decide +kernel

-- ci_property_exchange,set_property_data_inquiry: lines 1052-1063
example : holds (do
  let x1 := (⟨8257536, [10, 13, 54, 5, 120, 86, 52, 18, 119, 85, 51, 17, 127, 8, 0, 1, 2, 3, 4, 5, 6, 7, 8, 1, 0, 1,
    0, 0, 0]⟩ : Sysex)
  let x2 ← CI.makeView x1
  let x3 ← CI.PropertyDataView.requestId x2
  let x4 ← CI.PropertyDataView.headerSize x2
  let x5 ← CI.PropertyDataView.header x2
  let x6 ← CI.PropertyDataView.numberOfChunks x2
  let x7 ← CI.PropertyDataView.numberOfThisChunk x2
  let x8 ← CI.PropertyDataView.chunkSize x2
  let x9 ← CI.PropertyDataView.chunk x2
  return decide (127 = (x3.toNat : Int)) && decide (8 = (x4 : Int)) && decide (x5.length = x4) && decide (0 = (if
    List.take x4 x5 = List.take x4 (x1.data.drop 15) then 0 else 1)) && decide (1 = (x6.toNat : Int)) && decide (1 =
    (x7.toNat : Int)) && decide (0 = (x8 : Int)) && decide (x9.length = x8)) = true := by decide +kernel

-- ci_property_exchange,set_property_data_inquiry: lines 1073-1102
example : holds (do
  let x1 := (⟨8257536, [10, 13, 54, 5, 120, 86, 52, 18, 119, 85, 51, 17, 127, 8, 0, 1, 2, 3, 4, 5, 6, 7, 8, 1, 0, 1,
    0, 0, 0, 1, 2, 3, 4, 5, 6, 7, 8]⟩ : Sysex)
  let x2 ← CI.SetPropertyDataView.validate x1
  let x3 ← CI.asView CI.SetPropertyDataView.validate x1
  let x4 := (⟨8257536, [10, 13, 53, 0, 120, 86, 52, 18, 119, 85, 51, 17, 127, 8, 0, 1, 2, 3, 4, 5, 6, 7, 8, 1, 0, 1,
    0, 1, 0, 1, 0, 0, 0]⟩ : Sysex)
  let x5 ← CI.SetPropertyDataView.validate x4
  let x6 ← CI.asView CI.SetPropertyDataView.validate x4
  let x7 ← CI.makeSetInquiry 19088743 178956970 [114, 97, 119, 68, 97, 116, 97] 1 1 { null := false, bytes :=
    (List.take 8 [1, 2, 3, 4, 5, 6, 7, 8]) } 9 10
  let x8 ← CI.SetPropertyDataView.validate x7
  let x9 ← CI.asView CI.SetPropertyDataView.validate x7
  let x10 ← CI.makeView x7
  let x11 ← UniversalSysex.View.deviceId x10
  return x2 && x3.isSome && (!x5) && (!x6.isSome) && decide (51 = (x7.data.length : Int)) && x8 && x9.isSome && decide
    (10 = (x11.toNat : Int))) = true := by decide +kernel

-- ci_property_exchange,set_property_data_inquiry: lines 1103-1113
example : holds (do
  let x1 ← CI.makeSetInquiry 19088743 178956970 [114, 97, 119, 68, 97, 116, 97] 1 1 { null := false, bytes :=
    (List.take 8 [1, 2, 3, 4, 5, 6, 7, 8]) } 9 10
  let x2 ← CI.makeView x1
  let x3 ← UniversalSysex.View.type x2
  let x4 ← UniversalSysex.View.subtype x2
  let x5 ← CI.View.messageVersion x2
  let x6 ← CI.View.sourceMuid x2
  let x7 ← CI.View.destinationMuid x2
  let x8 ← CI.PropertyDataView.requestId x2
  let x9 ← CI.PropertyDataView.headerSize x2
  let x10 ← CI.PropertyDataView.header x2
  return decide (32269 = (x3.toNat : Int)) && decide (54 = (x4.toNat : Int)) && decide (2 = (x5.toNat : Int)) &&
    decide (19088743 = (x6.toNat : Int)) && decide (178956970 = (x7.toNat : Int)) && decide (9 = (x8.toNat : Int)) &&
    decide (22 = (x9 : Int)) && decide (x10.length = x9)) = true := by decide +kernel

-- ci_property_exchange,set_property_data_inquiry: lines 1115-1143
example : holds (do
  let x1 ← CI.makeSetInquiry 19088743 178956970 [114, 97, 119, 68, 97, 116, 97] 1 1 { null := false, bytes :=
    (List.take 8 [1, 2, 3, 4, 5, 6, 7, 8]) } 9 10
  let x2 ← CI.makeView x1
  let x3 ← CI.PropertyDataView.headerSize x2
  let x4 ← CI.PropertyDataView.header x2
  let x5 ← CI.PropertyDataView.numberOfChunks x2
  let x6 ← CI.PropertyDataView.numberOfThisChunk x2
  let x7 ← CI.PropertyDataView.chunkSize x2
  let x8 ← CI.PropertyDataView.chunk x2
  let x9 ← CI.makeSetInquiryChunk 18044279 157762387 256 128 { null := false, bytes := [1, 2, 3, 4, 5, 6, 7, 8, 0, 16,
    32, 48, 64, 80, 96, 112, 119, 85, 51, 17, 25] } 0 127
  let x10 ← CI.SetPropertyDataView.validate x9
  return decide (0 = (if List.take x3 x4 = List.take x3 [123, 34, 114, 101, 115, 111, 117, 114, 99, 101, 34, 58, 34,
    114, 97, 119, 68, 97, 116, 97, 34, 125] then 0 else 1)) && decide (1 = (x5.toNat : Int)) && decide (1 = (x6.toNat
    : Int)) && decide (8 = (x7 : Int)) && decide (x8.length = x7) && decide (0 = (if List.take x7 x8 = List.take x7
    [1, 2, 3, 4, 5, 6, 7, 8] then 0 else 1)) && decide (42 = (x9.data.length : Int)) && x10) = true := by decide +kernel

-- ci_property_exchange,set_property_data_inquiry: lines 1144-1156
example : holds (do
  let x1 ← CI.makeSetInquiryChunk 18044279 157762387 256 128 { null := false, bytes := [1, 2, 3, 4, 5, 6, 7, 8, 0, 16,
    32, 48, 64, 80, 96, 112, 119, 85, 51, 17, 25] } 0 127
  let x2 ← CI.asView CI.SetPropertyDataView.validate x1
  let x3 ← CI.makeView x1
  let x4 ← UniversalSysex.View.deviceId x3
  let x5 ← UniversalSysex.View.type x3
  let x6 ← UniversalSysex.View.subtype x3
  let x7 ← CI.View.messageVersion x3
  let x8 ← CI.View.sourceMuid x3
  let x9 ← CI.View.destinationMuid x3
  let x10 ← CI.PropertyDataView.requestId x3
  return x2.isSome && decide (127 = (x4.toNat : Int)) && decide (32269 = (x5.toNat : Int)) && decide (54 = (x6.toNat :
    Int)) && decide (2 = (x7.toNat : Int)) && decide (18044279 = (x8.toNat : Int)) && decide (157762387 = (x9.toNat :
    Int)) && decide (0 = (x10.toNat : Int))) = true := by decide +kernel

-- ci_property_exchange,set_property_data_inquiry: lines 1158-1176
example : holds (do
  let x1 ← CI.makeSetInquiryChunk 18044279 157762387 256 128 { null := false, bytes := [1, 2, 3, 4, 5, 6, 7, 8, 0, 16,
    32, 48, 64, 80, 96, 112, 119, 85, 51, 17, 25] } 0 127
  let x2 ← CI.makeView x1
  let x3 ← CI.PropertyDataView.headerSize x2
  let x4 ← CI.PropertyDataView.header x2
  let x5 ← CI.PropertyDataView.numberOfChunks x2
  let x6 ← CI.PropertyDataView.numberOfThisChunk x2
  let x7 ← CI.PropertyDataView.chunkSize x2
  let x8 ← CI.PropertyDataView.chunk x2
  let x9 ← CI.makeSetInquiryChunk 18036087 122189379 0 0 { null := true, bytes := [] } 0 127
  return decide (0 = (x3 : Int)) && x4.isEmpty && decide (256 = (x5.toNat : Int)) && decide (128 = (x6.toNat : Int))
    && decide (21 = (x7 : Int)) && decide (x8.length = x7) && decide (0 = (if List.take x7 x8 = List.take x7 [1, 2, 3,
    4, 5, 6, 7, 8, 0, 16, 32, 48, 64, 80, 96, 112, 119, 85, 51, 17, 25] then 0 else 1)) && decide (21 =
    (x9.data.length : Int))) = true := by decide +kernel

-- ci_property_exchange,set_property_data_inquiry: lines 1178-1189
example : holds (do
  let x1 ← CI.makeSetInquiryChunk 18036087 122189379 0 0 { null := true, bytes := [] } 0 127
  let x2 ← CI.SetPropertyDataView.validate x1
  let x3 ← CI.asView CI.SetPropertyDataView.validate x1
  let x4 ← CI.makeView x1
  let x5 ← UniversalSysex.View.deviceId x4
  let x6 ← UniversalSysex.View.type x4
  let x7 ← UniversalSysex.View.subtype x4
  let x8 ← CI.View.messageVersion x4
  let x9 ← CI.View.sourceMuid x4
  let x10 ← CI.View.destinationMuid x4
  return x2 && x3.isSome && decide (127 = (x5.toNat : Int)) && decide (32269 = (x6.toNat : Int)) && decide (54 =
    (x7.toNat : Int)) && decide (2 = (x8.toNat : Int)) && decide (18036087 = (x9.toNat : Int)) && decide (122189379 =
    (x10.toNat : Int))) = true := by decide +kernel

-- ci_property_exchange,set_property_data_inquiry: lines 1191-1200
example : holds (do
  let x1 ← CI.makeSetInquiryChunk 18036087 122189379 0 0 { null := true, bytes := [] } 0 127
  let x2 ← CI.makeView x1
  let x3 ← CI.PropertyDataView.requestId x2
  let x4 ← CI.PropertyDataView.headerSize x2
  let x5 ← CI.PropertyDataView.header x2
  let x6 ← CI.PropertyDataView.numberOfChunks x2
  let x7 ← CI.PropertyDataView.numberOfThisChunk x2
  let x8 ← CI.PropertyDataView.chunkSize x2
  let x9 ← CI.PropertyDataView.chunk x2
  return decide (0 = (x3.toNat : Int)) && decide (0 = (x4 : Int)) && x5.isEmpty && decide (0 = (x6.toNat : Int)) &&
    decide (0 = (x7.toNat : Int)) && decide (0 = (x8 : Int)) && x9.isEmpty) = true := by decide +kernel

-- ci_property_exchange,set_property_data_reply: lines 1217-1229
example : holds (do
  let x1 := (⟨8257536, [10, 13, 55, 5, 120, 86, 52, 18, 119, 85, 51, 17, 5, 8, 0, 1, 2, 3, 4, 5, 6, 7, 8, 1, 0, 1, 0,
    0, 0]⟩ : Sysex)
  let x2 ← CI.View.validate x1
  let x3 ← CI.SetPropertyDataView.validate x1
  let x4 ← CI.asView CI.SetPropertyDataView.validate x1
  let x5 ← CI.makeView x1
  let x6 ← UniversalSysex.View.deviceId x5
  let x7 ← UniversalSysex.View.type x5
  let x8 ← UniversalSysex.View.subtype x5
  let x9 ← CI.View.messageVersion x5
  let x10 ← CI.View.sourceMuid x5
  return x2 && x3 && x4.isSome && decide (10 = (x6.toNat : Int)) && decide (32269 = (x7.toNat : Int)) && decide (55 =
    (x8.toNat : Int)) && decide (5 = (x9.toNat : Int)) && decide (38611832 = (x10.toNat : Int))) = true := by decide +kernel

-- ci_property_exchange,set_property_data_reply: lines 1230-1242
example : holds (do
  let x1 := (⟨8257536, [10, 13, 55, 5, 120, 86, 52, 18, 119, 85, 51, 17, 5, 8, 0, 1, 2, 3, 4, 5, 6, 7, 8, 1, 0, 1, 0,
    0, 0]⟩ : Sysex)
  let x2 ← CI.makeView x1
  let x3 ← CI.View.destinationMuid x2
  let x4 ← CI.PropertyDataView.requestId x2
  let x5 ← CI.PropertyDataView.headerSize x2
  let x6 ← CI.PropertyDataView.header x2
  let x7 ← CI.PropertyDataView.numberOfChunks x2
  let x8 ← CI.PropertyDataView.numberOfThisChunk x2
  let x9 ← CI.PropertyDataView.chunkSize x2
  return decide (36498167 = (x3.toNat : Int)) && decide (5 = (x4.toNat : Int)) && decide (8 = (x5 : Int)) && decide
    (x6.length = x5) && decide (0 = (if List.take x5 x6 = List.take x5 (x1.data.drop 15) then 0 else 1)) && decide (1
    = (x7.toNat : Int)) && decide (1 = (x8.toNat : Int)) && decide (0 = (x9 : Int))) = true := by decide +kernel

-- ci_property_exchange,set_property_data_reply: lines 1243-1276
example : holds (do
  let x1 := (⟨8257536, [10, 13, 55, 5, 120, 86, 52, 18, 119, 85, 51, 17, 5, 8, 0, 1, 2, 3, 4, 5, 6, 7, 8, 1, 0, 1, 0,
    0, 0]⟩ : Sysex)
  let x2 ← CI.makeView x1
  let x3 ← CI.PropertyDataView.chunk x2
  let x4 := (⟨8257536, [10, 13, 55, 5, 120, 86, 52, 18, 119, 85, 51, 17, 5, 8, 0, 1, 2, 3, 4, 5, 6, 7, 8, 1, 0, 1, 0,
    0, 0, 119, 102]⟩ : Sysex)
  let x5 ← CI.SetPropertyDataView.validate x4
  let x6 ← CI.asView CI.SetPropertyDataView.validate x4
  let x7 := (⟨8257536, [10, 13, 63, 0, 120, 86, 52, 18, 119, 85, 51, 17, 5, 8, 0, 1, 2, 3, 4, 5, 6, 7, 8, 1, 0, 1, 0,
    0, 0]⟩ : Sysex)
  let x8 ← CI.SetPropertyDataView.validate x7
  let x9 ← CI.asView CI.SetPropertyDataView.validate x7
  let x10 ← CI.makeSetReply 19088743 53757270 (200) 5 10
  let x11 ← CI.SetPropertyDataView.validate x10
  let x12 ← CI.asView CI.SetPropertyDataView.validate x10
  return x3.isEmpty && x5 && x6.isSome && (!x8) && (!x9.isSome) && decide (35 = (x10.data.length : Int)) && x11 &&
    x12.isSome) = true := by decide +kernel

-- ci_property_exchange,set_property_data_reply: lines 1280-1290
example : holds (do
  let x1 ← CI.makeSetReply 19088743 53757270 (200) 5 10
  let x2 ← CI.makeView x1
  let x3 ← UniversalSysex.View.deviceId x2
  let x4 ← UniversalSysex.View.type x2
  let x5 ← UniversalSysex.View.subtype x2
  let x6 ← CI.View.messageVersion x2
  let x7 ← CI.View.sourceMuid x2
  let x8 ← CI.View.destinationMuid x2
  let x9 ← CI.PropertyDataView.requestId x2
  let x10 ← CI.PropertyDataView.headerSize x2
  return decide (10 = (x3.toNat : Int)) && decide (32269 = (x4.toNat : Int)) && decide (55 = (x5.toNat : Int)) &&
    decide (2 = (x6.toNat : Int)) && decide (19088743 = (x7.toNat : Int)) && decide (53757270 = (x8.toNat : Int)) &&
    decide (5 = (x9.toNat : Int)) && decide (14 = (x10 : Int))) = true := by decide +kernel

-- ci_property_exchange,set_property_data_reply: lines 1291-1313
example : holds (do
  let x1 ← CI.makeSetReply 19088743 53757270 (200) 5 10
  let x2 ← CI.makeView x1
  let x3 ← CI.PropertyDataView.headerSize x2
  let x4 ← CI.PropertyDataView.header x2
  let x5 ← CI.PropertyDataView.numberOfChunks x2
  let x6 ← CI.PropertyDataView.numberOfThisChunk x2
  let x7 ← CI.PropertyDataView.chunkSize x2
  let x8 ← CI.PropertyDataView.chunk x2
  let x9 ← CI.makeSetReplyMessage 18044279 35931752 (404) [73, 110, 118, 97, 108, 105, 100, 32, 82, 101, 113, 117,
    101, 115, 116, 46] 0 127
  let x10 ← CI.SetPropertyDataView.validate x9
  return decide (x4.length = x3) && decide (0 = (if List.take x3 x4 = List.take x3 [123, 34, 115, 116, 97, 116, 117,
    115, 34, 58, 50, 48, 48, 125] then 0 else 1)) && decide (1 = (x5.toNat : Int)) && decide (1 = (x6.toNat : Int)) &&
    decide (0 = (x7 : Int)) && x8.isEmpty && decide (64 = (x9.data.length : Int)) && x10) = true := by decide +kernel

-- ci_property_exchange,set_property_data_reply: lines 1314-1326
example : holds (do
  let x1 ← CI.makeSetReplyMessage 18044279 35931752 (404) [73, 110, 118, 97, 108, 105, 100, 32, 82, 101, 113, 117,
    101, 115, 116, 46] 0 127
  let x2 ← CI.asView CI.SetPropertyDataView.validate x1
  let x3 ← CI.makeView x1
  let x4 ← UniversalSysex.View.deviceId x3
  let x5 ← UniversalSysex.View.type x3
  let x6 ← UniversalSysex.View.subtype x3
  let x7 ← CI.View.messageVersion x3
  let x8 ← CI.View.sourceMuid x3
  let x9 ← CI.View.destinationMuid x3
  let x10 ← CI.PropertyDataView.requestId x3
  return x2.isSome && decide (127 = (x4.toNat : Int)) && decide (32269 = (x5.toNat : Int)) && decide (55 = (x6.toNat :
    Int)) && decide (2 = (x7.toNat : Int)) && decide (18044279 = (x8.toNat : Int)) && decide (35931752 = (x9.toNat :
    Int)) && decide (0 = (x10.toNat : Int))) = true := by decide +kernel

-- ci_property_exchange,set_property_data_reply: lines 1328-1337
example : holds (do
  let x1 ← CI.makeSetReplyMessage 18044279 35931752 (404) [73, 110, 118, 97, 108, 105, 100, 32, 82, 101, 113, 117,
    101, 115, 116, 46] 0 127
  let x2 ← CI.makeView x1
  let x3 ← CI.PropertyDataView.headerSize x2
  let x4 ← CI.PropertyDataView.header x2
  let x5 ← CI.PropertyDataView.numberOfChunks x2
  let x6 ← CI.PropertyDataView.numberOfThisChunk x2
  let x7 ← CI.PropertyDataView.chunkSize x2
  let x8 ← CI.PropertyDataView.chunk x2
  return decide (43 = (x3 : Int)) && decide (x4.length = x3) && decide (0 = (if List.take x3 x4 = List.take x3 [123,
    34, 115, 116, 97, 116, 117, 115, 34, 58, 52, 48, 52, 44, 34, 109, 101, 115, 115, 97, 103, 101, 34, 58, 34, 73,
    110, 118, 97, 108, 105, 100, 32, 82, 101, 113, 117, 101, 115, 116, 46, 34, 125] then 0 else 1)) && decide (1 =
    (x5.toNat : Int)) && decide (1 = (x6.toNat : Int)) && decide (0 = (x7 : Int)) && x8.isEmpty) = true := by decide +kernel

-- ci_property_exchange,subscription: lines 1354-1365
example : holds (do
  let x1 := (⟨8257536, [4, 13, 56, 5, 120, 86, 52, 18, 119, 85, 51, 17, 20, 8, 0, 1, 2, 3, 4, 5, 6, 7, 8, 0, 0, 0, 0,
    0, 0]⟩ : Sysex)
  let x2 ← CI.SubscriptionView.validate x1
  let x3 ← CI.asView CI.SubscriptionView.validate x1
  let x4 ← CI.makeView x1
  let x5 ← UniversalSysex.View.deviceId x4
  let x6 ← UniversalSysex.View.type x4
  let x7 ← UniversalSysex.View.subtype x4
  let x8 ← CI.View.messageVersion x4
  let x9 ← CI.View.sourceMuid x4
  let x10 ← CI.View.destinationMuid x4
  return x2 && x3.isSome && decide (4 = (x5.toNat : Int)) && decide (32269 = (x6.toNat : Int)) && decide (56 =
    (x7.toNat : Int)) && decide (5 = (x8.toNat : Int)) && decide (38611832 = (x9.toNat : Int)) && decide (36498167 =
    (x10.toNat : Int))) = true := by decide +kernel

-- ci_property_exchange,subscription: lines 1367-1385
example : holds (do
  let x1 := (⟨8257536, [4, 13, 56, 5, 120, 86, 52, 18, 119, 85, 51, 17, 20, 8, 0, 1, 2, 3, 4, 5, 6, 7, 8, 0, 0, 0, 0,
    0, 0]⟩ : Sysex)
  let x2 ← CI.makeView x1
  let x3 ← CI.PropertyDataView.requestId x2
  let x4 ← CI.PropertyDataView.headerSize x2
  let x5 ← CI.PropertyDataView.header x2
  let x6 ← CI.PropertyDataView.numberOfChunks x2
  let x7 ← CI.PropertyDataView.numberOfThisChunk x2
  let x8 := (⟨8257536, [4, 13, 56, 5, 120, 86, 52, 18, 119, 85, 51, 17, 20, 8, 0, 1, 2, 3, 4, 5, 6, 7, 8, 0, 0, 0, 0,
    0, 0, 0]⟩ : Sysex)
  let x9 ← CI.SubscriptionView.validate x8
  let x10 ← CI.asView CI.SubscriptionView.validate x8
  return decide (20 = (x3.toNat : Int)) && decide (8 = (x4 : Int)) && decide (x5.length = x4) && decide (0 = (if
    List.take x4 x5 = List.take x4 (x1.data.drop 15) then 0 else 1)) && decide (0 = (x6.toNat : Int)) && decide (0 =
    (x7.toNat : Int)) && x9 && x10.isSome) = true := by decide +kernel

-- ci_property_exchange,subscription: lines 1393-1416
example : holds (do
  let x1 := (⟨8257536, [10, 13, 57, 0, 120, 86, 52, 18, 119, 85, 51, 17, 3, 0, 8, 0, 1, 2, 3, 4, 5, 6, 7, 8, 1, 0, 1,
    0, 0, 0]⟩ : Sysex)
  let x2 ← CI.SubscriptionView.validate x1
  let x3 ← CI.asView CI.SubscriptionView.validate x1
  let x4 ← CI.makeSubscriptionInquiry 19088743 70459921 [67, 104, 97, 110, 110, 101, 108, 76, 105, 115, 116] [115,
    116, 97, 114, 116] [97, 97, 98, 98, 99, 99, 51, 52] 17 10
  let x5 ← CI.SubscriptionView.validate x4
  let x6 ← CI.asView CI.SubscriptionView.validate x4
  let x7 ← CI.makeView x4
  let x8 ← UniversalSysex.View.deviceId x7
  let x9 ← UniversalSysex.View.type x7
  let x10 ← UniversalSysex.View.subtype x7
  return (!x2) && (!x3.isSome) && decide (90 = (x4.data.length : Int)) && x5 && x6.isSome && decide (10 = (x8.toNat :
    Int)) && decide (32269 = (x9.toNat : Int)) && decide (56 = (x10.toNat : Int))) = true := by decide +kernel

-- ci_property_exchange,subscription: lines 1418-1430
example : holds (do
  let x1 ← CI.makeSubscriptionInquiry 19088743 70459921 [67, 104, 97, 110, 110, 101, 108, 76, 105, 115, 116] [115,
    116, 97, 114, 116] [97, 97, 98, 98, 99, 99, 51, 52] 17 10
  let x2 ← CI.makeView x1
  let x3 ← CI.View.messageVersion x2
  let x4 ← CI.View.sourceMuid x2
  let x5 ← CI.View.destinationMuid x2
  let x6 ← CI.PropertyDataView.requestId x2
  let x7 ← CI.PropertyDataView.headerSize x2
  let x8 ← CI.PropertyDataView.header x2
  let x9 ← CI.PropertyDataView.numberOfChunks x2
  return decide (2 = (x3.toNat : Int)) && decide (19088743 = (x4.toNat : Int)) && decide (70459921 = (x5.toNat : Int))
    && decide (17 = (x6.toNat : Int)) && decide (69 = (x7 : Int)) && decide (x8.length = x7) && decide (0 = (if
    List.take x7 x8 = List.take x7 [123, 34, 114, 101, 115, 111, 117, 114, 99, 101, 34, 58, 34, 67, 104, 97, 110, 110,
    101, 108, 76, 105, 115, 116, 34, 44, 34, 99, 111, 109, 109, 97, 110, 100, 34, 58, 34, 115, 116, 97, 114, 116, 34,
    44, 34, 115, 117, 98, 115, 99, 114, 105, 98, 101, 73, 100, 34, 58, 34, 97, 97, 98, 98, 99, 99, 51, 52, 34, 125]
    then 0 else 1)) && decide (0 = (x9.toNat : Int))) = true := by decide +kernel

-- ci_property_exchange,subscription: lines 1431-1466
example : holds (do
  let x1 ← CI.makeSubscriptionInquiry 19088743 70459921 [67, 104, 97, 110, 110, 101, 108, 76, 105, 115, 116] [115,
    116, 97, 114, 116] [97, 97, 98, 98, 99, 99, 51, 52] 17 10
  let x2 ← CI.makeView x1
  let x3 ← CI.PropertyDataView.numberOfThisChunk x2
  let x4 ← CI.makeSubscriptionInquiryChunks 18044279 16962 [80, 114, 111, 103, 114, 97, 109, 76, 105, 115, 116] [102,
    117, 108, 108] [57, 56, 55, 120, 120] 5 1 { null := false, bytes := [116, 104, 105, 115, 32, 105, 115, 32, 110,
    111, 116, 32, 118, 97, 108, 105, 100, 32, 74, 83, 79, 78, 32, 100, 97, 116, 97] } 0 127
  let x5 ← CI.SubscriptionView.validate x4
  let x6 ← CI.asView CI.SubscriptionView.validate x4
  let x7 ← CI.makeView x4
  let x8 ← UniversalSysex.View.deviceId x7
  let x9 ← UniversalSysex.View.type x7
  let x10 ← UniversalSysex.View.subtype x7
  let x11 ← CI.View.messageVersion x7
  return decide (0 = (x3.toNat : Int)) && decide (113 = (x4.data.length : Int)) && x5 && x6.isSome && decide (127 =
    (x8.toNat : Int)) && decide (32269 = (x9.toNat : Int)) && decide (56 = (x10.toNat : Int)) && decide (2 =
    (x11.toNat : Int))) = true := by decide +kernel

-- ci_property_exchange,subscription: lines 1467-1479
example : holds (do
  let x1 ← CI.makeSubscriptionInquiryChunks 18044279 16962 [80, 114, 111, 103, 114, 97, 109, 76, 105, 115, 116] [102,
    117, 108, 108] [57, 56, 55, 120, 120] 5 1 { null := false, bytes := [116, 104, 105, 115, 32, 105, 115, 32, 110,
    111, 116, 32, 118, 97, 108, 105, 100, 32, 74, 83, 79, 78, 32, 100, 97, 116, 97] } 0 127
  let x2 ← CI.makeView x1
  let x3 ← CI.View.sourceMuid x2
  let x4 ← CI.View.destinationMuid x2
  let x5 ← CI.PropertyDataView.requestId x2
  let x6 ← CI.PropertyDataView.headerSize x2
  let x7 ← CI.PropertyDataView.header x2
  let x8 ← CI.PropertyDataView.numberOfChunks x2
  let x9 ← CI.PropertyDataView.numberOfThisChunk x2
  return decide (18044279 = (x3.toNat : Int)) && decide (16962 = (x4.toNat : Int)) && decide (0 = (x5.toNat : Int)) &&
    decide (65 = (x6 : Int)) && decide (x7.length = x6) && decide (0 = (if List.take x6 x7 = List.take x6 [123, 34,
    114, 101, 115, 111, 117, 114, 99, 101, 34, 58, 34, 80, 114, 111, 103, 114, 97, 109, 76, 105, 115, 116, 34, 44, 34,
    99, 111, 109, 109, 97, 110, 100, 34, 58, 34, 102, 117, 108, 108, 34, 44, 34, 115, 117, 98, 115, 99, 114, 105, 98,
    101, 73, 100, 34, 58, 34, 57, 56, 55, 120, 120, 34, 125] then 0 else 1)) && decide (5 = (x8.toNat : Int)) &&
    decide (1 = (x9.toNat : Int))) = true := by decide +kernel

-- ci_property_exchange,subscription_reply: lines 1496-1507
example : holds (do
  let x1 := (⟨8257536, [10, 13, 57, 5, 120, 86, 52, 18, 119, 85, 51, 17, 121, 8, 0, 1, 2, 3, 4, 5, 6, 7, 8, 1, 0, 1,
    0, 0, 0]⟩ : Sysex)
  let x2 ← CI.SubscriptionView.validate x1
  let x3 ← CI.asView CI.SubscriptionView.validate x1
  let x4 ← CI.makeView x1
  let x5 ← UniversalSysex.View.deviceId x4
  let x6 ← UniversalSysex.View.type x4
  let x7 ← UniversalSysex.View.subtype x4
  let x8 ← CI.View.messageVersion x4
  let x9 ← CI.View.sourceMuid x4
  let x10 ← CI.View.destinationMuid x4
  return x2 && x3.isSome && decide (10 = (x5.toNat : Int)) && decide (32269 = (x6.toNat : Int)) && decide (57 =
    (x7.toNat : Int)) && decide (5 = (x8.toNat : Int)) && decide (38611832 = (x9.toNat : Int)) && decide (36498167 =
    (x10.toNat : Int))) = true := by decide +kernel

-- ci_property_exchange,subscription_reply: lines 1509-1529
example : holds (do
  let x1 := (⟨8257536, [10, 13, 57, 5, 120, 86, 52, 18, 119, 85, 51, 17, 121, 8, 0, 1, 2, 3, 4, 5, 6, 7, 8, 1, 0, 1,
    0, 0, 0]⟩ : Sysex)
  let x2 ← CI.makeView x1
  let x3 ← CI.PropertyDataView.requestId x2
  let x4 ← CI.PropertyDataView.headerSize x2
  let x5 ← CI.PropertyDataView.header x2
  let x6 ← CI.PropertyDataView.numberOfChunks x2
  let x7 ← CI.PropertyDataView.numberOfThisChunk x2
  let x8 ← CI.PropertyDataView.chunkSize x2
  let x9 := (⟨8257536, [10, 13, 57, 5, 120, 86, 52, 18, 119, 85, 51, 17, 121, 8, 0, 1, 2, 3, 4, 5, 6, 7, 8, 1, 0, 1,
    0, 0, 0, 1, 2, 3, 4, 5, 6, 7, 8]⟩ : Sysex)
  let x10 ← CI.SubscriptionView.validate x9
  return decide (121 = (x3.toNat : Int)) && decide (8 = (x4 : Int)) && decide (x5.length = x4) && decide (0 = (if
    List.take x4 x5 = List.take x4 (x1.data.drop 15) then 0 else 1)) && decide (1 = (x6.toNat : Int)) && decide (1 =
    (x7.toNat : Int)) && decide (0 = (x8 : Int)) && x10) = true := by decide +kernel

-- ci_property_exchange,subscription_reply: lines 1530-1557
example : holds (do
  let x1 := (⟨8257536, [10, 13, 57, 5, 120, 86, 52, 18, 119, 85, 51, 17, 121, 8, 0, 1, 2, 3, 4, 5, 6, 7, 8, 1, 0, 1,
    0, 0, 0, 1, 2, 3, 4, 5, 6, 7, 8]⟩ : Sysex)
  let x2 ← CI.asView CI.SubscriptionView.validate x1
  let x3 := (⟨8257536, [5, 13, 54, 0, 120, 86, 52, 18, 119, 85, 51, 17, 121, 8, 0, 1, 2, 3, 4, 5, 6, 7, 8, 1, 0, 1, 0,
    0, 0]⟩ : Sysex)
  let x4 ← CI.SubscriptionView.validate x3
  let x5 ← CI.asView CI.SubscriptionView.validate x3
  let x6 ← CI.makeSubscriptionReply 19088743 19088744 (200) 12 7
  let x7 ← CI.SubscriptionView.validate x6
  let x8 ← CI.asView CI.SubscriptionView.validate x6
  let x9 ← CI.makeView x6
  let x10 ← UniversalSysex.View.deviceId x9
  let x11 ← UniversalSysex.View.type x9
  return x2.isSome && (!x4) && (!x5.isSome) && decide (35 = (x6.data.length : Int)) && x7 && x8.isSome && decide (7 =
    (x10.toNat : Int)) && decide (32269 = (x11.toNat : Int))) = true := by decide +kernel

-- ci_property_exchange,subscription_reply: lines 1558-1569
example : holds (do
  let x1 ← CI.makeSubscriptionReply 19088743 19088744 (200) 12 7
  let x2 ← CI.makeView x1
  let x3 ← UniversalSysex.View.subtype x2
  let x4 ← CI.View.messageVersion x2
  let x5 ← CI.View.sourceMuid x2
  let x6 ← CI.View.destinationMuid x2
  let x7 ← CI.PropertyDataView.requestId x2
  let x8 ← CI.PropertyDataView.headerSize x2
  let x9 ← CI.PropertyDataView.header x2
  return decide (57 = (x3.toNat : Int)) && decide (2 = (x4.toNat : Int)) && decide (19088743 = (x5.toNat : Int)) &&
    decide (19088744 = (x6.toNat : Int)) && decide (12 = (x7.toNat : Int)) && decide (14 = (x8 : Int)) && decide
    (x9.length = x8) && decide (0 = (if List.take x8 x9 = List.take x8 [123, 34, 115, 116, 97, 116, 117, 115, 34, 58,
    50, 48, 48, 125] then 0 else 1))) = true := by decide +kernel

-- ci_property_exchange,subscription_reply: lines 1571-1594
example : holds (do
  let x1 ← CI.makeSubscriptionReply 19088743 19088744 (200) 12 7
  let x2 ← CI.makeView x1
  let x3 ← CI.PropertyDataView.numberOfChunks x2
  let x4 ← CI.PropertyDataView.numberOfThisChunk x2
  let x5 ← CI.PropertyDataView.chunkSize x2
  let x6 ← CI.makeSubscriptionReply 18036055 7 (404) 0 127
  let x7 ← CI.SubscriptionView.validate x6
  let x8 ← CI.asView CI.SubscriptionView.validate x6
  let x9 ← CI.makeView x6
  let x10 ← UniversalSysex.View.deviceId x9
  let x11 ← UniversalSysex.View.type x9
  return decide (1 = (x3.toNat : Int)) && decide (1 = (x4.toNat : Int)) && decide (0 = (x5 : Int)) && decide (35 =
    (x6.data.length : Int)) && x7 && x8.isSome && decide (127 = (x10.toNat : Int)) && decide (32269 = (x11.toNat :
    Int))) = true := by decide +kernel

-- ci_property_exchange,subscription_reply: lines 1595-1606
example : holds (do
  let x1 ← CI.makeSubscriptionReply 18036055 7 (404) 0 127
  let x2 ← CI.makeView x1
  let x3 ← UniversalSysex.View.subtype x2
  let x4 ← CI.View.messageVersion x2
  let x5 ← CI.View.sourceMuid x2
  let x6 ← CI.View.destinationMuid x2
  let x7 ← CI.PropertyDataView.requestId x2
  let x8 ← CI.PropertyDataView.headerSize x2
  let x9 ← CI.PropertyDataView.header x2
  return decide (57 = (x3.toNat : Int)) && decide (2 = (x4.toNat : Int)) && decide (18036055 = (x5.toNat : Int)) &&
    decide (7 = (x6.toNat : Int)) && decide (0 = (x7.toNat : Int)) && decide (14 = (x8 : Int)) && decide (x9.length =
    14) && decide (0 = (if List.take x8 x9 = List.take x8 [123, 34, 115, 116, 97, 116, 117, 115, 34, 58, 52, 48, 52,
    125] then 0 else 1))) = true := by decide +kernel

-- ci_property_exchange,subscription_reply: lines 1608-1612
example : holds (do
  let x1 ← CI.makeSubscriptionReply 18036055 7 (404) 0 127
  let x2 ← CI.makeView x1
  let x3 ← CI.PropertyDataView.numberOfChunks x2
  let x4 ← CI.PropertyDataView.numberOfThisChunk x2
  let x5 ← CI.PropertyDataView.chunkSize x2
  let x6 ← CI.PropertyDataView.chunk x2
  return decide (1 = (x3.toNat : Int)) && decide (1 = (x4.toNat : Int)) && decide (0 = (x5 : Int)) && decide
    (x6.length = x5)) = true := by decide +kernel

-- ci_property_exchange,notify: lines 1629-1640
example : holds (do
  let x1 := (⟨8257536, [10, 13, 63, 5, 120, 86, 52, 18, 119, 85, 51, 17, 121, 8, 0, 1, 2, 3, 4, 5, 6, 7, 8, 1, 0, 1,
    0, 0, 0]⟩ : Sysex)
  let x2 ← CI.NotifyView.validate x1
  let x3 ← CI.asView CI.NotifyView.validate x1
  let x4 ← CI.makeView x1
  let x5 ← UniversalSysex.View.deviceId x4
  let x6 ← UniversalSysex.View.type x4
  let x7 ← UniversalSysex.View.subtype x4
  let x8 ← CI.View.messageVersion x4
  let x9 ← CI.View.sourceMuid x4
  let x10 ← CI.View.destinationMuid x4
  return x2 && x3.isSome && decide (10 = (x5.toNat : Int)) && decide (32269 = (x6.toNat : Int)) && decide (63 =
    (x7.toNat : Int)) && decide (5 = (x8.toNat : Int)) && decide (38611832 = (x9.toNat : Int)) && decide (36498167 =
    (x10.toNat : Int))) = true := by decide +kernel

-- ci_property_exchange,notify: lines 1642-1662
example : holds (do
  let x1 := (⟨8257536, [10, 13, 63, 5, 120, 86, 52, 18, 119, 85, 51, 17, 121, 8, 0, 1, 2, 3, 4, 5, 6, 7, 8, 1, 0, 1,
    0, 0, 0]⟩ : Sysex)
  let x2 ← CI.makeView x1
  let x3 ← CI.PropertyDataView.requestId x2
  let x4 ← CI.PropertyDataView.headerSize x2
  let x5 ← CI.PropertyDataView.header x2
  let x6 ← CI.PropertyDataView.numberOfChunks x2
  let x7 ← CI.PropertyDataView.numberOfThisChunk x2
  let x8 ← CI.PropertyDataView.chunkSize x2
  let x9 := (⟨8257536, [10, 13, 63, 5, 120, 86, 52, 18, 119, 85, 51, 17, 121, 8, 0, 1, 2, 3, 4, 5, 6, 7, 8, 1, 0, 1,
    0, 0, 0, 122, 107]⟩ : Sysex)
  let x10 ← CI.NotifyView.validate x9
  return decide (121 = (x3.toNat : Int)) && decide (8 = (x4 : Int)) && decide (x5.length = x4) && decide (0 = (if
    List.take x4 x5 = List.take x4 (x1.data.drop 15) then 0 else 1)) && decide (1 = (x6.toNat : Int)) && decide (1 =
    (x7.toNat : Int)) && decide (0 = (x8 : Int)) && x10) = true := by decide +kernel

-- ci_property_exchange,notify: lines 1663-1690
example : holds (do
  let x1 := (⟨8257536, [10, 13, 63, 5, 120, 86, 52, 18, 119, 85, 51, 17, 121, 8, 0, 1, 2, 3, 4, 5, 6, 7, 8, 1, 0, 1,
    0, 0, 0, 122, 107]⟩ : Sysex)
  let x2 ← CI.asView CI.NotifyView.validate x1
  let x3 := (⟨8257536, [5, 13, 54, 0, 120, 86, 52, 18, 119, 85, 51, 17, 121, 8, 0, 1, 2, 3, 4, 5, 6, 7, 8, 1, 0, 1, 0,
    0, 0]⟩ : Sysex)
  let x4 ← CI.NotifyView.validate x3
  let x5 ← CI.asView CI.NotifyView.validate x3
  let x6 ← CI.makeNotify 19088743 19088744 (100) 12 7
  let x7 ← CI.NotifyView.validate x6
  let x8 ← CI.asView CI.NotifyView.validate x6
  let x9 ← CI.makeView x6
  let x10 ← UniversalSysex.View.deviceId x9
  let x11 ← UniversalSysex.View.type x9
  return x2.isSome && (!x4) && (!x5.isSome) && decide (35 = (x6.data.length : Int)) && x7 && x8.isSome && decide (7 =
    (x10.toNat : Int)) && decide (32269 = (x11.toNat : Int))) = true := by decide +kernel

-- ci_property_exchange,notify: lines 1691-1702
example : holds (do
  let x1 ← CI.makeNotify 19088743 19088744 (100) 12 7
  let x2 ← CI.makeView x1
  let x3 ← UniversalSysex.View.subtype x2
  let x4 ← CI.View.messageVersion x2
  let x5 ← CI.View.sourceMuid x2
  let x6 ← CI.View.destinationMuid x2
  let x7 ← CI.PropertyDataView.requestId x2
  let x8 ← CI.PropertyDataView.headerSize x2
  let x9 ← CI.PropertyDataView.header x2
  return decide (63 = (x3.toNat : Int)) && decide (2 = (x4.toNat : Int)) && decide (19088743 = (x5.toNat : Int)) &&
    decide (19088744 = (x6.toNat : Int)) && decide (12 = (x7.toNat : Int)) && decide (14 = (x8 : Int)) && decide
    (x9.length = x8) && decide (0 = (if List.take x8 x9 = List.take x8 [123, 34, 115, 116, 97, 116, 117, 115, 34, 58,
    49, 48, 48, 125] then 0 else 1))) = true := by decide +kernel

-- ci_property_exchange,notify: lines 1704-1727
example : holds (do
  let x1 ← CI.makeNotify 19088743 19088744 (100) 12 7
  let x2 ← CI.makeView x1
  let x3 ← CI.PropertyDataView.numberOfChunks x2
  let x4 ← CI.PropertyDataView.numberOfThisChunk x2
  let x5 ← CI.PropertyDataView.chunkSize x2
  let x6 ← CI.makeNotify 18036055 7 (408) 0 127
  let x7 ← CI.NotifyView.validate x6
  let x8 ← CI.asView CI.NotifyView.validate x6
  let x9 ← CI.makeView x6
  let x10 ← UniversalSysex.View.deviceId x9
  let x11 ← UniversalSysex.View.type x9
  return decide (1 = (x3.toNat : Int)) && decide (1 = (x4.toNat : Int)) && decide (0 = (x5 : Int)) && decide (35 =
    (x6.data.length : Int)) && x7 && x8.isSome && decide (127 = (x10.toNat : Int)) && decide (32269 = (x11.toNat :
    Int))) = true := by decide +kernel

-- ci_property_exchange,notify: lines 1728-1739
example : holds (do
  let x1 ← CI.makeNotify 18036055 7 (408) 0 127
  let x2 ← CI.makeView x1
  let x3 ← UniversalSysex.View.subtype x2
  let x4 ← CI.View.messageVersion x2
  let x5 ← CI.View.sourceMuid x2
  let x6 ← CI.View.destinationMuid x2
  let x7 ← CI.PropertyDataView.requestId x2
  let x8 ← CI.PropertyDataView.headerSize x2
  let x9 ← CI.PropertyDataView.header x2
  return decide (63 = (x3.toNat : Int)) && decide (2 = (x4.toNat : Int)) && decide (18036055 = (x5.toNat : Int)) &&
    decide (7 = (x6.toNat : Int)) && decide (0 = (x7.toNat : Int)) && decide (14 = (x8 : Int)) && decide (x9.length =
    14) && decide (0 = (if List.take x8 x9 = List.take x8 [123, 34, 115, 116, 97, 116, 117, 115, 34, 58, 52, 48, 56,
    125] then 0 else 1))) = true := by decide +kernel

-- ci_property_exchange,notify: lines 1741-1745
example : holds (do
  let x1 ← CI.makeNotify 18036055 7 (408) 0 127
  let x2 ← CI.makeView x1
  let x3 ← CI.PropertyDataView.numberOfChunks x2
  let x4 ← CI.PropertyDataView.numberOfThisChunk x2
  let x5 ← CI.PropertyDataView.chunkSize x2
  let x6 ← CI.PropertyDataView.chunk x2
  return decide (1 = (x3.toNat : Int)) && decide (1 = (x4.toNat : Int)) && decide (0 = (x5 : Int)) && decide
    (x6.length = x5)) = true := by decide +kernel

end Midi.Conformance
